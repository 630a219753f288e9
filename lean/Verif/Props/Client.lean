import Mathlib.Data.Nat.Fib.Basic
import Mathlib.Data.Nat.Factorial.Basic
import Mathlib.Data.Nat.Digits.Lemmas
import Verif.Props.Decimal
import Verif.Props.Programs
import Verif.Props.PowExact

/-!
# C47: programs with branches and loops

A client builds numbers one after the other with the operations of the crate, and decides how to go on
by comparing them.  Whatever it does, it gets the numbers that it would get by computing with natural
numbers, as long as each operation meets its condition.  The conditions are about numbers only; addition,
operations with words and comparisons have none, except that a word must fit.
-/

namespace Babs.Props

variable (t t' : DType) (dbg dbg' : Bool)

/-! ## Clients -/

/-- An operation on numbers built before, which are given by their positions. -/
inductive Op where
  | word (n : Nat)
  | text (s : List Char)
  | add (a b : Nat)
  | sub (a b : Nat)
  | mul (a b : Nat)
  | div (a b : Nat)
  | rem (a b : Nat)
  | square (a : Nat)
  | pow (a e : Nat)
  | shl (a n : Nat)
  | shr (a n : Nat)
  | addWord (a n : Nat)
  | subWord (a n : Nat)
  | mulWord (a n : Nat)
  | divWord (a n : Nat)
  | remWord (a n : Nat)

/-- A client performs operations and comparisons, and names its result at the end.  The numbers built are
listed with the last one first.  A client can go on in any way that depends on the outcome of its
comparisons; so a loop is a client defined by recursion. -/
inductive Client where
  | done (a : Nat)
  | op (o : Op) (k : Client)
  | cmp (a b : Nat) (k : Ordering → Client)
  | isZero (a : Nat) (k : Bool → Client)

/-- Perform an operation with numbers of type `t`. -/
def Op.run (xs : List (List Nat)) : Op → R (List Nat)
  | .word n => .ok (UBig.ofWord t n)
  | .text s => do
    match ← UBig.fromStr t dbg s with
    | .ok x => return x
    | .error _ => throw .explicit
  | .add a b => UBig.add t dbg (xs.getD a []) (xs.getD b [])
  | .sub a b => UBig.sub t dbg (xs.getD a []) (xs.getD b [])
  | .mul a b => UBig.mul t dbg (xs.getD a []) (xs.getD b [])
  | .div a b => UBig.div t dbg (xs.getD a []) (xs.getD b [])
  | .rem a b => UBig.rem t dbg (xs.getD a []) (xs.getD b [])
  | .square a => UBig.square t dbg (xs.getD a [])
  | .pow a e => UBig.pow t dbg (xs.getD a []) e
  | .shl a n => UBig.shl t dbg (xs.getD a []) n
  | .shr a n => UBig.shr t dbg (xs.getD a []) n
  | .addWord a n => UBig.addWord t dbg (xs.getD a []) n
  | .subWord a n => UBig.subWord t dbg (xs.getD a []) n
  | .mulWord a n => UBig.mulWord t dbg (xs.getD a []) n
  | .divWord a n => UBig.divWord t dbg (xs.getD a []) n
  | .remWord a n => UBig.remWord t dbg (xs.getD a []) n

/-- Run a client with numbers of type `t`. -/
def Client.run : Client → List (List Nat) → R (List Nat)
  | .done a, xs => .ok (xs.getD a [])
  | .op o k, xs => do k.run ((← o.run t dbg xs) :: xs)
  | .cmp a b k, xs => (k (UBig.cmp (xs.getD a []) (xs.getD b []))).run xs
  | .isZero a k, xs => (k (Babs.isZero (xs.getD a []))).run xs

/-! ## What clients compute -/

/-- The number a text of decimal digits stands for. -/
def textValue (s : List Char) : Nat := s.foldl (fun n c => 10 * n + (c.toNat - '0'.toNat)) 0

/-- The result of an operation with natural numbers. -/
def Op.value (ms : List Nat) : Op → Nat
  | .word n => n
  | .text s => textValue s
  | .add a b => ms.getD a 0 + ms.getD b 0
  | .sub a b => ms.getD a 0 - ms.getD b 0
  | .mul a b => ms.getD a 0 * ms.getD b 0
  | .div a b => ms.getD a 0 / ms.getD b 0
  | .rem a b => ms.getD a 0 % ms.getD b 0
  | .square a => ms.getD a 0 ^ 2
  | .pow a e => ms.getD a 0 ^ e
  | .shl a n => ms.getD a 0 * 2 ^ n
  | .shr a n => ms.getD a 0 / 2 ^ n
  | .addWord a n => ms.getD a 0 + n
  | .subWord a n => ms.getD a 0 - n
  | .mulWord a n => ms.getD a 0 * n
  | .divWord a n => ms.getD a 0 / n
  | .remWord a n => ms.getD a 0 % n

/-- The result of a client that computes with natural numbers. -/
def Client.value : Client → List Nat → Nat
  | .done a, ms => ms.getD a 0
  | .op o k, ms => k.value (o.value ms :: ms)
  | .cmp a b k, ms => (k (compare (ms.getD a 0) (ms.getD b 0))).value ms
  | .isZero a k, ms => (k (ms.getD a 0 == 0)).value ms

/-! ## Conditions -/

/-- The division of `m` by `n` is right, for numbers of type `t`: the divisor is larger than the dividend, or
the scaled divisor fits, no tie occurs for binary types, and nothing that causes a panic. -/
def DivFine (m n : Nat) : Prop :=
  n ≠ 0 ∧ (n ≤ m → ∀ y, Rep t.radix y n → ScaleFits t.radix y ∧
    ((∃ w, t = .dec w) ∨ if y.length < 20 then NoTie t.radix m (size t.radix m) y
      else NoBlockTie t.radix m (size t.radix m) y) ∧
    (20 ≤ y.length → NoBlockPanic (productOk t.radix) t.radix m (size t.radix m) y))

/-- The square of `m` is right: it meets no stale digits, which is so up to 1131 digits, and the product of `m`
with itself does not panic. -/
def SquareFine (m : Nat) : Prop := squareClean t.radix m ∧ productOk t.radix m m = true

/-- The `e`-th power of `m` is right: none of the squares meets stale digits, which is so up to 2262 digits, and
no step of repeated squaring panics. -/
def PowFine (m e : Nat) : Prop := powClean t.radix m e ∧ ¬ ∃ i, powStepPanics t.radix m e i

/-- The left shift of `m` by `n` bits is right.  Binary types shift zero wrongly by a digit or more; decimal
types compute a power of two if `n` is large. -/
def ShlFine (m n : Nat) : Prop :=
  match t with
  | .bin w => ¬ (m = 0 ∧ w.bits ≤ n)
  | .dec w => n ≤ 4 * UBig.maxHexPlaces w ∨
      (PowFine t 2 n ∧ productOk t.radix m (2 ^ n) = true)

/-- The right shift of `m` by `n` bits is right.  Binary types panic if more digits are shifted out than there
are; for decimal types large shifts are not implemented. -/
def ShrFine (m n : Nat) : Prop :=
  match t with
  | .bin w => n / w.bits ≤ size t.radix m
  | .dec w => n ≤ 4 * UBig.maxHexPlaces w

/-- Dividing by the word `n` gives no wrong result: a word of two decimal digits fits when it is scaled
(`t.radix` is `10 ^ k` then). -/
def WordSound (n : Nat) : Prop :=
  n < 2 ^ UBig.bits t ∧ (t.radix ≤ n →
    ∀ s, n / t.radix * 2 ^ s < t.radix → t.radix ≤ n / t.radix * 2 ^ (s + 1) → n * 2 ^ s < t.radix ^ 2)

/-- The condition for an operation. -/
def Op.Fine (ms : List Nat) : Op → Prop
  | .word n => n < 2 ^ UBig.bits t
  | .text s => Numeral 10 s (textValue s)
  | .add _ _ => True
  | .sub a b =>
    let m := ms.getD a 0
    let n := ms.getD b 0
    n ≤ m ∧ ¬ (size t.radix m = size t.radix n + 1 ∧ m - n < t.radix ^ (size t.radix n - 1))
  | .mul a b => productOk t.radix (ms.getD a 0) (ms.getD b 0) = true
  | .div a b => DivFine t (ms.getD a 0) (ms.getD b 0)
  | .rem a b => DivFine t (ms.getD a 0) (ms.getD b 0)
  | .square a => SquareFine t (ms.getD a 0)
  | .pow a e => PowFine t (ms.getD a 0) e
  | .shl a n => ShlFine t (ms.getD a 0) n
  | .shr a n => ShrFine t (ms.getD a 0) n
  | .addWord _ n => n < 2 ^ UBig.bits t
  | .subWord a n => n < t.radix ∧ n ≤ ms.getD a 0 ∧ ¬ (n ≠ 0 ∧ ms.getD a 0 = n)
  | .mulWord _ n => n < 2 ^ UBig.bits t
  | .divWord _ n => n ≠ 0 ∧ WordSound t n
  | .remWord _ n => n ≠ 0 ∧ WordSound t n

/-- Every operation that a client performs meets its condition. -/
def Client.Fine : Client → List Nat → Prop
  | .done _, _ => True
  | .op o k, ms => o.Fine t ms ∧ k.Fine (o.value ms :: ms)
  | .cmp a b k, ms => (k (compare (ms.getD a 0) (ms.getD b 0))).Fine ms
  | .isZero a k, ms => (k (ms.getD a 0 == 0)).Fine ms

/-! ## Clients get the right numbers -/

theorem getD_rep {b : Nat} {xs : List (List Nat)} {ms : List Nat} (h : List.Forall₂ (Rep b) xs ms)
    (a : Nat) : Rep b (xs.getD a []) (ms.getD a 0) := by
  induction h generalizing a with
  | nil => exact rep_zero b
  | cons h _ ih =>
    cases a with
    | zero => exact h
    | succ a => exact ih a

theorem divFine_exact {x y : List Nat} {m n : Nat} (hx : Rep t.radix x m) (hy : Rep t.radix y n)
    (h : DivFine t m n) : DivisionExact t dbg (fun _ => False) x y m n := by
  have hb := (ops_lawful t dbg).base
  obtain ⟨h0, h⟩ := h
  rcases Nat.lt_or_ge m n with hmn | hmn
  · exact div_smaller_exact t dbg x y m n hx hy hmn
  · obtain ⟨h1, h2, h3⟩ := h hmn y hy
    rw [size_rep (by omega) hx] at h2 h3
    refine (div_exact_partial t dbg x y m n hx hy h0 h1 h2).weaken fun p hp => ?_
    exact hp.2.2 (h3 hp.2.1)

theorem productOk_iff {b m n : Nat} : productOk b m n = true ↔ ¬ productPanics b m n = true := by
  simp [productOk]

theorem lt_of_size {b m k : Nat} (hb : 2 ≤ b) (h : size b m ≤ k) : m < b ^ k :=
  lt_of_lt_of_le (lt_pow_size m hb) (Nat.pow_le_pow_right (by omega) h)

theorem wordSound_exact {x : List Nat} {m n : Nat} (hx : Rep t.radix x m) (h : WordSound t n) (h0 : n ≠ 0) :
    Returns (UBig.divWord t dbg x n) (fun z => Rep t.radix z (m / n)) ∧
    Returns (UBig.remWord t dbg x n) (fun z => Rep t.radix z (m % n)) := by
  by_cases hn : n < t.radix
  · have := divRemWord_exact t dbg x m n hx hn (by omega)
    exact ⟨this.1, this.2.1⟩
  · rcases t with w | w
    · exact absurd h.1 hn
    · have := divRemWord_large_exact_partial dbg w x m n hx (by simpa [DType.radix] using hn) h.1
        (h.2 (by omega))
      exact ⟨this.1, this.2.1⟩

theorem wordSound_digit {n : Nat} (h : n < t.radix) : WordSound t n := by
  have hr : t.radix ≤ 2 ^ UBig.bits t := by rcases t with w | w <;> cases w <;> decide
  exact ⟨lt_of_lt_of_le h hr, fun hn => absurd h (by omega)⟩

/-- The conditions of C13 and C14 for numbers of any size are sufficient. -/
theorem squareFine_of_safe {d m : Nat} (h : squareSafe t.radix d m = true) : SquareFine t m := by
  refine ⟨squareClean_of_safe h, productOk_of_mulSafe (ops_lawful t false) (d := d) ?_⟩
  unfold squareSafe at h
  rw [Bool.and_eq_true] at h
  exact h.1

theorem powFine_of_safe {d m e : Nat} (h1 : powSafe t.radix d m e) (h2 : powFresh t.radix d m e) :
    PowFine t m e :=
  ⟨powClean_of_fresh h1 h2, pow_safe_steps (ops_lawful t false) h1⟩

/-- C47: each operation is right if it meets its condition. -/
theorem op_exact (o : Op) (xs : List (List Nat)) (ms : List Nat)
    (hx : List.Forall₂ (Rep t.radix) xs ms) (h : o.Fine t ms) :
    Returns (o.run t dbg xs) fun z => Rep t.radix z (o.value ms) := by
  have hb := (ops_lawful t dbg).base
  have g := getD_rep hx
  cases o with
  | word n => exact ⟨_, rfl, ofWord_exact t n h⟩
  | text s =>
    obtain ⟨r, h1, x, rfl, h3⟩ := parse_decimal t dbg s _ h
    refine ⟨x, ?_, h3⟩
    unfold Op.run
    simp only [h1]
    rfl
  | add a b => exact add_exact t dbg _ _ _ _ (g a) (g b)
  | sub a b =>
    obtain ⟨z, h1, h2⟩ := sub_normalised_partial t dbg _ _ _ _ (g a) (g b) h.1
    refine ⟨z, h1, h2.mpr ?_⟩
    rw [← size_rep (by omega) (g a), ← size_rep (by omega) (g b)]
    exact h.2
  | mul a b =>
    have := mul_panics_exactly t dbg _ _ _ _ (g a) (g b)
    rwa [if_neg (productOk_iff.mp h)] at this
  | div a b => exact tot_iff.mp (divFine_exact t dbg (g a) (g b) h).div
  | rem a b => exact tot_iff.mp (divFine_exact t dbg (g a) (g b) h).rem
  | square a =>
    have := square_clean_panics_exactly_partial t dbg _ _ (g a) h.1
    rwa [if_neg (productOk_iff.mp h.2)] at this
  | pow a e =>
    rcases pow_clean_panics_exactly_partial t dbg _ _ e (g a) h.1 with h1 | h1
    · exact absurd h1.1 h.2
    · exact h1.2
  | shl a n =>
    rcases t with w | w
    · obtain ⟨z, h1, h2⟩ := shl_binary_normalised_partial dbg w _ _ n (g a)
      exact ⟨z, h1, h2.mpr h⟩
    · by_cases hn : n ≤ 4 * UBig.maxHexPlaces w
      · exact shl_decimal_small_exact dbg w _ _ n (g a) hn
      rcases h with h | ⟨⟨h1, h2⟩, h3⟩
      · exact absurd h hn
      · rcases shl_decimal_clean_panics_exactly_partial dbg w _ _ n (g a) (by omega) h1
          with ⟨h | h, -⟩ | h
        · exact absurd h h2
        · exact absurd h (productOk_iff.mp h3)
        · exact h.2
  | shr a n =>
    rcases t with w | w
    · refine shr_binary_exact_partial dbg w _ _ n (g a) ?_
      rw [← size_rep (by omega) (g a)]
      exact h
    · exact shr_decimal_exact_partial dbg w _ _ n (g a) h
  | addWord a n => exact addWord_exact t dbg _ _ n (g a) h
  | subWord a n =>
    have e : UBig.subWord t dbg (xs.getD a []) n = UBig.subDigit t dbg (xs.getD a []) n := by
      rcases t with w | w
      · rfl
      · have : n < w.decRadix := h.1
        simp [UBig.subWord, UBig.subDigit, subWordDec, this]
    obtain ⟨z, h1, h2⟩ := subDigit_normalised_partial t dbg _ _ n (g a) h.1 h.2.1
    exact ⟨z, e.trans h1, h2.mpr h.2.2⟩
  | mulWord a n => exact mulWord_exact t dbg _ _ n (g a) h
  | divWord a n => exact (wordSound_exact t dbg (g a) h.2 h.1).1
  | remWord a n => exact (wordSound_exact t dbg (g a) h.2 h.1).2

/-- C47: a client gets the number that it would get with natural numbers, and does not panic, if every
operation that it performs meets its condition. -/
theorem client_exact_partial (c : Client) (xs : List (List Nat)) (ms : List Nat)
    (hx : List.Forall₂ (Rep t.radix) xs ms) (h : c.Fine t ms) :
    Returns (c.run t dbg xs) fun z => Rep t.radix z (c.value ms) := by
  induction c generalizing xs ms with
  | done a => exact ⟨_, rfl, getD_rep hx a⟩
  | op o k ih =>
    obtain ⟨z, h1, h2⟩ := op_exact t dbg o xs ms hx h.1
    unfold Client.run
    rw [h1]
    exact ih _ _ (.cons h2 hx) h.2
  | cmp a b k ih =>
    unfold Client.run
    rw [cmp_numeric t _ _ _ _ (getD_rep hx a) (getD_rep hx b)]
    exact ih _ _ _ hx h
  | isZero a k ih =>
    unfold Client.run
    have : Babs.isZero (xs.getD a []) = (ms.getD a 0 == 0) := by
      rw [Bool.eq_iff_iff, is_zero_iff t _ _ (getD_rep hx a), beq_iff_eq]
    rw [this]
    exact ih _ _ _ hx h

/-- C47: so a client gets the same number with any two types for which the conditions are met. -/
theorem client_agree_partial (c : Client) (xs xs' : List (List Nat)) (ms : List Nat)
    (hx : List.Forall₂ (Rep t.radix) xs ms) (hx' : List.Forall₂ (Rep t'.radix) xs' ms)
    (h : c.Fine t ms) (h' : c.Fine t' ms) :
    ∃ z z', c.run t dbg xs = .ok z ∧ c.run t' dbg' xs' = .ok z' ∧
      val t.radix z = val t'.radix z' := by
  obtain ⟨z, h1, h2⟩ := client_exact_partial t dbg c xs ms hx h
  obtain ⟨z', h3, h4⟩ := client_exact_partial t' dbg' c xs' ms hx' h'
  exact ⟨z, z', h1, h3, by rw [h2.val_eq, h4.val_eq]⟩

/-! ## Examples of clients -/

/-- `for i in k+1..=k+n { x *= i }`, with the number `x` built last. -/
def factorialFrom (k : Nat) : Nat → Client
  | 0 => .done 0
  | n + 1 => .op (.mulWord 0 (k + 1)) (factorialFrom (k + 1) n)

/-- `let mut x = 1; for i in 1..=n { x *= i }` -/
def factorialClient (n : Nat) : Client := .op (.word 1) (factorialFrom 0 n)

/-- C47: the factorial of every word is computed exactly, for all types. -/
theorem factorial_exact (n : Nat) (hn : n < 2 ^ UBig.bits t) :
    Returns ((factorialClient n).run t dbg []) fun z => Rep t.radix z n.factorial := by
  have hv : ∀ n k ms, (factorialFrom k n).value (k.factorial :: ms) = (k + n).factorial := by
    intro n
    induction n with
    | zero => intro k ms; rfl
    | succ n ih =>
      intro k ms
      have h : k.factorial * (k + 1) = (k + 1).factorial := by rw [Nat.factorial_succ, Nat.mul_comm]
      have := ih (k + 1) (k.factorial :: ms)
      rw [← h] at this
      rw [show k + (n + 1) = k + 1 + n by omega]
      exact this
  have hf : ∀ n k ms, k + n < 2 ^ UBig.bits t → (factorialFrom k n).Fine t ms := by
    intro n
    induction n with
    | zero => intros; trivial
    | succ n ih => intro k ms h; exact ⟨show k + 1 < _ by omega, ih _ _ (by omega)⟩
  have h1 : (1 : Nat) < 2 ^ UBig.bits t := word_fits t (by omega)
  have := client_exact_partial t dbg (factorialClient n) [] [] .nil ⟨h1, hf n 0 _ (by omega)⟩
  have e : (factorialClient n).value [] = (0 + n).factorial := hv n 0 []
  rwa [e, Nat.zero_add] at this

/-- `for _ in 0..n { (a, b) = (b, a + b) }`, where `b` is the number built last and `a` the one before. -/
def fibFrom : Nat → Client
  | 0 => .done 1
  | n + 1 => .op (.add 1 0) (fibFrom n)

/-- `let (mut a, mut b) = (0, 1);` and the loop. -/
def fibClient (n : Nat) : Client := .op (.word 0) (.op (.word 1) (fibFrom n))

/-- C47: every Fibonacci number is computed exactly by additions, for all types. -/
theorem fib_by_addition_exact (n : Nat) :
    Returns ((fibClient n).run t dbg []) fun z => Rep t.radix z (Nat.fib n) := by
  have hv : ∀ n k ms, (fibFrom n).value (Nat.fib (k + 1) :: Nat.fib k :: ms) = Nat.fib (k + n) := by
    intro n
    induction n with
    | zero => intro k ms; rfl
    | succ n ih =>
      intro k ms
      have := ih (k + 1) (Nat.fib k :: ms)
      rw [Nat.fib_add_two] at this
      rw [show k + (n + 1) = k + 1 + n by omega]
      exact this
  have hf : ∀ n ms, (fibFrom n).Fine t ms := by
    intro n
    induction n with
    | zero => intros; trivial
    | succ n ih => intro ms; exact ⟨trivial, ih _⟩
  have h0 : (0 : Nat) < 2 ^ UBig.bits t := word_fits t (by omega)
  have h1 : (1 : Nat) < 2 ^ UBig.bits t := word_fits t (by omega)
  have := client_exact_partial t dbg (fibClient n) [] [] .nil ⟨h0, h1, hf n _⟩
  have e : (fibClient n).value [] = Nat.fib (0 + n) := hv n 0 []
  rwa [e, Nat.zero_add] at this

/-- `for d in ds { x = x * b + d }`, with the number `x` built last. -/
def hornerFrom (b : Nat) : List Nat → Client
  | [] => .done 0
  | d :: ds => .op (.mulWord 0 b) (.op (.addWord 0 d) (hornerFrom b ds))

/-- `let mut x = 0; for d in ds { x = x * b + d }` -/
def hornerClient (b : Nat) (ds : List Nat) : Client := .op (.word 0) (hornerFrom b ds)

/-- C47: a number of any length is computed exactly from its digits, most significant first, in any base
that is a word. -/
theorem horner_exact (b : Nat) (ds : List Nat) (hb : b < 2 ^ UBig.bits t)
    (hd : ∀ d ∈ ds, d < 2 ^ UBig.bits t) :
    Returns ((hornerClient b ds).run t dbg []) fun z => Rep t.radix z (val b ds.reverse) := by
  have hv : ∀ ds m ms, (hornerFrom b ds).value (m :: ms) = m * b ^ ds.length + val b ds.reverse := by
    intro ds
    induction ds with
    | nil => intro m ms; simp [hornerFrom, Client.value]
    | cons d ds ih =>
      intro m ms
      have := ih (m * b + d) (m * b :: m :: ms)
      rw [List.reverse_cons, val_append, List.length_reverse, List.length_cons]
      simp only [val_cons, val_nil, Nat.mul_zero, Nat.add_zero]
      rw [show m * b ^ (ds.length + 1) + (val b ds.reverse + b ^ ds.length * d)
        = (m * b + d) * b ^ ds.length + val b ds.reverse by ring]
      exact this
  have hf : ∀ ds ms, (∀ d ∈ ds, d < 2 ^ UBig.bits t) → (hornerFrom b ds).Fine t ms := by
    intro ds
    induction ds with
    | nil => intros; trivial
    | cons d ds ih =>
      intro ms h
      exact ⟨hb, h d (by simp), ih _ fun d hd => h d (by simp [hd])⟩
  have h0 : (0 : Nat) < 2 ^ UBig.bits t := word_fits t (by omega)
  have := client_exact_partial t dbg (hornerClient b ds) [] [] .nil ⟨h0, hf ds _ hd⟩
  have e : (hornerClient b ds).value [] = 0 * b ^ ds.length + val b ds.reverse := hv ds 0 []
  rwa [e, Nat.zero_mul, Nat.zero_add] at this

/-- `while !x.is_zero() { s += x % b; x /= b }`, where `x` is the number built last and `s` the one before.
The loop is cut off after `k` rounds. -/
def digitSumFrom (b : Nat) : Nat → Client
  | 0 => .done 1
  | k + 1 => .isZero 0 fun z => if z then .done 1 else
      .op (.remWord 0 b) (.op (.add 2 0) (.op (.divWord 2 b) (digitSumFrom b k)))

/-- C47: the sum of the digits of a number of any length is computed exactly, in every base that is a digit. -/
theorem digitSum_exact (b k : Nat) (hb : 1 < b) (hbt : b < t.radix) (x : List Nat) (m : Nat)
    (hx : Rep t.radix x m) (hk : m < b ^ k) :
    Returns ((digitSumFrom b k).run t dbg [x, []]) fun z => Rep t.radix z (Nat.digits b m).sum := by
  have hv : ∀ k m s ms, m < b ^ k →
      (digitSumFrom b k).value (m :: s :: ms) = s + (Nat.digits b m).sum := by
    intro k
    induction k with
    | zero => intro m s ms h; have : m = 0 := by simpa using h
              subst this; simp [digitSumFrom, Client.value]
    | succ k ih =>
      intro m s ms h
      by_cases h0 : m = 0
      · subst h0; simp [digitSumFrom, Client.value]
      · have h2 : m / b < b ^ k := by
          rw [Nat.div_lt_iff_lt_mul (by omega), ← pow_succ]; exact h
        have := ih (m / b) (s + m % b) (m % b :: m :: s :: ms) h2
        rw [Nat.digits_def' hb (by omega), List.sum_cons, ← Nat.add_assoc]
        simpa [digitSumFrom, Client.value, Op.value, h0] using this
  have hf : ∀ k ms, (digitSumFrom b k).Fine t ms := by
    intro k
    induction k with
    | zero => intros; trivial
    | succ k ih =>
      intro ms
      have hd : b ≠ 0 ∧ WordSound t b := ⟨by omega, wordSound_digit t hbt⟩
      simp only [digitSumFrom, Client.Fine]
      split
      · trivial
      · exact ⟨hd, trivial, hd, ih _⟩
  have := client_exact_partial t dbg (digitSumFrom b k) [x, []] [m, 0] (.cons hx (.cons (rep_zero _) .nil)) (hf k _)
  rwa [hv k m 0 [] hk, Nat.zero_add] at this

/-- `while !b.is_zero() { (a, b) = (b, a % b) }`, where `b` is the number built last and `a` the one
before.  The loop is cut off after `k` rounds. -/
def gcdFrom : Nat → Client
  | 0 => .done 1
  | k + 1 => .isZero 0 fun z => if z then .done 1 else .op (.rem 1 0) (gcdFrom k)

/-- C47: Euclid's algorithm computes the greatest common divisor, if the divisions met are right. -/
theorem gcd_exact_partial (k : Nat) (x y : List Nat) (m n : Nat) (hx : Rep t.radix x m)
    (hy : Rep t.radix y n) (hk : n ≤ k) (h : (gcdFrom k).Fine t [n, m]) :
    Returns ((gcdFrom k).run t dbg [y, x]) fun z => Rep t.radix z (Nat.gcd m n) := by
  have hv : ∀ k m n ms, n ≤ k → (gcdFrom k).value (n :: m :: ms) = Nat.gcd m n := by
    intro k
    induction k with
    | zero => intro m n ms h; have : n = 0 := by omega
              subst this; simp [gcdFrom, Client.value]
    | succ k ih =>
      intro m n ms h
      by_cases h0 : n = 0
      · subst h0; simp [gcdFrom, Client.value]
      · have h2 : m % n ≤ k := by have := Nat.mod_lt m (show 0 < n by omega); omega
        have := ih n (m % n) (m :: ms) h2
        rw [Nat.gcd_comm m n, Nat.gcd_rec, Nat.gcd_comm]
        simpa [gcdFrom, Client.value, Op.value, h0] using this
  have := client_exact_partial t dbg (gcdFrom k) [y, x] [n, m] (.cons hy (.cons hx .nil)) h
  rwa [hv k m n [] hk] at this

/-- Divisions by a number of one digit are right. -/
theorem divFine_digit (m n : Nat) (h0 : n ≠ 0) (hn : n < t.radix) : DivFine t m n := by
  have hb := (ops_lawful t true).base
  refine ⟨h0, fun _ y hy => ?_⟩
  have e : y = [n] := hy.unique ⟨by simpa using hn, canon_singleton.mpr h0, by simp⟩
  subst e
  have hs : ∀ s, Scale t.radix [n] s → n * 2 ^ s < t.radix := by
    rintro s ⟨d, h1, h2, -⟩
    have : d = n := by simpa using h1.symm
    subst this; exact h2
  refine ⟨fun s h => by simpa using hs s h, Or.inr ?_, fun h => by simp at h⟩
  rw [if_pos (by simp)]
  intro s h i hi
  have : 0 < n * 2 ^ s := Nat.mul_pos (by omega) (Nat.two_pow_pos s)
  simpa using Nat.mod_lt _ this

/-- C47: Euclid's algorithm computes the greatest common divisor of a number of any length and a digit. -/
theorem gcd_digit_exact (x y : List Nat) (m n : Nat) (hx : Rep t.radix x m)
    (hy : Rep t.radix y n) (hn : n < t.radix) :
    Returns ((gcdFrom n).run t dbg [y, x]) fun z => Rep t.radix z (Nat.gcd m n) := by
  have hf : ∀ k m n ms, n < t.radix → (gcdFrom k).Fine t (n :: m :: ms) := by
    intro k
    induction k with
    | zero => intros; trivial
    | succ k ih =>
      intro m n ms h
      simp only [gcdFrom, Client.Fine]
      split
      next => trivial
      next h0 =>
        have h0 : n ≠ 0 := by simpa using h0
        have := Nat.mod_lt m (show 0 < n by omega)
        exact ⟨divFine_digit t m n h0 h, ih n (m % n) (m :: ms) (by omega)⟩
  exact gcd_exact_partial t dbg n x y m n hx hy le_rfl (hf n m n [] hn)

/-! ## The hypotheses can be met -/

example : (factorialClient 20).run (.bin .w8) true [] = .ok [0, 0, 180, 130, 124, 103, 195, 33] := by
  decide +kernel
example : (fibClient 100).run (.dec .w16) true [] = .ok [5075, 6191, 1792, 4848, 5422, 3] := by
  decide +kernel
example : (hornerClient 10 [1, 2, 3, 4, 5]).run (.bin .w8) false [] = .ok [57, 48] := by decide +kernel
example : (digitSumFrom 10 9).run (.bin .w8) false [[57, 48], []] = .ok [15] := by decide +kernel
example : (gcdFrom 35).run (.bin .w8) true [[35], [232, 3]] = .ok [5] := by decide +kernel
/-- A client with operations that have a condition, given the numbers `7 ^ 300`, of 106 digits, and
`7 ^ 200`; the conditions are met. -/
example : (Client.op (.sub 0 1) (.op (.square 0) (.op (.mul 0 3) (.op (.pow 1 3) (.op (.shl 0 50)
    (.op (.shr 0 50) (.op (.subWord 0 99) (.cmp 0 3 fun _ => .done 0)))))))).Fine (.bin .w8)
      [7 ^ 300, 7 ^ 200] := by
  have hp : ∀ m, productOk 256 m m = true → productOk 256 m (m ^ 2) = true →
      ¬ ∃ i, powStepPanics 256 m 3 i := by
    rintro m h1 h2 ⟨i, hi, h⟩
    have h0 : i = 0 := by
      by_contra h
      have : 2 ^ 2 ≤ 2 ^ (i + 1) := Nat.pow_le_pow_right (by omega) (by omega)
      omega
    subst h0
    simp only [productOk_iff] at h1 h2
    simp_all
  refine ⟨⟨by decide +kernel, by decide +kernel⟩, ⟨Or.inl (by decide +kernel), by decide +kernel⟩,
    show productOk 256 _ _ = true by decide +kernel,
    ⟨powClean_of_lt (by decide) (by decide +kernel), hp _ (by decide +kernel) (by decide +kernel)⟩,
    ?_, ?_, ?_, trivial⟩
  · show ¬ (_ ∧ 8 ≤ 50)
    decide +kernel
  · show 50 / 8 ≤ _
    decide +kernel
  · exact ⟨by decide, by decide +kernel, by decide +kernel⟩

end Babs.Props
