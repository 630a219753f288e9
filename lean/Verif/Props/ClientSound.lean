import Verif.Props.Client
import Verif.Props.ShiftDecimal

/-!
# C49: a program that finishes has computed the right number

`Client.Fine` of `Verif/Props/Client.lean` excludes everything that can go wrong.  Most of that is a panic,
which nobody mistakes for a result.  Here only those cases are excluded in which an operation returns a
number that is wrong or not in normal form.  Whatever else happens, a client that does not panic has computed
the right number.  In particular there is no condition for multiplication and right shifts, for subtraction
of a larger number, and for division by zero.
-/

namespace Babs.Props

variable (t t' : DType) (dbg dbg' : Bool)

/-! ## Conditions -/

/-- The division of `m` by `n` gives no wrong result: the divisor is zero or larger than the dividend, or the
scaled divisor fits and no tie occurs for binary types. -/
def DivSound (m n : Nat) : Prop :=
  n ≠ 0 → n ≤ m → ∀ y, Rep t.radix y n → ScaleFits t.radix y ∧
    ((∃ w, t = .dec w) ∨ if y.length < 20 then NoTie t.radix m (size t.radix m) y
      else NoBlockTie t.radix m (size t.radix m) y)

/-- An operation does not return a wrong number, nor one that is not in normal form. -/
def Op.Sound (ms : List Nat) : Op → Prop
  | .word n => n < 2 ^ UBig.bits t
  | .text s => Numeral 10 s (textValue s)
  | .add _ _ => True
  | .sub a b =>
    let m := ms.getD a 0
    let n := ms.getD b 0
    n ≤ m → ¬ (size t.radix m = size t.radix n + 1 ∧ m - n < t.radix ^ (size t.radix n - 1))
  | .mul _ _ => True
  | .div a b => DivSound t (ms.getD a 0) (ms.getD b 0)
  | .rem a b => DivSound t (ms.getD a 0) (ms.getD b 0)
  | .square a => squareClean t.radix (ms.getD a 0)
  | .pow a e => powClean t.radix (ms.getD a 0) e
  | .shl a n =>
    match t with
    | .bin w => ¬ (ms.getD a 0 = 0 ∧ w.bits ≤ n)
    | .dec w => n ≤ 4 * UBig.maxHexPlaces w ∨ w = .w16 ∨ powClean t.radix 2 n
  | .shr _ _ => True
  | .addWord _ n => n < 2 ^ UBig.bits t
  | .subWord a n => n < 2 ^ UBig.bits t ∧
    (n ≤ ms.getD a 0 → n < t.radix ∧ ¬ (n ≠ 0 ∧ ms.getD a 0 = n))
  | .mulWord _ n => n < 2 ^ UBig.bits t
  | .divWord _ n => WordSound t n
  | .remWord _ n => WordSound t n

/-- No operation that a client performs returns a wrong number. -/
def Client.Sound : Client → List Nat → Prop
  | .done _, _ => True
  | .op o k, ms => o.Sound t ms ∧ k.Sound (o.value ms :: ms)
  | .cmp a b k, ms => (k (compare (ms.getD a 0) (ms.getD b 0))).Sound ms
  | .isZero a k, ms => (k (ms.getD a 0 == 0)).Sound ms

/-! ## The theorems -/

theorem of_returns {α : Type} {E : Panic → Prop} {x : R α} {Q : α → Prop} (h : Returns x Q) :
    ReturnsOr E x Q := by
  obtain ⟨a, rfl, h⟩ := h
  exact h

theorem of_panics {α : Type} {E : Panic → Prop} {x : R α} {Q : α → Prop} {p : Panic} (h : Panics x p)
    (hp : E p) : ReturnsOr E x Q := by
  unfold Panics at h
  subst h
  exact hp

/-- The panics of the operations: an unwrapped error, an index that is out of bounds, one of the messages of
the crate, and a shift that is not implemented.  No digit operation overflows and no assertion fails. -/
def OpPanic (p : Panic) : Prop := p = .unwrap ∨ p = .index ∨ p = .explicit ∨ p = .unimplemented

theorem divSound_exact {x y : List Nat} {m n : Nat} (hx : Rep t.radix x m) (hy : Rep t.radix y n)
    (h : DivSound t m n) (h0 : n ≠ 0) : DivisionExact t dbg OpPanic x y m n := by
  have hb := (ops_lawful t dbg).base
  rcases Nat.lt_or_ge m n with hmn | hmn
  · exact (div_smaller_exact t dbg x y m n hx hy hmn).weaken fun _ => False.elim
  obtain ⟨h1, h2⟩ := h h0 hmn y hy
  rw [size_rep (by omega) hx] at h2
  refine (div_exact_partial t dbg x y m n hx hy h0 h1 h2).weaken fun p hp => ?_
  rcases hp.1 with h | h
  · exact Or.inr (Or.inl h)
  · exact Or.inl h

/-- C49: each operation is right or panics. -/
theorem op_sound (o : Op) (xs : List (List Nat)) (ms : List Nat)
    (hx : List.Forall₂ (Rep t.radix) xs ms) (h : o.Sound t ms) :
    ReturnsOr OpPanic (o.run t dbg xs) fun z => Rep t.radix z (o.value ms) := by
  have hb := (ops_lawful t dbg).base
  have g := getD_rep hx
  have hu : ∀ {x : R (List Nat)} {Q : List Nat → Prop}, ReturnsOr (· = .unwrap) x Q →
      ReturnsOr OpPanic x Q := fun h => Sp.weaken h fun _ hp => Or.inl hp
  have hdz : ∀ b, ms.getD b 0 = 0 → xs.getD b [] = [] := fun b h => by
    have := g b
    rw [h] at this
    exact this.unique (rep_zero _)
  have hex : OpPanic .explicit := Or.inr (Or.inr (Or.inl rfl))
  cases o with
  | word n => exact of_returns (op_exact t dbg (.word n) xs ms hx h)
  | text s => exact of_returns (op_exact t dbg (.text s) xs ms hx h)
  | add a b => exact of_returns (op_exact t dbg (.add a b) xs ms hx h)
  | sub a b =>
    by_cases hle : ms.getD b 0 ≤ ms.getD a 0
    · exact of_returns (op_exact t dbg (.sub a b) xs ms hx ⟨hle, h hle⟩)
    · exact of_panics (sub_underflow t dbg _ _ _ _ (g a) (g b) (by omega)) hex
  | mul a b => exact hu (mul_exact_or_unwrap t dbg _ _ _ _ (g a) (g b))
  | div a b =>
    by_cases h0 : ms.getD b 0 = 0
    · refine of_panics (p := .explicit) ?_ hex
      show Panics (UBig.div t dbg (xs.getD a []) (xs.getD b [])) _
      rw [hdz b h0]
      exact (div_zero_reported t dbg (xs.getD a [])).2.2.1
    · exact (divSound_exact t dbg (g a) (g b) h h0).div
  | rem a b =>
    by_cases h0 : ms.getD b 0 = 0
    · refine of_panics (p := .explicit) ?_ hex
      show Panics (UBig.rem t dbg (xs.getD a []) (xs.getD b [])) _
      rw [hdz b h0]
      exact (div_zero_reported t dbg (xs.getD a [])).2.2.2
    · exact (divSound_exact t dbg (g a) (g b) h h0).rem
  | square a =>
    show ReturnsOr _ _ fun z => Rep t.radix z (ms.getD a 0 ^ 2)
    rw [pow_two]
    exact hu (Sp.weaken (Sp.mono (squareClean_exact (dbg := dbg) (ops_lawful t dbg) (g a) h) fun _ hz => hz.2)
      fun _ hp => hp.1)
  | pow a e =>
    exact hu (Sp.weaken (Sp.mono (pow_clean_exact (dbg := dbg) (ops_lawful t dbg) (g a) h) fun _ hz => hz.2)
      fun _ hp => hp.1)
  | shl a n =>
    rcases t with w | w
    · exact of_returns (op_exact (.bin w) dbg (.shl a n) xs ms hx h)
    · by_cases hn : n ≤ 4 * UBig.maxHexPlaces w
      · exact of_returns (op_exact (.dec w) dbg (.shl a n) xs ms hx (Or.inl hn))
      rcases h with h | h | h
      · exact absurd h hn
      · subst h
        exact hu (shl_decimal_sound dbg _ _ n (g a))
      · exact hu (Sp.weaken (Sp.mono (shlDec_clean_exact (dbg := dbg) (ops_lawful (.dec w) dbg) (g a) hn h)
          fun _ hz => hz.2) fun _ hp => hp.1)
  | shr a n =>
    rcases t with w | w
    · by_cases hn : n / w.bits ≤ (xs.getD a []).length
      · exact of_returns (shr_binary_exact_partial dbg w _ _ n (g a) hn)
      · exact of_panics (shr_binary_panics dbg w _ n (by omega)) (Or.inr (Or.inl rfl))
    · by_cases hn : n ≤ 4 * UBig.maxHexPlaces w
      · exact of_returns (shr_decimal_exact_partial dbg w _ _ n (g a) hn)
      · exact of_panics (shr_decimal_unimplemented dbg w _ n (by omega)) (Or.inr (Or.inr (Or.inr rfl)))
  | addWord a n => exact of_returns (op_exact t dbg (.addWord a n) xs ms hx h)
  | subWord a n =>
    by_cases hle : n ≤ ms.getD a 0
    · exact of_returns (op_exact t dbg (.subWord a n) xs ms hx ⟨(h.2 hle).1, hle, (h.2 hle).2⟩)
    · rcases t with w | w
      · exact of_panics ((subWord_binary_exact dbg w _ _ n (g a) h.1).2 (by omega)) hex
      · by_cases hn : n < w.decRadix
        · exact of_panics ((subWord_small_exact_partial dbg w _ _ n (g a) hn).2 (by omega)) hex
        · rcases subWordDec_spec (ops_lawful (.dec w) dbg) _ n (g a).digs (g a).canon
            (word_lt (.dec w) n h.1) (show (DType.dec w).radix ≤ n by simpa [DType.radix] using hn)
            with ⟨-, p, hp, h1⟩ | ⟨h1, -⟩
          · refine of_panics (p := p) hp ?_
            rcases h1 with h1 | h1
            · exact Or.inr (Or.inr (Or.inl h1))
            · exact Or.inr (Or.inl h1.1)
          · rw [(g a).val_eq] at h1
            omega
  | mulWord a n => exact of_returns (op_exact t dbg (.mulWord a n) xs ms hx h)
  | divWord a n =>
    by_cases h0 : n = 0
    · subst h0
      exact of_panics (divRemWord_zero t dbg _).1 hex
    · exact of_returns (wordSound_exact t dbg (g a) h h0).1
  | remWord a n =>
    by_cases h0 : n = 0
    · subst h0
      exact of_panics (divRemWord_zero t dbg _).2.1 hex
    · exact of_returns (wordSound_exact t dbg (g a) h h0).2

/-- C49: a client gets the number that it would get with natural numbers, or it panics, if no operation
that it performs is one of those that return a wrong number. -/
theorem client_sound_partial (c : Client) (xs : List (List Nat)) (ms : List Nat)
    (hx : List.Forall₂ (Rep t.radix) xs ms) (h : c.Sound t ms) :
    ReturnsOr OpPanic (c.run t dbg xs) fun z => Rep t.radix z (c.value ms) := by
  induction c generalizing xs ms with
  | done a => exact getD_rep hx a
  | op o k ih =>
    unfold Client.run
    exact Sp.bind (op_sound t dbg o xs ms hx h.1) fun z hz => ih _ _ (.cons hz hx) h.2
  | cmp a b k ih =>
    unfold Client.run
    rw [cmp_numeric t _ _ _ _ (getD_rep hx a) (getD_rep hx b)]
    exact ih _ _ _ hx h
  | isZero a k ih =>
    unfold Client.run
    have : Babs.isZero (xs.getD a []) = (ms.getD a 0 == 0) := by
      rw [Bool.eq_iff_iff, is_zero_iff t _ _ (getD_rep hx a), beq_iff_eq]
    rw [this]
    exact ih _ _ _ hx h

/-- C49: so two runs of a client that both finish, with whatever types and build profiles, give the same
number, if no operation is one of those that return a wrong number. -/
theorem client_agree_of_returned_partial (c : Client) (xs xs' : List (List Nat)) (ms : List Nat)
    (hx : List.Forall₂ (Rep t.radix) xs ms) (hx' : List.Forall₂ (Rep t'.radix) xs' ms)
    (h : c.Sound t ms) (h' : c.Sound t' ms) (z z' : List Nat) (hz : c.run t dbg xs = .ok z)
    (hz' : c.run t' dbg' xs' = .ok z') : val t.radix z = val t'.radix z' := by
  have h1 := client_sound_partial t dbg c xs ms hx h
  have h2 := client_sound_partial t' dbg' c xs' ms hx' h'
  rw [hz] at h1
  rw [hz'] at h2
  exact (Rep.val_eq h1).trans (Rep.val_eq h2).symm

/-- C49: the conditions of this file are weaker than those of `Verif/Props/Client.lean`. -/
theorem client_fine_sound (c : Client) (ms : List Nat) (h : c.Fine t ms) : c.Sound t ms := by
  have hop : ∀ (o : Op) (ms : List Nat), o.Fine t ms → o.Sound t ms := by
    intro o ms h
    have hr : t.radix ≤ 2 ^ UBig.bits t := by rcases t with w | w <;> cases w <;> decide
    cases o with
    | word n => exact h
    | text s => exact h
    | add a b => trivial
    | sub a b => exact fun _ => h.2
    | mul a b => trivial
    | div a b => exact fun h0 hmn y hy => ⟨(h.2 hmn y hy).1, (h.2 hmn y hy).2.1⟩
    | rem a b => exact fun h0 hmn y hy => ⟨(h.2 hmn y hy).1, (h.2 hmn y hy).2.1⟩
    | square a => exact h.1
    | pow a e => exact h.1
    | shl a n =>
      rcases t with w | w
      · exact h
      · exact h.imp_right fun h => Or.inr h.1.1
    | shr a n => trivial
    | addWord a n => exact h
    | subWord a n => exact ⟨lt_of_lt_of_le h.1 hr, fun _ => ⟨h.1, h.2.2⟩⟩
    | mulWord a n => exact h
    | divWord a n => exact h.2
    | remWord a n => exact h.2
  induction c generalizing ms with
  | done a => trivial
  | op o k ih => exact ⟨hop o ms h.1, ih _ h.2⟩
  | cmp a b k ih => exact ih _ _ h
  | isZero a k ih => exact ih _ _ h

/-! ## A condition is needed -/

/-- `let d = &x - &y; if d == 1 { d } else { y }`, with `x` built last and `y` before. -/
def oneApart : Client :=
  .op (.sub 0 1) (.op (.word 1) (.cmp 0 1 fun o => if o = .eq then .done 1 else .done 3))

/-- C49, refuted: with two consecutive numbers, the second one of which is a power of the radix, the client
does not find out that they differ by one, for any type.  It returns a wrong number. -/
theorem client_wrong :
    let x := [0, 0, 1]
    let y := [t.radix - 1, t.radix - 1]
    List.Forall₂ (Rep t.radix) [x, y] [t.radix ^ 2, t.radix ^ 2 - 1] ∧
    oneApart.value [t.radix ^ 2, t.radix ^ 2 - 1] = 1 ∧ oneApart.run t dbg [x, y] = .ok y := by
  intro x y
  have h := sub_not_normalised t true
  refine ⟨.cons h.1 (.cons h.2.1 .nil), ?_, ?_⟩
  · rcases t with w | w <;> cases w <;> decide
  · rcases t with w | w <;> cases w <;> cases dbg <;> decide +kernel

/-! ## The hypotheses can be met -/

/-- A client that multiplies the 41-digit number whose square panics with itself, and divides by zero after
that, meets the condition; it panics. -/
example : (Client.op (.mul 0 0) (.op (.sub 0 0) (.op (.div 1 0) (.done 0)))).Sound (.bin .w8)
    [val 256 (karatsubaWitness 256)] := by
  refine ⟨trivial, fun _ => ?_, fun h => ?_, trivial⟩
  · simp [Op.value]
  · simp [Op.value] at h
example : (Client.op (.mul 0 0) (.op (.sub 0 0) (.op (.div 1 0) (.done 0)))).run (.bin .w8) true
    [karatsubaWitness 256] = .error .unwrap := by decide +kernel
/-- A client that squares a number of 1131 digits, for which nothing is known but that it is not zero, and
shifts the result. -/
example (m : Nat) (h0 : m ≠ 0) (h : size 256 m ≤ 1131) :
    (Client.op (.square 0) (.op (.shl 0 100) (.op (.shr 0 9999) (.done 0)))).Sound (.bin .w8) [m] :=
  ⟨Or.inl h, fun hc => h0 (by simpa [Op.value] using hc.1), trivial, trivial⟩
/-- A client that shifts any decimal number in digits of 16 bits by any number of places. -/
example (m n : Nat) : (Client.op (.shl 0 n) (.done 0)).Sound (.dec .w16) [m] :=
  ⟨Or.inr (Or.inl rfl), trivial⟩

end Babs.Props
