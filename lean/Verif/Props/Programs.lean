import Verif.Props.Mul
import Verif.Props.Text

/-!
# C35: the eight number types agree

A program computes a number from words and texts by additions and multiplications.  Run with any of
the eight number types it gives the same number.
-/

namespace Babs.Props

open UBig

/-- Programs.  Words are values of the storage type. -/
inductive Prog where
  | word (n : Nat)
  | text (s : List Char)
  | add (p q : Prog)
  | addWord (p : Prog) (n : Nat)
  | mulWord (p : Prog) (n : Nat)
  | mul (p q : Prog)

/-- Run a program with numbers of type `t`.  A text that does not parse is a panic. -/
def Prog.run (t : DType) (dbg : Bool) : Prog → R (List Nat)
  | .word n => .ok (ofWord t n)
  | .text s => do
    match ← fromStr t dbg s with
    | .ok x => return x
    | .error _ => throw .explicit
  | .add p q => do UBig.add t dbg (← p.run t dbg) (← q.run t dbg)
  | .addWord p n => do UBig.addWord t dbg (← p.run t dbg) n
  | .mulWord p n => do UBig.mulWord t dbg (← p.run t dbg) n
  | .mul p q => do UBig.mul t dbg (← p.run t dbg) (← q.run t dbg)

/-- The number a program computes.  Words have to fit in the smallest storage type, `u8`. -/
inductive Prog.Computes : Prog → Nat → Prop
  | word (n : Nat) (h : n < 256) : Computes (.word n) n
  | text (s : List Char) (n : Nat) (h : Numeral 10 s n) : Computes (.text s) n
  | add (p q : Prog) (m n : Nat) (hp : Computes p m) (hq : Computes q n) :
      Computes (.add p q) (m + n)
  | addWord (p : Prog) (m n : Nat) (hp : Computes p m) (h : n < 256) :
      Computes (.addWord p n) (m + n)
  | mulWord (p : Prog) (m n : Nat) (hp : Computes p m) (h : n < 256) :
      Computes (.mulWord p n) (m * n)
  | mul (p q : Prog) (m n : Nat) (hp : Computes p m) (hq : Computes q n) :
      Computes (.mul p q) (m * n)

/-- The program has no product of two numbers. -/
def Prog.NoMul : Prog → Prop
  | .word _ => True
  | .text _ => True
  | .add p q => p.NoMul ∧ q.NoMul
  | .addWord p _ => p.NoMul
  | .mulWord p _ => p.NoMul
  | .mul _ _ => False

variable (t t' : DType) (dbg dbg' : Bool)

theorem word_fits {n : Nat} (h : n < 256) : n < 2 ^ UBig.bits t := by
  rcases t with w | w <;> cases w <;> simp [UBig.bits, Width.bits] <;> omega

theorem returns_text (s : List Char) (n : Nat) (h : Numeral 10 s n) :
    Returns (Prog.run t dbg (.text s)) fun x => Rep t.radix x n := by
  obtain ⟨r, h1, x, rfl, h3⟩ := parse_decimal t dbg s n h
  refine ⟨x, ?_, h3⟩
  unfold Prog.run
  rw [h1]
  rfl

/-- C35: a program returns the number it computes, whatever the type and the build profile.  The only
possible panic is that of the multiplication (see `mul_panics`). -/
theorem program_exact_or_unwrap (p : Prog) (n : Nat) (h : p.Computes n) :
    ReturnsOr (· = .unwrap) (p.run t dbg) fun x => Rep t.radix x n := by
  have key : ∀ {x : R (List Nat)} {Q : List Nat → Prop}, Returns x Q →
      ReturnsOr (· = .unwrap) x Q := by
    rintro x Q ⟨a, rfl, ha⟩; exact ha
  induction h with
  | word n h => exact key ⟨_, rfl, ofWord_exact t n (word_fits t h)⟩
  | text s n h => exact key (returns_text t dbg s n h)
  | add p q m n _ _ ihp ihq =>
    unfold Prog.run
    exact Sp.bind ihp fun x hx => Sp.bind ihq fun y hy => key (add_exact t dbg x y m n hx hy)
  | addWord p m n _ h ihp =>
    unfold Prog.run
    exact Sp.bind ihp fun x hx => key (addWord_exact t dbg x m n hx (word_fits t h))
  | mulWord p m n _ h ihp =>
    unfold Prog.run
    exact Sp.bind ihp fun x hx => key (mulWord_exact t dbg x m n hx (word_fits t h))
  | mul p q m n _ _ ihp ihq =>
    unfold Prog.run
    exact Sp.bind ihp fun x hx => Sp.bind ihq fun y hy => mul_exact_or_unwrap t dbg x y m n hx hy

/-- C35: a program without products of two big numbers never panics. -/
theorem program_exact (p : Prog) (n : Nat) (h : p.Computes n) (hm : p.NoMul) :
    Returns (p.run t dbg) fun x => Rep t.radix x n := by
  induction h with
  | word n h => exact ⟨_, rfl, ofWord_exact t n (word_fits t h)⟩
  | text s n h => exact returns_text t dbg s n h
  | add p q m n _ _ ihp ihq =>
    obtain ⟨x, h1, hx⟩ := ihp hm.1
    obtain ⟨y, h2, hy⟩ := ihq hm.2
    unfold Prog.run
    rw [h1, ok_bind, h2, ok_bind]
    exact add_exact t dbg x y m n hx hy
  | addWord p m n _ h ihp =>
    obtain ⟨x, h1, hx⟩ := ihp hm
    unfold Prog.run
    rw [h1, ok_bind]
    exact addWord_exact t dbg x m n hx (word_fits t h)
  | mulWord p m n _ h ihp =>
    obtain ⟨x, h1, hx⟩ := ihp hm
    unfold Prog.run
    rw [h1, ok_bind]
    exact mulWord_exact t dbg x m n hx (word_fits t h)
  | mul => exact hm.elim

/-- C35: two runs of a program, with any two of the eight types and any two build profiles, give
numbers of the same value. -/
theorem program_agree (p : Prog) (n : Nat) (h : p.Computes n) (x y : List Nat)
    (hx : p.run t dbg = .ok x) (hy : p.run t' dbg' = .ok y) : val t.radix x = val t'.radix y := by
  have h1 := program_exact_or_unwrap t dbg p n h
  have h2 := program_exact_or_unwrap t' dbg' p n h
  rw [hx] at h1
  rw [hy] at h2
  exact h1.val_eq.trans h2.val_eq.symm

/-- C35: comparing the results of two programs gives the same answer with any two types. -/
theorem program_cmp_agree (p q : Prog) (m n : Nat) (hp : p.Computes m) (hq : q.Computes n)
    (x y x' y' : List Nat) (hx : p.run t dbg = .ok x) (hy : q.run t dbg = .ok y)
    (hx' : p.run t' dbg' = .ok x') (hy' : q.run t' dbg' = .ok y') :
    UBig.cmp x y = UBig.cmp x' y' ∧ UBig.eq x y = UBig.eq x' y' := by
  have h1 := program_exact_or_unwrap t dbg p m hp
  have h2 := program_exact_or_unwrap t dbg q n hq
  have h3 := program_exact_or_unwrap t' dbg' p m hp
  have h4 := program_exact_or_unwrap t' dbg' q n hq
  rw [hx] at h1
  rw [hy] at h2
  rw [hx'] at h3
  rw [hy'] at h4
  refine ⟨(cmp_numeric t x y m n h1 h2).trans (cmp_numeric t' x' y' m n h3 h4).symm, ?_⟩
  have e1 := eq_iff t x y m n h1 h2
  have e2 := eq_iff t' x' y' m n h3 h4
  rw [Bool.eq_iff_iff]
  exact e1.trans e2.symm

/-- C35: subtracting the results of two programs gives the same number with any two types, or
panics with both.  Missing: computing further with the difference, which need not be in normal form
(see `program_sub_differs`). -/
theorem program_sub_agree_partial (p q : Prog) (m n : Nat) (hp : p.Computes m) (hq : q.Computes n)
    (x y x' y' : List Nat) (hx : p.run t dbg = .ok x) (hy : q.run t dbg = .ok y)
    (hx' : p.run t' dbg' = .ok x') (hy' : q.run t' dbg' = .ok y') :
    (∃ z z', UBig.sub t dbg x y = .ok z ∧ UBig.sub t' dbg' x' y' = .ok z' ∧
      val t.radix z = val t'.radix z') ∨
    (Panics (UBig.sub t dbg x y) .explicit ∧ Panics (UBig.sub t' dbg' x' y') .explicit) := by
  have h1 := program_exact_or_unwrap t dbg p m hp
  have h2 := program_exact_or_unwrap t dbg q n hq
  have h3 := program_exact_or_unwrap t' dbg' p m hp
  have h4 := program_exact_or_unwrap t' dbg' q n hq
  rw [hx] at h1
  rw [hy] at h2
  rw [hx'] at h3
  rw [hy'] at h4
  by_cases hle : n ≤ m
  · left
    obtain ⟨z, k1, -, k2⟩ := sub_exact t dbg x y m n h1 h2 hle
    obtain ⟨z', k3, -, k4⟩ := sub_exact t' dbg' x' y' m n h3 h4 hle
    exact ⟨z, z', k1, k3, by rw [k2, k4]⟩
  · right
    exact ⟨sub_underflow t dbg x y m n h1 h2 (by omega),
      sub_underflow t' dbg' x' y' m n h3 h4 (by omega)⟩

/-- C35, refuted for a difference that is used further: `65536 - 65535` is equal to one with decimal
digits of 8 bits, and not equal to one with binary digits of 8 bits. -/
theorem program_sub_differs :
    let p : Prog := .text "65536".toList
    let q : Prog := .text "65535".toList
    let isOne (t : DType) : R Bool := do
      return UBig.eq (← UBig.sub t dbg (← p.run t dbg) (← q.run t dbg)) (ofWord t 1)
    isOne (.dec .w8) = .ok true ∧ isOne (.bin .w8) = .ok false := by
  cases dbg <;> decide +kernel

/-- A program and the number it computes: `(10000000000000000000000 * 7 + 200) * 99`. -/
def exampleProg : Prog :=
  .mul (.addWord (.mulWord (.text "10000000000000000000000".toList) 7) 200) (.word 99)

example : exampleProg.Computes ((10 ^ 22 * 7 + 200) * 99) :=
  .mul _ _ _ _ (.addWord _ _ _ (.mulWord _ _ _ (.text _ _
    ⟨[1, 0, 0, 0, 0, 0, 0, 0, 0, 0, 0, 0, 0, 0, 0, 0, 0, 0, 0, 0, 0, 0, 0],
      by simp [CharDigit], by decide⟩) (by omega)) (by omega)) (.word _ (by omega))

example : (exampleProg.run (.dec .w8) true).map (val 100) = .ok ((10 ^ 22 * 7 + 200) * 99) ∧
    (exampleProg.run (.bin .w16) false).map (val 65536) = .ok ((10 ^ 22 * 7 + 200) * 99) := by
  decide +kernel

end Babs.Props
