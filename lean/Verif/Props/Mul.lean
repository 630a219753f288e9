import Verif.Proofs.MulBig
import Verif.Props.Word

/-!
# C10-C14, C23, C34: multiplication, squaring and powers of big numbers
-/

namespace Babs.Props

variable (t : DType) (dbg : Bool)

/-! ## Multiplication -/

/-- C11, C34: the product of two big numbers of any size is exact whenever it is returned, whichever
algorithm computes it, and the only panic is that of an unwrapped error: no buffer is ever too small,
no index out of bounds, no digit operation overflows. -/
theorem mul_exact_or_unwrap (x y : List Nat) (m n : Nat) (hx : Rep t.radix x m)
    (hy : Rep t.radix y n) :
    ReturnsOr (· = .unwrap) (UBig.mul t dbg x y) fun z => Rep t.radix z (m * n) :=
  (mulBig_spec (ops_lawful t dbg) (T := False) hx hy (fun h => h.elim)).weaken fun _ h => h.1

/-- C10 (in part): multiplication does not panic if one factor has fewer than 20 digits, or if both
have at most 40.  Missing: larger factors, where `mul_panics` shows that it can panic. -/
theorem mul_exact_partial (x y : List Nat) (m n : Nat) (hx : Rep t.radix x m)
    (hy : Rep t.radix y n)
    (hs : x.length < 20 ∨ y.length < 20 ∨ (x.length ≤ 40 ∧ y.length ≤ 40)) :
    Returns (UBig.mul t dbg x y) fun z => Rep t.radix z (m * n) :=
  tot_iff.mp ((mulBig_spec (ops_lawful t dbg) (T := True) hx hy
    (fun _ => by omega)).weaken fun _ h => h.2 trivial)

/-- C12: with a factor of fewer than 20 digits the other may have any length. -/
theorem mul_short_exact (x y : List Nat) (m n : Nat) (hx : Rep t.radix x m) (hy : Rep t.radix y n)
    (hs : x.length < 20 ∨ y.length < 20) :
    Returns (UBig.mul t dbg x y) fun z => Rep t.radix z (m * n) :=
  mul_exact_partial t dbg x y m n hx hy (by omega)

/-- A number of 41 digits: the 21 low digits are `B ^ 20`, the 20 high digits `B ^ 20 - 1`. -/
def karatsubaWitness (b : Nat) : List Nat :=
  List.replicate 20 0 ++ [1] ++ List.replicate 20 (b - 1)

/-- C10, refuted for larger factors: the product of this number with itself panics, for every digit
type.  The bound of `mul_exact_partial` is tight. -/
theorem mul_panics :
    Rep t.radix (karatsubaWitness t.radix) (t.radix ^ 20 + t.radix ^ 41 - t.radix ^ 21) ∧
    (karatsubaWitness t.radix).length = 41 ∧
    Panics (UBig.mul t dbg (karatsubaWitness t.radix) (karatsubaWitness t.radix)) .unwrap := by
  rcases t with w | w <;> cases w <;> cases dbg <;> decide +kernel

/-- C11: products do not depend on the order of the factors, when both are returned. -/
theorem mul_comm_or_unwrap (x y : List Nat) (m n : Nat) (hx : Rep t.radix x m)
    (hy : Rep t.radix y n) :
    ReturnsOr (· = .unwrap) (UBig.mul t dbg x y) fun z =>
      ReturnsOr (· = .unwrap) (UBig.mul t dbg y x) fun z' => z = z' := by
  refine Sp.mono (mul_exact_or_unwrap t dbg x y m n hx hy) fun z hz => ?_
  refine Sp.mono (mul_exact_or_unwrap t dbg y x n m hy hx) fun z' hz' => ?_
  rw [Nat.mul_comm] at hz'
  exact hz.unique hz'

/-! ## Squaring -/

/-- C13 (in part), C34: the square of a number of at most 1131 digits is exact whenever it is returned,
and the only panic is that of an unwrapped error.  Missing: longer numbers, where three nested levels
of Toom-Cook are possible; no longer bound holds (`square_exact_or_unwrap_iff`). -/
theorem square_exact_or_unwrap_partial (x : List Nat) (m : Nat) (hx : Rep t.radix x m)
    (hl : x.length ≤ 1131) :
    ReturnsOr (· = .unwrap) (UBig.square t dbg x) fun z => Rep t.radix z (m ^ 2) := by
  rw [pow_two]
  exact (square_spec (ops_lawful t dbg) (T := False) hx hl (fun h => h.elim)).weaken fun _ h => h.1

/-- C12, C13: squaring does not panic up to 40 digits. -/
theorem square_exact_partial (x : List Nat) (m : Nat) (hx : Rep t.radix x m)
    (hl : x.length ≤ 40) : Returns (UBig.square t dbg x) fun z => Rep t.radix z (m ^ 2) := by
  rw [pow_two]
  exact tot_iff.mp ((square_spec (ops_lawful t dbg) (T := True) hx (by omega)
    (fun _ => hl)).weaken fun _ h => h.2 trivial)

/-- C12: schoolbook squaring is exact. -/
theorem square_short_exact (x : List Nat) (m : Nat) (hx : Rep t.radix x m) (hl : x.length < 20) :
    Returns (UBig.square t dbg x) fun z => Rep t.radix z (m ^ 2) :=
  square_exact_partial t dbg x m hx (by omega)

/-- C13: the square agrees with the product of the number with itself, when both are returned. -/
theorem square_eq_mul_partial (x : List Nat) (m : Nat) (hx : Rep t.radix x m)
    (hl : x.length ≤ 1131) :
    ReturnsOr (· = .unwrap) (UBig.square t dbg x) fun z =>
      ReturnsOr (· = .unwrap) (UBig.mul t dbg x x) fun z' => z = z' := by
  refine Sp.mono (square_exact_or_unwrap_partial t dbg x m hx hl) fun z hz => ?_
  refine Sp.mono (mul_exact_or_unwrap t dbg x x m m hx hx) fun z' hz' => ?_
  rw [pow_two] at hz
  exact hz.unique hz'

/-- C13: squaring panics on the number of 41 digits, as multiplication does. -/
theorem square_panics :
    Panics (UBig.square t dbg (karatsubaWitness t.radix)) .unwrap := by
  rcases t with w | w <;> cases w <;> cases dbg <;> decide +kernel

/-! ## Powers -/

/-- C14 (in part): a power that is returned is exact, as long as it has at most 2262 digits; the only
panic is that of an unwrapped error. -/
theorem pow_exact_or_unwrap_partial (x : List Nat) (m e : Nat) (hx : Rep t.radix x m)
    (hs : m ^ e < t.radix ^ 2262) :
    ReturnsOr (· = .unwrap) (UBig.pow t dbg x e) fun z => Rep t.radix z (m ^ e) :=
  (pow_spec (ops_lawful t dbg) (T := False) hx hs (fun h => h.elim)).weaken fun _ h => h.1

/-- C14 (in part): powers of at most 40 digits are computed without panic. -/
theorem pow_exact_partial (x : List Nat) (m e : Nat) (hx : Rep t.radix x m)
    (hs : m ^ e < t.radix ^ 40) :
    Returns (UBig.pow t dbg x e) fun z => Rep t.radix z (m ^ e) :=
  tot_iff.mp ((pow_spec (ops_lawful t dbg) (T := True) hx
    (lt_of_lt_of_le hs (Nat.pow_le_pow_right (ops_lawful t dbg).pos (by norm_num)))
    (fun _ => hs)).weaken fun _ h => h.2 trivial)

/-- C14: the exponents 0 and 1 are exact for numbers of any size, and so are all powers of zero and
one. -/
theorem pow_small_exact (x : List Nat) (m e : Nat) (hx : Rep t.radix x m)
    (h : e ≤ 1 ∨ m ≤ 1) : Returns (UBig.pow t dbg x e) fun z => Rep t.radix z (m ^ e) := by
  have hB := (ops_lawful t dbg).base
  by_cases h1 : m ^ e < t.radix ^ 40
  · exact pow_exact_partial t dbg x m e hx h1
  · have he : e = 1 := by
      have h40 : 100 ^ 40 ≤ t.radix ^ 40 := Nat.pow_le_pow_left hB 40
      by_contra hne
      have h2 : m ^ e ≤ 1 := by
        rcases h with h | h
        · have : e = 0 := by omega
          subst this; simp
        · exact pow_le_one₀ (Nat.zero_le _) h
      have : (1 : Nat) < 100 ^ 40 := by norm_num
      omega
    subst he
    exact ⟨x, rfl, by simpa using hx⟩

/-! ## Decimal left shifts -/

/-- C23 (in part): a decimal left shift by any number of bits is exact whenever it returns, as long as
`2 ^ n` has at most 2262 digits; the only panic is that of an unwrapped error. -/
theorem shl_decimal_exact_or_unwrap_partial (w : Width) (x : List Nat) (m n : Nat)
    (hx : Rep (DType.dec w).radix x m) (hs : 2 ^ n < (DType.dec w).radix ^ 2262) :
    ReturnsOr (· = .unwrap) (UBig.shl (.dec w) dbg x n)
      fun z => Rep (DType.dec w).radix z (m * 2 ^ n) := by
  by_cases hn : n ≤ 4 * UBig.maxHexPlaces w
  · exact (tot_iff.mpr (shl_decimal_small_exact dbg w x m n hx hn)).sp
  · exact (shlDec_large_spec (ops_lawful (.dec w) dbg) (T := False) hx hn hs
      (fun h => h.elim)).weaken fun _ h => h.1

/-- C23 (in part): the shift does not panic if `2 ^ n` has fewer than 20 digits, or if it and `x` have
at most 40 digits. -/
theorem shl_decimal_exact_partial (w : Width) (x : List Nat) (m n : Nat)
    (hx : Rep (DType.dec w).radix x m)
    (hs : 2 ^ n < (DType.dec w).radix ^ 19 ∨ 2 ^ n < (DType.dec w).radix ^ 40 ∧ x.length ≤ 40) :
    Returns (UBig.shl (.dec w) dbg x n) fun z => Rep (DType.dec w).radix z (m * 2 ^ n) := by
  have L := ops_lawful (.dec w) dbg
  by_cases hn : n ≤ 4 * UBig.maxHexPlaces w
  · exact shl_decimal_small_exact dbg w x m n hx hn
  · have h1 : (DType.dec w).radix ^ 19 ≤ (DType.dec w).radix ^ 2262 :=
      Nat.pow_le_pow_right L.pos (by norm_num)
    have h2 : (DType.dec w).radix ^ 40 ≤ (DType.dec w).radix ^ 2262 :=
      Nat.pow_le_pow_right L.pos (by norm_num)
    refine tot_iff.mp ((shlDec_large_spec L (T := True) hx hn ?_
      (fun _ => hs)).weaken fun _ h => h.2 trivial)
    rcases hs with h | h
    · exact lt_of_lt_of_le h h1
    · exact lt_of_lt_of_le h.1 h2

/-! ## The hypotheses can be met -/

example : UBig.mul (.dec .w8) true [99, 99] [99, 99, 99] = .ok [1, 0, 99, 98, 99] := by decide +kernel
example : Rep 100 [99, 99] 9999 := by decide
/-- Two factors of 20 digits: the Karatsuba algorithm. -/
example : UBig.mul (.bin .w8) true (List.replicate 20 255) (List.replicate 20 255) =
    .ok (1 :: List.replicate 19 0 ++ 254 :: List.replicate 19 255) := by decide +kernel
example : UBig.square (.dec .w8) true [45, 23, 1] = .ok [25, 90, 39, 52, 1] := by decide +kernel
example : UBig.pow (.dec .w8) true [2] 20 = .ok [76, 85, 4, 1] := by decide +kernel
example : UBig.pow (.bin .w8) true [] 0 = .ok [1] := by decide +kernel
example : (12345 : Nat) ^ 2 < (DType.dec .w8).radix ^ 40 := by decide +kernel
example : UBig.shl (.dec .w8) true [7] 20 = .ok [32, 0, 34, 7] := by decide +kernel
example : ¬ 20 ≤ 4 * UBig.maxHexPlaces .w8 := by decide

end Babs.Props
