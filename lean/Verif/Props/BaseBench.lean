import Verif.Model.BaseBench
import Verif.Props.DecimalLong
import Verif.Props.SplitTest

/-!
# C60: the benchmark of the conversion to decimal

The test of `SplitTest.lean` is evaluated by the kernel for the powers of two of the benchmark.  It involves
numbers only; that the program computes what it says if the test succeeds is proved for all numbers.
-/

namespace Babs.Props

open Babs UBig

variable (dbg : Bool)

theorem splitTest_of {b c r u k m : Nat} {e : Nat → Nat} (h16 : ¬ size b m < 16) (hu : e (size b m) = u)
    (h1 : divTest b c m (r ^ 2 ^ u) = true) (h2 : r ^ (2 ^ u - 1) ≤ m % r ^ 2 ^ u)
    (h3 : splitTest b c r e k (m % r ^ 2 ^ u) = true) (h4 : splitTest b c r e k (m / r ^ 2 ^ u) = true) :
    splitTest b c r e (k + 1) m = true := by
  rw [splitTest, if_neg h16]
  simp only [hu]
  rw [h1, h3, h4, decide_eq_true h2]
  rfl

/-- The benchmark for any power of two that passes the test of `SplitTest.lean`. -/
theorem benchToDecimal_of (w : Width) (e c : Nat) (hc : 1 ≤ c) (hB : (DType.bin w).radix = 2 ^ c) (hw : w ≠ .w8)
    (n : Nat) (hn : size (2 ^ c) (2 ^ e) = n) (hl : n ≤ 20409)
    (h : splitTest (2 ^ c) c (DType.dec w).radix (splitExp w) (n + 1) (2 ^ e) = true) :
    Returns (benchToDecimal dbg w e) fun z => Rep (DType.dec w).radix z (2 ^ e) := by
  have hb := (ops_lawful (.bin w) dbg).base
  have h1 : Rep (DType.bin w).radix ubigOne 1 := by
    refine ⟨?_, canon_singleton.mpr (by decide), by simp [ubigOne]⟩
    intro d hd
    simp only [ubigOne, List.mem_singleton] at hd
    omega
  obtain ⟨x, h2, h3⟩ := shl_binary_normalised_partial dbg w _ 1 e h1
  have hx : Rep (DType.bin w).radix x (2 ^ e) := by
    have := h3.mpr (by omega)
    rwa [Nat.one_mul] at this
  have hs : x.length = n := by rw [← hn, ← hB]; exact (size_rep (by omega) hx).symm
  obtain ⟨i1, i2⟩ := splitTest_spec hc (by cases w <;> decide) _ _ h
  rw [← hB, ← hs] at i1 i2
  unfold benchToDecimal
  rw [h2]
  exact ((toDecimal_upto20409_exact_iff_partial dbg w hw x _ hx (by omega) i1).1.mpr i2)

/-! ## Evaluation by the kernel, in parts -/

set_option exponentiation.threshold 200000

/-- The first division of `2 ^ 100000`, in digits of 32 bits. -/
theorem bench32_div : divTest (2 ^ 32) 32 (2 ^ 100000) ((10 ^ 9) ^ 2 ^ 11) = true := by decide +kernel

theorem bench32_pad : (10 ^ 9) ^ (2 ^ 11 - 1) ≤ 2 ^ 100000 % (10 ^ 9) ^ 2 ^ 11 := by decide +kernel

theorem bench32_low : splitTest (2 ^ 32) 32 (10 ^ 9) (splitExp .w32) 3126
    (2 ^ 100000 % (10 ^ 9) ^ 2 ^ 11) = true := by decide +kernel

theorem bench32_high : splitTest (2 ^ 32) 32 (10 ^ 9) (splitExp .w32) 3126
    (2 ^ 100000 / (10 ^ 9) ^ 2 ^ 11) = true := by decide +kernel

theorem bench64_div : divTest (2 ^ 64) 64 (2 ^ 100000) ((10 ^ 19) ^ 2 ^ 10) = true := by decide +kernel

theorem bench64_pad : (10 ^ 19) ^ (2 ^ 10 - 1) ≤ 2 ^ 100000 % (10 ^ 19) ^ 2 ^ 10 := by decide +kernel

theorem bench64_low : splitTest (2 ^ 64) 64 (10 ^ 19) (splitExp .w64) 1563
    (2 ^ 100000 % (10 ^ 19) ^ 2 ^ 10) = true := by decide +kernel

theorem bench64_high : splitTest (2 ^ 64) 64 (10 ^ 19) (splitExp .w64) 1563
    (2 ^ 100000 / (10 ^ 19) ^ 2 ^ 10) = true := by decide +kernel

theorem bench_size : size (2 ^ 32) (2 ^ 100000) = 3126 ∧ size (2 ^ 64) (2 ^ 100000) = 1563 := by
  decide +kernel

theorem bench_split : splitExp .w32 3126 = 11 ∧ splitExp .w64 1563 = 10 := by decide +kernel

/-! ## The theorems -/

/-- C60: the benchmark `to_decimal 2^100_000` computes what it says in digits of 32 and of 64 bits, in both
build profiles. -/
theorem bench_to_decimal_exact (w : Width) (hw : w = .w32 ∨ w = .w64) :
    Returns (benchToDecimal dbg w 100000) fun z => Rep (DType.dec w).radix z (2 ^ 100000) := by
  rcases hw with rfl | rfl
  · refine benchToDecimal_of dbg .w32 100000 32 (by omega) rfl (by decide) 3126 bench_size.1 (by omega) ?_
    refine splitTest_of (u := 11) ?_ ?_ bench32_div bench32_pad bench32_low bench32_high
    · rw [bench_size.1]; omega
    · rw [bench_size.1]; exact bench_split.1
  · refine benchToDecimal_of dbg .w64 100000 64 (by omega) rfl (by decide) 1563 bench_size.2 (by omega) ?_
    refine splitTest_of (u := 10) ?_ ?_ bench64_div bench64_pad bench64_low bench64_high
    · rw [bench_size.2]; omega
    · rw [bench_size.2]; exact bench_split.2

/-- C60: in digits of 8 bits the program panics for every power of two from `2 ^ 326560` on. -/
theorem bench_to_decimal_panics (e : Nat) (he : 326560 ≤ e) : Panics (benchToDecimal dbg .w8 e) .unwrap := by
  have h1 : Rep (DType.bin .w8).radix ubigOne 1 := by
    refine ⟨?_, canon_singleton.mpr (by decide), by simp [ubigOne]⟩
    intro d hd
    simp only [ubigOne, List.mem_singleton] at hd
    subst hd; decide
  obtain ⟨x, h2, h3⟩ := shl_binary_normalised_partial dbg .w8 _ 1 e h1
  have hx := h3.mpr (by omega)
  have hl : 40821 ≤ x.length := by
    by_contra hc
    have h4 : (1 : Nat) * 2 ^ e < 256 ^ x.length := by rw [← hx.val_eq]; exact val_lt hx.digs
    have h5 : (256 : Nat) ^ x.length = 2 ^ (8 * x.length) := by
      rw [show (256 : Nat) = 2 ^ 8 from rfl, ← pow_mul]
    have h6 : (2 : Nat) ^ (8 * x.length) ≤ 2 ^ e := Nat.pow_le_pow_right (by omega) (by omega)
    omega
  unfold Panics benchToDecimal
  rw [h2]
  exact toDecimal_long_panics dbg x hl

/-- The benchmark `to_decimal 2^1_000_000` in digits of 8 bits. -/
example : Panics (benchToDecimal dbg .w8 1000000) .unwrap := bench_to_decimal_panics dbg _ (by omega)

end Babs.Props
