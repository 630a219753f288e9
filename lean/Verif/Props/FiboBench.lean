import Verif.Props.FiboExact

/-!
# C57: the Fibonacci benchmark
-/

namespace Babs.Props

variable (t : DType) (dbg : Bool)

set_option maxHeartbeats 0 in
theorem fib_eval_bin_w8 : fibPanicsEval (DType.bin .w8).radix 16 100000 = false := by
  decide +kernel

set_option maxHeartbeats 0 in
theorem fib_eval_bin_w16 : fibPanicsEval (DType.bin .w16).radix 16 100000 = false := by
  decide +kernel

set_option maxHeartbeats 0 in
theorem fib_eval_bin_w32 : fibPanicsEval (DType.bin .w32).radix 16 100000 = false := by
  decide +kernel

set_option maxHeartbeats 0 in
theorem fib_eval_bin_w64 : fibPanicsEval (DType.bin .w64).radix 16 100000 = false := by
  decide +kernel

set_option maxHeartbeats 0 in
theorem fib_eval_dec_w8 : fibPanicsEval (DType.dec .w8).radix 16 100000 = false := by
  decide +kernel

set_option maxHeartbeats 0 in
theorem fib_eval_dec_w16 : fibPanicsEval (DType.dec .w16).radix 16 100000 = false := by
  decide +kernel

set_option maxHeartbeats 0 in
theorem fib_eval_dec_w32 : fibPanicsEval (DType.dec .w32).radix 16 100000 = false := by
  decide +kernel

set_option maxHeartbeats 0 in
theorem fib_eval_dec_w64 : fibPanicsEval (DType.dec .w64).radix 16 100000 = false := by
  decide +kernel

/-- C57: the benchmark `F(100_000)` computes what it says, in the four types of the benchmark and the four
others, and in both build profiles: the program returns the Fibonacci number without a panic. -/
theorem fibonacci_benchmark :
    Returns (fibonacci t dbg 100000) fun z => Rep t.radix z (Nat.fib 100000) := by
  have hB := (ops_lawful t true).base
  have h : fibPanicsEval t.radix 16 100000 = false := by
    rcases t with w | w <;> cases w
    exacts [fib_eval_bin_w8, fib_eval_bin_w16, fib_eval_bin_w32, fib_eval_bin_w64, fib_eval_dec_w8,
      fib_eval_dec_w16, fib_eval_dec_w32, fib_eval_dec_w64]
  rcases fibonacci_panics_exactly t dbg 100000 with ⟨h1, -⟩ | ⟨-, h1⟩
  · rw [← fibPanicsEval_iff hB 16 _ (by norm_num), h] at h1
    cases h1
  · exact h1

end Babs.Props
