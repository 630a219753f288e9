import Verif.SpecToom
import Mathlib.Data.Nat.Fib.Basic

/-!
# Specification: which Fibonacci numbers the program of `benches/fibo.rs` fails to compute

The program goes from the Fibonacci numbers at `n` and `n + 1` to those at `2 n` and `2 n + 1`, or to
those at `2 n + 1` and `2 n + 2`, with two products each time, and makes one last product.
-/

namespace Babs

/-- The step that ends with the Fibonacci numbers at `k` and `k + 1` panics: one of its products does. -/
def fibStepPanics (b k : Nat) : Bool :=
  let f := Nat.fib (k / 2)
  let g := Nat.fib (k / 2 + 1)
  let s := if k % 2 = 0 then 2 * g - f else 2 * f + g
  productPanics b f s || productPanics b g s

/-- The last product, which gives the Fibonacci number at `k` up to 1, panics. -/
def fibLastPanics (b k : Nat) : Bool :=
  let f := Nat.fib ((k - 1) / 2)
  let g := Nat.fib ((k - 1) / 2 + 1)
  productPanics b (if k % 2 = 0 then 2 * f + g else 2 * g - f) g

/-- The computation of the `k`-th Fibonacci number panics: one of the steps does, whose indices are
obtained by repeated halving, or the last product. -/
def fibPanics (b k : Nat) : Prop :=
  (∃ i, fibStepPanics b ((k - 1) / 2 ^ (i + 1)) = true) ∨ fibLastPanics b k = true

end Babs
