import Verif.Model.UBig

/-!
# The Fibonacci program of `benches/fibo.rs`

The program is generic in the number type; the crate runs it with four of the eight types.
-/

namespace Babs

variable (t : DType) (dbg : Bool)

/-- `benches/fibo.rs:32-57`, `fibonacci_work`.  The recursion is on fuel. -/
def fibWork : Nat → Nat → R (List Nat × List Nat)
  | 0, _ => .error .noFuel
  | fuel + 1, k => do
    let one := ubigOne
    if k = 0 then return (ubigZero, one)
    else
      let (a, b) ← fibWork fuel (k / 2)
      if k % 2 = 0 then
        let s ← UBig.shl t dbg b 1
        let s ← UBig.sub t dbg s a
        if k % 4 = 0 then
          let p ← UBig.mul t dbg a s
          let q ← UBig.mul t dbg b s
          return (p, ← UBig.sub t dbg q one)
        else
          let p ← UBig.mul t dbg a s
          let q ← UBig.mul t dbg b s
          return (p, ← UBig.add t dbg q one)
      else
        let s ← UBig.shl t dbg a 1
        let s ← UBig.add t dbg s b
        if k % 4 = 1 then
          let p ← UBig.mul t dbg a s
          let p ← UBig.add t dbg p one
          return (p, ← UBig.mul t dbg b s)
        else
          let p ← UBig.mul t dbg a s
          let p ← UBig.sub t dbg p one
          return (p, ← UBig.mul t dbg b s)

/-- `benches/fibo.rs:59-82`, `fibonacci`. -/
def fibonacci (k : Nat) : R (List Nat) := do
  if k = 0 then return ubigZero
  else if k = 1 then return ubigOne
  else
    let (a, b) ← fibWork t dbg (k + 1) ((k - 1) / 2)
    if k % 2 = 0 then
      let s ← UBig.shl t dbg a 1
      let s ← UBig.add t dbg s b
      UBig.mul t dbg s b
    else
      let s ← UBig.shl t dbg b 1
      let s ← UBig.sub t dbg s a
      let s ← UBig.mul t dbg s b
      if k % 4 = 1 then UBig.sub t dbg s ubigOne
      else UBig.add t dbg s ubigOne

end Babs
