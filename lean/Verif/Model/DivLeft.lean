import Verif.Model.UBig

/-!
# What a division that panics leaves behind

`x /= y` works on the quotient in place, `x %= y` on the dividend.  The functions here follow the division
up to its panics and record what the two buffers hold at that point.  They model the same code as
`Model/Div.lean`, and `Props/DivLeft.lean` shows that they panic only where that does.
-/

namespace Babs

/-- A computation that works in place on the dividend and on the quotient.  If it panics, they hold the
digits recorded; `none` means that the panic is within a routine whose intermediate states are not
modelled. -/
abbrev Traced := Except (Panic × Option (List Nat × List Nat))

/-- A step that does not touch the dividend `num` and the quotient `quot`. -/
def leaving {α : Type} (num quot : List Nat) (r : R α) : Traced α :=
  match r with
  | .ok a => .ok a
  | .error p => .error (p, some (num, quot))

/-- A step whose intermediate states are not modelled. -/
def losing {α : Type} (r : R α) : Traced α :=
  match r with
  | .ok a => .ok a
  | .error p => .error (p, none)

section

variable (D : DigitOps) (dbg : Bool)

/-- `src/ubig/div.rs:77-105`, the divisor of two digits: up to the first quotient digit of
`div_assign_digit_pair`, which works on the dividend in place.  The quotient is not touched. -/
def pairLeft (num den quot : List Nat) : Traced Unit := do
  let facLow ← leaving num quot (getR den 0)
  let facHigh ← leaving num quot (getR den 1)
  if facHigh = 0 ∨ num.length < 2 then return ()
  let shift ← leaving num quot (D.maxShift facHigh)
  let (denHigh, num, remHigh) ← (do
    if 0 < shift then
      let (_, carry) ← leaving num quot (D.shlCarry facLow shift 0)
      let (denHigh, _) ← leaving num quot (D.shlCarry facHigh shift carry)
      let (num, remHigh) ← losing (shlWithin D num shift 0)
      return (denHigh, num, remHigh)
    else return (facHigh, num, 0))
  let remLow ← leaving num quot (getR num (num.length - 1))
  let num ← leaving num quot (setR num (num.length - 1) 0)
  let _ ← leaving num quot (D.divCarry remLow denHigh remHigh)
  return ()

/-- `src/ubig/div/long.rs:41-56` and `67-77`, the divisor of 3 to 19 digits: up to the first quotient digit
of `div_big_long_scaled`.  The dividend is scaled in place. -/
def longLeft (num den quot : List Nat) : Traced Unit := do
  let shift ← leaving num quot (do D.maxShift (← getR den (den.length - 1)))
  let (sden, _) ← leaving num quot (shlWithin D den shift 0)
  let (num, numMsd) ← losing (shlWithin D num shift 0)
  leaving num quot (do
    let msd ← getR sden (den.length - 1)
    debugAssertR dbg (decide ((← D.maxShift msd) = 0))
    let _ ← D.divCarry (← getR num (num.length - 1)) msd numMsd)

/-- `src/ubig/div/bz.rs:32-68`, the divisor of 20 digits or more: `div_big_bz` works on copies, and writes to
the quotient and to the dividend at its end. -/
def bzLeft (leaf : DivResFn) (num den quot work : List Nat) : Traced Unit := do
  let nnum := num.length
  let nden := den.length
  let n := blockSize nden
  let (snum, nrem, q, nquot) ← leaving num quot (do
    debugAssertR dbg (decide (2 < nden))
    debugAssertR dbg (!ltBig num den)
    debugAssertR dbg (decide (nnum - nden + 1 ≤ quot.length))
    debugAssertR dbg (decide (divBzWorkSize nden ≤ work.length))
    let sden ← copyInto (List.replicate n 0) (n - nden) n den
    let shift ← D.maxShift (← getR sden (n - 1))
    let (sden, _) ← shlWithin D sden shift 0
    let t := 2 + (nnum - nden) / n
    let snum ← copyInto (List.replicate (t * n) 0) (n - nden) (n - nden + nnum) num
    let (snum, _) ← onSlice snum (n - nden) (n - nden + nnum + 1) (fun s => shlWithin D s shift 0)
    let q := List.replicate ((t - 1) * n) 0
    let (snum, q, _) ← bzBlocks (divBz2n1n D dbg leaf (n + 1)) sden n (t - 1) snum q work
    let (snum, nrem, _) ← onSlice snum (n - nden) n (fun s => shrWithin D s shift 0)
    return (snum, nrem, q, ← dropLeadingZeros q q.length))
  let quot' ← leaving num quot (do copyInto quot 0 nquot (← slice q 0 nquot))
  let _ ← leaving num quot' (do copyInto num 0 nrem (← slice snum (n - nden) (n - nden + nrem)))
  return ()

/-- `src/ubig.rs:228-248` and `261-273` with `src/ubig/div.rs:150-258`: the division of `x` by `y` in
`div_assign_big` and `rem_assign_big`, with a quotient of zeros.  It returns if the division returns, and
also where the panic is at a point that is not followed here. -/
def divLeft (x y : List Nat) : Traced Unit :=
  let quot := List.replicate (x.length - y.length + 1) 0
  if x.length < y.length ∨ y.length < 2 ∨ ltBig x y then .ok ()
  else if y.length = 2 then pairLeft D x y quot
  else if y.length < bzCutoff then longLeft D dbg x y quot
  else do
    leaving x quot (debugAssertR dbg (decide (divBzWorkSize y.length ≤
      (List.replicate (divBzWorkSize y.length) 0).length)))
    bzLeft D dbg (divBigLeaf D dbg) x y quot (List.replicate (divBzWorkSize y.length) 0)

/-- The dividend and the quotient that a panic leaves behind, if they are known. -/
def leftBehind (r : Traced Unit) : Option (List Nat × List Nat) :=
  match r with
  | .ok () => none
  | .error (_, l) => l

end

end Babs
