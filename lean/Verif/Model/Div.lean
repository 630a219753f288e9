import Verif.Model.Mul

/-!
# Division

Models `src/ubig/div.rs`, `src/ubig/div/long.rs` and `src/ubig/div/bz.rs`.
(`div3_carry_assign` of `src/ubig/div.rs` is in `Verif/Model/Mul.lean`, where it is used.)
-/

namespace Babs

/-- `BZ_CUTOFF`, `src/ubig/div.rs:23`. -/
def bzCutoff : Nat := 20

/-- `nr.iter().rev().fold(c, |c, d| f(d, c))`, from the most significant digit, reading only. -/
def readRev {C : Type} (f : Nat → C → R C) : List Nat → C → R C
  | [], c => .ok c
  | d :: ds, c => do f d (← readRev f ds c)

/-- The order `>` on arrays of digits (derived `Ord` on arrays: lexicographic). -/
def arrayGt (a b : List Nat) : Bool := lexCmp a b == .gt

section
variable (D : DigitOps) (dbg : Bool)

/-- `src/ubig/div.rs:27-39`, `rem_digit`. -/
def remDigit (nr : List Nat) (fac : Nat) : R (Res Nat) :=
  if fac = 0 then .ok (.error .divisionByZero)
  else do return .ok (← readRev (fun d c => D.remCarry d fac c) nr 0)

/-- `src/ubig/div.rs:56-69`, `div_assign_digit`.  The result holds the length of the quotient and
the remainder. -/
def divAssignDigit (nr : List Nat) (fac : Nat) : R (List Nat × Res (Nat × Nat)) :=
  if fac = 0 then .ok (nr, .error .divisionByZero)
  else do
    let (nr, rem) ← foldDigitsRev (fun d c => D.divCarry d fac c) nr 0
    return (nr, .ok (← dropLeadingZeros nr nr.length, rem))

/-- `src/ubig/div.rs:102-130`: the body of the loop of `div_assign_digit_pair`.  Takes the digit and
`(rem_low, rem_high)`; returns the quotient digit and the new `(rem_low, rem_high)`. -/
def divPairStep (denLow denHigh digit : Nat) (rem : Nat × Nat) : R (Nat × (Nat × Nat)) := do
  let (remLow, remHigh) := rem
  let (quot, _) ← D.divCarry remLow denHigh remHigh
  let (d1, c1) ← D.mulCarry denLow quot 0
  let (d2, d3) ← D.mulCarry denHigh quot c1
  let (quot, d1, d2) ← (do
    if arrayGt [d3, d2, d1] [remHigh, remLow, digit] then
      let (quot, _) ← D.dec quot
      let (d1, carry) ← D.subCarry d1 denLow false
      let (d2, borrow) ← D.subCarry d2 denHigh carry
      let (d3, _) ← if borrow then D.dec d3 else pure (d3, false)
      if arrayGt [d3, d2, d1] [remHigh, remLow, digit] then
        let (quot, _) ← D.dec quot
        let (d1, carry) ← D.subCarry d1 denLow false
        let (d2, _) ← D.subCarry d2 denHigh carry
        return (quot, d1, d2)
      else return (quot, d1, d2)
    else return (quot, d1, d2))
  let (digit, carry) ← D.subCarry digit d1 false
  let (remLow, _) ← D.subCarry remLow d2 carry
  return (quot, (digit, remLow))

/-- `src/ubig/div.rs:74-144`, `div_assign_digit_pair`.  The result holds the length of the quotient
and the low and high digit of the remainder. -/
def divAssignDigitPair (nr : List Nat) (facLow facHigh : Nat) :
    R (List Nat × Res (Nat × Nat × Nat)) := do
  if facHigh = 0 then
    let (nr, r) ← divAssignDigit D nr facLow
    match r with
    | .error e => return (nr, .error e)
    | .ok (nquot, rem) => return (nr, .ok (nquot, rem, 0))
  else
    match nr with
    | [] => return ([], .ok (0, 0, 0))
    | [d] => return ([0], .ok (0, d, 0))
    | nr =>
      let n := nr.length
      let shift ← D.maxShift facHigh
      let (nr, denLow, denHigh, remHigh) ← (do
        if 0 < shift then
          let (denLow, carry) ← D.shlCarry facLow shift 0
          let (denHigh, _) ← D.shlCarry facHigh shift carry
          let (nr, remHigh) ← shlWithin D nr shift 0
          return (nr, denLow, denHigh, remHigh)
        else return (nr, facLow, facHigh, 0))
      let remLow ← getR nr (n - 1)
      let nr ← setR nr (n - 1) 0
      let (nr, (remLow, remHigh)) ← onSlice nr 0 (n - 1)
        (fun s => foldDigitsRev (divPairStep D denLow denHigh) s (remLow, remHigh))
      let (remLow, remHigh) ← (do
        if 0 < shift then
          let (remHigh, carry) ← D.shrCarry remHigh shift 0
          let (remLow, _) ← D.shrCarry remLow shift carry
          return (remLow, remHigh)
        else return (remLow, remHigh))
      return (nr, .ok (← dropLeadingZeros nr n, remLow, remHigh))

/-! ## Schoolbook division -/

/-- `src/ubig/div/long.rs:20-23`, `calc_div_long_work_size`. -/
def divLongWorkSize (nden : Nat) : Nat := nden + 1

/-- The condition of `src/ubig/div/long.rs:85-86` and `90-91`. -/
def firstTooLarge (num : List Nat) (numMsd : Nat) (nden : Nat) (qden : List Nat) : R Bool := do
  let top ← getR qden nden
  if numMsd < top then return true
  else if top = numMsd then
    return ltBig (← slice num (num.length - nden) num.length) (← slice qden 0 nden)
  else return false

/-- `src/ubig/div/long.rs:73-100`: the first quotient digit.  Returns
`(num, quot, qden, nquot)`. -/
def longFirst (num : List Nat) (numMsd : Nat) (den : List Nat) (msd : Nat) (quot qden : List Nat) :
    R (List Nat × List Nat × List Nat × Nat) := do
  let nnum := num.length
  let nden := den.length
  let nquot := nnum - nden + 1
  let (q, _) ← D.divCarry (← getR num (nnum - 1)) msd numMsd
  if q = 0 then return (num, quot, qden, nquot - 1)
  else
    let qden ← mulDigitInto D dbg den q qden
    let (q, qden) ← (do
      if ← firstTooLarge num numMsd nden qden then
        let (q, _) ← D.dec q
        let (qden, _) ← subAssignBig D qden den
        if ← firstTooLarge num numMsd nden qden then
          let (q, _) ← D.dec q
          let (qden, _) ← subAssignBig D qden den
          return (q, qden)
        else return (q, qden)
      else return (q, qden))
    let (num, _) ← onSlice num (nnum - nden) nnum
      (fun s => do subAssignBig D s (← slice qden 0 nden))
    let quot ← setR quot (nquot - 1) q
    return (num, quot, qden, nquot)

/-- `src/ubig/div/long.rs:105-124`: one of the other quotient digits.  Returns
`(num, quot, qden)`. -/
def longStep (den : List Nat) (msd iq : Nat) (num quot qden : List Nat) :
    R (List Nat × List Nat × List Nat) := do
  let nden := den.length
  let (q, _) ← D.divCarry (← getR num (iq + nden - 1)) msd (← getR num (iq + nden))
  let (num, qden, q) ← (do
    if q = 0 then return (num, qden, q)
    else
      let qden ← mulDigitInto D dbg den q qden
      let (q, qden) ← (do
        if ltBig (← slice num iq (iq + nden + 1)) qden then
          let (q, _) ← D.dec q
          let (qden, _) ← subAssignBig D qden den
          if ltBig (← slice num iq (iq + nden + 1)) qden then
            let (q, _) ← D.dec q
            let (qden, _) ← subAssignBig D qden den
            return (q, qden)
          else return (q, qden)
        else return (q, qden))
      let (num, _) ← onSlice num iq (iq + nden + 1) (fun s => subAssignBig D s qden)
      return (num, qden, q))
  let quot ← setR quot iq q
  return (num, quot, qden)

/-- `src/ubig/div/long.rs:103-125`: the loop over `iq` in `(0..nnum-nden).rev()`; the argument is
the number of quotient digits still to do. -/
def longLoop (den : List Nat) (msd : Nat) :
    Nat → List Nat → List Nat → List Nat → R (List Nat × List Nat × List Nat)
  | 0, num, quot, qden => .ok (num, quot, qden)
  | iq + 1, num, quot, qden => do
    let (num, quot, qden) ← longStep D dbg den msd iq num quot qden
    longLoop den msd iq num quot qden

/-- `src/ubig/div/long.rs:62-131`, `div_big_long_scaled`.  Returns
`(num, quot, work, nquot, nrem)`. -/
def divBigLongScaled (num : List Nat) (numMsd : Nat) (den quot work : List Nat) :
    R (List Nat × List Nat × List Nat × Nat × Nat) := do
  let nnum := num.length
  let nden := den.length
  let msd ← getR den (nden - 1)
  debugAssertR dbg (decide ((← D.maxShift msd) = 0))
  let (qden, rest) ← splitAtR work (nden + 1)
  let (num, quot, qden, nquot) ← longFirst D dbg num numMsd den msd quot qden
  let (num, quot, qden) ← longLoop D dbg den msd (nnum - nden) num quot qden
  let nquot ← dropLeadingZeros quot nquot
  let nrem ← dropLeadingZeros num nden
  return (num, quot, qden ++ rest, nquot, nrem)

/-- `src/ubig/div/long.rs:30-60`, `div_big_long`. -/
def divBigLong (num den quot work : List Nat) :
    R (List Nat × List Nat × List Nat × Nat × Nat) := do
  let nnum := num.length
  let nden := den.length
  debugAssertR dbg (decide (2 < nden))
  debugAssertR dbg (decide (nden ≤ nnum))
  debugAssertR dbg (decide (nnum - nden + 1 ≤ quot.length) ||
    (decide (nnum - nden ≤ quot.length) && ltBig (← slice num (nnum - nden) nnum) den))
  debugAssertR dbg (decide (divLongWorkSize nden ≤ work.length))
  let shift ← D.maxShift (← getR den (nden - 1))
  if shift = 0 then divBigLongScaled D dbg num 0 den quot work
  else
    let (scaledDen, _) ← shlWithin D den shift 0
    let (num, numMsd) ← shlWithin D num shift 0
    let (num, quot, work, nquot, nrem) ← divBigLongScaled D dbg num numMsd scaledDen quot work
    let (num, nrem, _) ← onSlice num 0 nrem (fun s => shrWithin D s shift 0)
    return (num, quot, work, nquot, nrem)

/-! ## Burnikel-Ziegler division -/

/-- `src/ubig/div/bz.rs:18-24`, `block_size`.  Number of bits of `(nden-1) / 20`, for `nden ≥ 1`. -/
def blockSize (nden : Nat) : Nat :=
  let k := (nden - 1) / bzCutoff
  let mshift := if k = 0 then 0 else Nat.log2 k + 1
  let m := 2 ^ mshift
  let j := (nden + m - 1) / m
  j * m

/-- `src/ubig/div/bz.rs:26-30`, `calc_div_bz_work_size`. -/
def divBzWorkSize (nden : Nat) : Nat :=
  let n := blockSize nden
  3 * n / 2 + 1 + mulWorkSize (n / 2)

/-- The type of a division `f(num, den, quot, work)`, returning `(num, quot, work, nquot, nrem)`. -/
abbrev DivFn := List Nat → List Nat → List Nat → List Nat →
  R (List Nat × List Nat × List Nat × Nat × Nat)

/-- The type of `div_big_with_work`, whose result may be an error. -/
abbrev DivResFn := List Nat → List Nat → List Nat → List Nat →
  R (List Nat × List Nat × List Nat × Res (Nat × Nat))

/-- `src/ubig/div/bz.rs:128-139`: lower the quotient while the remainder is negative; `k` is the
number of times this is tried (2).  Returns `(num, quot, nquot)`. -/
def bzCorrect (den qden : List Nat) : Nat → List Nat → List Nat → Nat →
    R (List Nat × List Nat × Nat)
  | 0, num, quot, nquot => .ok (num, quot, nquot)
  | k + 1, num, quot, nquot => do
    let nnum ← dropLeadingZeros num num.length
    if ltBig (← slice num 0 nnum) qden then
      let (num, _) ← addAssignBig D num den
      let (quot, r) ← onSlice quot 0 nquot (decAssign D)
      bzCorrect den qden k num quot (← unwrapR r)
    else return (num, quot, nquot)

/-- `src/ubig/div/bz.rs:97-143`, `div_big_bz_3n_2n`; `div2n` is the recursive call
`div_big_bz_2n_n`. -/
def divBz3n2n (div2n : DivFn) (num den quot work : List Nat) :
    R (List Nat × List Nat × List Nat × Nat × Nat) := do
  let n := den.length / 2
  debugAssertR dbg (decide (num.length = 3 * n))
  debugAssertR dbg (decide (den.length = 2 * n))
  debugAssertR dbg (decide (quot.length = n))
  debugAssertR dbg (decide ((← D.maxShift (← getR den (2 * n - 1))) = 0))
  debugAssertR dbg (decide (3 * n + 1 ≤ work.length))
  let (b2, b1) ← splitAtR den n
  let (num3, a12) ← splitAtR num n
  let (a12, quot, work, nquot) ← (do
    if ltBig (← slice a12 n a12.length) b1 then
      let (a12, quot, work, nquot, _) ← div2n a12 b1 quot work
      return (a12, quot, work, nquot)
    else
      let quot := fillWith D.max quot
      let (a12, _) ← onSlice a12 n a12.length (fun s => subAssignBig D s b1)
      let (a12, _) ← addAssignBig D a12 b1
      let _ ← dropLeadingZeros a12 a12.length
      return (a12, quot, work, n))
  let num := num3 ++ a12
  let nb2 ← dropLeadingZeros b2 b2.length
  let (qden, mulWork) ← splitAtR work (3 * n + 1)
  let (qden, mulWork, nqden) ← mulBigIntoWithWork D dbg (mulFuel (nquot + nb2))
    (← slice quot 0 nquot) (← slice b2 0 nb2) qden mulWork
  let work := qden ++ mulWork
  debugAssertR dbg (decide (nqden ≤ 3 * n))
  let qden ← slice qden 0 nqden
  let (num, quot, nquot) ← bzCorrect D den qden 2 num quot nquot
  let (num, r) ← subAssignBig D num qden
  return (num, quot, work, nquot, ← unwrapR r)

/-- `src/ubig/div/bz.rs:70-95`, `div_big_bz_2n_n`; `leaf` is `div_big_with_work`, called for less
than `BZ_CUTOFF` digits.  The recursion is on fuel. -/
def divBz2n1n (leaf : DivResFn) : Nat → DivFn
  | 0, _, _, _, _ => .error .noFuel
  | fuel + 1, num, den, quot, work => do
    let n := den.length
    debugAssertR dbg (decide (n < bzCutoff ∨ n % 2 = 0))
    debugAssertR dbg (decide (num.length = 2 * n))
    debugAssertR dbg (decide (quot.length = n))
    debugAssertR dbg (decide ((← D.maxShift (← getR den (n - 1))) = 0))
    if n < bzCutoff then
      let nnum ← dropLeadingZeros num num.length
      let (num', quot, work, r) ← leaf (← slice num 0 nnum) den quot work
      let (nquot, nrem) ← unwrapR r
      return (num' ++ num.drop nnum, quot, work, nquot, nrem)
    else
      let hn := n / 2
      let (numHigh, quotHigh, work, _, _) ← divBz3n2n D dbg (divBz2n1n leaf fuel)
        (← slice num hn num.length) den (← slice quot hn quot.length) work
      let num := num.take hn ++ numHigh
      let quot := quot.take hn ++ quotHigh
      let (numLow, quotLow, work, _, _) ← divBz3n2n D dbg (divBz2n1n leaf fuel)
        (← slice num 0 (3 * hn)) den (← slice quot 0 hn) work
      let num := numLow ++ num.drop (3 * hn)
      let quot := quotLow ++ quot.drop hn
      return (num, quot, work, ← dropLeadingZeros quot n, ← dropLeadingZeros num n)

/-- `src/ubig/div/bz.rs:56-59`: the loop over the blocks, `i` in `(0..t-1).rev()`; the argument is
the number of blocks still to do. -/
def bzBlocks (div2n : DivFn) (sden : List Nat) (n : Nat) :
    Nat → List Nat → List Nat → List Nat → R (List Nat × List Nat × List Nat)
  | 0, snum, q, work => .ok (snum, q, work)
  | i + 1, snum, q, work => do
    let (s, qs, work, _, _) ← div2n (← slice snum (i * n) ((i + 2) * n)) sden
      (← slice q (i * n) ((i + 1) * n)) work
    let snum := snum.take (i * n) ++ s ++ snum.drop ((i + 2) * n)
    let q := q.take (i * n) ++ qs ++ q.drop ((i + 1) * n)
    bzBlocks div2n sden n i snum q work

/-- `src/ubig/div/bz.rs:32-68`, `div_big_bz`. -/
def divBigBz (leaf : DivResFn) (num den quot work : List Nat) :
    R (List Nat × List Nat × List Nat × Nat × Nat) := do
  let nnum := num.length
  let nden := den.length
  debugAssertR dbg (decide (2 < nden))
  debugAssertR dbg (!ltBig num den)
  debugAssertR dbg (decide (nnum - nden + 1 ≤ quot.length))
  debugAssertR dbg (decide (divBzWorkSize nden ≤ work.length))
  let n := blockSize nden
  let sden ← copyInto (List.replicate n 0) (n - nden) n den
  let shift ← D.maxShift (← getR sden (n - 1))
  let (sden, _) ← shlWithin D sden shift 0
  let t := 2 + (nnum - nden) / n
  let snum ← copyInto (List.replicate (t * n) 0) (n - nden) (n - nden + nnum) num
  let (snum, _) ← onSlice snum (n - nden) (n - nden + nnum + 1) (fun s => shlWithin D s shift 0)
  let q := List.replicate ((t - 1) * n) 0
  let (snum, q, work) ← bzBlocks (divBz2n1n D dbg leaf (n + 1)) sden n (t - 1) snum q work
  let (snum, nrem, _) ← onSlice snum (n - nden) n (fun s => shrWithin D s shift 0)
  let nquot ← dropLeadingZeros q q.length
  let quot ← copyInto quot 0 nquot (← slice q 0 nquot)
  let num ← copyInto num 0 nrem (← slice snum (n - nden) (n - nden + nrem))
  return (num, quot, work, nquot, nrem)

/-! ## Dispatch -/

/-- `src/ubig/div.rs:176-258`, `div_big_with_work`, with the function for large denominators as a
parameter (`bz`). -/
def divBigWithWorkGen (bz : DivFn) (num den quot work : List Nat) :
    R (List Nat × List Nat × List Nat × Res (Nat × Nat)) := do
  let nnum := num.length
  let nden := den.length
  if den = [] then return (num, quot, work, .error .divisionByZero)
  else if ltBig num den then return (num, quot, work, .ok (0, nnum))
  else if ← (do
      if quot.length < nnum - nden + 1 then
        if quot.length < nnum - nden then return true
        else return !ltBig (← slice num (nnum - nden) nnum) den
      else return false) then
    return (num, quot, work, .error .noSpace)
  else if nden = 1 then
    let (num, r) ← divAssignDigit D num (← getR den 0)
    match r with
    | .error e => return (num, quot, work, .error e)
    | .ok (nquot, rem) =>
      if quot.length < nquot then return (num, quot, work, .error .noSpace)
      else
        let quot ← copyInto quot 0 nquot (← slice num 0 nquot)
        let num := fillWith 0 num
        if rem = 0 then return (num, quot, work, .ok (nquot, 0))
        else return (← setR num 0 rem, quot, work, .ok (nquot, 1))
  else if nden = 2 then
    let (num, r) ← divAssignDigitPair D num (← getR den 0) (← getR den 1)
    match r with
    | .error e => return (num, quot, work, .error e)
    | .ok (nquot, remLow, remHigh) =>
      if quot.length < nquot then return (num, quot, work, .error .noSpace)
      else
        let quot ← copyInto quot 0 nquot (← slice num 0 nquot)
        let num := fillWith 0 num
        if remHigh = 0 then
          if remLow = 0 then return (num, quot, work, .ok (nquot, 0))
          else return (← setR num 0 remLow, quot, work, .ok (nquot, 1))
        else
          let num ← setR num 0 remLow
          return (← setR num 1 remHigh, quot, work, .ok (nquot, 2))
  else if nden < bzCutoff then
    debugAssertR dbg (decide (divLongWorkSize nden ≤ work.length))
    let (num, quot, work, nquot, nrem) ← divBigLong D dbg num den quot work
    return (num, quot, work, .ok (nquot, nrem))
  else
    debugAssertR dbg (decide (divBzWorkSize nden ≤ work.length))
    let (num, quot, work, nquot, nrem) ← bz num den quot work
    return (num, quot, work, .ok (nquot, nrem))

/-- `div_big_with_work` as called from the Burnikel-Ziegler division, where `nden < BZ_CUTOFF`: the
branch for large denominators cannot be taken (`Proofs/DivBz.lean`), its value here is `noFuel`. -/
def divBigLeaf : DivResFn :=
  divBigWithWorkGen D dbg (fun _ _ _ _ => .error .noFuel)

/-- `src/ubig/div.rs:176-258`, `div_big_with_work`. -/
def divBigWithWork : DivResFn :=
  divBigWithWorkGen D dbg (divBigBz D dbg (divBigLeaf D dbg))

/-- `src/ubig/div.rs:150-170`, `div_big`.  Returns `(num, quot, result)`. -/
def divBig (num den quot : List Nat) : R (List Nat × List Nat × Res (Nat × Nat)) := do
  let nden := den.length
  let work :=
    if nden ≤ 2 || ltBig num den then []
    else if nden < bzCutoff then List.replicate bzCutoff 0
    else List.replicate (divBzWorkSize nden) 0
  let (num, quot, _, r) ← divBigWithWork D dbg num den quot work
  return (num, quot, r)

end

end Babs
