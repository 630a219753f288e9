import Verif.Model.AddSub

/-!
# Multiplication and squaring

Models `src/ubig/mul.rs` and `src/ubig/mul/{long,karatsuba,toom3}.rs`, and `div3_carry_assign` of
`src/ubig/div.rs`, with the result and scratch buffers as real buffers.
-/

namespace Babs

/-- `KARATSUBA_CUTOFF`, `src/ubig/mul.rs:22`. -/
def karatsubaCutoff : Nat := 20
/-- `TOOM3_CUTOFF`, `src/ubig/mul.rs:24`. -/
def toom3Cutoff : Nat := 128

/-- The loop of `calc_karatsuba_work_size`, with fuel. -/
def karatsubaWorkGo : Nat → Nat → Nat
  | 0, _ => 0
  | fuel + 1, nn =>
    if karatsubaCutoff ≤ nn then 2 * ((nn + 1) / 2) + karatsubaWorkGo fuel ((nn + 1) / 2) else 0

/-- `src/ubig/mul/karatsuba.rs:20-31`, `calc_karatsuba_work_size`.  The fuel `n` is enough: the
loop variable shrinks in every round (`Proofs/WorkSize.lean`). -/
def karatsubaWorkSize (n : Nat) : Nat := karatsubaWorkGo n n

/-- The loop of `calc_toom3_work_size`, with fuel. -/
def toom3WorkGo : Nat → Nat → Nat
  | 0, nn => karatsubaWorkSize nn
  | fuel + 1, nn =>
    if toom3Cutoff ≤ nn then 6 * ((nn + 2) / 3) + 10 + toom3WorkGo fuel ((nn + 2) / 3 + 2)
    else karatsubaWorkSize nn

/-- `src/ubig/mul/toom3.rs:20-32`, `calc_toom3_work_size`.  The fuel `n` is enough, as above. -/
def toom3WorkSize (n : Nat) : Nat := toom3WorkGo n n

/-- `src/ubig/mul.rs:97-111`, `calc_mul_work_size`. -/
def mulWorkSize (n : Nat) : Nat :=
  if toom3Cutoff ≤ n then toom3WorkSize n
  else if karatsubaCutoff ≤ n then karatsubaWorkSize n
  else 0

section
variable (D : DigitOps) (dbg : Bool)

/-- `src/ubig/mul.rs:28-32`, `double_carry_assign`. -/
def doubleCarryAssign (nr : List Nat) (carry : Bool) : R (List Nat × Bool) :=
  foldDigits D.doubleCarry nr carry

/-- `src/ubig/mul.rs:37-41`, `mul_add_assign_digit`. -/
def mulAddAssignDigit (nr : List Nat) (fac off : Nat) : R (List Nat × Nat) :=
  foldDigits (fun d c => D.mulCarry d fac c) nr off

/-- The loop of `mul_digit_into`: multiply into the front of `product`. -/
def mulDigitGo (fac : Nat) : List Nat → List Nat → Nat → R (List Nat × Nat)
  | d :: nr, _ :: product, c => do
    let (pd, c) ← D.mulCarry d fac c
    let (product', c) ← mulDigitGo fac nr product c
    return (pd :: product', c)
  | _, product, c => .ok (product, c)

/-- `src/ubig/mul.rs:46-54`, `mul_digit_into`. -/
def mulDigitInto (nr : List Nat) (fac : Nat) (product : List Nat) : R (List Nat) := do
  debugAssertR dbg (decide (nr.length + 1 ≤ product.length))
  let (product, c) ← mulDigitGo D fac nr product 0
  setR product nr.length c

/-- The loop over `nr[1..]` of `mul_pair_add_assign_digit`, with its loop variables
`prev`, `carry0`, `add_one`.  Returns the digits and the final `prev`, `carry0`, `add_one`. -/
def mulPairGo (facLow facHigh : Nat) :
    List Nat → Nat → Nat → Bool → R (List Nat × Nat × Nat × Bool)
  | [], prev, carry0, addOne => .ok ([], prev, carry0, addOne)
  | d :: ds, prev, carry0, addOne => do
    let newPrev := d
    let (prev, carry0) ← D.mulCarry prev facHigh carry0
    let (carry0, addOne) ← if addOne then D.inc carry0 else pure (carry0, addOne)
    let (d', carry1) ← D.mulCarry d facLow prev
    let (carry0, c) ← D.addCarry carry0 carry1 false
    let addOne := addOne || c
    let (ds', r) ← mulPairGo facLow facHigh ds newPrev carry0 addOne
    return (d' :: ds', r)

/-- `src/ubig/mul.rs:59-93`, `mul_pair_add_assign_digit`. -/
def mulPairAddAssignDigit (nr : List Nat) (facLow facHigh offset : Nat) :
    R (List Nat × Nat × Nat) :=
  match nr with
  | [] => .ok ([], offset, 0)
  | d :: ds => do
    let prev := d
    let (d', carry0) ← D.mulCarry d facLow offset
    let (ds', prev, carry0, addOne) ← mulPairGo D facLow facHigh ds prev carry0 false
    let (prev, carry0) ← D.mulCarry prev facHigh carry0
    let (carry0, _) ← if addOne then D.inc carry0 else pure (carry0, addOne)
    return (d' :: ds', prev, carry0)

/-- `src/ubig/div.rs:45-51`, `div3_carry_assign`.  Returns `(nr, length, remainder)`. -/
def div3CarryAssign (nr : List Nat) (carry : Nat) : R (List Nat × Nat × Nat) := do
  let (nr, rem) ← foldDigitsRev D.div3Carry nr carry
  return (nr, ← dropLeadingZeros nr nr.length, rem)

/-! ## Long multiplication -/

/-- One row: `nr0.iter().zip(result).fold(carry, |c, (d0, rd)| rd.add_prod_carry_assign(d0, d1, c))`. -/
def addProdRow (d1 : Nat) : List Nat → List Nat → Nat → R (List Nat × Nat)
  | d0 :: nr0, rd :: result, c => do
    let (rd', c) ← D.addProd rd d0 d1 c
    let (result', c) ← addProdRow d1 nr0 result c
    return (rd' :: result', c)
  | _, result, c => .ok (result, c)

/-- The loop over `nr1` of `mul_big_long_into`. -/
def mulLongGo (nr0 : List Nat) : List Nat → Nat → List Nat → R (List Nat)
  | [], _, result => .ok result
  | d1 :: nr1, offset, result => do
    let (result, carry) ←
      onSlice result offset (offset + nr0.length) (fun s => addProdRow D d1 nr0 s 0)
    let result ← setR result (offset + nr0.length) carry
    mulLongGo nr0 nr1 (offset + 1) result

/-- `src/ubig/mul/long.rs:21-38`, `mul_big_long_into`.  Returns `(result, length)`. -/
def mulBigLongInto (nr0 nr1 result : List Nat) : R (List Nat × Nat) := do
  let nd := nr0.length + nr1.length
  let (result, _) ← onSlice result 0 nd (fun s => .ok (fillWith 0 s, ()))
  let result ← mulLongGo D nr0 nr1 0 result
  return (result, ← dropLeadingZeros result nd)

/-- The first loop of `square_long_into`: products of different digits.
`done` is `nr0[..n1]`, the list argument `nr0[n1..]`. -/
def squareLongGo : List Nat → List Nat → List Nat → R (List Nat)
  | _, [], square => .ok square
  | done, d1 :: rest, square => do
    let n1 := done.length
    let (square, carry) ← onSlice square n1 (2 * n1) (fun s => addProdRow D d1 done s 0)
    let square ← setR square (2 * n1) carry
    squareLongGo (done ++ [d1]) rest square

/-- The loop of `square_long_into` that adds the squares of the digits to pairs of digits. -/
def squareDiagGo : List Nat → List Nat → Bool → R (List Nat × Bool)
  | d :: nr0, s0 :: s1 :: square, carry => do
    let (s0', carry2) ← D.addProd s0 d d carry.toNat
    let (s1', carry) ← D.addCarry s1 carry2 false
    let (square', carry) ← squareDiagGo nr0 square carry
    return (s0' :: s1' :: square', carry)
  | _, square, carry => .ok (square, carry)

/-- `src/ubig/mul/long.rs:43-67`, `square_long_into`.  (The first loop skips the digit with index 0.) -/
def squareLongInto (nr0 square : List Nat) : R (List Nat × Nat) := do
  let nd := 2 * nr0.length
  let (square, _) ← onSlice square 0 nd (fun s => .ok (fillWith 0 s, ()))
  let square ← squareLongGo D (nr0.take 1) (nr0.drop 1) square
  let (square, _) ← onSlice square 0 nd (fun s => doubleCarryAssign D s false)
  let (square, carry) ← onSlice square 0 nd (fun s => squareDiagGo D nr0 s false)
  debugAssertR dbg (!carry)
  return (square, ← dropLeadingZeros square nd)

/-! ## Karatsuba -/

/-- The type of `mul_big_into_with_work(nr0, nr1, product, work)`: returns the new `product` and
`work` and the number of digits. -/
abbrev MulFn := List Nat → List Nat → List Nat → List Nat → R (List Nat × List Nat × Nat)

/-- The type of `square_into_with_work(nr0, square, work)`. -/
abbrev SquareFn := List Nat → List Nat → List Nat → R (List Nat × List Nat × Nat)

/-- The block `if carry { inc_assign(&mut result[offset..]); }` of `karatsuba.rs`. -/
def incIf (carry : Bool) (result : List Nat) (offset : Nat) : R (List Nat) :=
  if carry then do
    let (result, _) ← onSlice result offset result.length (incAssign D)
    return result
  else .ok result

/-- `src/ubig/mul/karatsuba.rs:68-81`: the middle coefficient `z1 + z0 + z2`, if the two differences
have different signs.  Carries go to `result`.  Returns `(result, z1, nz1)`. -/
def karatsubaAdd (split : Nat) (z0 z2 z1 : List Nat) (nz1 : Nat) (result : List Nat) :
    R (List Nat × List Nat × Nat) := do
  let nz1 := max (max nz1 z0.length) z2.length
  let (z1, carry0) ← onSlice z1 0 nz1 (fun s => addAssignBig D s z0)
  let (z1, carry2) ← onSlice z1 0 nz1 (fun s => addAssignBig D s z2)
  let result ← incIf D carry0 result (split + nz1)
  let result ← incIf D carry2 result (split + nz1)
  return (result, z1, nz1)

/-- `src/ubig/mul/karatsuba.rs:82-95`, and in the same words `131-144` for squaring: the middle
coefficient `z0 + z2 - z1`.  Returns `(result, z1, nz1)`. -/
def karatsubaSub (split : Nat) (z0 z2 z1 : List Nat) (nz1 : Nat) (result : List Nat) :
    R (List Nat × List Nat × Nat) := do
  if ltBig (← slice z1 0 nz1) z0 then
    let (z1, r) ← onSlice z1 0 z0.length (fun s => rsubAssignBig D s z0)
    let nz1 := max (← unwrapR r) z2.length
    let (z1, carry) ← onSlice z1 0 nz1 (fun s => addAssignBig D s z2)
    let result ← incIf D carry result (split + nz1)
    return (result, z1, nz1)
  else
    let (z1, r) ← onSlice z1 0 nz1 (fun s => subAssignBig D s z0)
    let nz1 ← unwrapR r
    debugAssertR dbg (!ltBig z2 (← slice z1 0 nz1))
    let (z1, r) ← onSlice z1 0 z2.length (fun s => rsubAssignBig D s z2)
    let nz1 ← unwrapR r
    return (result, z1, nz1)

/-- `src/ubig/mul/karatsuba.rs:68-95`: `sign` is `sign0 ^ sign1`. -/
def karatsubaMid (sign : Bool) (split : Nat) (z0 z2 z1 : List Nat) (nz1 : Nat)
    (result : List Nat) : R (List Nat × List Nat × Nat) :=
  if sign then karatsubaAdd D split z0 z2 z1 nz1 result
  else karatsubaSub D dbg split z0 z2 z1 nz1 result

/-- `src/ubig/mul/karatsuba.rs:97-100`, and in the same words `146-149`: add the middle coefficient.
Returns the result and its length, `n` is the number of digits of both operands together. -/
def karatsubaFinish (split n : Nat) (result z1 : List Nat) : R (List Nat × Nat) := do
  let (result, carry) ← onSlice result split result.length (fun s => addAssignBig D s z1)
  assertR (!carry)
  return (result, ← dropLeadingZeros result n)

/-- `src/ubig/mul/karatsuba.rs:38-101`, `mul_big_karatsuba_into`; `mul` is the recursive call
`mul_big_into_with_work`.  `z0` and `z2` are read back from `result`, of which they are a part. -/
def mulKaratsubaInto (mul : MulFn) (nr0 nr1 result work : List Nat) :
    R (List Nat × List Nat × Nat) := do
  let n0 := nr0.length
  let n1 := nr1.length
  let nmax := max n0 n1
  assertR (decide (2 ≤ n0 ∧ 2 ≤ n1))
  assertR (decide (karatsubaWorkSize nmax ≤ work.length))
  let split := (nmax + 1) / 2
  let (low0, high0) ← splitAtR nr0 (min split n0)
  let nlow0 ← dropLeadingZeros low0 low0.length
  let (low1, high1) ← splitAtR nr1 (min split n1)
  let nlow1 ← dropLeadingZeros low1 low1.length
  let (diff0, diff1) ← splitAtR result split
  let (diff0, sign0, ndiff0) ← subBigIntoAbsSign D dbg (← slice low0 0 nlow0) high0 diff0
  let (diff1, sign1, ndiff1) ← subBigIntoAbsSign D dbg (← slice low1 0 nlow1) high1 diff1
  let (z1, newWork) ← splitAtR work (2 * split)
  let z1 := fillWith 0 z1
  let (z1, newWork, nz1) ← mul (← slice diff0 0 ndiff0) (← slice diff1 0 ndiff1) z1 newWork
  let (result, _) ← onSlice (diff0 ++ diff1) 0 (n0 + n1) (fun s => .ok (fillWith 0 s, ()))
  let (z0, z2) ← splitAtR result (2 * split)
  let (z0, newWork, nz0) ← mul (← slice low0 0 nlow0) (← slice low1 0 nlow1) z0 newWork
  let (z2, newWork, nz2) ← mul high0 high1 z2 newWork
  let (result, z1, nz1) ← karatsubaMid D dbg (sign0 ^^ sign1) split (← slice z0 0 nz0)
    (← slice z2 0 nz2) z1 nz1 (z0 ++ z2)
  let (result, n) ← karatsubaFinish D split (n0 + n1) result (← slice z1 0 nz1)
  return (result, z1 ++ newWork, n)

/-- `src/ubig/mul/karatsuba.rs:108-150`, `square_karatsuba_into`; `square` is the recursive call
`square_into_with_work`. -/
def squareKaratsubaInto (square : SquareFn) (nr0 result work : List Nat) :
    R (List Nat × List Nat × Nat) := do
  let n0 := nr0.length
  assertR (decide (2 ≤ n0))
  assertR (decide (karatsubaWorkSize n0 ≤ work.length))
  let split := (n0 + 1) / 2
  let nlow0 ← dropLeadingZeros nr0 split
  let low0 ← slice nr0 0 nlow0
  let high0 ← slice nr0 split nr0.length
  let (diff0, _, ndiff0) ← subBigIntoAbsSign D dbg low0 high0 result
  let (z1, newWork) ← splitAtR work (2 * split)
  let z1 := fillWith 0 z1
  let (z1, newWork, nz1) ← square (← slice diff0 0 ndiff0) z1 newWork
  let (result, _) ← onSlice diff0 0 (2 * n0) (fun s => .ok (fillWith 0 s, ()))
  let (z0, z2) ← splitAtR result (2 * split)
  let (z0, newWork, nz0) ← square low0 z0 newWork
  let (z2, newWork, nz2) ← square high0 z2 newWork
  let (result, z1, nz1) ← karatsubaSub D dbg split (← slice z0 0 nz0) (← slice z2 0 nz2) z1 nz1
    (z0 ++ z2)
  let (result, n) ← karatsubaFinish D split (2 * n0) result (← slice z1 0 nz1)
  return (result, z1 ++ newWork, n)

/-! ## Toom-Cook -/

/-- The block `if carry { nr[len] = one; len += 1 }` that follows many additions in `toom3.rs`. -/
def pushCarry (nr : List Nat) (len : Nat) (carry : Bool) : R (List Nat × Nat) :=
  if carry then do return (← setR nr len 1, len + 1) else .ok (nr, len)

/-- The three parts of an operand and its values at the points 1, -1 and -2. -/
structure ToomEval where
  /-- `p0`, the low part without leading zeros -/
  p0 : List Nat
  /-- `pinf`, the high part -/
  pinf : List Nat
  /-- buffer holding `p(1)`, and its length -/
  p1 : List Nat
  lenP1 : Nat
  /-- buffer holding `|p(-1)|`, its sign and length -/
  pm1 : List Nat
  signPm1 : Bool
  lenPm1 : Nat
  /-- buffer holding `|p(-2)|`, its sign and length -/
  pm2 : List Nat
  signPm2 : Bool
  lenPm2 : Nat

/-- `src/ubig/mul/toom3.rs:84-130`, and in the same words `132-168` for the second operand and
`315-350` for squaring: evaluate the operand, seen as a polynomial in `radix^b`, at 1, -1 and -2.
(`square_toom3_into` drops the sign of `p(-2)`, which is not used.) -/
def toomEval (b : Nat) (nr0 p1 pm1 pm2 : List Nat) : R ToomEval := do
  let nd0 := nr0.length
  let minB := min b nd0
  let lenP0 ← dropLeadingZeros nr0 minB
  let p0 ← slice nr0 0 lenP0
  let lenM1 ← dropLeadingZeros (← slice nr0 minB nd0) (min b (nd0 - minB))
  let m1 ← slice nr0 minB (minB + lenM1)
  let pinf ← slice nr0 (min (2 * b) nd0) nd0
  let (pm1, r) ← addBigInto D p0 pinf pm1
  let lenPm1 ← unwrapR r
  let (p1, r) ← addBigInto D (← slice pm1 0 lenPm1) m1 p1
  let lenP1 ← unwrapR r
  let (pm1, signPm1, lenPm1) ← subAssignBigAbsSign D pm1 lenPm1 m1
  let (pm2, signPm2, lenPm2) ← (do
    if signPm1 then subBigIntoAbsSign D dbg pinf (← slice pm1 0 lenPm1) pm2
    else
      let (pm2, r) ← addBigInto D (← slice pm1 0 lenPm1) pinf pm2
      return (pm2, false, ← unwrapR r))
  let (pm2, carry) ← onSlice pm2 0 lenPm2 (fun s => doubleCarryAssign D s false)
  let (pm2, lenPm2) ← pushCarry pm2 lenPm2 carry
  let (pm2, signPm2, lenPm2) ← (do
    if signPm2 then
      let lenPm2 := max lenPm2 lenP0
      let (pm2, carry) ← onSlice pm2 0 lenPm2 (fun s => addAssignBig D s p0)
      let (pm2, lenPm2) ← pushCarry pm2 lenPm2 carry
      return (pm2, signPm2, lenPm2)
    else subAssignBigAbsSign D pm2 lenPm2 p0)
  return { p0, pinf, p1, lenP1, pm1, signPm1, lenPm1, pm2, signPm2, lenPm2 }

/-- `src/ubig/mul/toom3.rs:183-200`: `r3 = (r(-2) - r(1)) / 3`, in the buffer of `r(-2)`.
Returns the buffer, its length and the sign. -/
def toomR3First (r1 : List Nat) (lenR1 : Nat) (rm2 : List Nat) (lenRm2 : Nat) (signRm2 : Bool) :
    R (List Nat × Nat × Bool) := do
  let (r3, lenR3, signR3, carry) ← (do
    if signRm2 then
      let lenR3 := max lenRm2 lenR1
      let (r3, carry) ← onSlice rm2 0 lenR3 (fun s => do addAssignBig D s (← slice r1 0 lenR1))
      return (r3, lenR3, true, carry)
    else
      let (r3, sign, len) ← subAssignBigAbsSign D rm2 lenRm2 (← slice r1 0 lenR1)
      return (r3, len, sign, false))
  let (r3, lenR3, _) ← onSlice r3 0 lenR3 (fun s => div3CarryAssign D s carry.toNat)
  return (r3, lenR3, signR3)

/-- `src/ubig/mul/toom3.rs:201-211`: `r1 = (r(1) - r(-1)) / 2`, in the buffer of `r(1)`. -/
def toomR1First (r1 : List Nat) (lenR1 : Nat) (rm1 : List Nat) (lenRm1 : Nat) (signRm1 : Bool) :
    R (List Nat × Nat) := do
  let (r1, lenR1, carry) ← (do
    if signRm1 then
      let lenR1 := max lenR1 lenRm1
      let (r1, carry) ← onSlice r1 0 lenR1 (fun s => do addAssignBig D s (← slice rm1 0 lenRm1))
      return (r1, lenR1, carry)
    else
      let (r1, r) ← onSlice r1 0 lenR1 (fun s => do subAssignBig D s (← slice rm1 0 lenRm1))
      return (r1, ← unwrapR r, false))
  let (r1, lenR1, _) ← onSlice r1 0 lenR1 (fun s => shrWithin D s 1 carry.toNat)
  return (r1, lenR1)

/-- `src/ubig/mul/toom3.rs:212-230`: `r2 = r(-1) - r(0)`, in the buffer of `r(-1)`. -/
def toomR2First (r0 rm1 : List Nat) (lenRm1 : Nat) (signRm1 : Bool) :
    R (List Nat × Nat × Bool) := do
  if signRm1 then
    let lenR2 := max lenRm1 r0.length
    let (r2, carry) ← onSlice rm1 0 lenR2 (fun s => addAssignBig D s r0)
    let (r2, lenR2) ← pushCarry r2 lenR2 carry
    return (r2, lenR2, true)
  else
    let (r2, sign, len) ← subAssignBigAbsSign D rm1 lenRm1 r0
    return (r2, len, sign)

/-- `src/ubig/mul/toom3.rs:231-244`, and in the same words `370-384` for squaring:
`r3 = (r2 - r3) / 2`. -/
def toomR3Second (r2 : List Nat) (lenR2 : Nat) (signR2 : Bool) (r3 : List Nat) (lenR3 : Nat)
    (signR3 : Bool) : R (List Nat × Nat × Bool) := do
  let (r3, lenR3, signR3, carry) ← (do
    if signR2 != signR3 then
      let lenR3 := max lenR3 lenR2
      let (r3, carry) ← onSlice r3 0 lenR3 (fun s => do addAssignBig D s (← slice r2 0 lenR2))
      return (r3, lenR3, signR2, carry)
    else
      let (r3, sign, len) ← subAssignBigAbsSign D r3 lenR3 (← slice r2 0 lenR2)
      return (r3, len, !(signR3 ^^ sign) && len != 0, false))
  let (r3, lenR3, _) ← onSlice r3 0 lenR3 (fun s => shrWithin D s 1 carry.toNat)
  return (r3, lenR3, signR3)

/-- `src/ubig/mul/toom3.rs:245-273`, and in the same words `385-413` for squaring:
`r3 = r3 + 2 r4`. -/
def toomR3Last (r4 r3 : List Nat) (lenR3 : Nat) (signR3 : Bool) : R (List Nat × Nat) := do
  let lenR4 := r4.length
  if !signR3 then
    let lenR3 := max lenR3 lenR4
    let (r3, carry) ← onSlice r3 0 lenR3 (fun s => addAssignBig D s r4)
    let (r3, lenR3) ← pushCarry r3 lenR3 carry
    let (r3, carry) ← onSlice r3 0 lenR3 (fun s => addAssignBig D s r4)
    pushCarry r3 lenR3 carry
  else if ltBig (← slice r3 0 lenR3) r4 then
    let lenR3 := lenR4
    let (r3, _) ← onSlice r3 0 lenR4 (fun s => rsubAssignBig D s r4)
    let (r3, carry) ← onSlice r3 0 lenR4 (fun s => addAssignBig D s r4)
    pushCarry r3 lenR3 carry
  else
    let (r3, _) ← onSlice r3 0 lenR4 (fun s => subAssignBig D s r4)
    let (r3, r) ← onSlice r3 0 lenR4 (fun s => rsubAssignBig D s r4)
    return (r3, ← unwrapR r)

/-- `src/ubig/mul/toom3.rs:275-289`, and in the same words `415-429` for squaring:
`r2 = r2 + r1 - r4`. -/
def toomR2Last (r4 r1 : List Nat) (lenR1 : Nat) (r2 : List Nat) (lenR2 : Nat) (signR2 : Bool) :
    R (List Nat × Nat) := do
  let (r2, lenR2) ← (do
    if signR2 then
      let (r2, r) ← onSlice r2 0 lenR1 (fun s => do rsubAssignBig D s (← slice r1 0 lenR1))
      return (r2, ← unwrapR r)
    else
      let lenR2 := max lenR2 lenR1
      let (r2, carry) ← onSlice r2 0 lenR2 (fun s => do addAssignBig D s (← slice r1 0 lenR1))
      pushCarry r2 lenR2 carry)
  let (r2, r) ← onSlice r2 0 lenR2 (fun s => subAssignBig D s r4)
  return (r2, ← unwrapR r)

/-- `src/ubig/mul/toom3.rs:290`, and in the same words `430`: `r1 = r1 - r3`. -/
def toomR1Last (r1 : List Nat) (lenR1 : Nat) (r3 : List Nat) (lenR3 : Nat) :
    R (List Nat × Nat) := do
  let (r1, r) ← onSlice r1 0 lenR1 (fun s => do subAssignBig D s (← slice r3 0 lenR3))
  return (r1, ← unwrapR r)

/-- `src/ubig/mul/toom3.rs:183-290`: interpolation.  From the buffers holding `r(1)`, `r(-1)` and
`r(-2)` (with lengths and signs) and the numbers `r0` and `r4`, compute the coefficients `r1`, `r2`
and `r3`, returned with their lengths. -/
def toomInterp (r0 r4 r1 : List Nat) (lenR1 : Nat) (rm1 : List Nat) (lenRm1 : Nat) (signRm1 : Bool)
    (rm2 : List Nat) (lenRm2 : Nat) (signRm2 : Bool) :
    R (List Nat × Nat × List Nat × Nat × List Nat × Nat) := do
  let (r3, lenR3, signR3) ← toomR3First D r1 lenR1 rm2 lenRm2 signRm2
  let (r1, lenR1) ← toomR1First D r1 lenR1 rm1 lenRm1 signRm1
  let (r2, lenR2, signR2) ← toomR2First D r0 rm1 lenRm1 signRm1
  let (r3, lenR3, signR3) ← toomR3Second D r2 lenR2 signR2 r3 lenR3 signR3
  let (r3, lenR3) ← toomR3Last D r4 r3 lenR3 signR3
  let (r2, lenR2) ← toomR2Last D r4 r1 lenR1 r2 lenR2 signR2
  let (r1, lenR1) ← toomR1Last D r1 lenR1 r3 lenR3
  return (r1, lenR1, r2, lenR2, r3, lenR3)

/-- `src/ubig/mul/toom3.rs:363-430`: interpolation for squaring.  The same computation, where
`r(-1)` and `r(-2)` are not negative. -/
def toomSquareInterp (r0 r4 r1 : List Nat) (lenR1 : Nat) (rm1 : List Nat) (lenRm1 : Nat)
    (rm2 : List Nat) (lenRm2 : Nat) :
    R (List Nat × Nat × List Nat × Nat × List Nat × Nat) := do
  let (r3, signR3, lenR3) ← subAssignBigAbsSign D rm2 lenRm2 (← slice r1 0 lenR1)
  let (r3, lenR3, _) ← onSlice r3 0 lenR3 (fun s => div3CarryAssign D s 0)
  let (r1, r) ← onSlice r1 0 lenR1 (fun s => do subAssignBig D s (← slice rm1 0 lenRm1))
  let lenR1 ← unwrapR r
  let (r1, lenR1, _) ← onSlice r1 0 lenR1 (fun s => shrWithin D s 1 0)
  let (r2, signR2, lenR2) ← subAssignBigAbsSign D rm1 lenRm1 r0
  let (r3, lenR3, signR3) ← toomR3Second D r2 lenR2 signR2 r3 lenR3 signR3
  let (r3, lenR3) ← toomR3Last D r4 r3 lenR3 signR3
  let (r2, lenR2) ← toomR2Last D r4 r1 lenR1 r2 lenR2 signR2
  let (r1, lenR1) ← toomR1Last D r1 lenR1 r3 lenR3
  return (r1, lenR1, r2, lenR2, r3, lenR3)

/-- `src/ubig/mul/toom3.rs:292-294` and `432-434`: add the coefficients at their offsets. -/
def toomRecompose (b : Nat) (result r1 : List Nat) (lenR1 : Nat) (r2 : List Nat) (lenR2 : Nat)
    (r3 : List Nat) (lenR3 : Nat) : R (List Nat) := do
  let (result, _) ← onSlice result b result.length
    (fun s => do addAssignBig D s (← slice r1 0 lenR1))
  let (result, _) ← onSlice result (2 * b) result.length
    (fun s => do addAssignBig D s (← slice r2 0 lenR2))
  let (result, _) ← onSlice result (3 * b) result.length
    (fun s => do addAssignBig D s (← slice r3 0 lenR3))
  return result

/-- `src/ubig/mul/toom3.rs:34-297`, `mul_big_toom3_into`; `mul` is the recursive call
`mul_big_into_with_work`.  The evaluation and interpolation blocks are the functions above.
`p1`, `q1` share the buffer of `rm1`, and `pm1`, `qm1` that of `rm2`, as in the code. -/
def mulToom3Into (mul : MulFn) (nr0 nr1 result work : List Nat) :
    R (List Nat × List Nat × Nat) := do
  let nd0 := nr0.length
  let nd1 := nr1.length
  let nmax := max nd0 nd1
  assertR (decide (5 ≤ nd0 ∧ 5 ≤ nd1))
  assertR (decide (toom3WorkSize nmax ≤ work.length))
  let b := (nmax + 2) / 3
  let n := nd0 + nd1
  let (pm2, qm2) ← splitAtR (fillWith 0 result) (b + 2)
  let (work, newWork) ← splitAtR work (6 * b + 10)
  let (r1, work) ← splitAtR (fillWith 0 work) (2 * b + 3)
  let (rm1, rm2) ← splitAtR work (2 * b + 3)
  let (p1, q1) ← splitAtR rm1 (b + 1)
  let (pm1, qm1) ← splitAtR rm2 (b + 1)
  let p ← toomEval D dbg b nr0 p1 pm1 pm2
  let q ← toomEval D dbg b nr1 q1 qm1 qm2
  let (r1, newWork, lenR1) ← mul (← slice p.p1 0 p.lenP1) (← slice q.p1 0 q.lenP1) r1 newWork
  let (rm1, newWork, lenRm1) ←
    mul (← slice p.pm1 0 p.lenPm1) (← slice q.pm1 0 q.lenPm1) (p.p1 ++ q.p1) newWork
  let (rm1, _) ← onSlice rm1 lenRm1 rm1.length (fun s => .ok (fillWith 0 s, ()))
  let (rm2, newWork, lenRm2) ←
    mul (← slice p.pm2 0 p.lenPm2) (← slice q.pm2 0 q.lenPm2) (p.pm1 ++ q.pm1) newWork
  let (rm2, _) ← onSlice rm2 lenRm2 rm2.length (fun s => .ok (fillWith 0 s, ()))
  let (result, _) ← onSlice (p.pm2 ++ q.pm2) 0 n (fun s => .ok (fillWith 0 s, ()))
  let (r0, r4) ← splitAtR result (min (4 * b) result.length)
  let (r0, newWork, lenR0) ← mul p.p0 q.p0 r0 newWork
  let (r4, newWork, lenR4) ← mul p.pinf q.pinf r4 newWork
  let result := r0 ++ r4
  let (r1, lenR1, r2, lenR2, r3, lenR3) ← toomInterp D (← slice r0 0 lenR0) (← slice r4 0 lenR4)
    r1 lenR1 rm1 lenRm1 (p.signPm1 ^^ q.signPm1) rm2 lenRm2 (p.signPm2 ^^ q.signPm2)
  let result ← toomRecompose D b result r1 lenR1 r2 lenR2 r3 lenR3
  return (result, r1 ++ r2 ++ r3 ++ newWork, ← dropLeadingZeros result n)

/-- `src/ubig/mul/toom3.rs:299-437`, `square_toom3_into`; `square` is the recursive call
`square_into_with_work`.  Unlike `mul_big_toom3_into` this does not clear the buffers first. -/
def squareToom3Into (square : SquareFn) (nr0 result work : List Nat) :
    R (List Nat × List Nat × Nat) := do
  let nd0 := nr0.length
  assertR (decide (5 ≤ nd0))
  assertR (decide (toom3WorkSize nd0 ≤ work.length))
  let b := (nd0 + 2) / 3
  let n := 2 * nd0
  let (p1, res) ← splitAtR result (b + 1)
  let (pm1, pm2) ← splitAtR res (b + 1)
  let (work, newWork) ← splitAtR work (6 * b + 10)
  let (r1, work) ← splitAtR work (2 * b + 3)
  let (rm1, rm2) ← splitAtR work (2 * b + 3)
  let p ← toomEval D dbg b nr0 p1 pm1 pm2
  let (r1, newWork, lenR1) ← square (← slice p.p1 0 p.lenP1) r1 newWork
  let (rm1, newWork, lenRm1) ← square (← slice p.pm1 0 p.lenPm1) rm1 newWork
  let (rm1, _) ← onSlice rm1 lenRm1 rm1.length (fun s => .ok (fillWith 0 s, ()))
  let (rm2, newWork, lenRm2) ← square (← slice p.pm2 0 p.lenPm2) rm2 newWork
  let (rm2, _) ← onSlice rm2 lenRm2 rm2.length (fun s => .ok (fillWith 0 s, ()))
  let (result, _) ← onSlice (p.p1 ++ p.pm1 ++ p.pm2) 0 n (fun s => .ok (fillWith 0 s, ()))
  let (r0, r4) ← splitAtR result (min (4 * b) result.length)
  let (r0, newWork, lenR0) ← square p.p0 r0 newWork
  let (r4, newWork, lenR4) ← square p.pinf r4 newWork
  let result := r0 ++ r4
  let (r1, lenR1, r2, lenR2, r3, lenR3) ← toomSquareInterp D (← slice r0 0 lenR0)
    (← slice r4 0 lenR4) r1 lenR1 rm1 lenRm1 rm2 lenRm2
  let result ← toomRecompose D b result r1 lenR1 r2 lenR2 r3 lenR3
  return (result, r1 ++ r2 ++ r3 ++ newWork, ← dropLeadingZeros result n)

/-! ## Dispatch -/

/-- `src/ubig/mul.rs:153-179`, `mul_big_into_with_work`.  The recursion through Karatsuba and
Toom-Cook is on fuel. -/
def mulBigIntoWithWork : Nat → MulFn
  | 0, _, _, _, _ => .error .noFuel
  | fuel + 1, nr0, nr1, product, work => do
    if nr0 = [] ∨ nr1 = [] then return (product, work, 0)
    else
      let n0 := nr0.length
      let n1 := nr1.length
      assertR (decide (n0 + n1 ≤ product.length))
      if toom3Cutoff ≤ n0 ∧ toom3Cutoff ≤ n1 then
        mulToom3Into D dbg (mulBigIntoWithWork fuel) nr0 nr1 product work
      else if karatsubaCutoff ≤ n0 ∧ karatsubaCutoff ≤ n1 then
        mulKaratsubaInto D dbg (mulBigIntoWithWork fuel) nr0 nr1 product work
      else
        let (product, n) ← mulBigLongInto D nr0 nr1 product
        return (product, work, n)

/-- The recursion depth allowed for operands of at most `n` digits. -/
def mulFuel (n : Nat) : Nat := n + 1

/-- `src/ubig/mul.rs:117-147`, `mul_big_into`: allocates the scratch array.  Returns
`(product, length)`. -/
def mulBigInto (nr0 nr1 product : List Nat) : R (List Nat × Nat) := do
  if nr0 = [] ∨ nr1 = [] then return (product, 0)
  else
    let n0 := nr0.length
    let n1 := nr1.length
    assertR (decide (n0 + n1 ≤ product.length))
    if toom3Cutoff ≤ n0 ∧ toom3Cutoff ≤ n1 then
      let work := List.replicate (toom3WorkSize (max n0 n1)) 0
      let (product, _, n) ←
        mulToom3Into D dbg (mulBigIntoWithWork D dbg (mulFuel (max n0 n1))) nr0 nr1 product work
      return (product, n)
    else if karatsubaCutoff ≤ n0 ∧ karatsubaCutoff ≤ n1 then
      let work := List.replicate (karatsubaWorkSize (max n0 n1)) 0
      let (product, _, n) ←
        mulKaratsubaInto D dbg (mulBigIntoWithWork D dbg (mulFuel (max n0 n1))) nr0 nr1 product work
      return (product, n)
    else mulBigLongInto D nr0 nr1 product

/-- `src/ubig/mul.rs:219-244`, `square_into_with_work`, with fuel as above. -/
def squareIntoWithWork : Nat → SquareFn
  | 0, _, _, _ => .error .noFuel
  | fuel + 1, nr0, square, work => do
    if nr0 = [] then return (square, work, 0)
    else
      let n0 := nr0.length
      assertR (decide (2 * n0 ≤ square.length))
      if toom3Cutoff ≤ n0 then
        squareToom3Into D dbg (squareIntoWithWork fuel) nr0 square work
      else if karatsubaCutoff ≤ n0 then
        squareKaratsubaInto D dbg (squareIntoWithWork fuel) nr0 square work
      else
        let (square, n) ← squareLongInto D dbg nr0 square
        return (square, work, n)

/-- `src/ubig/mul.rs:184-213`, `square_into`. -/
def squareInto (nr0 square : List Nat) : R (List Nat × Nat) := do
  if nr0 = [] then return (square, 0)
  else
    let n0 := nr0.length
    assertR (decide (2 * n0 ≤ square.length))
    if toom3Cutoff ≤ n0 then
      let work := List.replicate (toom3WorkSize n0) 0
      let (square, _, n) ←
        squareToom3Into D dbg (squareIntoWithWork D dbg (mulFuel n0)) nr0 square work
      return (square, n)
    else if karatsubaCutoff ≤ n0 then
      let work := List.replicate (karatsubaWorkSize n0) 0
      let (square, _, n) ←
        squareKaratsubaInto D dbg (squareIntoWithWork D dbg (mulFuel n0)) nr0 square work
      return (square, n)
    else squareLongInto D dbg nr0 square

end

end Babs
