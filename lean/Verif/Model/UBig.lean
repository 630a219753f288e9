import Verif.Model.Div
import Verif.Model.UBigMul

/-!
# Big numbers: division, shifts, the operators of the number types, conversion to decimal

Models `src/ubig.rs` and `src/ubig/ops.rs`, after `UBigAdd` and `UBigMul`.
-/

namespace Babs

section
variable (D : DigitOps) (dbg : Bool)

/-! ## Division -/

/-- `src/ubig.rs:203-212`, `UBig::div_assign_digit`. -/
def divDigitAssign (x : List Nat) (fac : Nat) : R (List Nat × Res Nat) := do
  match ← divAssignDigit D x fac with
  | (x, .error e) => return (x, .error e)
  | (x, .ok (nquot, rem)) => return (x.take nquot, .ok rem)

/-- `src/ubig.rs:217-226`, `UBig::div_assign_digit_pair`. -/
def divPairAssign (x : List Nat) (facLow facHigh : Nat) : R (List Nat × Res (Nat × Nat)) := do
  match ← divAssignDigitPair D x facLow facHigh with
  | (x, .error e) => return (x, .error e)
  | (x, .ok (nquot, remLow, remHigh)) => return (x.take nquot, .ok (remLow, remHigh))

/-- `src/ubig.rs:230-249`, `div_assign_big`.  Returns the new value of `self` (the quotient) and
the remainder. -/
def divAssignBig (x y : List Nat) : R (List Nat × Res (List Nat)) := do
  let nnum := x.length
  let nden := y.length
  if nnum < nden then return ([], .ok (← ubigNew x))
  else
    let (rem, quot, r) ← divBig D dbg x y (List.replicate (nnum - nden + 1) 0)
    match r with
    | .error e => return (quot, .error e)
    | .ok (nquot, nrem) => return (quot.take nquot, .ok (← ubigNew (rem.take nrem)))

/-- `src/ubig.rs:261-273`, `rem_assign_big`. -/
def remAssignBig (x y : List Nat) : R (List Nat × Res Unit) := do
  let nnum := x.length
  let nden := y.length
  if nden ≤ nnum then
    let (x, _, r) ← divBig D dbg x y (List.replicate (nnum - nden + 1) 0)
    match r with
    | .error e => return (x, .error e)
    | .ok (_, nrem) => return (x.take nrem, .ok ())
  else return (x, .ok ())

/-- `src/ubig/ops.rs:229-248` (`/=` with a big number) and `313-352` (`/`). -/
def divOp (x y : List Nat) : R (List Nat) := do
  match ← divAssignBig D dbg x y with
  | (q, .ok _) => return q
  | (_, .error _) => throw .explicit

/-- `src/ubig/ops.rs:574-593` (`%=` with a big number) and `660-699` (`%`). -/
def remOp (x y : List Nat) : R (List Nat) := do
  match ← remAssignBig D dbg x y with
  | (r, .ok ()) => return r
  | (_, .error _) => throw .explicit

/-- `src/ubig/ops.rs:188-198` (`/=` with a digit) and `250-269` (`/`). -/
def divDigit (x : List Nat) (digit : Nat) : R (List Nat) := do
  match ← divDigitAssign D x digit with
  | (q, .ok _) => return q
  | (_, .error _) => throw .explicit

/-- `src/ubig/ops.rs:209-227` (`/=` of a decimal number with a word). -/
def divWordDec (rx : Nat) (x : List Nat) (n : Nat) : R (List Nat) := do
  if n < rx then divDigit D x n
  else match ← divPairAssign D x (n % rx) (n / rx) with
    | (q, .ok _) => return q
    | (_, .error _) => throw .explicit

/-- `src/ubig/ops.rs:512-529` (`%=` with a digit). -/
def remDigitAssign (x : List Nat) (digit : Nat) : R (List Nat) := do
  match ← remDigit D x digit with
  | .ok rem => return if rem = 0 then [] else [rem]
  | .error _ => throw .explicit

/-- `src/ubig/ops.rs:595-617` (`%` with a digit). -/
def remDigitOp (x : List Nat) (digit : Nat) : R (List Nat) := do
  match ← remDigit D x digit with
  | .ok rem => ubigNew [rem]
  | .error _ => throw .explicit

/-- `src/ubig/ops.rs:540-572` (`%=` of a decimal number with a word) and `639-658` (`%`). -/
def remWordDec (rx : Nat) (x : List Nat) (n : Nat) : R (List Nat) := do
  if n < rx then remDigitAssign D x n
  else match ← divPairAssign D x (n % rx) (n / rx) with
    | (_, .ok (remLow, remHigh)) =>
      return if remHigh ≠ 0 then [remLow, remHigh] else if remLow ≠ 0 then [remLow] else []
    | (_, .error _) => throw .explicit

/-! ## Shifts -/

/-- `src/ubig/ops.rs:702-721` (`<<=` of a binary number) and `745-764` (`<<`); `w` is `NR_BITS`. -/
def shlBin (w : Nat) (x : List Nat) (n : Nat) : R (List Nat) := do
  let (high, low) := (n / w, n % w)
  let x ← (do
    if low ≠ 0 then
      let (x, carry) ← shlWithin D x low 0
      return if carry ≠ 0 then x ++ [carry] else x
    else return x)
  return if high ≠ 0 then List.replicate high 0 ++ x else x

/-- `src/ubig/ops.rs:723-743` (`<<=` of a decimal number) and `745-764` (`<<`); `maxHex` is
`MAX_HEX_PLACES`. -/
def shlDec (maxHex : Nat) (x : List Nat) (n : Nat) : R (List Nat) := do
  if n ≤ 4 * maxHex then
    let (x, carry) ← shlWithin D x n 0
    return if carry ≠ 0 then x ++ [carry] else x
  else
    let two ← addBig D ubigOne ubigOne
    let scale ← pow D dbg two n
    mulBig D dbg x scale

/-- `src/ubig/ops.rs:767-786` (`>>=` of a binary number) and `809-828` (`>>`).  `Vec::drain(..high)`
panics if there are fewer than `high` digits. -/
def shrBin (w : Nat) (x : List Nat) (n : Nat) : R (List Nat) := do
  let (high, low) := (n / w, n % w)
  let x ← if high ≠ 0 then slice x high x.length else pure x
  if low ≠ 0 then
    let (x, nd, _) ← shrWithin D x low 0
    return x.take nd
  else return x

/-- `src/ubig/ops.rs:788-807` (`>>=` of a decimal number) and `809-828` (`>>`). -/
def shrDec (maxHex : Nat) (x : List Nat) (n : Nat) : R (List Nat) := do
  if n ≤ 4 * maxHex then
    let (x, nd, _) ← shrWithin D x n 0
    return x.take nd
  else throw .unimplemented

end

/-! ## The operators of the eight number types -/

namespace UBig

variable (t : DType) (dbg : Bool)

/-- `BinaryDigit::NR_BITS`, `src/digit.rs:140`, and the width of the storage type. -/
def bits : DType → Nat
  | .bin w => w.bits
  | .dec w => w.bits

/-- `DecimalDigit::MAX_HEX_PLACES`, `src/digit.rs:469`. -/
def maxHexPlaces (w : Width) : Nat := 2 * w.bytes - 1

/-- `UBig::new`, see `ubigNew`. -/
def new (digits : List Nat) : R (List Nat) := ubigNew digits
/-- `Ord::cmp`, `src/ubig.rs:559-567`. -/
def cmp (x y : List Nat) : Ordering := cmpBig x y
/-- Derived `PartialEq`, `src/ubig.rs:38`. -/
def eq (x y : List Nat) : Bool := decide (x = y)
/-- `x + y` -/
def add (x y : List Nat) : R (List Nat) := addBig (t.ops dbg) x y
/-- `x - y` -/
def sub (x y : List Nat) : R (List Nat) := subBig (t.ops dbg) x y
/-- `x * y` -/
def mul (x y : List Nat) : R (List Nat) := mulBig (t.ops dbg) dbg x y
/-- `x / y` -/
def div (x y : List Nat) : R (List Nat) := divOp (t.ops dbg) dbg x y
/-- `x % y` -/
def rem (x y : List Nat) : R (List Nat) := remOp (t.ops dbg) dbg x y
/-- `x.div_assign_big(&y)`: new value of `x` and the returned remainder -/
def divAssign (x y : List Nat) : R (List Nat × Res (List Nat)) := divAssignBig (t.ops dbg) dbg x y
/-- `x.rem_assign_big(&y)`: new value of `x` -/
def remAssign (x y : List Nat) : R (List Nat × Res Unit) := remAssignBig (t.ops dbg) dbg x y
/-- `x.square()` -/
def square (x : List Nat) : R (List Nat) := Babs.square (t.ops dbg) dbg x
/-- `x.pow(n)` -/
def pow (x : List Nat) (n : Nat) : R (List Nat) := Babs.pow (t.ops dbg) dbg x n
/-- `x + d` with a digit -/
def addDigit (x : List Nat) (d : Nat) : R (List Nat) := Babs.addDigit (t.ops dbg) x d
/-- `x - d` with a digit -/
def subDigit (x : List Nat) (d : Nat) : R (List Nat) := Babs.subDigit (t.ops dbg) x d
/-- `x * d` with a digit -/
def mulDigit (x : List Nat) (d : Nat) : R (List Nat) := Babs.mulDigit (t.ops dbg) x d
/-- `x / d` with a digit -/
def divDigit (x : List Nat) (d : Nat) : R (List Nat) := Babs.divDigit (t.ops dbg) x d
/-- `x % d` with a digit -/
def remDigit (x : List Nat) (d : Nat) : R (List Nat) := Babs.remDigitOp (t.ops dbg) x d

/-- `x + n` with a value of the storage type; binary: `src/ubig/ops.rs:31-38`, `104-123`;
decimal: `40-63`, `125-144`. -/
def addWord (x : List Nat) (n : Nat) : R (List Nat) :=
  match t with
  | .bin _ => Babs.addDigit (t.ops dbg) x n
  | .dec w => addWordDec (t.ops dbg) w.decRadix x n

/-- `x - n` with a value of the storage type; binary: `src/ubig/ops.rs:844-851`, `917-936`;
decimal: `853-873`, `938-957`. -/
def subWord (x : List Nat) (n : Nat) : R (List Nat) :=
  match t with
  | .bin _ => Babs.subDigit (t.ops dbg) x n
  | .dec w => subWordDec (t.ops dbg) w.decRadix x n

/-- `x * n` with a value of the storage type; binary: `src/ubig/ops.rs:364-371`, `429-448`;
decimal: `373-388`, `450-469`. -/
def mulWord (x : List Nat) (n : Nat) : R (List Nat) :=
  match t with
  | .bin _ => Babs.mulDigit (t.ops dbg) x n
  | .dec w => mulWordDec (t.ops dbg) w.decRadix x n

/-- `x / n` with a value of the storage type; binary: `src/ubig/ops.rs:200-207`, `271-290`;
decimal: `209-227`, `292-311`. -/
def divWord (x : List Nat) (n : Nat) : R (List Nat) :=
  match t with
  | .bin _ => Babs.divDigit (t.ops dbg) x n
  | .dec w => divWordDec (t.ops dbg) w.decRadix x n

/-- `x % n` with a value of the storage type; binary: `src/ubig/ops.rs:619-637`;
decimal: `540-572`, `639-658`. -/
def remWord (x : List Nat) (n : Nat) : R (List Nat) :=
  match t with
  | .bin _ => Babs.remDigitOp (t.ops dbg) x n
  | .dec w => remWordDec (t.ops dbg) w.decRadix x n

/-- `x %= n` with a value of the storage type; binary: `src/ubig/ops.rs:531-538`;
decimal: `540-572`. -/
def remWordAssign (x : List Nat) (n : Nat) : R (List Nat) :=
  match t with
  | .bin _ => Babs.remDigitAssign (t.ops dbg) x n
  | .dec w => remWordDec (t.ops dbg) w.decRadix x n

/-- `x << n` -/
def shl (x : List Nat) (n : Nat) : R (List Nat) :=
  match t with
  | .bin w => shlBin (t.ops dbg) w.bits x n
  | .dec w => shlDec (t.ops dbg) dbg (maxHexPlaces w) x n

/-- `x >> n` -/
def shr (x : List Nat) (n : Nat) : R (List Nat) :=
  match t with
  | .bin w => shrBin (t.ops dbg) w.bits x n
  | .dec w => shrDec (t.ops dbg) (maxHexPlaces w) x n

/-- `UBig::from(n)` for a value of the storage type, `src/ubig.rs:365-400`. -/
def ofWord (n : Nat) : List Nat :=
  match t with
  | .bin _ => if n = 0 then [] else [n]
  | .dec w =>
    if n = 0 then [] else if n < w.decRadix then [n] else [n % w.decRadix, n / w.decRadix]

/-! ## Conversion from binary to decimal -/

/-- `TO_DEC_DIV_CUTOFF`, `src/ubig.rs:33`. -/
def toDecDivCutoff : Nat := 16

/-- `BinaryDigit::nr_decimal_places`, `src/digit.rs:148-151`. -/
def nrDecimalPlacesBin (w : Width) (n : Nat) : Nat := n * w.bytes * 643 / 267

/-- `DecimalDigit::NR_DECIMAL_PLACES`, `src/digit.rs:467`. -/
def nrDecimalPlacesDec (w : Width) : Nat := 8 * w.bytes * 4004 / 13301

/-- The loop `while 3*nr_dec < tot { ...; nr_dec *= 2 }` of `src/ubig.rs:292-298` and `327-331`:
the number of rounds. -/
def scaleRounds (tot : Nat) : Nat → Nat → Nat
  | 0, _ => 0
  | fuel + 1, nrDec => if 3 * nrDec < tot then 1 + scaleRounds tot fuel (2 * nrDec) else 0

/-- `src/ubig.rs:289-299`: the list of `rounds + 1` successive squares. -/
def makeScales (w : Width) : Nat → List Nat → R (List (List Nat))
  | 0, scale => .ok [scale]
  | rounds + 1, scale => do
    let sq ← square (.bin w) dbg scale
    return scale :: (← makeScales w rounds sq)

/-- `src/ubig.rs:315-320`: the loop over the lower digits, from the most significant. -/
def buildSmall (w : Width) : List Nat → List Nat → R (List Nat)
  | [], res => .ok res
  | d :: ds, res => do
    let res ← buildSmall w ds res
    let res ← shl (.dec w) dbg res (w.bits / 2)
    let res ← shl (.dec w) dbg res (w.bits / 2)
    addWord (.dec w) dbg res d

/-- `src/ubig.rs:307-339`, `build_decimal`.  The recursion is on fuel. -/
def buildDecimal (w : Width) (scales : List (List Nat)) : Nat → List Nat → R (List Nat)
  | 0, _ => .error .noFuel
  | fuel + 1, x => do
    let n := x.length
    if n = 0 then return []
    else if n < toDecDivCutoff then
      let res := ofWord (.dec w) (← getR x (n - 1))
      buildSmall dbg w (x.take (n - 1)) res
    else
      let tot := nrDecimalPlacesBin w n
      let idx := scaleRounds tot tot (nrDecimalPlacesDec w)
      let scale ← (match scales[idx]? with | some s => .ok s | none => .error .index)
      let (high, r) ← divAssign (.bin w) dbg x scale
      let low ← unwrapR r
      let res ← buildDecimal w scales fuel low
      let highDec ← buildDecimal w scales fuel high
      return res ++ highDec

/-- `src/ubig.rs:279-302`, `to_decimal`. -/
def toDecimal (w : Width) (x : List Nat) : R (List Nat) := do
  if x.length < toDecDivCutoff then buildDecimal dbg w [] (x.length + 1) x
  else
    let tot := nrDecimalPlacesBin w x.length
    let rounds := scaleRounds tot tot (nrDecimalPlacesDec w)
    let scales ← makeScales dbg w rounds (ofWord (.bin w) w.decRadix)
    buildDecimal dbg w scales (x.length + 1) x

end UBig

end Babs
