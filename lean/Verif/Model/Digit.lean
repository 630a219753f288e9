import Verif.Model.Prim

/-!
# Digits: `src/digit.rs`

A digit is modelled by the content of its storage word (`self.0`), a natural number.
`&mut self` operations return the new digit together with the function's result.
-/

namespace Babs

/-- The operations of the trait `Digit`, `src/digit.rs:50-132`.  `T::zero()` is `0` and `T::one()`
is `1` (`src/digit.rs:414-438` and `864-888`), `from_bit(c)` is `c.toNat` (59-62).  The string
conversions (63-74) are in `Verif/Model/Text.lean`. -/
structure DigitOps where
  /-- `MAX` -/
  max : Nat
  /-- `max_shift(&self)` -/
  maxShift : Nat → R Nat
  /-- `inc(&mut self)` -/
  inc : Nat → R (Nat × Bool)
  /-- `dec(&mut self)` -/
  dec : Nat → R (Nat × Bool)
  /-- `add_carry_assign(&mut self, other, carry)` -/
  addCarry : Nat → Nat → Bool → R (Nat × Bool)
  /-- `sub_carry_assign(&mut self, other, carry)` -/
  subCarry : Nat → Nat → Bool → R (Nat × Bool)
  /-- `shl_carry_assign(&mut self, shift, carry)` -/
  shlCarry : Nat → Nat → Nat → R (Nat × Nat)
  /-- `shr_carry_assign(&mut self, shift, carry)` -/
  shrCarry : Nat → Nat → Nat → R (Nat × Nat)
  /-- `double_carry_assign(&mut self, carry)` -/
  doubleCarry : Nat → Bool → R (Nat × Bool)
  /-- `mul_carry_assign(&mut self, fac, carry)` -/
  mulCarry : Nat → Nat → Nat → R (Nat × Nat)
  /-- `rem_carry(&self, fac, carry)` -/
  remCarry : Nat → Nat → Nat → R Nat
  /-- `div_carry_assign(&mut self, fac, carry)` -/
  divCarry : Nat → Nat → Nat → R (Nat × Nat)
  /-- `div3_carry_assign(&mut self, carry)` -/
  div3Carry : Nat → Nat → R (Nat × Nat)
  /-- `add_prod_carry_assign(&mut self, fac0, fac1, carry)` -/
  addProd : Nat → Nat → Nat → Nat → R (Nat × Nat)
  /-- `sub_prod_carry_assign(&mut self, fac0, fac1, carry)` -/
  subProd : Nat → Nat → Nat → Nat → R (Nat × Nat)

/-! ## Binary digits, `w` bits wide (`$dt`), with a wide type of `2*w` bits (`$wdt`) -/

namespace Bin

variable (dbg : Bool) (w : Nat)

/-- `MAX`, `src/digit.rs:159` and `290`. -/
def max : Nat := 2 ^ w - 1

/-- `src/digit.rs:168-172` and `299-303`. -/
def maxShift (self : Nat) : R Nat := .ok (leadingZeros w self)

/-- `src/digit.rs:174-180` and `305-311`. -/
def inc (self : Nat) : R (Nat × Bool) := .ok (overflowingAdd w self 1)

/-- `src/digit.rs:182-188` and `313-319`. -/
def dec (self : Nat) : R (Nat × Bool) := .ok (overflowingSub w self 1)

/-- `src/digit.rs:190-197` and `321-328`. -/
def addCarry (self other : Nat) (carry : Bool) : R (Nat × Bool) :=
  let (n, overflow0) := overflowingAdd w self other
  let (n, overflow1) := overflowingAdd w n carry.toNat
  .ok (n, overflow0 || overflow1)

/-- `src/digit.rs:199-206` and `330-337`. -/
def subCarry (self other : Nat) (carry : Bool) : R (Nat × Bool) :=
  let (n, underflow0) := overflowingSub w self other
  let (n, underflow1) := overflowingSub w n carry.toNat
  .ok (n, underflow0 || underflow1)

/-- `src/digit.rs:208-214` and `339-345`. -/
def shlCarry (self shift carry : Nat) : R (Nat × Nat) := do
  let newCarry ← shrW dbg w self (← subW dbg 64 w shift)
  let s ← shlW dbg w self shift
  return (s ||| carry, newCarry)

/-- `src/digit.rs:216-223` and `347-354`. -/
def shrCarry (self shift carry : Nat) : R (Nat × Nat) := do
  let b ← shlW dbg w 1 (← subW dbg 64 shift 1)
  let mask := b ||| (← subW dbg w b 1)
  let newCarry := self &&& mask
  let hi ← shlW dbg w carry (← subW dbg 64 w shift)
  let lo ← shrW dbg w self shift
  return (hi ||| lo, newCarry)

/-- `src/digit.rs:225-231` and `356-362`. -/
def doubleCarry (self : Nat) (carry : Bool) : R (Nat × Bool) := do
  let overflow := self &&& (← shlW dbg w 1 (w - 1)) != 0
  let s ← shlW dbg w self 1
  return (s ||| carry.toNat, overflow)

/-- `src/digit.rs:233-239` and `364-370`. -/
def mulCarry (self fac carry : Nat) : R (Nat × Nat) := do
  let tmp ← addW dbg (2 * w) (← mulW dbg (2 * w) self fac) carry
  return (castW w (tmp &&& max w), castW w (← shrW dbg (2 * w) tmp w))

/-- `src/digit.rs:241-246` and `372-377`. -/
def remCarry (self fac carry : Nat) : R Nat := do
  let tmp := (← shlW dbg (2 * w) carry w) ||| self
  return castW w (← remW tmp fac)

/-- `src/digit.rs:248-254` and `379-385`. -/
def divCarry (self fac carry : Nat) : R (Nat × Nat) := do
  let tmp := (← shlW dbg (2 * w) carry w) ||| self
  return (castW w (← divW tmp fac), castW w (← remW tmp fac))

/-- `src/digit.rs:256-262` (u8, u16, u32). -/
def div3Carry (self carry : Nat) : R (Nat × Nat) := do
  let tmp := (← shlW dbg (2 * w) carry w) ||| self
  return (castW w (← divW tmp 3), castW 8 (← remW tmp 3))

/-- `src/digit.rs:387-394` (u64). -/
def div3Carry64 (self carry : Nat) : R (Nat × Nat) := do
  let rem := self % 3
  let s ← addW dbg 64 (self / 3) (← mulW dbg 64 carry ((2 ^ 64 - 1) / 3))
  let s ← addW dbg 64 s ((← addW dbg 64 carry rem) / 3)
  return (s, (← addW dbg 8 carry (castW 8 rem)) % 3)

/-- `src/digit.rs:264-270` and `396-402`. -/
def addProd (self fac0 fac1 carry : Nat) : R (Nat × Nat) := do
  let tmp ← addW dbg (2 * w) (← addW dbg (2 * w) self (← mulW dbg (2 * w) fac0 fac1)) carry
  return (castW w (tmp &&& max w), castW w (← shrW dbg (2 * w) tmp w))

/-- `src/digit.rs:272-279` and `404-411`. -/
def subProd (self fac0 fac1 carry : Nat) : R (Nat × Nat) := do
  let tmp ← addW dbg (2 * w) (← mulW dbg (2 * w) fac0 fac1) carry
  let (n, underflow) := overflowingSub w self (castW w (tmp &&& max w))
  return (n, ← addW dbg w (castW w (← shrW dbg (2 * w) tmp w)) underflow.toNat)

end Bin

/-- The `Digit` implementation of `BinaryDigit<u8>`, `<u16>`, `<u32>` (`src/digit.rs:154-286`) and
`<u64>` (`src/digit.rs:288-412`); the two differ in `div3_carry_assign` only. -/
def binOps (dbg : Bool) (w : Nat) : DigitOps where
  max := Bin.max w
  maxShift := Bin.maxShift w
  inc := Bin.inc w
  dec := Bin.dec w
  addCarry := Bin.addCarry w
  subCarry := Bin.subCarry w
  shlCarry := Bin.shlCarry dbg w
  shrCarry := Bin.shrCarry dbg w
  doubleCarry := Bin.doubleCarry dbg w
  mulCarry := Bin.mulCarry dbg w
  remCarry := Bin.remCarry dbg w
  divCarry := Bin.divCarry dbg w
  div3Carry := if w = 64 then Bin.div3Carry64 dbg else Bin.div3Carry dbg w
  addProd := Bin.addProd dbg w
  subProd := Bin.subProd dbg w

/-! ## Decimal digits over u8, u16, u32: storage of `w` bits, radix `rx` (`DECIMAL_RADIX`) -/

namespace Dec

variable (dbg : Bool) (w rx : Nat)

/-- `src/digit.rs:536-541` and `708-713`. -/
def maxShift (self : Nat) : R Nat := do
  let shift ← subW dbg 32 (leadingZeros w self) (leadingZeros w (rx - 1))
  if (← shlW dbg w self shift) ≤ rx - 1 then return shift else subW dbg 32 shift 1

/-- `src/digit.rs:543-556` and `715-728`. -/
def inc (self : Nat) : R (Nat × Bool) :=
  if self = rx - 1 then .ok (0, true)
  else do return (← addW dbg w self 1, false)

/-- `src/digit.rs:558-571` and `730-743`. -/
def dec (self : Nat) : R (Nat × Bool) :=
  if self = 0 then .ok (rx - 1, true)
  else do return (← subW dbg w self 1, false)

/-- `src/digit.rs:573-586`. -/
def addCarry (self other : Nat) (carry : Bool) : R (Nat × Bool) := do
  let s ← addW dbg w self (← addW dbg w other carry.toNat)
  if rx ≤ s then return (← subW dbg w s rx, true) else return (s, false)

/-- `src/digit.rs:588-602` and `761-775`. -/
def subCarry (self other : Nat) (carry : Bool) : R (Nat × Bool) := do
  let diff ← addW dbg w other carry.toNat
  if self < diff then return (← addW dbg w self (← subW dbg w rx diff), true)
  else return (← subW dbg w self diff, false)

/-- `src/digit.rs:604-610`. -/
def shlCarry (self shift carry : Nat) : R (Nat × Nat) := do
  let tmp ← addW dbg (2 * w) (← shlW dbg (2 * w) self shift) carry
  return (castW w (← remW tmp rx), castW w (← divW tmp rx))

/-- `src/digit.rs:612-619` and `786-793`. -/
def shrCarry (self shift carry : Nat) : R (Nat × Nat) := do
  let b ← shlW dbg (2 * w) 1 (← subW dbg 64 shift 1)
  let mask := b ||| (← subW dbg (2 * w) b 1)
  let tmp ← addW dbg (2 * w) (← mulW dbg (2 * w) carry rx) self
  return (castW w (← shrW dbg (2 * w) tmp shift), castW w (tmp &&& mask))

/-- `src/digit.rs:621-634`. -/
def doubleCarry (self : Nat) (carry : Bool) : R (Nat × Bool) := do
  let s := (← shlW dbg w self 1) ||| carry.toNat
  if rx ≤ s then return (← subW dbg w s rx, true) else return (s, false)

/-- `src/digit.rs:636-642`. -/
def mulCarry (self fac carry : Nat) : R (Nat × Nat) := do
  let tmp ← addW dbg (2 * w) (← mulW dbg (2 * w) self fac) carry
  return (castW w (← remW tmp rx), castW w (← divW tmp rx))

/-- `src/digit.rs:644-649` and `820-825`. -/
def remCarry (self fac carry : Nat) : R Nat := do
  let tmp ← addW dbg (2 * w) (← mulW dbg (2 * w) carry rx) self
  return castW w (← remW tmp fac)

/-- `src/digit.rs:651-657` and `827-833`. -/
def divCarry (self fac carry : Nat) : R (Nat × Nat) := do
  let tmp ← addW dbg (2 * w) (← mulW dbg (2 * w) carry rx) self
  return (castW w (← divW tmp fac), castW w (← remW tmp fac))

/-- `src/digit.rs:659-665`. -/
def div3Carry (self carry : Nat) : R (Nat × Nat) := do
  let tmp ← addW dbg (2 * w) (← mulW dbg (2 * w) carry rx) self
  return (castW w (← divW tmp 3), castW 8 (← remW tmp 3))

/-- `src/digit.rs:667-673`. -/
def addProd (self fac0 fac1 carry : Nat) : R (Nat × Nat) := do
  let tmp ← addW dbg (2 * w) (← addW dbg (2 * w) self (← mulW dbg (2 * w) fac0 fac1)) carry
  return (castW w (← remW tmp rx), castW w (← divW tmp rx))

/-- `src/digit.rs:675-681`. -/
def subProd (self fac0 fac1 carry : Nat) : R (Nat × Nat) := do
  let tmp ← addW dbg (2 * w) (← mulW dbg (2 * w) fac0 fac1) carry
  let (s, underflow) ← subCarry dbg w rx self (castW w (← remW tmp rx)) false
  return (s, ← addW dbg w (castW w (← divW tmp rx)) underflow.toNat)

end Dec

/-- The `Digit` implementation of `DecimalDigit<u8>`, `<u16>`, `<u32>`, `src/digit.rs:515-688`. -/
def decOps (dbg : Bool) (w rx : Nat) : DigitOps where
  max := rx - 1
  maxShift := Dec.maxShift dbg w rx
  inc := Dec.inc dbg w rx
  dec := Dec.dec dbg w rx
  addCarry := Dec.addCarry dbg w rx
  subCarry := Dec.subCarry dbg w rx
  shlCarry := Dec.shlCarry dbg w rx
  shrCarry := Dec.shrCarry dbg w rx
  doubleCarry := Dec.doubleCarry dbg w rx
  mulCarry := Dec.mulCarry dbg w rx
  remCarry := Dec.remCarry dbg w rx
  divCarry := Dec.divCarry dbg w rx
  div3Carry := Dec.div3Carry dbg w rx
  addProd := Dec.addProd dbg w rx
  subProd := Dec.subProd dbg w rx

/-! ## Decimal digits over u64 -/

namespace Dec64

variable (dbg : Bool)

/-- `u64::DECIMAL_RADIX`, `src/digit.rs:44-47`. -/
def radix : Nat := 10000000000000000000

/-- `SCALE_LOW`, `src/digit.rs:501`. -/
def scaleLow : Nat := 6225051964306646475

/-- `SCALE_HIGH`, `src/digit.rs:502`. -/
def scaleHigh : Nat := 15581492618384294730

/-- `div_rem_base`, `src/digit.rs:493-512`: all arithmetic is on `u128`. -/
def divRemBase (n : Nat) : R (Nat × Nat) := do
  let nLow := n &&& 0xffffffffffffffff
  let nHigh ← shrW dbg 128 n 64
  let carry ← shrW dbg 128 (← mulW dbg 128 scaleLow nLow) 64
  let t ← addW dbg 128 (← mulW dbg 128 scaleLow nHigh) (← mulW dbg 128 scaleHigh nLow)
  let carry ← shrW dbg 128 (← addW dbg 128 t carry) 64
  let t ← addW dbg 128 (← addW dbg 128 (← mulW dbg 128 scaleHigh nHigh) carry) nLow
  let quot ← addW dbg 128 (← shrW dbg 128 t 64) nHigh
  let rem ← subW dbg 128 n (← mulW dbg 128 quot radix)
  return (castW 64 quot, castW 64 rem)

/-- `src/digit.rs:745-759`. -/
def addCarry (self other : Nat) (carry : Bool) : R (Nat × Bool) := do
  let (sum, overflow) := overflowingAdd 64 self (← addW dbg 64 other carry.toNat)
  if overflow || decide (radix ≤ sum) then return (wrappingSub 64 sum radix, true)
  else return (sum, false)

/-- `src/digit.rs:777-784`. -/
def shlCarry (self shift carry : Nat) : R (Nat × Nat) := do
  let tmp ← addW dbg 128 (← shlW dbg 128 self shift) carry
  let (q, r) ← divRemBase dbg tmp
  return (r, q)

/-- `src/digit.rs:795-809`. -/
def doubleCarry (self : Nat) (carry : Bool) : R (Nat × Bool) := do
  let overflow := self &&& (← shlW dbg 64 1 63) != 0
  let s := (← shlW dbg 64 self 1) ||| carry.toNat
  if overflow || decide (radix ≤ s) then return (wrappingSub 64 s radix, true)
  else return (s, false)

/-- `src/digit.rs:811-818`. -/
def mulCarry (self fac carry : Nat) : R (Nat × Nat) := do
  let tmp ← addW dbg 128 (← mulW dbg 128 self fac) carry
  let (q, r) ← divRemBase dbg tmp
  return (r, q)

/-- `src/digit.rs:835-843`. -/
def div3Carry (self carry : Nat) : R (Nat × Nat) := do
  let s ← addW dbg 64 self carry
  let rem := s % 3
  let s ← addW dbg 64 (s / 3) (← mulW dbg 64 carry ((radix - 1) / 3))
  return (s, castW 8 rem)

/-- `src/digit.rs:845-852`. -/
def addProd (self fac0 fac1 carry : Nat) : R (Nat × Nat) := do
  let tmp ← addW dbg 128 (← addW dbg 128 self (← mulW dbg 128 fac0 fac1)) carry
  let (q, r) ← divRemBase dbg tmp
  return (r, q)

/-- `src/digit.rs:854-861`. -/
def subProd (self fac0 fac1 carry : Nat) : R (Nat × Nat) := do
  let tmp ← addW dbg 128 (← mulW dbg 128 fac0 fac1) carry
  let (q, r) ← divRemBase dbg tmp
  let (s, underflow) ← Dec.subCarry dbg 64 radix self r false
  return (s, ← addW dbg 64 q underflow.toNat)

end Dec64

/-- The `Digit` implementation of `DecimalDigit<u64>`, `src/digit.rs:690-862`.  The operations that
are written in the same way as in the macro for the smaller types are shared with `decOps`. -/
def dec64Ops (dbg : Bool) : DigitOps where
  max := Dec64.radix - 1
  maxShift := Dec.maxShift dbg 64 Dec64.radix
  inc := Dec.inc dbg 64 Dec64.radix
  dec := Dec.dec dbg 64 Dec64.radix
  addCarry := Dec64.addCarry dbg
  subCarry := Dec.subCarry dbg 64 Dec64.radix
  shlCarry := Dec64.shlCarry dbg
  shrCarry := Dec.shrCarry dbg 64 Dec64.radix
  doubleCarry := Dec64.doubleCarry dbg
  mulCarry := Dec64.mulCarry dbg
  remCarry := Dec.remCarry dbg 64 Dec64.radix
  divCarry := Dec.divCarry dbg 64 Dec64.radix
  div3Carry := Dec64.div3Carry dbg
  addProd := Dec64.addProd dbg
  subProd := Dec64.subProd dbg

/-! ## The eight digit types -/

/-- The storage types u8, u16, u32, u64. -/
inductive Width where
  | w8 | w16 | w32 | w64
  deriving DecidableEq, Repr

/-- Number of bits, `8 * size_of::<T>()` (`NR_BITS`, `src/digit.rs:140`). -/
def Width.bits : Width → Nat
  | .w8 => 8
  | .w16 => 16
  | .w32 => 32
  | .w64 => 64

/-- `size_of::<T>()`. -/
def Width.bytes : Width → Nat
  | .w8 => 1
  | .w16 => 2
  | .w32 => 4
  | .w64 => 8

/-- `DECIMAL_RADIX`, `src/digit.rs:32-47`. -/
def Width.decRadix : Width → Nat
  | .w8 => 100
  | .w16 => 10000
  | .w32 => 1000000000
  | .w64 => 10000000000000000000

/-- The digit types `BinaryDigit<T>` and `DecimalDigit<T>`, giving the number types `UBigBin8`, ...,
`UBigDec64` of `src/lib.rs:24-35`. -/
inductive DType where
  | bin (w : Width)
  | dec (w : Width)
  deriving DecidableEq, Repr

/-- The base of the number. -/
def DType.radix : DType → Nat
  | .bin w => 2 ^ w.bits
  | .dec w => w.decRadix

/-- The digit operations of a type in a build profile. -/
def DType.ops (t : DType) (dbg : Bool) : DigitOps :=
  match t with
  | .bin w => binOps dbg w.bits
  | .dec .w8 => decOps dbg 8 100
  | .dec .w16 => decOps dbg 16 10000
  | .dec .w32 => decOps dbg 32 1000000000
  | .dec .w64 => dec64Ops dbg

end Babs
