import Verif.Model.Digit

/-!
# Division by 10^19 in the benchmark

Models the alternatives for `div_rem_base` that are compared in `benches/divbase.rs`.  The one instruction
of inline assembly (only with the feature `asm`) is modelled as the processor's manual describes it.
-/

namespace Babs.DivBase

variable (dbg : Bool)

/-- `DECIMAL_RADIX`, `benches/divbase.rs:20`. -/
def radix : Nat := 10000000000000000000

/-- `benches/divbase.rs:22-41`, `mul_inv_base`: all arithmetic is on `u128`. -/
def mulInvBase (n : Nat) : R (Nat × Nat) := do
  let scaleLow := 6225051964306646475
  let scaleHigh := 15581492618384294730
  let nLow := n &&& 0xffffffffffffffff
  let nHigh ← shrW dbg 128 n 64
  let carry ← shrW dbg 128 (← mulW dbg 128 scaleLow nLow) 64
  let t ← addW dbg 128 (← mulW dbg 128 scaleLow nHigh) (← mulW dbg 128 scaleHigh nLow)
  let carry ← shrW dbg 128 (← addW dbg 128 t carry) 64
  let t ← addW dbg 128 (← addW dbg 128 (← mulW dbg 128 scaleHigh nHigh) carry) nLow
  let quot ← addW dbg 128 (← shrW dbg 128 t 64) nHigh
  let rem ← subW dbg 128 n (← mulW dbg 128 quot radix)
  return (castW 64 quot, castW 64 rem)

/-- `benches/divbase.rs:43-58`, `mul_inv_base_2`: all arithmetic is on `u128`. -/
def mulInvBase2 (n : Nat) : R (Nat × Nat) := do
  let scaleLow := 11918280793837635165
  let scaleHigh := 2126764793255865396
  let scaleSum ← addW true 128 scaleLow scaleHigh
  let nLow := n &&& 0xffffffffffffffff
  let nHigh ← shrW dbg 128 n 64
  let nSum ← addW dbg 128 nLow nHigh
  let q0 ← mulW dbg 128 scaleLow nLow
  let q2 ← mulW dbg 128 scaleHigh nHigh
  let t ← subW dbg 128 (← mulW dbg 128 scaleSum nSum) q0
  let q1 ← addW dbg 128 (← subW dbg 128 t q2) (← shrW dbg 128 q0 64)
  let quot ← shrW dbg 128 (← addW dbg 128 q2 (← shrW dbg 128 q1 64)) 60
  let rem ← subW dbg 128 n (← mulW dbg 128 quot radix)
  return (castW 64 quot, castW 64 rem)

/-- `benches/divbase.rs:60-65`, `div_op_base`. -/
def divOpBase (n : Nat) : R (Nat × Nat) := do
  let quot ← divW n radix
  let rem ← remW n radix
  return (castW 64 quot, castW 64 rem)

/-- `benches/divbase.rs:95-107` and `109-121`: a digit of the quotient, corrected at most twice.  `n` is
the dividend (`u128`), `q` the estimate (`u64`); gives the digit and its multiple of the radix. -/
def correct (n q : Nat) : R (Nat × Nat) := do
  let qd ← mulW dbg 128 q radix
  if n < qd then
    let q ← subW dbg 64 q 1
    let qd ← subW dbg 128 qd radix
    if n < qd then return (← subW dbg 64 q 1, ← subW dbg 128 qd radix)
    else return (q, qd)
  else return (q, qd)

/-- `benches/divbase.rs:91-127`, `div_long_base`. -/
def divLongBase (n : Nat) : R (Nat × Nat) := do
  let dHigh ← shrW dbg 64 radix 32
  let n0 ← shrW dbg 128 n 32
  let (q0, qd) ← correct dbg n0 (← divW (castW 64 (← shrW dbg 128 n0 32)) dHigh)
  let n1 := (← shlW dbg 128 (← subW dbg 128 n0 qd) 32) ||| (n &&& 0xffffffff)
  let (q1, qd) ← correct dbg n1 (← divW (castW 64 (← shrW dbg 128 n1 32)) dHigh)
  let rem := castW 64 (← subW dbg 128 n1 qd)
  let quot := (← shlW dbg 64 q0 32) ||| q1
  return (quot, rem)

/-- `benches/divbase.rs:67-83`, `divq`: the instruction `div` divides `rdx:rax` by a word of 64 bits.  It
raises a fault, here `none`, if the divisor is zero or the quotient does not fit in 64 bits. -/
def divq (n d : Nat) : Option (Nat × Nat) :=
  let nLow := castW 64 n
  let nHigh := castW 64 (n / 2 ^ 64)
  if d = 0 ∨ 2 ^ 64 ≤ (nHigh * 2 ^ 64 + nLow) / d then none
  else some ((nHigh * 2 ^ 64 + nLow) / d, (nHigh * 2 ^ 64 + nLow) % d)

/-- `benches/divbase.rs:85-89`, `divq_base`. -/
def divqBase (n : Nat) : Option (Nat × Nat) := divq n radix

/-- `benches/divbase.rs:131-138`, `test_div_base`: the exclusive or of all quotients and of all
remainders. -/
def testDivBase (op : Nat → R (Nat × Nat)) (nums : List Nat) : R (Nat × Nat) :=
  nums.foldlM (fun (accQ, accR) n => do
    let (q, r) ← op n
    return (accQ ^^^ q, accR ^^^ r)) (0, 0)

end Babs.DivBase
