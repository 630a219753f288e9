/-!
# Rust primitives

Panics, results, and fixed width machine arithmetic.  The flag `dbg` is the build profile:
`true` is a debug build (overflow checks and `debug_assert!` on), `false` a release build.
-/

namespace Babs

/-- Reasons for a panic of the modelled code.  `noFuel` is not a Rust panic: it is the value a
model recursion takes when its fuel runs out, and the theorems exclude it. -/
inductive Panic where
  /-- arithmetic overflow in a debug build -/
  | overflow
  /-- slice or vector index out of range -/
  | index
  /-- `unwrap` of an `Err` -/
  | unwrap
  /-- failed `assert!` -/
  | assert
  /-- failed `debug_assert!` (debug builds only) -/
  | debugAssert
  /-- machine division by zero -/
  | divZero
  /-- `unimplemented!` -/
  | unimplemented
  /-- explicit `panic!` with the error's message -/
  | explicit
  /-- a model recursion ran out of fuel -/
  | noFuel
  deriving DecidableEq, Repr

/-- A computation that may panic. -/
abbrev R := Except Panic

/-- `src/result.rs:17-27`, `Error`. -/
inductive Error where
  | invalidNumber
  | underflow
  | divisionByZero
  | noSpace
  deriving DecidableEq, Repr

/-- `src/result.rs:44`, `Result<T>`. -/
abbrev Res := Except Error

/-- Equality of outcomes can be decided; used to evaluate the model on concrete inputs. -/
instance instDecEqExcept {ε α : Type} [DecidableEq ε] [DecidableEq α] : DecidableEq (Except ε α)
  | .ok a, .ok b => if h : a = b then isTrue (by rw [h]) else isFalse (by intro e; injection e; contradiction)
  | .error a, .error b =>
    if h : a = b then isTrue (by rw [h]) else isFalse (by intro e; injection e; contradiction)
  | .ok _, .error _ => isFalse (by intro e; injection e)
  | .error _, .ok _ => isFalse (by intro e; injection e)

/-- `a + b` on a `w` bit unsigned word. -/
def addW (dbg : Bool) (w a b : Nat) : R Nat :=
  if a + b < 2 ^ w then .ok (a + b)
  else if dbg then .error .overflow else .ok ((a + b) % 2 ^ w)

/-- `a - b` on a `w` bit unsigned word. -/
def subW (dbg : Bool) (w a b : Nat) : R Nat :=
  if b ≤ a then .ok (a - b)
  else if dbg then .error .overflow else .ok ((a + 2 ^ w - b) % 2 ^ w)

/-- `a * b` on a `w` bit unsigned word. -/
def mulW (dbg : Bool) (w a b : Nat) : R Nat :=
  if a * b < 2 ^ w then .ok (a * b)
  else if dbg then .error .overflow else .ok ((a * b) % 2 ^ w)

/-- `a << s` on a `w` bit unsigned word: bits shifted out are lost without a panic, but a shift by
`w` or more panics in a debug build and shifts by `s % w` in a release build. -/
def shlW (dbg : Bool) (w a s : Nat) : R Nat :=
  if s < w then .ok ((a <<< s) % 2 ^ w)
  else if dbg then .error .overflow else .ok ((a <<< (s % w)) % 2 ^ w)

/-- `a >> s` on a `w` bit unsigned word, with the same rule for large shifts as `shlW`. -/
def shrW (dbg : Bool) (w a s : Nat) : R Nat :=
  if s < w then .ok (a >>> s)
  else if dbg then .error .overflow else .ok (a >>> (s % w))

/-- `a / b` on unsigned words. -/
def divW (a b : Nat) : R Nat := if b = 0 then .error .divZero else .ok (a / b)

/-- `a % b` on unsigned words. -/
def remW (a b : Nat) : R Nat := if b = 0 then .error .divZero else .ok (a % b)

/-- `x as uN` from a wider word: truncation. -/
def castW (w a : Nat) : Nat := a % 2 ^ w

/-- `uN::overflowing_add`. -/
def overflowingAdd (w a b : Nat) : Nat × Bool := ((a + b) % 2 ^ w, decide (2 ^ w ≤ a + b))

/-- `uN::overflowing_sub`. -/
def overflowingSub (w a b : Nat) : Nat × Bool := ((a + 2 ^ w - b) % 2 ^ w, decide (a < b))

/-- `uN::wrapping_sub`. -/
def wrappingSub (w a b : Nat) : Nat := (a + 2 ^ w - b) % 2 ^ w

/-- `uN::leading_zeros`. -/
def leadingZeros (w a : Nat) : Nat := if a = 0 then w else w - 1 - Nat.log2 a

/-- `assert!(c)`. -/
def assertR (c : Bool) : R Unit := if c then .ok () else .error .assert

/-- `debug_assert!(c)`. -/
def debugAssertR (dbg c : Bool) : R Unit := if dbg && !c then .error .debugAssert else .ok ()

/-- `Result::unwrap`. -/
def unwrapR {α : Type} : Res α → R α
  | .ok a => .ok a
  | .error _ => .error .unwrap

/-- `&l[a..b]`. -/
def slice (l : List Nat) (a b : Nat) : R (List Nat) :=
  if a ≤ b ∧ b ≤ l.length then .ok ((l.take b).drop a) else .error .index

/-- `l.split_at(k)` / `l.split_at_mut(k)`. -/
def splitAtR (l : List Nat) (k : Nat) : R (List Nat × List Nat) :=
  if k ≤ l.length then .ok (l.take k, l.drop k) else .error .index

/-- `l[i]`. -/
def getR (l : List Nat) (i : Nat) : R Nat :=
  match l[i]? with
  | some d => .ok d
  | none => .error .index

/-- `l[i] = v`. -/
def setR (l : List Nat) (i v : Nat) : R (List Nat) :=
  if i < l.length then .ok (l.set i v) else .error .index

/-- Run `f` on `&mut l[a..b]` and put the changed slice back. -/
def onSlice {α : Type} (l : List Nat) (a b : Nat) (f : List Nat → R (List Nat × α)) :
    R (List Nat × α) := do
  let s ← slice l a b
  let (s', x) ← f s
  return (l.take a ++ s' ++ l.drop b, x)

/-- `l[a..b].copy_from_slice(src)` (panics if the lengths differ). -/
def copyInto (l : List Nat) (a b : Nat) (src : List Nat) : R (List Nat) := do
  let s ← slice l a b
  if s.length = src.length then return l.take a ++ src ++ l.drop b
  else throw .index

/-- `l.fill(v)` / `vec![v; n]` are `List.replicate`. -/
def fillWith (v : Nat) (l : List Nat) : List Nat := List.replicate l.length v

/-- Alignment in a format string. -/
inductive Align where
  | left | center | right
  deriving DecidableEq, Repr

/-- The flags of a `std::fmt::Formatter`. -/
structure FmtFlags where
  signPlus : Bool := false
  alternate : Bool := false
  zeroPad : Bool := false
  fill : Char := ' '
  align : Option Align := none
  width : Option Nat := none
  deriving DecidableEq, Repr

end Babs
