import Verif.Tests.Conformance

/-!
The crate's unit tests of the digits, `add.rs`, `sub.rs`, `rsub.rs`, `cmp.rs`, `support.rs`, `shl.rs` and `shr.rs`,
run in the model in the debug profile: every test function is translated statement by statement.
These are tests of the model, not properties.
-/

set_option linter.unusedVariables false

namespace Babs.Tests

/-- `src/digit.rs:915-934`. -/
def digit_test_max_shift_binary (dbg : Bool) : R Unit := do
  holds (decide ((← (DType.ops (.bin .w8) dbg).maxShift 0) = 8))
  holds (decide ((← (DType.ops (.bin .w8) dbg).maxShift 1) = 7))
  holds (decide ((← (DType.ops (.bin .w8) dbg).maxShift 128) = 0))
  holds (decide ((← (DType.ops (.bin .w16) dbg).maxShift 0) = 16))
  holds (decide ((← (DType.ops (.bin .w16) dbg).maxShift 112) = 9))
  holds (decide ((← (DType.ops (.bin .w16) dbg).maxShift 226) = 8))
  holds (decide ((← (DType.ops (.bin .w16) dbg).maxShift 22754) = 1))
  holds (decide ((← (DType.ops (.bin .w16) dbg).maxShift 32994) = 0))
  holds (decide ((← (DType.ops (.bin .w32) dbg).maxShift 0) = 32))
  holds (decide ((← (DType.ops (.bin .w32) dbg).maxShift 112) = 25))
  holds (decide ((← (DType.ops (.bin .w32) dbg).maxShift 22754) = 17))
  holds (decide ((← (DType.ops (.bin .w32) dbg).maxShift 32994) = 16))
  holds (decide ((← (DType.ops (.bin .w32) dbg).maxShift 1991038305) = 1))
  holds (decide ((← (DType.ops (.bin .w32) dbg).maxShift 4294967295) = 0))

/-- `src/digit.rs:936-955`. -/
def digit_test_max_shift_decimal (dbg : Bool) : R Unit := do
  holds (decide ((← (DType.ops (.dec .w8) dbg).maxShift 0) = 7))
  holds (decide ((← (DType.ops (.dec .w8) dbg).maxShift 1) = 6))
  holds (decide ((← (DType.ops (.dec .w8) dbg).maxShift 49) = 1))
  holds (decide ((← (DType.ops (.dec .w8) dbg).maxShift 75) = 0))
  holds (decide ((← (DType.ops (.dec .w16) dbg).maxShift 0) = 14))
  holds (decide ((← (DType.ops (.dec .w16) dbg).maxShift 50) = 7))
  holds (decide ((← (DType.ops (.dec .w16) dbg).maxShift 2139) = 2))
  holds (decide ((← (DType.ops (.dec .w16) dbg).maxShift 7612) = 0))
  holds (decide ((← (DType.ops (.dec .w32) dbg).maxShift 0) = 30))
  holds (decide ((← (DType.ops (.dec .w32) dbg).maxShift 50) = 24))
  holds (decide ((← (DType.ops (.dec .w32) dbg).maxShift 2139) = 18))
  holds (decide ((← (DType.ops (.dec .w32) dbg).maxShift 7612) = 17))
  holds (decide ((← (DType.ops (.dec .w32) dbg).maxShift 213781923) = 2))
  holds (decide ((← (DType.ops (.dec .w32) dbg).maxShift 500000000) = 0))

/-- `src/digit.rs:957-994`. -/
def digit_test_inc_binary (dbg : Bool) : R Unit := do
  let d : Nat := 0
  let (d, overflow) ← (DType.ops (.bin .w8) dbg).inc d
  holds (!overflow)
  holds (decide (d = 1))
  let d : Nat := 254
  let (d, overflow) ← (DType.ops (.bin .w8) dbg).inc d
  holds (!overflow)
  holds (decide (d = 255))
  let d : Nat := 255
  let (d, overflow) ← (DType.ops (.bin .w8) dbg).inc d
  holds (overflow)
  holds (decide (d = 0))
  let d : Nat := 255
  let (d, overflow) ← (DType.ops (.bin .w16) dbg).inc d
  holds (!overflow)
  holds (decide (d = 256))
  let d : Nat := 65535
  let (d, overflow) ← (DType.ops (.bin .w16) dbg).inc d
  holds (overflow)
  holds (decide (d = 0))
  let d : Nat := 1048575
  let (d, overflow) ← (DType.ops (.bin .w32) dbg).inc d
  holds (!overflow)
  holds (decide (d = 1048576))
  let d : Nat := 4294967295
  let (d, overflow) ← (DType.ops (.bin .w32) dbg).inc d
  holds (overflow)
  holds (decide (d = 0))

/-- `src/digit.rs:996-1033`. -/
def digit_test_inc_decimal (dbg : Bool) : R Unit := do
  let d : Nat := 0
  let (d, overflow) ← (DType.ops (.dec .w8) dbg).inc d
  holds (!overflow)
  holds (decide (d = 1))
  let d : Nat := 98
  let (d, overflow) ← (DType.ops (.dec .w8) dbg).inc d
  holds (!overflow)
  holds (decide (d = 99))
  let d : Nat := 99
  let (d, overflow) ← (DType.ops (.dec .w8) dbg).inc d
  holds (overflow)
  holds (decide (d = 0))
  let d : Nat := 99
  let (d, overflow) ← (DType.ops (.dec .w16) dbg).inc d
  holds (!overflow)
  holds (decide (d = 100))
  let d : Nat := 9999
  let (d, overflow) ← (DType.ops (.dec .w16) dbg).inc d
  holds (overflow)
  holds (decide (d = 0))
  let d : Nat := 99999999
  let (d, overflow) ← (DType.ops (.dec .w32) dbg).inc d
  holds (!overflow)
  holds (decide (d = 100000000))
  let d : Nat := 999999999
  let (d, overflow) ← (DType.ops (.dec .w32) dbg).inc d
  holds (overflow)
  holds (decide (d = 0))

/-- `src/digit.rs:1035-1072`. -/
def digit_test_dec_binary (dbg : Bool) : R Unit := do
  let d : Nat := 1
  let (d, underflow) ← (DType.ops (.bin .w8) dbg).dec d
  holds (!underflow)
  holds (decide (d = 0))
  let d : Nat := 255
  let (d, underflow) ← (DType.ops (.bin .w8) dbg).dec d
  holds (!underflow)
  holds (decide (d = 254))
  let d : Nat := 0
  let (d, underflow) ← (DType.ops (.bin .w8) dbg).dec d
  holds (underflow)
  holds (decide (d = 255))
  let d : Nat := 256
  let (d, underflow) ← (DType.ops (.bin .w16) dbg).dec d
  holds (!underflow)
  holds (decide (d = 255))
  let d : Nat := 0
  let (d, underflow) ← (DType.ops (.bin .w16) dbg).dec d
  holds (underflow)
  holds (decide (d = 65535))
  let d : Nat := 1048576
  let (d, underflow) ← (DType.ops (.bin .w32) dbg).dec d
  holds (!underflow)
  holds (decide (d = 1048575))
  let d : Nat := 0
  let (d, underflow) ← (DType.ops (.bin .w32) dbg).dec d
  holds (underflow)
  holds (decide (d = 4294967295))

/-- `src/digit.rs:1074-1111`. -/
def digit_test_dec_decimal (dbg : Bool) : R Unit := do
  let d : Nat := 1
  let (d, underflow) ← (DType.ops (.dec .w8) dbg).dec d
  holds (!underflow)
  holds (decide (d = 0))
  let d : Nat := 99
  let (d, underflow) ← (DType.ops (.dec .w8) dbg).dec d
  holds (!underflow)
  holds (decide (d = 98))
  let d : Nat := 0
  let (d, underflow) ← (DType.ops (.dec .w8) dbg).dec d
  holds (underflow)
  holds (decide (d = 99))
  let d : Nat := 100
  let (d, underflow) ← (DType.ops (.dec .w16) dbg).dec d
  holds (!underflow)
  holds (decide (d = 99))
  let d : Nat := 0
  let (d, underflow) ← (DType.ops (.dec .w16) dbg).dec d
  holds (underflow)
  holds (decide (d = 9999))
  let d : Nat := 100000000
  let (d, underflow) ← (DType.ops (.dec .w32) dbg).dec d
  holds (!underflow)
  holds (decide (d = 99999999))
  let d : Nat := 0
  let (d, underflow) ← (DType.ops (.dec .w32) dbg).dec d
  holds (underflow)
  holds (decide (d = 999999999))

/-- `src/digit.rs:1113-1160`. -/
def digit_test_add_carry_assign_binary (dbg : Bool) : R Unit := do
  let d : Nat := 0
  let (d, overflow) ← (DType.ops (.bin .w8) dbg).addCarry d 47 false
  holds (!overflow)
  holds (decide (d = 47))
  let d : Nat := 128
  let (d, overflow) ← (DType.ops (.bin .w8) dbg).addCarry d 127 false
  holds (!overflow)
  holds (decide (d = 255))
  let d : Nat := 128
  let (d, overflow) ← (DType.ops (.bin .w8) dbg).addCarry d 127 true
  holds (overflow)
  holds (decide (d = 0))
  let d : Nat := 128
  let (d, overflow) ← (DType.ops (.bin .w8) dbg).addCarry d 128 false
  holds (overflow)
  holds (decide (d = 0))
  let d : Nat := 128
  let (d, overflow) ← (DType.ops (.bin .w8) dbg).addCarry d 133 true
  holds (overflow)
  holds (decide (d = 6))
  let d : Nat := 128
  let (d, overflow) ← (DType.ops (.bin .w16) dbg).addCarry d 65280 true
  holds (!overflow)
  holds (decide (d = 65409))
  let d : Nat := 32768
  let (d, overflow) ← (DType.ops (.bin .w16) dbg).addCarry d 65280 false
  holds (overflow)
  holds (decide (d = 32512))
  let d : Nat := 128
  let (d, overflow) ← (DType.ops (.bin .w32) dbg).addCarry d 4278194432 false
  holds (!overflow)
  holds (decide (d = 4278194560))
  let d : Nat := 2147488308
  let (d, overflow) ← (DType.ops (.bin .w32) dbg).addCarry d 4289401396 true
  holds (overflow)
  holds (decide (d = 2141922409))

/-- `src/digit.rs:1162-1224`. -/
def digit_test_add_carry_assign_decimal (dbg : Bool) : R Unit := do
  let d : Nat := 0
  let (d, overflow) ← (DType.ops (.dec .w8) dbg).addCarry d 47 false
  holds (!overflow)
  holds (decide (d = 47))
  let d : Nat := 50
  let (d, overflow) ← (DType.ops (.dec .w8) dbg).addCarry d 49 false
  holds (!overflow)
  holds (decide (d = 99))
  let d : Nat := 50
  let (d, overflow) ← (DType.ops (.dec .w8) dbg).addCarry d 49 true
  holds (overflow)
  holds (decide (d = 0))
  let d : Nat := 50
  let (d, overflow) ← (DType.ops (.dec .w8) dbg).addCarry d 50 false
  holds (overflow)
  holds (decide (d = 0))
  let d : Nat := 50
  let (d, overflow) ← (DType.ops (.dec .w8) dbg).addCarry d 55 true
  holds (overflow)
  holds (decide (d = 6))
  let d : Nat := 50
  let (d, overflow) ← (DType.ops (.dec .w16) dbg).addCarry d 9900 true
  holds (!overflow)
  holds (decide (d = 9951))
  let d : Nat := 5000
  let (d, overflow) ← (DType.ops (.dec .w16) dbg).addCarry d 9900 false
  holds (overflow)
  holds (decide (d = 4900))
  let d : Nat := 50
  let (d, overflow) ← (DType.ops (.dec .w32) dbg).addCarry d 999001100 false
  holds (!overflow)
  holds (decide (d = 999001150))
  let d : Nat := 1001234
  let (d, overflow) ← (DType.ops (.dec .w32) dbg).addCarry d 999781234 true
  holds (overflow)
  holds (decide (d = 782469))
  let d : Nat := 9999999999999999999
  let (d, overflow) ← (DType.ops (.dec .w64) dbg).addCarry d 0 true
  holds (overflow)
  holds (decide (d = 0))
  let d : Nat := 9999999999999999999
  let (d, overflow) ← (DType.ops (.dec .w64) dbg).addCarry d 46 false
  holds (overflow)
  holds (decide (d = 45))
  let d : Nat := 9999999999999999999
  let (d, overflow) ← (DType.ops (.dec .w64) dbg).addCarry d 9999999999999999999 true
  holds (overflow)
  holds (decide (d = 9999999999999999999))

/-- `src/digit.rs:1226-1278`. -/
def digit_test_sub_carry_assign_binary (dbg : Bool) : R Unit := do
  let d : Nat := 47
  let (d, overflow) ← (DType.ops (.bin .w8) dbg).subCarry d 0 false
  holds (!overflow)
  holds (decide (d = 47))
  let d : Nat := 128
  let (d, overflow) ← (DType.ops (.bin .w8) dbg).subCarry d 127 false
  holds (!overflow)
  holds (decide (d = 1))
  let d : Nat := 128
  let (d, overflow) ← (DType.ops (.bin .w8) dbg).subCarry d 127 true
  holds (!overflow)
  holds (decide (d = 0))
  let d : Nat := 128
  let (d, overflow) ← (DType.ops (.bin .w8) dbg).subCarry d 128 true
  holds (overflow)
  holds (decide (d = 255))
  let d : Nat := 127
  let (d, overflow) ← (DType.ops (.bin .w8) dbg).subCarry d 128 false
  holds (overflow)
  holds (decide (d = 255))
  let d : Nat := 128
  let (d, overflow) ← (DType.ops (.bin .w8) dbg).subCarry d 133 true
  holds (overflow)
  holds (decide (d = 250))
  let d : Nat := 65280
  let (d, overflow) ← (DType.ops (.bin .w16) dbg).subCarry d 128 false
  holds (!overflow)
  holds (decide (d = 65152))
  let d : Nat := 32768
  let (d, overflow) ← (DType.ops (.bin .w16) dbg).subCarry d 65280 true
  holds (overflow)
  holds (decide (d = 33023))
  let d : Nat := 4278194560
  let (d, overflow) ← (DType.ops (.bin .w32) dbg).subCarry d 4278194432 false
  holds (!overflow)
  holds (decide (d = 128))
  let d : Nat := 2141922408
  let (d, overflow) ← (DType.ops (.bin .w32) dbg).subCarry d 4289401396 true
  holds (overflow)
  holds (decide (d = 2147488307))

/-- `src/digit.rs:1280-1327`. -/
def digit_test_sub_carry_assign_decimal (dbg : Bool) : R Unit := do
  let d : Nat := 47
  let (d, overflow) ← (DType.ops (.dec .w8) dbg).subCarry d 0 false
  holds (!overflow)
  holds (decide (d = 47))
  let d : Nat := 99
  let (d, overflow) ← (DType.ops (.dec .w8) dbg).subCarry d 49 false
  holds (!overflow)
  holds (decide (d = 50))
  let d : Nat := 99
  let (d, overflow) ← (DType.ops (.dec .w8) dbg).subCarry d 99 true
  holds (overflow)
  holds (decide (d = 99))
  let d : Nat := 0
  let (d, overflow) ← (DType.ops (.dec .w8) dbg).subCarry d 50 false
  holds (overflow)
  holds (decide (d = 50))
  let d : Nat := 5
  let (d, overflow) ← (DType.ops (.dec .w8) dbg).subCarry d 55 true
  holds (overflow)
  holds (decide (d = 49))
  let d : Nat := 9950
  let (d, overflow) ← (DType.ops (.dec .w16) dbg).subCarry d 9900 false
  holds (!overflow)
  holds (decide (d = 50))
  let d : Nat := 4900
  let (d, overflow) ← (DType.ops (.dec .w16) dbg).subCarry d 9900 true
  holds (overflow)
  holds (decide (d = 4999))
  let d : Nat := 999001150
  let (d, overflow) ← (DType.ops (.dec .w32) dbg).subCarry d 999001100 false
  holds (!overflow)
  holds (decide (d = 50))
  let d : Nat := 782468
  let (d, overflow) ← (DType.ops (.dec .w32) dbg).subCarry d 999781234 true
  holds (overflow)
  holds (decide (d = 1001233))

/-- `src/digit.rs:1329-1366`. -/
def digit_test_shl_carry_assign_binary (dbg : Bool) : R Unit := do
  let d : Nat := 0
  let (d, carry) ← (DType.ops (.bin .w8) dbg).shlCarry d 5 16
  holds (decide (d = 16))
  holds (decide (carry = 0))
  let d : Nat := 67
  let (d, carry) ← (DType.ops (.bin .w8) dbg).shlCarry d 5 16
  holds (decide (d = 112))
  holds (decide (carry = 8))
  let d : Nat := 255
  let (d, carry) ← (DType.ops (.bin .w8) dbg).shlCarry d 3 7
  holds (decide (d = 255))
  holds (decide (carry = 7))
  let d : Nat := 255
  let (d, carry) ← (DType.ops (.bin .w16) dbg).shlCarry d 3 7
  holds (decide (d = 2047))
  holds (decide (carry = 0))
  let d : Nat := 41908
  let (d, carry) ← (DType.ops (.bin .w16) dbg).shlCarry d 11 131
  holds (decide (d = 41091))
  holds (decide (carry = 1309))
  let d : Nat := 41908
  let (d, carry) ← (DType.ops (.bin .w32) dbg).shlCarry d 11 131
  holds (decide (d = 85827715))
  holds (decide (carry = 0))
  let d : Nat := 2140775348
  let (d, carry) ← (DType.ops (.bin .w32) dbg).shlCarry d 21 136323
  holds (decide (d = 1988236419))
  holds (decide (carry = 1045300))

/-- `src/digit.rs:1368-1405`. -/
def digit_test_shl_carry_assign_decimal (dbg : Bool) : R Unit := do
  let d : Nat := 0
  let (d, carry) ← (DType.ops (.dec .w8) dbg).shlCarry d 5 10
  holds (decide (d = 10))
  holds (decide (carry = 0))
  let d : Nat := 43
  let (d, carry) ← (DType.ops (.dec .w8) dbg).shlCarry d 5 10
  holds (decide (d = 86))
  holds (decide (carry = 13))
  let d : Nat := 99
  let (d, carry) ← (DType.ops (.dec .w8) dbg).shlCarry d 3 7
  holds (decide (d = 99))
  holds (decide (carry = 7))
  let d : Nat := 99
  let (d, carry) ← (DType.ops (.dec .w16) dbg).shlCarry d 3 7
  holds (decide (d = 799))
  holds (decide (carry = 0))
  let d : Nat := 9281
  let (d, carry) ← (DType.ops (.dec .w16) dbg).shlCarry d 11 83
  holds (decide (d = 7571))
  holds (decide (carry = 1900))
  let d : Nat := 9281
  let (d, carry) ← (DType.ops (.dec .w32) dbg).shlCarry d 11 83
  holds (decide (d = 19007571))
  holds (decide (carry = 0))
  let d : Nat := 781187923
  let (d, carry) ← (DType.ops (.dec .w32) dbg).shlCarry d 21 27872
  holds (decide (d = 815123168))
  holds (decide (carry = 1638269))

/-- `src/digit.rs:1407-1444`. -/
def digit_test_shr_carry_assign_binary (dbg : Bool) : R Unit := do
  let d : Nat := 0
  let (d, carry) ← (DType.ops (.bin .w8) dbg).shrCarry d 5 16
  holds (decide (d = 128))
  holds (decide (carry = 0))
  let d : Nat := 67
  let (d, carry) ← (DType.ops (.bin .w8) dbg).shrCarry d 5 16
  holds (decide (d = 130))
  holds (decide (carry = 3))
  let d : Nat := 255
  let (d, carry) ← (DType.ops (.bin .w8) dbg).shlCarry d 3 7
  holds (decide (d = 255))
  holds (decide (carry = 7))
  let d : Nat := 255
  let (d, carry) ← (DType.ops (.bin .w16) dbg).shrCarry d 3 7
  holds (decide (d = 57375))
  holds (decide (carry = 7))
  let d : Nat := 41908
  let (d, carry) ← (DType.ops (.bin .w16) dbg).shrCarry d 11 131
  holds (decide (d = 4212))
  holds (decide (carry = 948))
  let d : Nat := 41908
  let (d, carry) ← (DType.ops (.bin .w32) dbg).shrCarry d 11 131
  holds (decide (d = 274726932))
  holds (decide (carry = 948))
  let d : Nat := 2140775348
  let (d, carry) ← (DType.ops (.bin .w32) dbg).shrCarry d 21 136323
  holds (decide (d = 279190524))
  holds (decide (carry = 1680308))

/-- `src/digit.rs:1446-1483`. -/
def digit_test_shr_carry_assign_decimal (dbg : Bool) : R Unit := do
  let d : Nat := 0
  let (d, carry) ← (DType.ops (.dec .w8) dbg).shrCarry d 5 10
  holds (decide (d = 31))
  holds (decide (carry = 8))
  let d : Nat := 43
  let (d, carry) ← (DType.ops (.dec .w8) dbg).shrCarry d 5 10
  holds (decide (d = 32))
  holds (decide (carry = 19))
  let d : Nat := 99
  let (d, carry) ← (DType.ops (.dec .w8) dbg).shlCarry d 3 7
  holds (decide (d = 99))
  holds (decide (carry = 7))
  let d : Nat := 99
  let (d, carry) ← (DType.ops (.dec .w16) dbg).shrCarry d 3 7
  holds (decide (d = 8762))
  holds (decide (carry = 3))
  let d : Nat := 9281
  let (d, carry) ← (DType.ops (.dec .w16) dbg).shrCarry d 11 83
  holds (decide (d = 409))
  holds (decide (carry = 1649))
  let d : Nat := 9281
  let (d, carry) ← (DType.ops (.dec .w32) dbg).shrCarry d 11 83
  holds (decide (d = 40527348))
  holds (decide (carry = 577))
  let d : Nat := 781187923
  let (d, carry) ← (DType.ops (.dec .w32) dbg).shrCarry d 21 27872
  holds (decide (d = 13290777))
  holds (decide (carry = 1620819))

/-- `src/digit.rs:1485-1547`. -/
def digit_test_mul_carry_assign_binary (dbg : Bool) : R Unit := do
  let d : Nat := 0
  let (d, carry) ← (DType.ops (.bin .w8) dbg).mulCarry d 71 255
  holds (decide (d = 255))
  holds (decide (carry = 0))
  let d : Nat := 19
  let (d, carry) ← (DType.ops (.bin .w8) dbg).mulCarry d 0 255
  holds (decide (d = 255))
  holds (decide (carry = 0))
  let d : Nat := 19
  let (d, carry) ← (DType.ops (.bin .w8) dbg).mulCarry d 71 255
  holds (decide (d = 68))
  holds (decide (carry = 6))
  let d : Nat := 255
  let (d, carry) ← (DType.ops (.bin .w8) dbg).mulCarry d 255 255
  holds (decide (d = 0))
  holds (decide (carry = 255))
  let d : Nat := 0
  let (d, carry) ← (DType.ops (.bin .w16) dbg).mulCarry d 18218 65535
  holds (decide (d = 65535))
  holds (decide (carry = 0))
  let d : Nat := 5106
  let (d, carry) ← (DType.ops (.bin .w16) dbg).mulCarry d 0 65535
  holds (decide (d = 65535))
  holds (decide (carry = 0))
  let d : Nat := 5106
  let (d, carry) ← (DType.ops (.bin .w16) dbg).mulCarry d 18218 65535
  holds (decide (d = 25523))
  holds (decide (carry = 1420))
  let d : Nat := 65535
  let (d, carry) ← (DType.ops (.bin .w16) dbg).mulCarry d 65535 65535
  holds (decide (d = 0))
  holds (decide (carry = 65535))
  let d : Nat := 0
  let (d, carry) ← (DType.ops (.bin .w32) dbg).mulCarry d 1193940735 4294967295
  holds (decide (d = 4294967295))
  holds (decide (carry = 0))
  let d : Nat := 334670471
  let (d, carry) ← (DType.ops (.bin .w32) dbg).mulCarry d 0 4294967295
  holds (decide (d = 4294967295))
  holds (decide (carry = 0))
  let d : Nat := 334670471
  let (d, carry) ← (DType.ops (.bin .w32) dbg).mulCarry d 1193940735 4294967295
  holds (decide (d = 612726392))
  holds (decide (carry = 93033703))
  let d : Nat := 4294967295
  let (d, carry) ← (DType.ops (.bin .w32) dbg).mulCarry d 4294967295 4294967295
  holds (decide (d = 0))
  holds (decide (carry = 4294967295))

/-- `src/digit.rs:1549-1611`. -/
def digit_test_mul_carry_assign_decimal (dbg : Bool) : R Unit := do
  let d : Nat := 0
  let (d, carry) ← (DType.ops (.dec .w8) dbg).mulCarry d 47 99
  holds (decide (d = 99))
  holds (decide (carry = 0))
  let d : Nat := 13
  let (d, carry) ← (DType.ops (.dec .w8) dbg).mulCarry d 0 99
  holds (decide (d = 99))
  holds (decide (carry = 0))
  let d : Nat := 13
  let (d, carry) ← (DType.ops (.dec .w8) dbg).mulCarry d 47 99
  holds (decide (d = 10))
  holds (decide (carry = 7))
  let d : Nat := 99
  let (d, carry) ← (DType.ops (.dec .w8) dbg).mulCarry d 99 99
  holds (decide (d = 0))
  holds (decide (carry = 99))
  let d : Nat := 0
  let (d, carry) ← (DType.ops (.dec .w16) dbg).mulCarry d 4729 9999
  holds (decide (d = 9999))
  holds (decide (carry = 0))
  let d : Nat := 1392
  let (d, carry) ← (DType.ops (.dec .w16) dbg).mulCarry d 0 9999
  holds (decide (d = 9999))
  holds (decide (carry = 0))
  let d : Nat := 1392
  let (d, carry) ← (DType.ops (.dec .w16) dbg).mulCarry d 4729 9999
  holds (decide (d = 2767))
  holds (decide (carry = 659))
  let d : Nat := 9999
  let (d, carry) ← (DType.ops (.dec .w16) dbg).mulCarry d 9999 9999
  holds (decide (d = 0))
  holds (decide (carry = 9999))
  let d : Nat := 0
  let (d, carry) ← (DType.ops (.dec .w32) dbg).mulCarry d 647211698 999999999
  holds (decide (d = 999999999))
  holds (decide (carry = 0))
  let d : Nat := 13921887
  let (d, carry) ← (DType.ops (.dec .w32) dbg).mulCarry d 0 999999999
  holds (decide (d = 999999999))
  holds (decide (carry = 0))
  let d : Nat := 13921887
  let (d, carry) ← (DType.ops (.dec .w32) dbg).mulCarry d 647211698 999999999
  holds (decide (d = 124634125))
  holds (decide (carry = 9010409))
  let d : Nat := 999999999
  let (d, carry) ← (DType.ops (.dec .w32) dbg).mulCarry d 999999999 999999999
  holds (decide (d = 0))
  holds (decide (carry = 999999999))

/-- `src/digit.rs:1613-1631`. -/
def digit_test_rem_carry_binary (dbg : Bool) : R Unit := do
  let d : Nat := 0
  let rem ← (DType.ops (.bin .w8) dbg).remCarry d 35 33
  holds (decide (rem = 13))
  let d : Nat := 9461
  let rem ← (DType.ops (.bin .w16) dbg).remCarry d 4929 1925
  holds (decide (rem = 3577))
  let d : Nat := 4092851187
  let rem ← (DType.ops (.bin .w32) dbg).remCarry d 2557891634 267242409
  holds (decide (rem = 436644533))
  let d : Nat := 17617506935104148140
  let rem ← (DType.ops (.bin .w64) dbg).remCarry d 17499403916356494904 16381606322510225357
  holds (decide (rem = 10723890922131493404))

/-- `src/digit.rs:1633-1651`. -/
def digit_test_rem_carry_decimal (dbg : Bool) : R Unit := do
  let d : Nat := 0
  let rem ← (DType.ops (.dec .w8) dbg).remCarry d 23 21
  holds (decide (rem = 7))
  let d : Nat := 7356
  let rem ← (DType.ops (.dec .w16) dbg).remCarry d 6543 4878
  holds (decide (rem = 2748))
  let d : Nat := 673987213
  let rem ← (DType.ops (.dec .w32) dbg).remCarry d 985310213 5340
  holds (decide (rem = 292632753))
  let d : Nat := 3219876444342231999
  let rem ← (DType.ops (.dec .w64) dbg).remCarry d 4216766493986433786 3987463233760756987
  holds (decide (rem = 4017986314238083705))

/-- `src/digit.rs:1653-1695`. -/
def digit_test_div3_carry_assign_binary (dbg : Bool) : R Unit := do
  let d : Nat := 0
  let (d, carry) ← (DType.ops (.bin .w8) dbg).div3Carry d 0
  holds (decide (d = 0))
  holds (decide (carry = 0))
  let d : Nat := 21
  let (d, carry) ← (DType.ops (.bin .w8) dbg).div3Carry d 0
  holds (decide (d = 7))
  holds (decide (carry = 0))
  let d : Nat := 21
  let (d, carry) ← (DType.ops (.bin .w8) dbg).div3Carry d 1
  holds (decide (d = 92))
  holds (decide (carry = 1))
  let d : Nat := 21
  let (d, carry) ← (DType.ops (.bin .w32) dbg).div3Carry d 1
  holds (decide (d = 1431655772))
  holds (decide (carry = 1))
  let d : Nat := 62379
  let (d, carry) ← (DType.ops (.bin .w16) dbg).div3Carry d 2
  holds (decide (d = 64483))
  holds (decide (carry = 2))
  let d : Nat := 1346359096347283234
  let (d, carry) ← (DType.ops (.bin .w64) dbg).div3Carry d 2
  holds (decide (d = 12746615747922128822))
  holds (decide (carry = 0))
  let d : Nat := 1346359096347283234
  let (d, carry) ← (DType.ops (.bin .w64) dbg).div3Carry d 1
  holds (decide (d = 6597701056685611616))
  holds (decide (carry = 2))
  let d : Nat := 18446744073709551615
  let (d, carry) ← (DType.ops (.bin .w64) dbg).div3Carry d 2
  holds (decide (d = 18446744073709551615))
  holds (decide (carry = 2))

/-- `src/digit.rs:1697-1724`. -/
def digit_test_div3_carry_assign_decimal (dbg : Bool) : R Unit := do
  let d : Nat := 0
  let (d, carry) ← (DType.ops (.dec .w8) dbg).div3Carry d 0
  holds (decide (d = 0))
  holds (decide (carry = 0))
  let d : Nat := 15
  let (d, carry) ← (DType.ops (.dec .w8) dbg).div3Carry d 0
  holds (decide (d = 5))
  holds (decide (carry = 0))
  let d : Nat := 15
  let (d, carry) ← (DType.ops (.dec .w8) dbg).div3Carry d 1
  holds (decide (d = 38))
  holds (decide (carry = 1))
  let d : Nat := 15
  let (d, carry) ← (DType.ops (.dec .w32) dbg).div3Carry d 1
  holds (decide (d = 333333338))
  holds (decide (carry = 1))
  let d : Nat := 6536
  let (d, carry) ← (DType.ops (.dec .w64) dbg).div3Carry d 2
  holds (decide (d = 6666666666666668845))
  holds (decide (carry = 1))

/-- `src/digit.rs:1726-1758`. -/
def digit_test_div_carry_assign_binary (dbg : Bool) : R Unit := do
  let d : Nat := 20
  let (d, carry) ← (DType.ops (.bin .w8) dbg).divCarry d 1 0
  holds (decide (d = 20))
  holds (decide (carry = 0))
  let d : Nat := 255
  let (d, carry) ← (DType.ops (.bin .w8) dbg).divCarry d 1 0
  holds (decide (d = 255))
  holds (decide (carry = 0))
  let d : Nat := 0
  let (d, carry) ← (DType.ops (.bin .w8) dbg).divCarry d 19 8
  holds (decide (d = 107))
  holds (decide (carry = 15))
  let d : Nat := 83
  let (d, carry) ← (DType.ops (.bin .w8) dbg).divCarry d 19 8
  holds (decide (d = 112))
  holds (decide (carry = 3))
  let d : Nat := 83
  let (d, carry) ← (DType.ops (.bin .w16) dbg).divCarry d 19 8
  holds (decide (d = 27598))
  holds (decide (carry = 9))
  let d : Nat := 83
  let (d, carry) ← (DType.ops (.bin .w32) dbg).divCarry d 19 8
  holds (decide (d = 1808407286))
  holds (decide (carry = 17))

/-- `src/digit.rs:1760-1792`. -/
def digit_test_div_carry_assign_decimal (dbg : Bool) : R Unit := do
  let d : Nat := 14
  let (d, carry) ← (DType.ops (.dec .w8) dbg).divCarry d 1 0
  holds (decide (d = 14))
  holds (decide (carry = 0))
  let d : Nat := 99
  let (d, carry) ← (DType.ops (.dec .w8) dbg).divCarry d 1 0
  holds (decide (d = 99))
  holds (decide (carry = 0))
  let d : Nat := 0
  let (d, carry) ← (DType.ops (.dec .w8) dbg).divCarry d 13 8
  holds (decide (d = 61))
  holds (decide (carry = 7))
  let d : Nat := 53
  let (d, carry) ← (DType.ops (.dec .w8) dbg).divCarry d 13 8
  holds (decide (d = 65))
  holds (decide (carry = 8))
  let d : Nat := 53
  let (d, carry) ← (DType.ops (.dec .w16) dbg).divCarry d 13 8
  holds (decide (d = 6157))
  holds (decide (carry = 12))
  let d : Nat := 53
  let (d, carry) ← (DType.ops (.dec .w32) dbg).divCarry d 13 8
  holds (decide (d = 615384619))
  holds (decide (carry = 6))

/-- `src/digit.rs:1794-1831`. -/
def digit_test_add_prod_carry_assign_binary (dbg : Bool) : R Unit := do
  let (d, carry) ← (DType.ops (.bin .w8) dbg).addProd 55 0 255 0
  holds (decide (d = 55))
  holds (decide (carry = 0))
  let (d, carry) ← (DType.ops (.bin .w8) dbg).addProd 55 0 255 35
  holds (decide (d = 90))
  holds (decide (carry = 0))
  let (d, carry) ← (DType.ops (.bin .w8) dbg).addProd 55 255 0 35
  holds (decide (d = 90))
  holds (decide (carry = 0))
  let (d, carry) ← (DType.ops (.bin .w8) dbg).addProd 255 33 52 172
  holds (decide (d = 95))
  holds (decide (carry = 8))
  let (d, carry) ← (DType.ops (.bin .w8) dbg).addProd 35 255 255 115
  holds (decide (d = 151))
  holds (decide (carry = 254))
  let (d, carry) ← (DType.ops (.bin .w32) dbg).addProd 55 0 255 0
  holds (decide (d = 55))
  holds (decide (carry = 0))
  let (d, carry) ← (DType.ops (.bin .w32) dbg).addProd 55 0 255 35
  holds (decide (d = 90))
  holds (decide (carry = 0))
  let (d, carry) ← (DType.ops (.bin .w32) dbg).addProd 255 33 52 172
  holds (decide (d = 2143))
  holds (decide (carry = 0))
  let (d, carry) ← (DType.ops (.bin .w32) dbg).addProd 35 255 255 115
  holds (decide (d = 65175))
  holds (decide (carry = 0))
  let (d, carry) ← (DType.ops (.bin .w32) dbg).addProd 1902211789 4064359761 2191032720 2899845357
  holds (decide (d = 148726346))
  holds (decide (carry = 2073390695))
  let (d, carry) ← (DType.ops (.bin .w32) dbg).addProd 4294967295 4294967295 4294967295 4294967295
  holds (decide (d = 4294967295))
  holds (decide (carry = 4294967295))

/-- `src/digit.rs:1833-1870`. -/
def digit_test_add_prod_carry_assign_decimal (dbg : Bool) : R Unit := do
  let (d, carry) ← (DType.ops (.dec .w8) dbg).addProd 37 0 99 0
  holds (decide (d = 37))
  holds (decide (carry = 0))
  let (d, carry) ← (DType.ops (.dec .w8) dbg).addProd 37 0 99 23
  holds (decide (d = 60))
  holds (decide (carry = 0))
  let (d, carry) ← (DType.ops (.dec .w8) dbg).addProd 37 99 0 23
  holds (decide (d = 60))
  holds (decide (carry = 0))
  let (d, carry) ← (DType.ops (.dec .w8) dbg).addProd 99 21 34 75
  holds (decide (d = 88))
  holds (decide (carry = 8))
  let (d, carry) ← (DType.ops (.dec .w8) dbg).addProd 23 99 99 73
  holds (decide (d = 97))
  holds (decide (carry = 98))
  let (d, carry) ← (DType.ops (.dec .w32) dbg).addProd 37 0 99 0
  holds (decide (d = 37))
  holds (decide (carry = 0))
  let (d, carry) ← (DType.ops (.dec .w32) dbg).addProd 37 0 99 23
  holds (decide (d = 60))
  holds (decide (carry = 0))
  let (d, carry) ← (DType.ops (.dec .w32) dbg).addProd 99 21 34 75
  holds (decide (d = 888))
  holds (decide (carry = 0))
  let (d, carry) ← (DType.ops (.dec .w32) dbg).addProd 23 99 99 73
  holds (decide (d = 9897))
  holds (decide (carry = 0))
  let (d, carry) ← (DType.ops (.dec .w32) dbg).addProd 983109582 338928191 233922929 982192889
  holds (decide (d = 124693910))
  holds (decide (carry = 79283077))
  let (d, carry) ← (DType.ops (.dec .w32) dbg).addProd 999999999 999999999 999999999 999999999
  holds (decide (d = 999999999))
  holds (decide (carry = 999999999))

/-- `src/digit.rs:1872-1909`. -/
def digit_test_sub_prod_carry_assign_binary (dbg : Bool) : R Unit := do
  let (d, carry) ← (DType.ops (.bin .w8) dbg).subProd 55 0 255 0
  holds (decide (d = 55))
  holds (decide (carry = 0))
  let (d, carry) ← (DType.ops (.bin .w8) dbg).subProd 55 0 255 35
  holds (decide (d = 20))
  holds (decide (carry = 0))
  let (d, carry) ← (DType.ops (.bin .w8) dbg).subProd 55 255 0 35
  holds (decide (d = 20))
  holds (decide (carry = 0))
  let (d, carry) ← (DType.ops (.bin .w8) dbg).subProd 255 33 52 172
  holds (decide (d = 159))
  holds (decide (carry = 7))
  let (d, carry) ← (DType.ops (.bin .w8) dbg).subProd 35 255 255 115
  holds (decide (d = 175))
  holds (decide (carry = 255))
  let (d, carry) ← (DType.ops (.bin .w32) dbg).subProd 55 0 255 0
  holds (decide (d = 55))
  holds (decide (carry = 0))
  let (d, carry) ← (DType.ops (.bin .w32) dbg).subProd 55 0 255 35
  holds (decide (d = 20))
  holds (decide (carry = 0))
  let (d, carry) ← (DType.ops (.bin .w32) dbg).subProd 255 33 52 172
  holds (decide (d = 4294965663))
  holds (decide (carry = 1))
  let (d, carry) ← (DType.ops (.bin .w32) dbg).subProd 35 255 255 115
  holds (decide (d = 4294902191))
  holds (decide (carry = 1))
  let (d, carry) ← (DType.ops (.bin .w32) dbg).subProd 1902211789 4064359761 2191032720 2899845357
  holds (decide (d = 3655697232))
  holds (decide (carry = 2073390695))
  let (d, carry) ← (DType.ops (.bin .w32) dbg).subProd 4294967295 4294967295 4294967295 4294967295
  holds (decide (d = 4294967295))
  holds (decide (carry = 4294967295))

/-- `src/digit.rs:1911-1948`. -/
def digit_test_sub_prod_carry_assign_decimal (dbg : Bool) : R Unit := do
  let (d, carry) ← (DType.ops (.dec .w8) dbg).subProd 37 0 99 0
  holds (decide (d = 37))
  holds (decide (carry = 0))
  let (d, carry) ← (DType.ops (.dec .w8) dbg).subProd 37 0 99 23
  holds (decide (d = 14))
  holds (decide (carry = 0))
  let (d, carry) ← (DType.ops (.dec .w8) dbg).subProd 37 99 0 23
  holds (decide (d = 14))
  holds (decide (carry = 0))
  let (d, carry) ← (DType.ops (.dec .w8) dbg).subProd 99 21 34 75
  holds (decide (d = 10))
  holds (decide (carry = 7))
  let (d, carry) ← (DType.ops (.dec .w8) dbg).subProd 23 99 99 73
  holds (decide (d = 49))
  holds (decide (carry = 99))
  let (d, carry) ← (DType.ops (.dec .w32) dbg).subProd 37 0 99 0
  holds (decide (d = 37))
  holds (decide (carry = 0))
  let (d, carry) ← (DType.ops (.dec .w32) dbg).subProd 37 0 99 23
  holds (decide (d = 14))
  holds (decide (carry = 0))
  let (d, carry) ← (DType.ops (.dec .w32) dbg).subProd 99 21 34 75
  holds (decide (d = 999999310))
  holds (decide (carry = 1))
  let (d, carry) ← (DType.ops (.dec .w32) dbg).subProd 23 99 99 73
  holds (decide (d = 999990149))
  holds (decide (carry = 1))
  let (d, carry) ← (DType.ops (.dec .w32) dbg).subProd 983109582 338928191 233922929 982192889
  holds (decide (d = 841525254))
  holds (decide (carry = 79283076))
  let (d, carry) ← (DType.ops (.dec .w32) dbg).subProd 999999999 999999999 999999999 999999999
  holds (decide (d = 999999999))
  holds (decide (carry = 999999999))

/-- `src/digit.rs:1950-1976`. -/
def digit_test_div_rem_base_decimal64 (dbg : Bool) : R Unit := do
  let (q, r) ← Dec64.divRemBase dbg 0
  holds (decide (q = 0))
  holds (decide (r = 0))
  let (q, r) ← Dec64.divRemBase dbg 5986132876982192889
  holds (decide (q = 0))
  holds (decide (r = 5986132876982192889))
  let (q, r) ← Dec64.divRemBase dbg 10000000000000000000
  holds (decide (q = 1))
  holds (decide (r = 0))
  let (q, r) ← Dec64.divRemBase dbg 20000000000000000001
  holds (decide (q = 2))
  holds (decide (r = 1))
  let (q, r) ← Dec64.divRemBase dbg 29999999999999999999
  holds (decide (q = 2))
  holds (decide (r = 9999999999999999999))
  let (q, r) ← Dec64.divRemBase dbg 99999999999999999999999999999999999999
  holds (decide (q = 9999999999999999999))
  holds (decide (r = 9999999999999999999))

/-- `src/digit.rs:1978-2040`. -/
def digit_test_double_assign_binary (dbg : Bool) : R Unit := do
  let d : Nat := 0
  let (d, carry) ← (DType.ops (.bin .w8) dbg).doubleCarry d true
  holds (decide (d = 1))
  holds (!carry)
  let d : Nat := 35
  let (d, carry) ← (DType.ops (.bin .w8) dbg).doubleCarry d false
  holds (decide (d = 70))
  holds (!carry)
  let d : Nat := 35
  let (d, carry) ← (DType.ops (.bin .w8) dbg).doubleCarry d true
  holds (decide (d = 71))
  holds (!carry)
  let d : Nat := 131
  let (d, carry) ← (DType.ops (.bin .w8) dbg).doubleCarry d true
  holds (decide (d = 7))
  holds (carry)
  let d : Nat := 131
  let (d, carry) ← (DType.ops (.bin .w16) dbg).doubleCarry d true
  holds (decide (d = 263))
  holds (!carry)
  let d : Nat := 64643
  let (d, carry) ← (DType.ops (.bin .w16) dbg).doubleCarry d false
  holds (decide (d = 63750))
  holds (carry)
  let d : Nat := 64643
  let (d, carry) ← (DType.ops (.bin .w32) dbg).doubleCarry d false
  holds (decide (d = 129286))
  holds (!carry)
  let d : Nat := 891616387
  let (d, carry) ← (DType.ops (.bin .w32) dbg).doubleCarry d true
  holds (decide (d = 1783232775))
  holds (!carry)
  let d : Nat := 3307535491
  let (d, carry) ← (DType.ops (.bin .w32) dbg).doubleCarry d true
  holds (decide (d = 2320103687))
  holds (carry)
  let d : Nat := 3307535491
  let (d, carry) ← (DType.ops (.bin .w64) dbg).doubleCarry d true
  holds (decide (d = 6615070983))
  holds (!carry)
  let d : Nat := 4793910690851388547
  let (d, carry) ← (DType.ops (.bin .w64) dbg).doubleCarry d false
  holds (decide (d = 9587821381702777094))
  holds (!carry)
  let d : Nat := 10558518213885623427
  let (d, carry) ← (DType.ops (.bin .w64) dbg).doubleCarry d false
  holds (decide (d = 2670292354061695238))
  holds (carry)

/-- `src/digit.rs:2042-2104`. -/
def digit_test_double_assign_decimal (dbg : Bool) : R Unit := do
  let d : Nat := 0
  let (d, carry) ← (DType.ops (.dec .w8) dbg).doubleCarry d true
  holds (decide (d = 1))
  holds (!carry)
  let d : Nat := 23
  let (d, carry) ← (DType.ops (.dec .w8) dbg).doubleCarry d false
  holds (decide (d = 46))
  holds (!carry)
  let d : Nat := 23
  let (d, carry) ← (DType.ops (.dec .w8) dbg).doubleCarry d true
  holds (decide (d = 47))
  holds (!carry)
  let d : Nat := 53
  let (d, carry) ← (DType.ops (.dec .w8) dbg).doubleCarry d true
  holds (decide (d = 7))
  holds (carry)
  let d : Nat := 53
  let (d, carry) ← (DType.ops (.dec .w16) dbg).doubleCarry d true
  holds (decide (d = 107))
  holds (!carry)
  let d : Nat := 6543
  let (d, carry) ← (DType.ops (.dec .w16) dbg).doubleCarry d false
  holds (decide (d = 3086))
  holds (carry)
  let d : Nat := 6543
  let (d, carry) ← (DType.ops (.dec .w32) dbg).doubleCarry d false
  holds (decide (d = 13086))
  holds (!carry)
  let d : Nat := 742887352
  let (d, carry) ← (DType.ops (.dec .w32) dbg).doubleCarry d true
  holds (decide (d = 485774705))
  holds (carry)
  let d : Nat := 742887352
  let (d, carry) ← (DType.ops (.dec .w64) dbg).doubleCarry d true
  holds (decide (d = 1485774705))
  holds (!carry)
  let d : Nat := 1504988172742887352
  let (d, carry) ← (DType.ops (.dec .w64) dbg).doubleCarry d false
  holds (decide (d = 3009976345485774704))
  holds (!carry)
  let d : Nat := 5504988172742887352
  let (d, carry) ← (DType.ops (.dec .w64) dbg).doubleCarry d false
  holds (decide (d = 1009976345485774704))
  holds (carry)
  let d : Nat := 9504988172742887352
  let (d, carry) ← (DType.ops (.dec .w64) dbg).doubleCarry d false
  holds (decide (d = 9009976345485774704))
  holds (carry)

/-- `src/ubig/add.rs:129-186`. -/
def ubig_add_test_inc_assign_binary (dbg : Bool) : R Unit := do
  let nr : List Nat := []
  let (nr, overflow) ← incAssign (DType.ops (.bin .w8) dbg) nr
  holds (decide (nr = []))
  holds (overflow)
  let nr : List Nat := [1]
  let (nr, overflow) ← incAssign (DType.ops (.bin .w8) dbg) nr
  holds (decide (nr = [2]))
  holds (!overflow)
  let nr : List Nat := [255]
  let (nr, overflow) ← incAssign (DType.ops (.bin .w8) dbg) nr
  holds (decide (nr = [0]))
  holds (overflow)
  let nr : List Nat := [255, 1]
  let (nr, overflow) ← incAssign (DType.ops (.bin .w8) dbg) nr
  holds (decide (nr = [0, 2]))
  holds (!overflow)
  let nr : List Nat := [255, 1, 3]
  let (nr, overflow) ← incAssign (DType.ops (.bin .w8) dbg) nr
  holds (decide (nr = [0, 2, 3]))
  holds (!overflow)
  let nr : List Nat := [255, 255, 3]
  let (nr, overflow) ← incAssign (DType.ops (.bin .w8) dbg) nr
  holds (decide (nr = [0, 0, 4]))
  holds (!overflow)
  let nr : List Nat := [255, 255, 255]
  let (nr, overflow) ← incAssign (DType.ops (.bin .w8) dbg) nr
  holds (decide (nr = [0, 0, 0]))
  holds (overflow)
  let nr : List Nat := [255, 255]
  let (nr, overflow) ← incAssign (DType.ops (.bin .w32) dbg) nr
  holds (decide (nr = [256, 255]))
  holds (!overflow)
  let nr : List Nat := [4294967295, 255]
  let (nr, overflow) ← incAssign (DType.ops (.bin .w32) dbg) nr
  holds (decide (nr = [0, 256]))
  holds (!overflow)
  let nr : List Nat := [255, 4294967295]
  let (nr, overflow) ← incAssign (DType.ops (.bin .w32) dbg) nr
  holds (decide (nr = [256, 4294967295]))
  holds (!overflow)
  let nr : List Nat := [4294967295, 4294967295]
  let (nr, overflow) ← incAssign (DType.ops (.bin .w32) dbg) nr
  holds (decide (nr = [0, 0]))
  holds (overflow)

/-- `src/ubig/add.rs:188-245`. -/
def ubig_add_test_inc_assign_decimal (dbg : Bool) : R Unit := do
  let nr : List Nat := []
  let (nr, overflow) ← incAssign (DType.ops (.dec .w8) dbg) nr
  holds (decide (nr = []))
  holds (overflow)
  let nr : List Nat := [1]
  let (nr, overflow) ← incAssign (DType.ops (.dec .w8) dbg) nr
  holds (decide (nr = [2]))
  holds (!overflow)
  let nr : List Nat := [99]
  let (nr, overflow) ← incAssign (DType.ops (.dec .w8) dbg) nr
  holds (decide (nr = [0]))
  holds (overflow)
  let nr : List Nat := [99, 1]
  let (nr, overflow) ← incAssign (DType.ops (.dec .w8) dbg) nr
  holds (decide (nr = [0, 2]))
  holds (!overflow)
  let nr : List Nat := [99, 1, 3]
  let (nr, overflow) ← incAssign (DType.ops (.dec .w8) dbg) nr
  holds (decide (nr = [0, 2, 3]))
  holds (!overflow)
  let nr : List Nat := [99, 99, 3]
  let (nr, overflow) ← incAssign (DType.ops (.dec .w8) dbg) nr
  holds (decide (nr = [0, 0, 4]))
  holds (!overflow)
  let nr : List Nat := [99, 99, 99]
  let (nr, overflow) ← incAssign (DType.ops (.dec .w8) dbg) nr
  holds (decide (nr = [0, 0, 0]))
  holds (overflow)
  let nr : List Nat := [99, 99]
  let (nr, overflow) ← incAssign (DType.ops (.dec .w32) dbg) nr
  holds (decide (nr = [100, 99]))
  holds (!overflow)
  let nr : List Nat := [999999999, 99]
  let (nr, overflow) ← incAssign (DType.ops (.dec .w32) dbg) nr
  holds (decide (nr = [0, 100]))
  holds (!overflow)
  let nr : List Nat := [99, 999999999]
  let (nr, overflow) ← incAssign (DType.ops (.dec .w32) dbg) nr
  holds (decide (nr = [100, 999999999]))
  holds (!overflow)
  let nr : List Nat := [999999999, 999999999]
  let (nr, overflow) ← incAssign (DType.ops (.dec .w32) dbg) nr
  holds (decide (nr = [0, 0]))
  holds (overflow)

/-- `src/ubig/add.rs:247-314`. -/
def ubig_add_test_add_assign_digit_binary (dbg : Bool) : R Unit := do
  let nr : List Nat := []
  let (nr, overflow) ← addAssignDigit (DType.ops (.bin .w8) dbg) nr 0
  holds (decide (nr = []))
  holds (decide (overflow = (none)))
  let nr : List Nat := []
  let (nr, overflow) ← addAssignDigit (DType.ops (.bin .w8) dbg) nr 47
  holds (decide (nr = []))
  holds (decide (overflow = (some 47)))
  let nr : List Nat := [1]
  let (nr, overflow) ← addAssignDigit (DType.ops (.bin .w8) dbg) nr 0
  holds (decide (nr = [1]))
  holds (decide (overflow = (none)))
  let nr : List Nat := [1]
  let (nr, overflow) ← addAssignDigit (DType.ops (.bin .w8) dbg) nr 47
  holds (decide (nr = [48]))
  holds (decide (overflow = (none)))
  let nr : List Nat := [128]
  let (nr, overflow) ← addAssignDigit (DType.ops (.bin .w8) dbg) nr 133
  holds (decide (nr = [5]))
  holds (decide (overflow = (some 1)))
  let nr : List Nat := [128, 0]
  let (nr, overflow) ← addAssignDigit (DType.ops (.bin .w8) dbg) nr 133
  holds (decide (nr = [5, 1]))
  holds (decide (overflow = (none)))
  let nr : List Nat := [128, 255, 254]
  let (nr, overflow) ← addAssignDigit (DType.ops (.bin .w8) dbg) nr 133
  holds (decide (nr = [5, 0, 255]))
  holds (decide (overflow = (none)))
  let nr : List Nat := [128, 255, 255]
  let (nr, overflow) ← addAssignDigit (DType.ops (.bin .w8) dbg) nr 133
  holds (decide (nr = [5, 0, 0]))
  holds (decide (overflow = (some 1)))
  let nr : List Nat := [128, 255, 255]
  let (nr, overflow) ← addAssignDigit (DType.ops (.bin .w16) dbg) nr 133
  holds (decide (nr = [261, 255, 255]))
  holds (decide (overflow = (none)))
  let nr : List Nat := [65408, 65535, 65535]
  let (nr, overflow) ← addAssignDigit (DType.ops (.bin .w16) dbg) nr 133
  holds (decide (nr = [5, 0, 0]))
  holds (decide (overflow = (some 1)))
  let nr : List Nat := [128, 255, 255]
  let (nr, overflow) ← addAssignDigit (DType.ops (.bin .w32) dbg) nr 133
  holds (decide (nr = [261, 255, 255]))
  holds (decide (overflow = (none)))
  let nr : List Nat := [4294967168, 65535, 65535]
  let (nr, overflow) ← addAssignDigit (DType.ops (.bin .w32) dbg) nr 133
  holds (decide (nr = [5, 65536, 65535]))
  holds (decide (overflow = (none)))
  let nr : List Nat := [4294967168, 4294967295, 4294967295]
  let (nr, overflow) ← addAssignDigit (DType.ops (.bin .w32) dbg) nr 133
  holds (decide (nr = [5, 0, 0]))
  holds (decide (overflow = (some 1)))

/-- `src/ubig/add.rs:316-383`. -/
def ubig_add_test_add_assign_digit_decimal (dbg : Bool) : R Unit := do
  let nr : List Nat := []
  let (nr, overflow) ← addAssignDigit (DType.ops (.dec .w8) dbg) nr 0
  holds (decide (nr = []))
  holds (decide (overflow = (none)))
  let nr : List Nat := []
  let (nr, overflow) ← addAssignDigit (DType.ops (.dec .w8) dbg) nr 47
  holds (decide (nr = []))
  holds (decide (overflow = (some 47)))
  let nr : List Nat := [1]
  let (nr, overflow) ← addAssignDigit (DType.ops (.dec .w8) dbg) nr 0
  holds (decide (nr = [1]))
  holds (decide (overflow = (none)))
  let nr : List Nat := [1]
  let (nr, overflow) ← addAssignDigit (DType.ops (.dec .w8) dbg) nr 47
  holds (decide (nr = [48]))
  holds (decide (overflow = (none)))
  let nr : List Nat := [50]
  let (nr, overflow) ← addAssignDigit (DType.ops (.dec .w8) dbg) nr 55
  holds (decide (nr = [5]))
  holds (decide (overflow = (some 1)))
  let nr : List Nat := [50, 0]
  let (nr, overflow) ← addAssignDigit (DType.ops (.dec .w8) dbg) nr 55
  holds (decide (nr = [5, 1]))
  holds (decide (overflow = (none)))
  let nr : List Nat := [50, 99, 98]
  let (nr, overflow) ← addAssignDigit (DType.ops (.dec .w8) dbg) nr 55
  holds (decide (nr = [5, 0, 99]))
  holds (decide (overflow = (none)))
  let nr : List Nat := [50, 99, 99]
  let (nr, overflow) ← addAssignDigit (DType.ops (.dec .w8) dbg) nr 55
  holds (decide (nr = [5, 0, 0]))
  holds (decide (overflow = (some 1)))
  let nr : List Nat := [50, 99, 99]
  let (nr, overflow) ← addAssignDigit (DType.ops (.dec .w16) dbg) nr 55
  holds (decide (nr = [105, 99, 99]))
  holds (decide (overflow = (none)))
  let nr : List Nat := [9950, 9999, 9999]
  let (nr, overflow) ← addAssignDigit (DType.ops (.dec .w16) dbg) nr 55
  holds (decide (nr = [5, 0, 0]))
  holds (decide (overflow = (some 1)))
  let nr : List Nat := [50, 99, 99]
  let (nr, overflow) ← addAssignDigit (DType.ops (.dec .w32) dbg) nr 55
  holds (decide (nr = [105, 99, 99]))
  holds (decide (overflow = (none)))
  let nr : List Nat := [999999950, 9999, 9999]
  let (nr, overflow) ← addAssignDigit (DType.ops (.dec .w32) dbg) nr 55
  holds (decide (nr = [5, 10000, 9999]))
  holds (decide (overflow = (none)))
  let nr : List Nat := [999999950, 999999999, 999999999]
  let (nr, overflow) ← addAssignDigit (DType.ops (.dec .w32) dbg) nr 55
  holds (decide (nr = [5, 0, 0]))
  holds (decide (overflow = (some 1)))

/-- `src/ubig/add.rs:385-429`. -/
def ubig_add_test_add_assign_big_binary (dbg : Bool) : R Unit := do
  let nr0 : List Nat := [1]
  let nr1 : List Nat := []
  let (nr0, overflow) ← addAssignBig (DType.ops (.bin .w8) dbg) nr0 nr1
  holds (decide (nr0 = [1]))
  holds (!overflow)
  let nr0 : List Nat := [1]
  let nr1 : List Nat := [254]
  let (nr0, overflow) ← addAssignBig (DType.ops (.bin .w8) dbg) nr0 nr1
  holds (decide (nr0 = [255]))
  holds (!overflow)
  let nr0 : List Nat := [1]
  let nr1 : List Nat := [255]
  let (nr0, overflow) ← addAssignBig (DType.ops (.bin .w8) dbg) nr0 nr1
  holds (decide (nr0 = [0]))
  holds (overflow)
  let nr0 : List Nat := [128]
  let nr1 : List Nat := [255]
  let (nr0, overflow) ← addAssignBig (DType.ops (.bin .w8) dbg) nr0 nr1
  holds (decide (nr0 = [127]))
  holds (overflow)
  let nr0 : List Nat := [128, 2]
  let nr1 : List Nat := [255]
  let (nr0, overflow) ← addAssignBig (DType.ops (.bin .w8) dbg) nr0 nr1
  holds (decide (nr0 = [127, 3]))
  holds (!overflow)
  let nr0 : List Nat := [128, 255, 254, 255]
  let nr1 : List Nat := [255]
  let (nr0, overflow) ← addAssignBig (DType.ops (.bin .w8) dbg) nr0 nr1
  holds (decide (nr0 = [127, 0, 255, 255]))
  holds (!overflow)
  let nr0 : List Nat := [128, 255, 255, 255]
  let nr1 : List Nat := [255]
  let (nr0, overflow) ← addAssignBig (DType.ops (.bin .w8) dbg) nr0 nr1
  holds (decide (nr0 = [127, 0, 0, 0]))
  holds (overflow)

/-- `src/ubig/add.rs:431-475`. -/
def ubig_add_test_add_assign_big_decimal (dbg : Bool) : R Unit := do
  let nr0 : List Nat := [1]
  let nr1 : List Nat := []
  let (nr0, overflow) ← addAssignBig (DType.ops (.dec .w8) dbg) nr0 nr1
  holds (decide (nr0 = [1]))
  holds (!overflow)
  let nr0 : List Nat := [1]
  let nr1 : List Nat := [98]
  let (nr0, overflow) ← addAssignBig (DType.ops (.dec .w8) dbg) nr0 nr1
  holds (decide (nr0 = [99]))
  holds (!overflow)
  let nr0 : List Nat := [1]
  let nr1 : List Nat := [99]
  let (nr0, overflow) ← addAssignBig (DType.ops (.dec .w8) dbg) nr0 nr1
  holds (decide (nr0 = [0]))
  holds (overflow)
  let nr0 : List Nat := [50]
  let nr1 : List Nat := [99]
  let (nr0, overflow) ← addAssignBig (DType.ops (.dec .w8) dbg) nr0 nr1
  holds (decide (nr0 = [49]))
  holds (overflow)
  let nr0 : List Nat := [50, 2]
  let nr1 : List Nat := [99]
  let (nr0, overflow) ← addAssignBig (DType.ops (.dec .w8) dbg) nr0 nr1
  holds (decide (nr0 = [49, 3]))
  holds (!overflow)
  let nr0 : List Nat := [50, 99, 98, 99]
  let nr1 : List Nat := [99]
  let (nr0, overflow) ← addAssignBig (DType.ops (.dec .w8) dbg) nr0 nr1
  holds (decide (nr0 = [49, 0, 99, 99]))
  holds (!overflow)
  let nr0 : List Nat := [50, 99, 99, 99]
  let nr1 : List Nat := [99]
  let (nr0, overflow) ← addAssignBig (DType.ops (.dec .w8) dbg) nr0 nr1
  holds (decide (nr0 = [49, 0, 0, 0]))
  holds (overflow)

/-- `src/ubig/add.rs:477-521`. -/
def ubig_add_test_add_big_into_binary (dbg : Bool) : R Unit := do
  let nr0 : List Nat := []
  let nr1 : List Nat := [4660]
  let sum : List Nat := List.replicate 2 0
  let (sum, n) ← addBigInto (DType.ops (.bin .w16) dbg) nr0 nr1 sum
  holds (decide (n = (.ok 1)))
  holds (decide (sum = [4660, 0]))
  let nr0 : List Nat := [60875]
  let nr1 : List Nat := [4660]
  let sum : List Nat := List.replicate 2 0
  let (sum, n) ← addBigInto (DType.ops (.bin .w16) dbg) nr0 nr1 sum
  holds (decide (n = (.ok 1)))
  holds (decide (sum = [65535, 0]))
  let nr0 : List Nat := [65534, 65535, 65535]
  let nr1 : List Nat := [1]
  let sum : List Nat := List.replicate 4 0
  let (sum, n) ← addBigInto (DType.ops (.bin .w16) dbg) nr0 nr1 sum
  holds (decide (n = (.ok 3)))
  holds (decide (sum = [65535, 65535, 65535, 0]))
  let nr0 : List Nat := [65535, 65535, 65535]
  let nr1 : List Nat := [1]
  let sum : List Nat := List.replicate 4 0
  let (sum, n) ← addBigInto (DType.ops (.bin .w16) dbg) nr0 nr1 sum
  holds (decide (n = (.ok 4)))
  holds (decide (sum = [0, 0, 0, 1]))
  let nr0 : List Nat := [65535, 65535, 65535]
  let nr1 : List Nat := [1, 0, 0, 22]
  let sum : List Nat := List.replicate 5 0
  let (sum, n) ← addBigInto (DType.ops (.bin .w16) dbg) nr0 nr1 sum
  holds (decide (n = (.ok 4)))
  holds (decide (sum = [0, 0, 0, 23, 0]))
  let nr0 : List Nat := [65535, 65535, 65535]
  let nr1 : List Nat := [1, 0, 0, 65535]
  let sum : List Nat := List.replicate 5 0
  let (sum, n) ← addBigInto (DType.ops (.bin .w16) dbg) nr0 nr1 sum
  holds (decide (n = (.ok 5)))
  holds (decide (sum = [0, 0, 0, 0, 1]))

/-- `src/ubig/add.rs:523-537`. -/
def ubig_add_test_add_big_into_binary_overflow (dbg : Bool) : R Unit := do
  let nr0 : List Nat := [65535, 65535, 65535]
  let nr1 : List Nat := [1, 0, 0, 22]
  let sum : List Nat := List.replicate 3 0
  let (sum, n) ← addBigInto (DType.ops (.bin .w16) dbg) nr0 nr1 sum
  holds (decide (n = (.error .noSpace)))
  let nr0 : List Nat := [65535, 65535, 65535]
  let nr1 : List Nat := [1, 0, 0]
  let sum : List Nat := List.replicate 3 0
  let (sum, n) ← addBigInto (DType.ops (.bin .w16) dbg) nr0 nr1 sum
  holds (decide (n = (.error .noSpace)))

/-- `src/ubig/add.rs:539-583`. -/
def ubig_add_test_add_big_into_decimal (dbg : Bool) : R Unit := do
  let nr0 : List Nat := []
  let nr1 : List Nat := [1234]
  let sum : List Nat := List.replicate 2 0
  let (sum, n) ← addBigInto (DType.ops (.dec .w16) dbg) nr0 nr1 sum
  holds (decide (n = (.ok 1)))
  holds (decide (sum = [1234, 0]))
  let nr0 : List Nat := [8765]
  let nr1 : List Nat := [1234]
  let sum : List Nat := List.replicate 2 0
  let (sum, n) ← addBigInto (DType.ops (.dec .w16) dbg) nr0 nr1 sum
  holds (decide (n = (.ok 1)))
  holds (decide (sum = [9999, 0]))
  let nr0 : List Nat := [9998, 9999, 9999]
  let nr1 : List Nat := [1]
  let sum : List Nat := List.replicate 4 0
  let (sum, n) ← addBigInto (DType.ops (.dec .w16) dbg) nr0 nr1 sum
  holds (decide (n = (.ok 3)))
  holds (decide (sum = [9999, 9999, 9999, 0]))
  let nr0 : List Nat := [9999, 9999, 9999]
  let nr1 : List Nat := [1]
  let sum : List Nat := List.replicate 4 0
  let (sum, n) ← addBigInto (DType.ops (.dec .w16) dbg) nr0 nr1 sum
  holds (decide (n = (.ok 4)))
  holds (decide (sum = [0, 0, 0, 1]))
  let nr0 : List Nat := [9999, 9999, 9999]
  let nr1 : List Nat := [1, 0, 0, 22]
  let sum : List Nat := List.replicate 5 0
  let (sum, n) ← addBigInto (DType.ops (.dec .w16) dbg) nr0 nr1 sum
  holds (decide (n = (.ok 4)))
  holds (decide (sum = [0, 0, 0, 23, 0]))
  let nr0 : List Nat := [9999, 9999, 9999]
  let nr1 : List Nat := [1, 0, 0, 9999]
  let sum : List Nat := List.replicate 5 0
  let (sum, n) ← addBigInto (DType.ops (.dec .w16) dbg) nr0 nr1 sum
  holds (decide (n = (.ok 5)))
  holds (decide (sum = [0, 0, 0, 0, 1]))

/-- `src/ubig/add.rs:585-599`. -/
def ubig_add_test_add_big_into_decimal_overflow (dbg : Bool) : R Unit := do
  let nr0 : List Nat := [9999, 9999, 9999]
  let nr1 : List Nat := [1, 0, 0, 22]
  let sum : List Nat := List.replicate 3 0
  let (sum, n) ← addBigInto (DType.ops (.dec .w16) dbg) nr0 nr1 sum
  holds (decide (n = (.error .noSpace)))
  let nr0 : List Nat := [9999, 9999, 9999]
  let nr1 : List Nat := [1, 0, 0]
  let sum : List Nat := List.replicate 3 0
  let (sum, n) ← addBigInto (DType.ops (.dec .w16) dbg) nr0 nr1 sum
  holds (decide (n = (.error .noSpace)))

/-- `src/ubig/sub.rs:191-248`. -/
def ubig_sub_test_dec_assign_binary (dbg : Bool) : R Unit := do
  let nr : List Nat := []
  let (nr, res) ← decAssign (DType.ops (.bin .w8) dbg) nr
  holds (decide (nr = []))
  holds (decide (res = (.error .underflow)))
  let nr : List Nat := [1]
  let (nr, res) ← decAssign (DType.ops (.bin .w8) dbg) nr
  holds (decide (nr = [0]))
  holds (decide (res = (.ok 0)))
  let nr : List Nat := [0]
  let (nr, res) ← decAssign (DType.ops (.bin .w8) dbg) nr
  holds (decide (nr = [255]))
  holds (decide (res = (.error .underflow)))
  let nr : List Nat := [0, 1]
  let (nr, res) ← decAssign (DType.ops (.bin .w8) dbg) nr
  holds (decide (nr = [255, 0]))
  holds (decide (res = (.ok 1)))
  let nr : List Nat := [0, 1, 3]
  let (nr, res) ← decAssign (DType.ops (.bin .w8) dbg) nr
  holds (decide (nr = [255, 0, 3]))
  holds (decide (res = (.ok 3)))
  let nr : List Nat := [0, 0, 3]
  let (nr, res) ← decAssign (DType.ops (.bin .w8) dbg) nr
  holds (decide (nr = [255, 255, 2]))
  holds (decide (res = (.ok 3)))
  let nr : List Nat := [0, 0, 0]
  let (nr, res) ← decAssign (DType.ops (.bin .w8) dbg) nr
  holds (decide (nr = [255, 255, 255]))
  holds (decide (res = (.error .underflow)))
  let nr : List Nat := [255, 255]
  let (nr, res) ← decAssign (DType.ops (.bin .w32) dbg) nr
  holds (decide (nr = [254, 255]))
  holds (decide (res = (.ok 2)))
  let nr : List Nat := [0, 255]
  let (nr, res) ← decAssign (DType.ops (.bin .w32) dbg) nr
  holds (decide (nr = [4294967295, 254]))
  holds (decide (res = (.ok 2)))
  let nr : List Nat := [255, 4294967295]
  let (nr, res) ← decAssign (DType.ops (.bin .w32) dbg) nr
  holds (decide (nr = [254, 4294967295]))
  holds (decide (res = (.ok 2)))
  let nr : List Nat := [0, 0]
  let (nr, res) ← decAssign (DType.ops (.bin .w32) dbg) nr
  holds (decide (nr = [4294967295, 4294967295]))
  holds (decide (res = (.error .underflow)))

/-- `src/ubig/sub.rs:250-307`. -/
def ubig_sub_test_dec_assign_decimal (dbg : Bool) : R Unit := do
  let nr : List Nat := []
  let (nr, res) ← decAssign (DType.ops (.dec .w8) dbg) nr
  holds (decide (nr = []))
  holds (decide (res = (.error .underflow)))
  let nr : List Nat := [1]
  let (nr, res) ← decAssign (DType.ops (.dec .w8) dbg) nr
  holds (decide (nr = [0]))
  holds (decide (res = (.ok 0)))
  let nr : List Nat := [0]
  let (nr, res) ← decAssign (DType.ops (.dec .w8) dbg) nr
  holds (decide (nr = [99]))
  holds (decide (res = (.error .underflow)))
  let nr : List Nat := [0, 1]
  let (nr, res) ← decAssign (DType.ops (.dec .w8) dbg) nr
  holds (decide (nr = [99, 0]))
  holds (decide (res = (.ok 1)))
  let nr : List Nat := [0, 1, 3]
  let (nr, res) ← decAssign (DType.ops (.dec .w8) dbg) nr
  holds (decide (nr = [99, 0, 3]))
  holds (decide (res = (.ok 3)))
  let nr : List Nat := [0, 0, 3]
  let (nr, res) ← decAssign (DType.ops (.dec .w8) dbg) nr
  holds (decide (nr = [99, 99, 2]))
  holds (decide (res = (.ok 3)))
  let nr : List Nat := [0, 0, 0]
  let (nr, res) ← decAssign (DType.ops (.dec .w8) dbg) nr
  holds (decide (nr = [99, 99, 99]))
  holds (decide (res = (.error .underflow)))
  let nr : List Nat := [99, 99]
  let (nr, res) ← decAssign (DType.ops (.dec .w32) dbg) nr
  holds (decide (nr = [98, 99]))
  holds (decide (res = (.ok 2)))
  let nr : List Nat := [0, 99]
  let (nr, res) ← decAssign (DType.ops (.dec .w32) dbg) nr
  holds (decide (nr = [999999999, 98]))
  holds (decide (res = (.ok 2)))
  let nr : List Nat := [99, 999999999]
  let (nr, res) ← decAssign (DType.ops (.dec .w32) dbg) nr
  holds (decide (nr = [98, 999999999]))
  holds (decide (res = (.ok 2)))
  let nr : List Nat := [0, 0]
  let (nr, res) ← decAssign (DType.ops (.dec .w32) dbg) nr
  holds (decide (nr = [999999999, 999999999]))
  holds (decide (res = (.error .underflow)))

/-- `src/ubig/sub.rs:309-376`. -/
def ubig_sub_test_sub_assign_digit_binary (dbg : Bool) : R Unit := do
  let nr : List Nat := []
  let (nr, res) ← subAssignDigit (DType.ops (.bin .w8) dbg) nr 0
  holds (decide (nr = []))
  holds (decide (res = (.ok 0)))
  let nr : List Nat := []
  let (nr, res) ← subAssignDigit (DType.ops (.bin .w8) dbg) nr 47
  holds (decide (nr = []))
  holds (decide (res = (.error .underflow)))
  let nr : List Nat := [1]
  let (nr, res) ← subAssignDigit (DType.ops (.bin .w8) dbg) nr 0
  holds (decide (nr = [1]))
  holds (decide (res = (.ok 1)))
  let nr : List Nat := [48]
  let (nr, res) ← subAssignDigit (DType.ops (.bin .w8) dbg) nr 47
  holds (decide (nr = [1]))
  holds (decide (res = (.ok 1)))
  let nr : List Nat := [1]
  let (nr, res) ← subAssignDigit (DType.ops (.bin .w8) dbg) nr 133
  holds (decide (nr = [124]))
  holds (decide (res = (.error .underflow)))
  let nr : List Nat := [128, 1]
  let (nr, res) ← subAssignDigit (DType.ops (.bin .w8) dbg) nr 133
  holds (decide (nr = [251, 0]))
  holds (decide (res = (.ok 1)))
  let nr : List Nat := [128, 0, 254]
  let (nr, res) ← subAssignDigit (DType.ops (.bin .w8) dbg) nr 133
  holds (decide (nr = [251, 255, 253]))
  holds (decide (res = (.ok 3)))
  let nr : List Nat := [128, 0, 0]
  let (nr, res) ← subAssignDigit (DType.ops (.bin .w8) dbg) nr 133
  holds (decide (nr = [251, 255, 255]))
  holds (decide (res = (.error .underflow)))
  let nr : List Nat := [261, 255, 255]
  let (nr, res) ← subAssignDigit (DType.ops (.bin .w16) dbg) nr 133
  holds (decide (nr = [128, 255, 255]))
  holds (decide (res = (.ok 3)))
  let nr : List Nat := [5, 0, 0]
  let (nr, res) ← subAssignDigit (DType.ops (.bin .w16) dbg) nr 133
  holds (decide (nr = [65408, 65535, 65535]))
  holds (decide (res = (.error .underflow)))
  let nr : List Nat := [261, 255, 255]
  let (nr, res) ← subAssignDigit (DType.ops (.bin .w32) dbg) nr 133
  holds (decide (nr = [128, 255, 255]))
  holds (decide (res = (.ok 3)))
  let nr : List Nat := [5, 65535, 65535]
  let (nr, res) ← subAssignDigit (DType.ops (.bin .w32) dbg) nr 133
  holds (decide (nr = [4294967168, 65534, 65535]))
  holds (decide (res = (.ok 3)))
  let nr : List Nat := [5, 0, 0]
  let (nr, res) ← subAssignDigit (DType.ops (.bin .w32) dbg) nr 133
  holds (decide (nr = [4294967168, 4294967295, 4294967295]))
  holds (decide (res = (.error .underflow)))

/-- `src/ubig/sub.rs:378-445`. -/
def ubig_sub_test_sub_assign_digit_decimal (dbg : Bool) : R Unit := do
  let nr : List Nat := []
  let (nr, res) ← subAssignDigit (DType.ops (.dec .w8) dbg) nr 0
  holds (decide (nr = []))
  holds (decide (res = (.ok 0)))
  let nr : List Nat := []
  let (nr, res) ← subAssignDigit (DType.ops (.dec .w8) dbg) nr 47
  holds (decide (nr = []))
  holds (decide (res = (.error .underflow)))
  let nr : List Nat := [1]
  let (nr, res) ← subAssignDigit (DType.ops (.dec .w8) dbg) nr 0
  holds (decide (nr = [1]))
  holds (decide (res = (.ok 1)))
  let nr : List Nat := [48]
  let (nr, res) ← subAssignDigit (DType.ops (.dec .w8) dbg) nr 47
  holds (decide (nr = [1]))
  holds (decide (res = (.ok 1)))
  let nr : List Nat := [5]
  let (nr, res) ← subAssignDigit (DType.ops (.dec .w8) dbg) nr 55
  holds (decide (nr = [50]))
  holds (decide (res = (.error .underflow)))
  let nr : List Nat := [5, 1]
  let (nr, res) ← subAssignDigit (DType.ops (.dec .w8) dbg) nr 55
  holds (decide (nr = [50, 0]))
  holds (decide (res = (.ok 1)))
  let nr : List Nat := [5, 0, 99]
  let (nr, res) ← subAssignDigit (DType.ops (.dec .w8) dbg) nr 55
  holds (decide (nr = [50, 99, 98]))
  holds (decide (res = (.ok 3)))
  let nr : List Nat := [5, 0, 0]
  let (nr, res) ← subAssignDigit (DType.ops (.dec .w8) dbg) nr 55
  holds (decide (nr = [50, 99, 99]))
  holds (decide (res = (.error .underflow)))
  let nr : List Nat := [105, 99, 99]
  let (nr, res) ← subAssignDigit (DType.ops (.dec .w16) dbg) nr 55
  holds (decide (nr = [50, 99, 99]))
  holds (decide (res = (.ok 3)))
  let nr : List Nat := [5, 0, 0]
  let (nr, res) ← subAssignDigit (DType.ops (.dec .w16) dbg) nr 55
  holds (decide (nr = [9950, 9999, 9999]))
  holds (decide (res = (.error .underflow)))
  let nr : List Nat := [105, 99, 99]
  let (nr, res) ← subAssignDigit (DType.ops (.dec .w32) dbg) nr 55
  holds (decide (nr = [50, 99, 99]))
  holds (decide (res = (.ok 3)))
  let nr : List Nat := [5, 10000, 9999]
  let (nr, res) ← subAssignDigit (DType.ops (.dec .w32) dbg) nr 55
  holds (decide (nr = [999999950, 9999, 9999]))
  holds (decide (res = (.ok 3)))
  let nr : List Nat := [5, 0, 0]
  let (nr, res) ← subAssignDigit (DType.ops (.dec .w32) dbg) nr 55
  holds (decide (nr = [999999950, 999999999, 999999999]))
  holds (decide (res = (.error .underflow)))

/-- `src/ubig/sub.rs:447-491`. -/
def ubig_sub_test_sub_assign_big_binary (dbg : Bool) : R Unit := do
  let nr0 : List Nat := [1]
  let nr1 : List Nat := []
  let (nr0, res) ← subAssignBig (DType.ops (.bin .w8) dbg) nr0 nr1
  holds (decide (nr0 = [1]))
  holds (decide (res = (.ok 1)))
  let nr0 : List Nat := [255]
  let nr1 : List Nat := [254]
  let (nr0, res) ← subAssignBig (DType.ops (.bin .w8) dbg) nr0 nr1
  holds (decide (nr0 = [1]))
  holds (decide (res = (.ok 1)))
  let nr0 : List Nat := [0]
  let nr1 : List Nat := [255]
  let (nr0, res) ← subAssignBig (DType.ops (.bin .w8) dbg) nr0 nr1
  holds (decide (nr0 = [1]))
  holds (decide (res = (.error .underflow)))
  let nr0 : List Nat := [127]
  let nr1 : List Nat := [255]
  let (nr0, res) ← subAssignBig (DType.ops (.bin .w8) dbg) nr0 nr1
  holds (decide (nr0 = [128]))
  holds (decide (res = (.error .underflow)))
  let nr0 : List Nat := [127, 2]
  let nr1 : List Nat := [255]
  let (nr0, res) ← subAssignBig (DType.ops (.bin .w8) dbg) nr0 nr1
  holds (decide (nr0 = [128, 1]))
  holds (decide (res = (.ok 2)))
  let nr0 : List Nat := [127, 0, 255, 255]
  let nr1 : List Nat := [255]
  let (nr0, res) ← subAssignBig (DType.ops (.bin .w8) dbg) nr0 nr1
  holds (decide (nr0 = [128, 255, 254, 255]))
  holds (decide (res = (.ok 4)))
  let nr0 : List Nat := [127, 0, 0, 0]
  let nr1 : List Nat := [255]
  let (nr0, res) ← subAssignBig (DType.ops (.bin .w8) dbg) nr0 nr1
  holds (decide (nr0 = [128, 255, 255, 255]))
  holds (decide (res = (.error .underflow)))

/-- `src/ubig/sub.rs:493-537`. -/
def ubig_sub_test_sub_assign_big_decimal (dbg : Bool) : R Unit := do
  let nr0 : List Nat := [1]
  let nr1 : List Nat := []
  let (nr0, res) ← subAssignBig (DType.ops (.dec .w8) dbg) nr0 nr1
  holds (decide (nr0 = [1]))
  holds (decide (res = (.ok 1)))
  let nr0 : List Nat := [99]
  let nr1 : List Nat := [98]
  let (nr0, res) ← subAssignBig (DType.ops (.dec .w8) dbg) nr0 nr1
  holds (decide (nr0 = [1]))
  holds (decide (res = (.ok 1)))
  let nr0 : List Nat := [0]
  let nr1 : List Nat := [99]
  let (nr0, res) ← subAssignBig (DType.ops (.dec .w8) dbg) nr0 nr1
  holds (decide (nr0 = [1]))
  holds (decide (res = (.error .underflow)))
  let nr0 : List Nat := [49]
  let nr1 : List Nat := [99]
  let (nr0, res) ← subAssignBig (DType.ops (.dec .w8) dbg) nr0 nr1
  holds (decide (nr0 = [50]))
  holds (decide (res = (.error .underflow)))
  let nr0 : List Nat := [49, 2]
  let nr1 : List Nat := [99]
  let (nr0, res) ← subAssignBig (DType.ops (.dec .w8) dbg) nr0 nr1
  holds (decide (nr0 = [50, 1]))
  holds (decide (res = (.ok 2)))
  let nr0 : List Nat := [49, 0, 99, 99]
  let nr1 : List Nat := [99]
  let (nr0, res) ← subAssignBig (DType.ops (.dec .w8) dbg) nr0 nr1
  holds (decide (nr0 = [50, 99, 98, 99]))
  holds (decide (res = (.ok 4)))
  let nr0 : List Nat := [49, 0, 0, 0]
  let nr1 : List Nat := [99]
  let (nr0, res) ← subAssignBig (DType.ops (.dec .w8) dbg) nr0 nr1
  holds (decide (nr0 = [50, 99, 99, 99]))
  holds (decide (res = (.error .underflow)))

/-- `src/ubig/sub.rs:539-583`. -/
def ubig_sub_test_sub_big_into_binary (dbg : Bool) : R Unit := do
  let nr0 : List Nat := []
  let nr1 : List Nat := []
  let diff : List Nat := []
  let (diff, n) ← subBigInto (DType.ops (.bin .w8) dbg) nr0 nr1 diff
  holds (decide (n = (.ok 0)))
  holds (decide (diff = []))
  let nr0 : List Nat := [1, 2]
  let nr1 : List Nat := []
  let diff : List Nat := List.replicate 2 0
  let (diff, n) ← subBigInto (DType.ops (.bin .w8) dbg) nr0 nr1 diff
  holds (decide (n = (.ok 2)))
  holds (decide (diff = [1, 2]))
  let nr0 : List Nat := [1, 2]
  let nr1 : List Nat := [1]
  let diff : List Nat := List.replicate 2 0
  let (diff, n) ← subBigInto (DType.ops (.bin .w8) dbg) nr0 nr1 diff
  holds (decide (n = (.ok 2)))
  holds (decide (diff = [0, 2]))
  let nr0 : List Nat := [1, 2]
  let nr1 : List Nat := [2]
  let diff : List Nat := List.replicate 2 0
  let (diff, n) ← subBigInto (DType.ops (.bin .w8) dbg) nr0 nr1 diff
  holds (decide (n = (.ok 2)))
  holds (decide (diff = [255, 1]))
  let nr0 : List Nat := [1, 1]
  let nr1 : List Nat := [2]
  let diff : List Nat := List.replicate 2 0
  let (diff, n) ← subBigInto (DType.ops (.bin .w8) dbg) nr0 nr1 diff
  holds (decide (n = (.ok 1)))
  holds (decide (diff = [255, 0]))
  let nr0 : List Nat := [622374740, 4129756693, 2774628482]
  let nr1 : List Nat := [942115097, 4294967295, 1985290904]
  let diff : List Nat := List.replicate 3 0
  let (diff, n) ← subBigInto (DType.ops (.bin .w32) dbg) nr0 nr1 diff
  holds (decide (n = (.ok 3)))
  holds (decide (diff = [3975226939, 4129756693, 789337577]))

/-- `src/ubig/sub.rs:585-629`. -/
def ubig_sub_test_sub_big_into_decimal (dbg : Bool) : R Unit := do
  let nr0 : List Nat := []
  let nr1 : List Nat := []
  let diff : List Nat := []
  let (diff, n) ← subBigInto (DType.ops (.dec .w8) dbg) nr0 nr1 diff
  holds (decide (n = (.ok 0)))
  holds (decide (diff = []))
  let nr0 : List Nat := [1, 2]
  let nr1 : List Nat := []
  let diff : List Nat := List.replicate 2 0
  let (diff, n) ← subBigInto (DType.ops (.dec .w8) dbg) nr0 nr1 diff
  holds (decide (n = (.ok 2)))
  holds (decide (diff = [1, 2]))
  let nr0 : List Nat := [1, 2]
  let nr1 : List Nat := [1]
  let diff : List Nat := List.replicate 2 0
  let (diff, n) ← subBigInto (DType.ops (.dec .w8) dbg) nr0 nr1 diff
  holds (decide (n = (.ok 2)))
  holds (decide (diff = [0, 2]))
  let nr0 : List Nat := [1, 2]
  let nr1 : List Nat := [2]
  let diff : List Nat := List.replicate 2 0
  let (diff, n) ← subBigInto (DType.ops (.dec .w8) dbg) nr0 nr1 diff
  holds (decide (n = (.ok 2)))
  holds (decide (diff = [99, 1]))
  let nr0 : List Nat := [1, 1]
  let nr1 : List Nat := [2]
  let diff : List Nat := List.replicate 2 0
  let (diff, n) ← subBigInto (DType.ops (.dec .w8) dbg) nr0 nr1 diff
  holds (decide (n = (.ok 1)))
  holds (decide (diff = [99, 0]))
  let nr0 : List Nat := [837984655, 982376123, 761233341]
  let nr1 : List Nat := [899987987, 213872166, 688231987]
  let diff : List Nat := List.replicate 3 0
  let (diff, n) ← subBigInto (DType.ops (.dec .w32) dbg) nr0 nr1 diff
  holds (decide (n = (.ok 3)))
  holds (decide (diff = [937996668, 768503956, 73001354]))

/-- `src/ubig/sub.rs:631-645`. -/
def ubig_sub_test_sub_big_into_nospace (dbg : Bool) : R Unit := do
  let nr0 : List Nat := [837984655, 982376123, 761233341]
  let nr1 : List Nat := [899987987, 213872166, 688231987]
  let diff : List Nat := List.replicate 2 0
  let (diff, n) ← subBigInto (DType.ops (.dec .w32) dbg) nr0 nr1 diff
  holds (decide (n = (.error .noSpace)))
  let nr0 : List Nat := [1159245652, 4129756693, 2774628482]
  let nr1 : List Nat := [942115097, 4129756693, 2774628482]
  let diff : List Nat := List.replicate 2 0
  let (diff, n) ← subBigInto (DType.ops (.bin .w32) dbg) nr0 nr1 diff
  holds (decide (n = (.error .noSpace)))

/-- `src/ubig/sub.rs:647-661`. -/
def ubig_sub_test_sub_big_into_underflow (dbg : Bool) : R Unit := do
  let nr0 : List Nat := [837984655, 982376123]
  let nr1 : List Nat := [899987987, 213872166, 688231987]
  let diff : List Nat := List.replicate 3 0
  let (diff, n) ← subBigInto (DType.ops (.dec .w32) dbg) nr0 nr1 diff
  holds (decide (n = (.error .underflow)))
  let nr0 : List Nat := [890810196, 4129756693, 2774628482]
  let nr1 : List Nat := [942115097, 4129756693, 2774628482]
  let diff : List Nat := List.replicate 3 0
  let (diff, n) ← subBigInto (DType.ops (.bin .w32) dbg) nr0 nr1 diff
  holds (decide (n = (.error .underflow)))

/-- `src/ubig/sub.rs:663-719`. -/
def ubig_sub_test_sub_assign_big_abs_sign_binary (dbg : Bool) : R Unit := do
  let nr0 : List Nat := []
  let nr1 : List Nat := []
  let (nr0, sign, len) ← subAssignBigAbsSign (DType.ops (.bin .w8) dbg) nr0 0 nr1
  holds (decide (sign = false))
  holds (decide (len = 0))
  holds (decide (nr0 = []))
  let nr0 : List Nat := [1]
  let nr1 : List Nat := []
  let (nr0, sign, len) ← subAssignBigAbsSign (DType.ops (.bin .w8) dbg) nr0 1 nr1
  holds (decide (sign = false))
  holds (decide (len = 1))
  holds (decide (nr0 = [1]))
  let nr0 : List Nat := [0]
  let nr1 : List Nat := [1]
  let (nr0, sign, len) ← subAssignBigAbsSign (DType.ops (.bin .w8) dbg) nr0 0 nr1
  holds (decide (sign = true))
  holds (decide (len = 1))
  holds (decide (nr0 = [1]))
  let nr0 : List Nat := [64, 67]
  let nr1 : List Nat := [65, 67]
  let (nr0, sign, len) ← subAssignBigAbsSign (DType.ops (.bin .w16) dbg) nr0 2 nr1
  holds (decide (sign = true))
  holds (decide (len = 1))
  holds (decide (nr0 = [1, 0]))
  let nr0 : List Nat := [7431652621683392325, 18394167719827042893, 11302459808112330]
  let nr1 : List Nat := [8181213658050518835, 8058390736075681298]
  let (nr0, sign, len) ← subAssignBigAbsSign (DType.ops (.bin .w64) dbg) nr0 3 nr1
  holds (decide (sign = false))
  holds (decide (len = 3))
  holds (decide (nr0 = [17697183037342425106, 10335776983751361594, 11302459808112330]))
  let nr0 : List Nat := [8181213658050518835, 8058390736075681298, 0]
  let nr1 : List Nat := [7431652621683392325, 18394167719827042893, 11302459808112330]
  let (nr0, sign, len) ← subAssignBigAbsSign (DType.ops (.bin .w64) dbg) nr0 2 nr1
  holds (decide (sign = true))
  holds (decide (len = 3))
  holds (decide (nr0 = [17697183037342425106, 10335776983751361594, 11302459808112330]))

/-- `src/ubig/sub.rs:721-785`. -/
def ubig_sub_test_sub_assign_big_abs_sign_decimal (dbg : Bool) : R Unit := do
  let nr0 : List Nat := []
  let nr1 : List Nat := []
  let (nr0, sign, len) ← subAssignBigAbsSign (DType.ops (.dec .w8) dbg) nr0 0 nr1
  holds (decide (sign = false))
  holds (decide (len = 0))
  holds (decide (nr0 = []))
  let nr0 : List Nat := [1]
  let nr1 : List Nat := []
  let (nr0, sign, len) ← subAssignBigAbsSign (DType.ops (.dec .w8) dbg) nr0 1 nr1
  holds (decide (sign = false))
  holds (decide (len = 1))
  holds (decide (nr0 = [1]))
  let nr0 : List Nat := [0]
  let nr1 : List Nat := [1]
  let (nr0, sign, len) ← subAssignBigAbsSign (DType.ops (.dec .w8) dbg) nr0 0 nr1
  holds (decide (sign = true))
  holds (decide (len = 1))
  holds (decide (nr0 = [1]))
  let nr0 : List Nat := [4000, 4321]
  let nr1 : List Nat := [4001, 4321]
  let (nr0, sign, len) ← subAssignBigAbsSign (DType.ops (.dec .w16) dbg) nr0 2 nr1
  holds (decide (sign = true))
  holds (decide (len = 1))
  holds (decide (nr0 = [1, 0]))
  let nr0 : List Nat := [5748918999164244199, 9332982876466454782, 123]
  let nr1 : List Nat := [5983299918982872456, 9564555736893987342]
  let (nr0, sign, len) ← subAssignBigAbsSign (DType.ops (.dec .w64) dbg) nr0 3 nr1
  holds (decide (sign = false))
  holds (decide (len = 3))
  holds (decide (nr0 = [9765619080181371743, 9768427139572467439, 122]))
  let nr0 : List Nat := [5983299918982872456, 9564555736893987342, 0]
  let nr1 : List Nat := [5748918999164244199, 9332982876466454782, 123]
  let (nr0, sign, len) ← subAssignBigAbsSign (DType.ops (.dec .w64) dbg) nr0 3 nr1
  holds (decide (sign = true))
  holds (decide (len = 3))
  holds (decide (nr0 = [9765619080181371743, 9768427139572467439, 122]))

/-- `src/ubig/sub.rs:787-837`. -/
def ubig_sub_test_sub_big_into_abs_sign_binary (dbg : Bool) : R Unit := do
  let nr0 : List Nat := []
  let nr1 : List Nat := []
  let abs_diff : List Nat := List.replicate 1 0
  let (abs_diff, sign, len) ← subBigIntoAbsSign (DType.ops (.bin .w8) dbg) dbg nr0 nr1 abs_diff
  holds (decide (sign = false))
  holds (decide (len = 0))
  holds (decide (abs_diff = [0]))
  let nr0 : List Nat := [1]
  let nr1 : List Nat := []
  let abs_diff : List Nat := List.replicate 1 0
  let (abs_diff, sign, len) ← subBigIntoAbsSign (DType.ops (.bin .w8) dbg) dbg nr0 nr1 abs_diff
  holds (decide (sign = false))
  holds (decide (len = 1))
  holds (decide (abs_diff = [1]))
  let nr0 : List Nat := []
  let nr1 : List Nat := [1]
  let abs_diff : List Nat := List.replicate 1 0
  let (abs_diff, sign, len) ← subBigIntoAbsSign (DType.ops (.bin .w8) dbg) dbg nr0 nr1 abs_diff
  holds (decide (sign = true))
  holds (decide (len = 1))
  holds (decide (abs_diff = [1]))
  let nr0 : List Nat := [64, 67]
  let nr1 : List Nat := [65, 67]
  let abs_diff : List Nat := List.replicate 2 0
  let (abs_diff, sign, len) ← subBigIntoAbsSign (DType.ops (.bin .w16) dbg) dbg nr0 nr1 abs_diff
  holds (decide (sign = true))
  holds (decide (len = 1))
  holds (decide (abs_diff = [1, 0]))
  let nr0 : List Nat := [7431652621683392325, 18394167719827042893, 11302459808112330]
  let nr1 : List Nat := [8181213658050518835, 8058390736075681298]
  let abs_diff : List Nat := List.replicate 3 0
  let (abs_diff, sign, len) ← subBigIntoAbsSign (DType.ops (.bin .w64) dbg) dbg nr0 nr1 abs_diff
  holds (decide (sign = false))
  holds (decide (len = 3))
  holds (decide (abs_diff = [17697183037342425106, 10335776983751361594, 11302459808112330]))
  let nr0 : List Nat := [8181213658050518835, 8058390736075681298]
  let nr1 : List Nat := [7431652621683392325, 18394167719827042893, 11302459808112330]
  let abs_diff : List Nat := List.replicate 3 0
  let (abs_diff, sign, len) ← subBigIntoAbsSign (DType.ops (.bin .w64) dbg) dbg nr0 nr1 abs_diff
  holds (decide (sign = true))
  holds (decide (len = 3))
  holds (decide (abs_diff = [17697183037342425106, 10335776983751361594, 11302459808112330]))

/-- `src/ubig/sub.rs:839-905`. -/
def ubig_sub_test_sub_big_into_abs_sign_decimal (dbg : Bool) : R Unit := do
  let nr0 : List Nat := []
  let nr1 : List Nat := []
  let abs_diff : List Nat := List.replicate 1 0
  let (abs_diff, sign, len) ← subBigIntoAbsSign (DType.ops (.dec .w8) dbg) dbg nr0 nr1 abs_diff
  holds (decide (sign = false))
  holds (decide (len = 0))
  holds (decide (abs_diff = [0]))
  let nr0 : List Nat := [1]
  let nr1 : List Nat := []
  let abs_diff : List Nat := List.replicate 1 0
  let (abs_diff, sign, len) ← subBigIntoAbsSign (DType.ops (.dec .w8) dbg) dbg nr0 nr1 abs_diff
  holds (decide (sign = false))
  holds (decide (len = 1))
  holds (decide (abs_diff = [1]))
  let nr0 : List Nat := []
  let nr1 : List Nat := [1]
  let abs_diff : List Nat := List.replicate 1 0
  let (abs_diff, sign, len) ← subBigIntoAbsSign (DType.ops (.dec .w8) dbg) dbg nr0 nr1 abs_diff
  holds (decide (sign = true))
  holds (decide (len = 1))
  holds (decide (abs_diff = [1]))
  let nr0 : List Nat := [4000, 4321]
  let nr1 : List Nat := [4001, 4321]
  let abs_diff : List Nat := List.replicate 2 0
  let (abs_diff, sign, len) ← subBigIntoAbsSign (DType.ops (.dec .w16) dbg) dbg nr0 nr1 abs_diff
  holds (decide (sign = true))
  holds (decide (len = 1))
  holds (decide (abs_diff = [1, 0]))
  let nr0 : List Nat := [5748918999164244199, 9332982876466454782, 123]
  let nr1 : List Nat := [5983299918982872456, 9564555736893987342]
  let abs_diff : List Nat := List.replicate 3 0
  let (abs_diff, sign, len) ← subBigIntoAbsSign (DType.ops (.dec .w64) dbg) dbg nr0 nr1 abs_diff
  holds (decide (sign = false))
  holds (decide (len = 3))
  holds (decide (abs_diff = [9765619080181371743, 9768427139572467439, 122]))
  let nr0 : List Nat := [5983299918982872456, 9564555736893987342]
  let nr1 : List Nat := [5748918999164244199, 9332982876466454782, 123]
  let abs_diff : List Nat := List.replicate 3 0
  let (abs_diff, sign, len) ← subBigIntoAbsSign (DType.ops (.dec .w64) dbg) dbg nr0 nr1 abs_diff
  holds (decide (sign = true))
  holds (decide (len = 3))
  holds (decide (abs_diff = [9765619080181371743, 9768427139572467439, 122]))

/-- `src/ubig/cmp.rs:39-74`. -/
def ubig_cmp_test_cmp (dbg : Bool) : R Unit := do
  let n : List Nat := []
  let m : List Nat := []
  holds (decide (cmpBig n m = .eq))
  let n : List Nat := []
  let m : List Nat := [1]
  holds (decide (cmpBig n m = .lt))
  holds (decide (cmpBig m n = .gt))
  let n : List Nat := [2]
  let m : List Nat := [1]
  holds (decide (cmpBig n m = .gt))
  holds (decide (cmpBig m n = .lt))
  let n : List Nat := [2, 1, 3]
  let m : List Nat := [2, 1, 3]
  holds (decide (cmpBig n m = .eq))
  let n : List Nat := [1, 1, 3]
  let m : List Nat := [2, 1, 3]
  holds (decide (cmpBig n m = .lt))
  holds (decide (cmpBig m n = .gt))
  let n : List Nat := [1, 1, 3]
  let m : List Nat := [0, 0, 4]
  holds (decide (cmpBig n m = .lt))
  holds (decide (cmpBig m n = .gt))
  let n : List Nat := [1, 1, 3]
  let m : List Nat := [0, 0, 0, 1]
  holds (decide (cmpBig n m = .lt))
  holds (decide (cmpBig m n = .gt))

/-- `src/ubig/support.rs:37-54`. -/
def ubig_support_test_drop_leading_zeros (dbg : Bool) : R Unit := do
  let nr : List Nat := [127, 0, 0, 35]
  holds (decide ((← dropLeadingZeros nr 4) = 4))
  holds (decide ((← dropLeadingZeros nr 3) = 1))
  holds (decide ((← dropLeadingZeros nr 2) = 1))
  holds (decide ((← dropLeadingZeros nr 1) = 1))
  holds (decide ((← dropLeadingZeros nr 0) = 0))
  let nr : List Nat := [23, 0, 987654321123456789, 0, 1]
  holds (decide ((← dropLeadingZeros nr 5) = 5))
  holds (decide ((← dropLeadingZeros nr 4) = 3))
  holds (decide ((← dropLeadingZeros nr 3) = 3))
  holds (decide ((← dropLeadingZeros nr 2) = 1))
  holds (decide ((← dropLeadingZeros nr 1) = 1))
  holds (decide ((← dropLeadingZeros nr 0) = 0))

/-- `src/ubig/shr.rs:44-84`. -/
def ubig_shr_test_shr_carry_assign_within_digit_binary (dbg : Bool) : R Unit := do
  let n : List Nat := []
  let (n, nd, carry) ← shrWithin (DType.ops (.bin .w32) dbg) n 15 32767
  holds (decide (nd = 0))
  holds (decide (carry = 32767))
  holds (decide (n = []))
  let n : List Nat := [108155922, 385539838, 1640057556]
  let (n, nd, carry) ← shrWithin (DType.ops (.bin .w32) dbg) n 15 32767
  holds (decide (nd = 3))
  holds (decide (carry = 21522))
  holds (decide (n = [3187412196, 2510826997, 4294886274]))
  let n : List Nat := [21522, 1650, 57086, 5882, 19156, 25025]
  let (n, nd, carry) ← shrWithin (DType.ops (.bin .w16) dbg) n 15 741
  holds (decide (nd = 6))
  holds (decide (carry = 21522))
  holds (decide (n = [3300, 48636, 11765, 38312, 50050, 1482]))
  let n : List Nat := [9399735355359293173, 72057594037927935]
  let (n, nd, carry) ← shrWithin (DType.ops (.bin .w64) dbg) n 56 0
  holds (decide (nd = 1))
  holds (decide (carry = 32248130428661493))
  holds (decide (n = [18446744073709551490, 0]))

/-- `src/ubig/shr.rs:86-134`. -/
def ubig_shr_test_shl_carry_assign_within_digit_decimal (dbg : Bool) : R Unit := do
  let n : List Nat := []
  let (n, nd, carry) ← shrWithin (DType.ops (.dec .w32) dbg) n 15 9999
  holds (decide (n = []))
  holds (decide (nd = 0))
  holds (decide (carry = 9999))
  let n : List Nat := [826211332, 187721198, 987365181]
  let (n, nd, carry) ← shrWithin (DType.ops (.dec .w32) dbg) n 15 9999
  holds (decide (n = [61975897, 665929801, 305175395]))
  holds (decide (nd = 3))
  holds (decide (carry = 18436))
  let n : List Nat := [826211332, 187721198, 5181]
  let (n, nd, carry) ← shrWithin (DType.ops (.dec .w32) dbg) n 15 0
  holds (decide (nd = 2))
  holds (decide (carry = 18436))
  holds (decide (n = [61975897, 158117301, 0]))
  let n : List Nat := [1332, 2621, 1988, 7721, 8118, 3651, 987]
  let (n, nd, carry) ← shrWithin (DType.ops (.dec .w16) dbg) n 11 2000
  holds (decide (n = [4361, 9161, 8169, 4876, 1190, 1071, 9766]))
  holds (decide (nd = 7))
  holds (decide (carry = 4))
  let n : List Nat := [7826211332987999393, 1187721198756888897]
  let (n, nd, carry) ← shrWithin (DType.ops (.dec .w64) dbg) n 42 4398046511103
  holds (decide (nd = 2))
  holds (decide (carry = 4015589610657))
  holds (decide (n = [7799308747784795334, 9999999999997996319]))

/-- `src/ubig/shl.rs:40-86`. -/
def ubig_shl_test_shl_carry_assign_within_digit_binary (dbg : Bool) : R Unit := do
  let n : List Nat := []
  let (n, carry) ← shlWithin (DType.ops (.bin .w32) dbg) n 15 32767
  holds (decide (n = []))
  holds (decide (carry = 32767))
  let n : List Nat := [108155922, 385539838, 1640057556]
  let (n, carry) ← shlWithin (DType.ops (.bin .w32) dbg) n 15 32767
  holds (decide (n = [705265663, 1870594873, 2775190397]))
  holds (decide (carry = 12512))
  let n : List Nat := [108155922, 385539838, 1640057556]
  let (n, carry) ← shlWithin (DType.ops (.bin .w32) dbg) n 0 0
  holds (decide (n = [108155922, 385539838, 1640057556]))
  holds (decide (carry = 0))
  let n : List Nat := [21522, 1650, 57086, 5882, 19156, 25025]
  let (n, carry) ← shlWithin (DType.ops (.bin .w16) dbg) n 15 32767
  holds (decide (n = [32767, 10761, 825, 28543, 2941, 42346]))
  holds (decide (carry = 12512))
  let n : List Nat := [9221193762499416594, 6562546066]
  let (n, carry) ← shlWithin (DType.ops (.bin .w64) dbg) n 15 32767
  holds (decide (n = [2409282218427514879, 215041509507068]))
  holds (decide (carry = 0))
  let n : List Nat := [9221193762499416594, 6562546066]
  let (n, carry) ← shlWithin (DType.ops (.bin .w64) dbg) n 52 588981043199
  holds (decide (n = [2386908391487406079, 1812698318211362101]))
  holds (decide (carry = 1602184))

/-- `src/ubig/shl.rs:88-134`. -/
def ubig_shl_test_shl_carry_assign_within_digit_decimal (dbg : Bool) : R Unit := do
  let n : List Nat := []
  let (n, carry) ← shlWithin (DType.ops (.dec .w32) dbg) n 15 9999
  holds (decide (n = []))
  holds (decide (carry = 9999))
  let n : List Nat := [9567, 1253, 14]
  let (n, carry) ← shlWithin (DType.ops (.dec .w16) dbg) n 0 0
  holds (decide (n = [9567, 1253, 14]))
  holds (decide (carry = 0))
  let n : List Nat := [826211332, 187721198, 987365181]
  let (n, carry) ← shlWithin (DType.ops (.dec .w32) dbg) n 15 9999
  holds (decide (n = [292936975, 248243137, 982257159]))
  holds (decide (carry = 32353))
  let n : List Nat := [1332, 2621, 1988, 7721, 8118, 3651, 987]
  let (n, carry) ← shlWithin (DType.ops (.dec .w16) dbg) n 11 2000
  holds (decide (n = [9936, 8080, 1960, 3015, 7245, 8910, 2123]))
  holds (decide (carry = 202))
  let n : List Nat := [9876543210987654321, 1234567890123456789]
  let (n, carry) ← shlWithin (DType.ops (.dec .w64) dbg) n 34 111222333
  holds (decide (n = [4891212673903566397, 1087873261864462211]))
  holds (decide (carry = 2120971485))

/-- `src/ubig/rsub.rs:52-90`. -/
def ubig_rsub_test_rsub_assign_big_binary (dbg : Bool) : R Unit := do
  let nr0 : List Nat := []
  let nr1 : List Nat := []
  let (nr0, res) ← rsubAssignBig (DType.ops (.bin .w8) dbg) nr0 nr1
  holds (decide (nr0 = []))
  holds (decide (res = (.ok 0)))
  let nr0 : List Nat := [52, 18]
  let nr1 : List Nat := [54, 22]
  let (nr0, res) ← rsubAssignBig (DType.ops (.bin .w8) dbg) nr0 nr1
  holds (decide (nr0 = [2, 4]))
  holds (decide (res = (.ok 2)))
  let nr0 : List Nat := [54, 22]
  let nr1 : List Nat := [52, 18]
  let (nr0, res) ← rsubAssignBig (DType.ops (.bin .w8) dbg) nr0 nr1
  holds (decide (nr0 = [254, 251]))
  holds (decide (res = (.error .underflow)))
  let nr0 : List Nat := [54, 22]
  let nr1 : List Nat := [52, 23]
  let (nr0, res) ← rsubAssignBig (DType.ops (.bin .w8) dbg) nr0 nr1
  holds (decide (nr0 = [254, 0]))
  holds (decide (res = (.ok 1)))
  let nr0 : List Nat := [54, 22]
  let nr1 : List Nat := [52, 22]
  let (nr0, res) ← rsubAssignBig (DType.ops (.bin .w8) dbg) nr0 nr1
  holds (decide (nr0 = [254, 255]))
  holds (decide (res = (.error .underflow)))
  let nr0 : List Nat := [2180932012, 4082295203, 1922105516]
  let nr1 : List Nat := [1878942229, 2787505116, 3591566383]
  let (nr0, res) ← rsubAssignBig (DType.ops (.bin .w32) dbg) nr0 nr1
  holds (decide (nr0 = [3992977513, 3000177208, 1669460866]))
  holds (decide (res = (.ok 3)))

/-- `src/ubig/rsub.rs:92-130`. -/
def ubig_rsub_test_rsub_assign_big_decimal (dbg : Bool) : R Unit := do
  let nr0 : List Nat := []
  let nr1 : List Nat := []
  let (nr0, res) ← rsubAssignBig (DType.ops (.dec .w8) dbg) nr0 nr1
  holds (decide (nr0 = []))
  holds (decide (res = (.ok 0)))
  let nr0 : List Nat := [34, 12]
  let nr1 : List Nat := [36, 16]
  let (nr0, res) ← rsubAssignBig (DType.ops (.dec .w8) dbg) nr0 nr1
  holds (decide (nr0 = [2, 4]))
  holds (decide (res = (.ok 2)))
  let nr0 : List Nat := [36, 16]
  let nr1 : List Nat := [34, 12]
  let (nr0, res) ← rsubAssignBig (DType.ops (.dec .w8) dbg) nr0 nr1
  holds (decide (nr0 = [98, 95]))
  holds (decide (res = (.error .underflow)))
  let nr0 : List Nat := [36, 16]
  let nr1 : List Nat := [34, 17]
  let (nr0, res) ← rsubAssignBig (DType.ops (.dec .w8) dbg) nr0 nr1
  holds (decide (nr0 = [98, 0]))
  holds (decide (res = (.ok 1)))
  let nr0 : List Nat := [36, 16]
  let nr1 : List Nat := [34, 16]
  let (nr0, res) ← rsubAssignBig (DType.ops (.dec .w8) dbg) nr0 nr1
  holds (decide (nr0 = [98, 99]))
  holds (decide (res = (.error .underflow)))
  let nr0 : List Nat := [287091918, 827909001, 275599012]
  let nr1 : List Nat := [874762199, 564887009, 387764666]
  let (nr0, res) ← rsubAssignBig (DType.ops (.dec .w32) dbg) nr0 nr1
  holds (decide (nr0 = [587670281, 736978008, 112165653]))
  holds (decide (res = (.ok 3)))

example : digit_test_max_shift_binary true = .ok () := by decide +kernel
example : digit_test_max_shift_decimal true = .ok () := by decide +kernel
example : digit_test_inc_binary true = .ok () := by decide +kernel
example : digit_test_inc_decimal true = .ok () := by decide +kernel
example : digit_test_dec_binary true = .ok () := by decide +kernel
example : digit_test_dec_decimal true = .ok () := by decide +kernel
example : digit_test_add_carry_assign_binary true = .ok () := by decide +kernel
example : digit_test_add_carry_assign_decimal true = .ok () := by decide +kernel
example : digit_test_sub_carry_assign_binary true = .ok () := by decide +kernel
example : digit_test_sub_carry_assign_decimal true = .ok () := by decide +kernel
example : digit_test_shl_carry_assign_binary true = .ok () := by decide +kernel
example : digit_test_shl_carry_assign_decimal true = .ok () := by decide +kernel
example : digit_test_shr_carry_assign_binary true = .ok () := by decide +kernel
example : digit_test_shr_carry_assign_decimal true = .ok () := by decide +kernel
example : digit_test_mul_carry_assign_binary true = .ok () := by decide +kernel
example : digit_test_mul_carry_assign_decimal true = .ok () := by decide +kernel
example : digit_test_rem_carry_binary true = .ok () := by decide +kernel
example : digit_test_rem_carry_decimal true = .ok () := by decide +kernel
example : digit_test_div3_carry_assign_binary true = .ok () := by decide +kernel
example : digit_test_div3_carry_assign_decimal true = .ok () := by decide +kernel
example : digit_test_div_carry_assign_binary true = .ok () := by decide +kernel
example : digit_test_div_carry_assign_decimal true = .ok () := by decide +kernel
example : digit_test_add_prod_carry_assign_binary true = .ok () := by decide +kernel
example : digit_test_add_prod_carry_assign_decimal true = .ok () := by decide +kernel
example : digit_test_sub_prod_carry_assign_binary true = .ok () := by decide +kernel
example : digit_test_sub_prod_carry_assign_decimal true = .ok () := by decide +kernel
example : digit_test_div_rem_base_decimal64 true = .ok () := by decide +kernel
example : digit_test_double_assign_binary true = .ok () := by decide +kernel
example : digit_test_double_assign_decimal true = .ok () := by decide +kernel
example : ubig_add_test_inc_assign_binary true = .ok () := by decide +kernel
example : ubig_add_test_inc_assign_decimal true = .ok () := by decide +kernel
example : ubig_add_test_add_assign_digit_binary true = .ok () := by decide +kernel
example : ubig_add_test_add_assign_digit_decimal true = .ok () := by decide +kernel
example : ubig_add_test_add_assign_big_binary true = .ok () := by decide +kernel
example : ubig_add_test_add_assign_big_decimal true = .ok () := by decide +kernel
example : ubig_add_test_add_big_into_binary true = .ok () := by decide +kernel
example : ubig_add_test_add_big_into_binary_overflow true = .ok () := by decide +kernel
example : ubig_add_test_add_big_into_decimal true = .ok () := by decide +kernel
example : ubig_add_test_add_big_into_decimal_overflow true = .ok () := by decide +kernel
example : ubig_sub_test_dec_assign_binary true = .ok () := by decide +kernel
example : ubig_sub_test_dec_assign_decimal true = .ok () := by decide +kernel
example : ubig_sub_test_sub_assign_digit_binary true = .ok () := by decide +kernel
example : ubig_sub_test_sub_assign_digit_decimal true = .ok () := by decide +kernel
example : ubig_sub_test_sub_assign_big_binary true = .ok () := by decide +kernel
example : ubig_sub_test_sub_assign_big_decimal true = .ok () := by decide +kernel
example : ubig_sub_test_sub_big_into_binary true = .ok () := by decide +kernel
example : ubig_sub_test_sub_big_into_decimal true = .ok () := by decide +kernel
example : ubig_sub_test_sub_big_into_nospace true = .ok () := by decide +kernel
example : ubig_sub_test_sub_big_into_underflow true = .ok () := by decide +kernel
example : ubig_sub_test_sub_assign_big_abs_sign_binary true = .ok () := by decide +kernel
example : ubig_sub_test_sub_assign_big_abs_sign_decimal true = .ok () := by decide +kernel
example : ubig_sub_test_sub_big_into_abs_sign_binary true = .ok () := by decide +kernel
example : ubig_sub_test_sub_big_into_abs_sign_decimal true = .ok () := by decide +kernel
example : ubig_cmp_test_cmp true = .ok () := by decide +kernel
example : ubig_support_test_drop_leading_zeros true = .ok () := by decide +kernel
example : ubig_shr_test_shr_carry_assign_within_digit_binary true = .ok () := by decide +kernel
example : ubig_shr_test_shl_carry_assign_within_digit_decimal true = .ok () := by decide +kernel
example : ubig_shl_test_shl_carry_assign_within_digit_binary true = .ok () := by decide +kernel
example : ubig_shl_test_shl_carry_assign_within_digit_decimal true = .ok () := by decide +kernel
example : ubig_rsub_test_rsub_assign_big_binary true = .ok () := by decide +kernel
example : ubig_rsub_test_rsub_assign_big_decimal true = .ok () := by decide +kernel

end Babs.Tests
