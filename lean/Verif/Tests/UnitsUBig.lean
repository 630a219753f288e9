import Verif.Tests.Conformance

/-!
The crate's unit tests of `ubig.rs`,
run in the model in the debug profile: every test function is translated statement by statement.
These are tests of the model, not properties.
-/

set_option linter.unusedVariables false

namespace Babs.Tests

/-- `src/ubig.rs:576-598`. -/
def ubig_test_new (dbg : Bool) : R Unit := do
  let digits : List Nat := [1, 2]
  let n ← UBig.new digits
  holds (decide (n = [1, 2]))
  let digits : List Nat := [1, 2, 0]
  let n ← UBig.new digits
  holds (decide (n = [1, 2]))
  let digits : List Nat := [1, 2, 0, 3]
  let n ← UBig.new digits
  holds (decide (n = [1, 2, 0, 3]))
  let digits : List Nat := [1, 2, 0, 0]
  let n ← UBig.new digits
  holds (decide (n = [1, 2]))
  let digits : List Nat := [0, 2, 0]
  let n ← UBig.new digits
  holds (decide (n = [0, 2]))

/-- `src/ubig.rs:600-608`. -/
def ubig_test_zero (dbg : Bool) : R Unit := do
  let n := ubigZero
  holds (decide (n = []))
  let n := ubigZero
  holds (decide (n = []))

/-- `src/ubig.rs:610-623`. -/
def ubig_test_is_zero (dbg : Bool) : R Unit := do
  let digits : List Nat := []
  let n := digits
  holds (isZero n)
  let digits : List Nat := [12, 16]
  let n := digits
  holds (!isZero n)
  let n := ubigZero
  holds (isZero n)

/-- `src/ubig.rs:625-633`. -/
def ubig_test_one (dbg : Bool) : R Unit := do
  let n := ubigOne
  holds (decide (n = [1]))
  let n := ubigOne
  holds (decide (n = [1]))

/-- `src/ubig.rs:635-655`. -/
def ubig_test_from_digit_binary (dbg : Bool) : R Unit := do
  let n := UBig.ofWord (.bin .w8) 0
  holds (decide (n = []))
  let n := UBig.ofWord (.bin .w8) 127
  holds (decide (n = [127]))
  let n := UBig.ofWord (.bin .w16) 0
  holds (decide (n = []))
  let n := UBig.ofWord (.bin .w16) 62335
  holds (decide (n = [62335]))
  let n := UBig.ofWord (.bin .w32) 0
  holds (decide (n = []))
  let n := UBig.ofWord (.bin .w32) 305419896
  holds (decide (n = [305419896]))

/-- `src/ubig.rs:657-686`. -/
def ubig_test_from_digit_decimal (dbg : Bool) : R Unit := do
  let n := UBig.ofWord (.dec .w8) 0
  holds (decide (n = []))
  let n := UBig.ofWord (.dec .w8) 57
  holds (decide (n = [57]))
  let n := UBig.ofWord (.dec .w8) 204
  holds (decide (n = [4, 2]))
  let n := UBig.ofWord (.dec .w16) 0
  holds (decide (n = []))
  let n := UBig.ofWord (.dec .w16) 7352
  holds (decide (n = [7352]))
  let n := UBig.ofWord (.dec .w16) 25352
  holds (decide (n = [5352, 2]))
  let n := UBig.ofWord (.dec .w32) 0
  holds (decide (n = []))
  let n := UBig.ofWord (.dec .w32) 237651987
  holds (decide (n = [237651987]))
  let n := UBig.ofWord (.dec .w32) 3237651987
  holds (decide (n = [237651987, 3]))

/-- `src/ubig.rs:688-720`. -/
def ubig_test_from_decimal_str_binary (dbg : Bool) : R Unit := do
  let res ← UBig.fromStr (.bin .w32) dbg "123456789012345678901234567890".toList
  let _ ← unwrapR res
  let m ← unwrapR res
  holds (decide (m = [1312754386, 3279151342, 2397638646, 1]))
  let res ← UBig.fromStr (.bin .w32) dbg "0000000000000000000123456789012345678901234567890".toList
  let _ ← unwrapR res
  let m ← unwrapR res
  holds (decide (m = [1312754386, 3279151342, 2397638646, 1]))
  let res ← UBig.fromStr (.bin .w8) dbg "123456789012345678901234567890".toList
  let _ ← unwrapR res
  let m ← unwrapR res
  holds (decide (m = [210, 10, 63, 78, 238, 224, 115, 195, 246, 15, 233, 142, 1]))
  let res ← UBig.fromStr (.dec .w32) dbg "123hello".toList
  holds (decide (res = (.error .invalidNumber)))

/-- `src/ubig.rs:722-754`. -/
def ubig_test_from_hex_str_binary (dbg : Bool) : R Unit := do
  let res ← UBig.fromStr (.bin .w32) dbg "0x123456789012345678901234567890".toList
  let _ ← unwrapR res
  let m ← unwrapR res
  holds (decide (m = [878082192, 1450741778, 2022707764, 1193046]))
  
    let res ← UBig.fromStr (.bin .w32) dbg "0x0000000000000000000123456789012345678901234567890".toList
  let _ ← unwrapR res
  let m ← unwrapR res
  holds (decide (m = [878082192, 1450741778, 2022707764, 1193046]))
  let res ← UBig.fromStr (.bin .w32) dbg "0x123456789abcdeffedcba0987654321".toList
  let _ ← unwrapR res
  let m ← unwrapR res
  holds (decide (m = [2271560481, 4275878409, 2309737967, 19088743]))
  let res ← UBig.fromStr (.bin .w32) dbg "0x123hello".toList
  holds (decide (res = (.error .invalidNumber)))

/-- `src/ubig.rs:756-771`. -/
def ubig_test_from_decimal_str_decimal (dbg : Bool) : R Unit := do
  let res ← UBig.fromStr (.dec .w32) dbg "123456789012345678901234567890".toList
  let _ ← unwrapR res
  let m ← unwrapR res
  holds (decide (m = [234567890, 345678901, 456789012, 123]))
  let res ← UBig.fromStr (.dec .w32) dbg "0000000000000000000123456789012345678901234567890".toList
  let _ ← unwrapR res
  let m ← unwrapR res
  holds (decide (m = [234567890, 345678901, 456789012, 123]))
  let res ← UBig.fromStr (.dec .w32) dbg "123hello".toList
  holds (decide (res = (.error .invalidNumber)))

/-- `src/ubig.rs:773-806`. -/
def ubig_test_from_hex_str_decimal (dbg : Bool) : R Unit := do
  let res ← UBig.fromStr (.dec .w32) dbg "0x123456789012345678901234567890".toList
  let _ ← unwrapR res
  let m ← unwrapR res
  holds (decide (m = [743484560, 552814062, 687365475, 94522879]))
  
    let res ← UBig.fromStr (.dec .w32) dbg "0x0000000000000000000123456789012345678901234567890".toList
  let _ ← unwrapR res
  let m ← unwrapR res
  holds (decide (m = [743484560, 552814062, 687365475, 94522879]))
  let res ← UBig.fromStr (.dec .w32) dbg "0x123456789abcdeffedcba0987654321".toList
  let _ ← unwrapR res
  let m ← unwrapR res
  holds (decide (m = [789144865, 332354755, 204170947, 512366075, 1]))
  let res ← UBig.fromStr (.dec .w32) dbg "0x123hello".toList
  holds (decide (res = (.error .invalidNumber)))

/-- `src/ubig.rs:808-853`. -/
def ubig_test_lowerhex_binary (dbg : Bool) : R Unit := do
  let n ← UBig.new []
  let s := UBig.fmtHex .w32 false {} n
  expect s "0"
  let n ← UBig.new []
  let s := UBig.fmtHex .w32 false { alternate := true } n
  expect s "0x0"
  let n ← UBig.new []
  let s := UBig.fmtHex .w32 false { alternate := true, zeroPad := true, width := some 16 } n
  expect s "0x00000000000000"
  let n ← UBig.new [523124044]
  let s := UBig.fmtHex .w32 false {} n
  expect s "1f2e3d4c"
  let n ← UBig.new [523124044]
  let s := UBig.fmtHex .w32 false { alternate := true } n
  expect s "0x1f2e3d4c"
  let n ← UBig.new [523124044]
  let s := UBig.fmtHex .w32 false { alternate := true, zeroPad := true, width := some 16 } n
  expect s "0x0000001f2e3d4c"
  let n ← UBig.new [1, 2, 3]
  let s := UBig.fmtHex .w8 false {} n
  expect s "30201"
  let n ← UBig.new [1, 2, 3]
  let s := UBig.fmtHex .w8 false { alternate := true } n
  expect s "0x30201"
  let n ← UBig.new [1, 2, 3]
  let s := UBig.fmtHex .w8 false { width := some 16 } n
  expect s "           30201"
  let n ← UBig.new [1, 2, 3]
  let s := UBig.fmtHex .w8 false { alternate := true, width := some 16 } n
  expect s "         0x30201"
  let n ← UBig.new [1, 2, 3]
  let s := UBig.fmtHex .w8 false { alternate := true, zeroPad := true, width := some 16 } n
  expect s "0x00000000030201"

/-- `src/ubig.rs:855-900`. -/
def ubig_test_upperhex_binary (dbg : Bool) : R Unit := do
  let n ← UBig.new []
  let s := UBig.fmtHex .w32 true {} n
  expect s "0"
  let n ← UBig.new []
  let s := UBig.fmtHex .w32 true { alternate := true } n
  expect s "0x0"
  let n ← UBig.new []
  let s := UBig.fmtHex .w32 true { alternate := true, zeroPad := true, width := some 16 } n
  expect s "0x00000000000000"
  let n ← UBig.new [523124044]
  let s := UBig.fmtHex .w32 true {} n
  expect s "1F2E3D4C"
  let n ← UBig.new [523124044]
  let s := UBig.fmtHex .w32 true { alternate := true } n
  expect s "0x1F2E3D4C"
  let n ← UBig.new [523124044]
  let s := UBig.fmtHex .w32 true { alternate := true, zeroPad := true, width := some 16 } n
  expect s "0x0000001F2E3D4C"
  let n ← UBig.new [1, 2, 3]
  let s := UBig.fmtHex .w8 true {} n
  expect s "30201"
  let n ← UBig.new [1, 2, 3]
  let s := UBig.fmtHex .w8 true { alternate := true } n
  expect s "0x30201"
  let n ← UBig.new [1, 2, 3]
  let s := UBig.fmtHex .w8 true { width := some 16 } n
  expect s "           30201"
  let n ← UBig.new [1, 2, 3]
  let s := UBig.fmtHex .w8 true { alternate := true, width := some 16 } n
  expect s "         0x30201"
  let n ← UBig.new [1, 2, 3]
  let s := UBig.fmtHex .w8 true { alternate := true, zeroPad := true, width := some 16 } n
  expect s "0x00000000030201"

/-- `src/ubig.rs:902-947`. -/
def ubig_test_display_decimal (dbg : Bool) : R Unit := do
  let n ← UBig.new []
  let s ← UBig.display (.dec .w32) dbg {} n
  expect s "0"
  let n ← UBig.new [123456789]
  let s ← UBig.display (.dec .w32) dbg {} n
  expect s "123456789"
  let n ← UBig.new [123456789, 987654321]
  let s ← UBig.display (.dec .w32) dbg {} n
  expect s "987654321123456789"
  let n ← UBig.new [123, 987654321]
  let s ← UBig.display (.dec .w32) dbg {} n
  expect s "987654321000000123"
  let n ← UBig.new [123456789, 987]
  let s ← UBig.display (.dec .w32) dbg {} n
  expect s "987123456789"
  let n ← UBig.new [1, 2, 3, 4]
  let s ← UBig.display (.dec .w16) dbg {} n
  expect s "4000300020001"
  let n ← UBig.new [1, 2, 3, 4]
  let s ← UBig.display (.dec .w16) dbg { zeroPad := true, width := some 20 } n
  expect s "00000004000300020001"
  let n ← UBig.new [1, 2, 3, 4]
  let s ← UBig.display (.dec .w16) dbg { fill := '0', align := some .left, width := some 20 } n
  expect s "40003000200010000000"
  let n ← UBig.new [1, 2, 3, 4]
  let s ← UBig.display (.dec .w16) dbg { fill := '0', align := some .center, width := some 20 } n
  expect s "00040003000200010000"
  let n ← UBig.new [1]
  let s ← UBig.display (.dec .w16) dbg { fill := '_', align := some .right, width := some 20 } n
  expect s "___________________1"
  let n ← UBig.new [1, 2, 3, 4]
  let s ← UBig.display (.dec .w16) dbg { fill := '_', align := some .right, width := some 20 } n
  expect s "_______4000300020001"

/-- `src/ubig.rs:949-988`. -/
def ubig_test_binary_to_decimal (dbg : Bool) : R Unit := do
  let n ← UBig.new []
  let m ← UBig.toDecimal dbg .w8 n
  holds (decide (m = []))
  let n ← UBig.new [75]
  let m ← UBig.toDecimal dbg .w8 n
  holds (decide (m = [75]))
  let n ← UBig.new [203]
  let m ← UBig.toDecimal dbg .w8 n
  holds (decide (m = [3, 2]))
  let n ← UBig.new [172, 18, 115]
  let m ← UBig.toDecimal dbg .w8 n
  holds (decide (m = [20, 14, 54, 7]))
  let n ← UBig.new [1, 2, 3]
  let m ← UBig.toDecimal dbg .w64 n
  holds (decide (m = [7017310442723737601, 2084710076281539042, 10]))
  let n ← UBig.new [3003812123615631789, 11506696941466022477, 16064045555540313380]
  let m ← UBig.toDecimal dbg .w64 n
  holds (decide (m = [8816494390609385901, 6506631539302871684, 4663114439650396764, 5]))

example : ubig_test_new true = .ok () := by decide +kernel
example : ubig_test_zero true = .ok () := by decide +kernel
example : ubig_test_is_zero true = .ok () := by decide +kernel
example : ubig_test_one true = .ok () := by decide +kernel
example : ubig_test_from_digit_binary true = .ok () := by decide +kernel
example : ubig_test_from_digit_decimal true = .ok () := by decide +kernel
example : ubig_test_from_decimal_str_binary true = .ok () := by decide +kernel
example : ubig_test_from_hex_str_binary true = .ok () := by decide +kernel
example : ubig_test_from_decimal_str_decimal true = .ok () := by decide +kernel
example : ubig_test_from_hex_str_decimal true = .ok () := by decide +kernel
example : ubig_test_lowerhex_binary true = .ok () := by decide +kernel
example : ubig_test_upperhex_binary true = .ok () := by decide +kernel
example : ubig_test_display_decimal true = .ok () := by decide +kernel
example : ubig_test_binary_to_decimal true = .ok () := by decide +kernel

end Babs.Tests
