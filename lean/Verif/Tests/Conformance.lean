import Verif.Model.Text

/-!
The crate's own tests, `/repo/tests/*.rs`, run in the model: every test function is translated
statement by statement and evaluated in the debug profile, in which `cargo test` runs.  These are
tests of the model, not properties.
-/

set_option linter.unusedVariables false

namespace Babs.Tests

open Babs Babs.UBig

/-- `from_str(s).unwrap()`. -/
def parse (t : DType) (dbg : Bool) (s : String) : R (List Nat) := do
  match ← fromStr t dbg s.toList with
  | .ok x => return x
  | .error _ => .error .unwrap

/-- `format!("{:#x}", x)` (binary types only). -/
def fmtX (t : DType) (_dbg : Bool) (x : List Nat) : R (List Char) :=
  match t with
  | .bin w => .ok (fmtHex w false { alternate := true } x)
  | .dec _ => .error .unimplemented

/-- `format!("{}", x)`. -/
def fmtD (t : DType) (dbg : Bool) (x : List Nat) : R (List Char) := display t dbg {} x

/-- `assert_eq!(a, b)`: a failed assertion is a panic. -/
def expect (a : List Char) (b : String) : R Unit :=
  if a = b.toList then .ok () else .error .assert

/-- `assert!(b)`. -/
def holds (b : Bool) : R Unit := if b then .ok () else .error .assert

/-- The comparison operators. -/
def rel (op : String) (x y : List Nat) : Bool :=
  if op = "==" then eq x y
  else if op = "!=" then !eq x y
  else if op = "<" then decide (cmp x y = .lt)
  else if op = "<=" then decide (cmp x y ≠ .gt)
  else if op = ">" then decide (cmp x y = .gt)
  else decide (cmp x y ≠ .lt)

/-- `x /= y`, `src/ubig/ops.rs`. -/
def divAssignOp (t : DType) (dbg : Bool) (x y : List Nat) : R (List Nat) := div t dbg x y

/-- `x %= y`, `src/ubig/ops.rs`. -/
def remAssignOp (t : DType) (dbg : Bool) (x y : List Nat) : R (List Nat) := rem t dbg x y

/-! ## `tests/add.rs` -/

/-- `tests/add.rs:19-33`. -/
def test_add_assign_digit_binary (dbg : Bool) : R Unit := do
  let n := ubigZero
  let n ← addWord (.bin .w32) dbg n 50
  expect (← fmtX (.bin .w32) dbg n) "0x32"
  let a0 ← parse (.bin .w32) dbg "0x12345678"
  let n := a0
  let n ← addWord (.bin .w32) dbg n 4294967295
  expect (← fmtX (.bin .w32) dbg n) "0x112345677"
  let a1 ← parse (.bin .w32) dbg "0xffffffffffffffff"
  let n := a1
  let n ← addWord (.bin .w32) dbg n 1
  expect (← fmtX (.bin .w32) dbg n) "0x10000000000000000"

/-- `tests/add.rs:35-53`. -/
def test_add_assign_digit_decimal (dbg : Bool) : R Unit := do
  let n := ubigZero
  let n ← addWord (.dec .w32) dbg n 101
  expect (← fmtD (.dec .w32) dbg n) "101"
  let n := ubigZero
  let n ← addWord (.dec .w32) dbg n 2000000000
  expect (← fmtD (.dec .w32) dbg n) "2000000000"
  let a0 ← parse (.dec .w32) dbg "123456789"
  let n := a0
  let n ← addWord (.dec .w32) dbg n 4294967295
  expect (← fmtD (.dec .w32) dbg n) "4418424084"
  let a1 ← parse (.dec .w32) dbg "999999999999999999"
  let n := a1
  let n ← addWord (.dec .w32) dbg n 1
  expect (← fmtD (.dec .w32) dbg n) "1000000000000000000"

/-- `tests/add.rs:55-66`. -/
def test_add_digit_binary (dbg : Bool) : R Unit := do
  let a0 ← addWord (.bin .w32) dbg ubigZero 50
  let n := a0
  expect (← fmtX (.bin .w32) dbg n) "0x32"
  let a1 ← parse (.bin .w32) dbg "0x12345678"
  let a2 ← addWord (.bin .w32) dbg a1 4294967295
  let n := a2
  expect (← fmtX (.bin .w32) dbg n) "0x112345677"
  let a3 ← parse (.bin .w32) dbg "0xffffffffffffffff"
  let a4 ← addWord (.bin .w32) dbg a3 1
  let n := a4
  expect (← fmtX (.bin .w32) dbg n) "0x10000000000000000"

/-- `tests/add.rs:68-82`. -/
def test_add_digit_decimal (dbg : Bool) : R Unit := do
  let a0 ← addWord (.dec .w32) dbg ubigZero 101
  let n := a0
  expect (← fmtD (.dec .w32) dbg n) "101"
  let a1 ← addWord (.dec .w32) dbg ubigZero 2000000000
  let n := a1
  expect (← fmtD (.dec .w32) dbg n) "2000000000"
  let a2 ← parse (.dec .w32) dbg "123456789"
  let a3 ← addWord (.dec .w32) dbg a2 4294967295
  let n := a3
  expect (← fmtD (.dec .w32) dbg n) "4418424084"
  let a4 ← parse (.dec .w32) dbg "999999999999999999"
  let a5 ← addWord (.dec .w32) dbg a4 1
  let n := a5
  expect (← fmtD (.dec .w32) dbg n) "1000000000000000000"

/-- `tests/add.rs:84-106`. -/
def test_add_assign_big_binary (dbg : Bool) : R Unit := do
  let n := ubigZero
  let n ← add (.bin .w32) dbg n ubigZero
  expect (← fmtX (.bin .w32) dbg n) "0x0"
  let a0 ← parse (.bin .w32) dbg "0x12345678"
  let n := a0
  let a1 ← parse (.bin .w32) dbg "0x87654321"
  let n ← add (.bin .w32) dbg n a1
  expect (← fmtX (.bin .w32) dbg n) "0x99999999"
  let a2 ← parse (.bin .w32) dbg "0x1234567890abcdef"
  let n := a2
  let a3 ← parse (.bin .w32) dbg "0x87654321"
  let n ← add (.bin .w32) dbg n a3
  expect (← fmtX (.bin .w32) dbg n) "0x1234567918111110"
  let a4 ← parse (.bin .w32) dbg "0x87654321"
  let n := a4
  let a5 ← parse (.bin .w32) dbg "0x1234567890abcdef"
  let n ← add (.bin .w32) dbg n a5
  expect (← fmtX (.bin .w32) dbg n) "0x1234567918111110"
  let a6 ← parse (.bin .w32) dbg "0xffffffffffffffff"
  let n := a6
  let a7 ← parse (.bin .w32) dbg "0xa"
  let n ← add (.bin .w32) dbg n a7
  expect (← fmtX (.bin .w32) dbg n) "0x10000000000000009"

/-- `tests/add.rs:108-130`. -/
def test_add_assign_big_decimal (dbg : Bool) : R Unit := do
  let n := ubigZero
  let n ← add (.dec .w32) dbg n ubigZero
  expect (← fmtD (.dec .w32) dbg n) "0"
  let a0 ← parse (.dec .w32) dbg "12345678"
  let n := a0
  let a1 ← parse (.dec .w32) dbg "87654321"
  let n ← add (.dec .w32) dbg n a1
  expect (← fmtD (.dec .w32) dbg n) "99999999"
  let a2 ← parse (.dec .w32) dbg "1234567890123456"
  let n := a2
  let a3 ← parse (.dec .w32) dbg "87654321"
  let n ← add (.dec .w32) dbg n a3
  expect (← fmtD (.dec .w32) dbg n) "1234567977777777"
  let a4 ← parse (.dec .w32) dbg "87654321"
  let n := a4
  let a5 ← parse (.dec .w32) dbg "1234567890123456"
  let n ← add (.dec .w32) dbg n a5
  expect (← fmtD (.dec .w32) dbg n) "1234567977777777"
  let a6 ← parse (.dec .w32) dbg "999999999999999999"
  let n := a6
  let a7 ← parse (.dec .w32) dbg "10"
  let n ← add (.dec .w32) dbg n a7
  expect (← fmtD (.dec .w32) dbg n) "1000000000000000009"

/-- `tests/add.rs:132-149`. -/
def test_add_big_binary (dbg : Bool) : R Unit := do
  let a0 ← add (.bin .w32) dbg ubigZero ubigZero
  let n := a0
  expect (← fmtX (.bin .w32) dbg n) "0x0"
  let a1 ← parse (.bin .w32) dbg "0x12345678"
  let a2 ← parse (.bin .w32) dbg "0x87654321"
  let a3 ← add (.bin .w32) dbg a1 a2
  let n := a3
  expect (← fmtX (.bin .w32) dbg n) "0x99999999"
  let a4 ← parse (.bin .w32) dbg "0x1234567890abcdef"
  let a5 ← parse (.bin .w32) dbg "0x87654321"
  let a6 ← add (.bin .w32) dbg a4 a5
  let n := a6
  expect (← fmtX (.bin .w32) dbg n) "0x1234567918111110"
  let a7 ← parse (.bin .w32) dbg "0x87654321"
  let a8 ← parse (.bin .w32) dbg "0x1234567890abcdef"
  let a9 ← add (.bin .w32) dbg a7 a8
  let n := a9
  expect (← fmtX (.bin .w32) dbg n) "0x1234567918111110"
  let a10 ← parse (.bin .w32) dbg "0xffffffffffffffff"
  let a11 ← parse (.bin .w32) dbg "0xa"
  let a12 ← add (.bin .w32) dbg a10 a11
  let n := a12
  expect (← fmtX (.bin .w32) dbg n) "0x10000000000000009"

/-- `tests/add.rs:151-168`. -/
def test_add_big_decimal (dbg : Bool) : R Unit := do
  let a0 ← add (.dec .w32) dbg ubigZero ubigZero
  let n := a0
  expect (← fmtD (.dec .w32) dbg n) "0"
  let a1 ← parse (.dec .w32) dbg "12345678"
  let a2 ← parse (.dec .w32) dbg "87654321"
  let a3 ← add (.dec .w32) dbg a1 a2
  let n := a3
  expect (← fmtD (.dec .w32) dbg n) "99999999"
  let a4 ← parse (.dec .w32) dbg "1234567890123456"
  let a5 ← parse (.dec .w32) dbg "87654321"
  let a6 ← add (.dec .w32) dbg a4 a5
  let n := a6
  expect (← fmtD (.dec .w32) dbg n) "1234567977777777"
  let a7 ← parse (.dec .w32) dbg "87654321"
  let a8 ← parse (.dec .w32) dbg "1234567890123456"
  let a9 ← add (.dec .w32) dbg a7 a8
  let n := a9
  expect (← fmtD (.dec .w32) dbg n) "1234567977777777"
  let a10 ← parse (.dec .w32) dbg "999999999999999999"
  let a11 ← parse (.dec .w32) dbg "10"
  let a12 ← add (.dec .w32) dbg a10 a11
  let n := a12
  expect (← fmtD (.dec .w32) dbg n) "1000000000000000009"

/-! ## `tests/cmp.rs` -/

/-- `tests/cmp.rs:18-44`. -/
def cmp_test_eq (dbg : Bool) : R Unit := do
  let a0 ← parse (.bin .w8) dbg "0x0"
  let a1 ← parse (.bin .w8) dbg "0x00"
  holds (rel "==" a0 a1)
  let a2 ← parse (.bin .w8) dbg "0x1"
  let a3 ← parse (.bin .w8) dbg "0x01"
  holds (rel "==" a2 a3)
  let a4 ← parse (.bin .w8) dbg "0x0"
  let a5 ← parse (.bin .w8) dbg "0x01"
  holds (rel "!=" a4 a5)
  let a6 ← parse (.bin .w8) dbg "0x123456789abcdef"
  let a7 ← parse (.bin .w8) dbg "0x00000123456789abcdef"
  holds (rel "==" a6 a7)
  let a8 ← parse (.bin .w8) dbg "0x123456789abcdef"
  let a9 ← parse (.bin .w8) dbg "0x123456789abcdef0"
  holds (rel "!=" a8 a9)
  let a10 ← parse (.bin .w32) dbg "0x0"
  let a11 ← parse (.bin .w32) dbg "0x00"
  holds (rel "==" a10 a11)
  let a12 ← parse (.bin .w32) dbg "0x1"
  let a13 ← parse (.bin .w32) dbg "0x01"
  holds (rel "==" a12 a13)
  let a14 ← parse (.bin .w32) dbg "0x0"
  let a15 ← parse (.bin .w32) dbg "0x01"
  holds (rel "!=" a14 a15)
  let a16 ← parse (.bin .w32) dbg "0x123456789abcdef"
  let a17 ← parse (.bin .w32) dbg "0x00000123456789abcdef"
  holds (rel "==" a16 a17)
  let a18 ← parse (.bin .w32) dbg "0x123456789abcdef"
  let a19 ← parse (.bin .w32) dbg "0x123456789abcdef0"
  holds (rel "!=" a18 a19)
  let a20 ← parse (.dec .w8) dbg "0"
  let a21 ← parse (.dec .w8) dbg "00"
  holds (rel "==" a20 a21)
  let a22 ← parse (.dec .w8) dbg "1"
  let a23 ← parse (.dec .w8) dbg "01"
  holds (rel "==" a22 a23)
  let a24 ← parse (.dec .w8) dbg "0"
  let a25 ← parse (.dec .w8) dbg "01"
  holds (rel "!=" a24 a25)
  let a26 ← parse (.dec .w8) dbg "1234567890987654321"
  let a27 ← parse (.dec .w8) dbg "000001234567890987654321"
  holds (rel "==" a26 a27)
  let a28 ← parse (.dec .w8) dbg "1234567890987654321"
  let a29 ← parse (.dec .w8) dbg "12345678909876543210"
  holds (rel "!=" a28 a29)
  let a30 ← parse (.dec .w32) dbg "0"
  let a31 ← parse (.dec .w32) dbg "00"
  holds (rel "==" a30 a31)
  let a32 ← parse (.dec .w32) dbg "1"
  let a33 ← parse (.dec .w32) dbg "01"
  holds (rel "==" a32 a33)
  let a34 ← parse (.dec .w32) dbg "0"
  let a35 ← parse (.dec .w32) dbg "01"
  holds (rel "!=" a34 a35)
  let a36 ← parse (.dec .w32) dbg "1234567890987654321"
  let a37 ← parse (.dec .w32) dbg "000001234567890987654321"
  holds (rel "==" a36 a37)
  let a38 ← parse (.dec .w32) dbg "1234567890987654321"
  let a39 ← parse (.dec .w32) dbg "12345678909876543210"
  holds (rel "!=" a38 a39)

/-- `tests/cmp.rs:46-84`. -/
def test_cmp (dbg : Bool) : R Unit := do
  let a0 ← parse (.bin .w8) dbg "0x0"
  let a1 ← parse (.bin .w8) dbg "0x1"
  holds (rel "<" a0 a1)
  let a2 ← parse (.bin .w8) dbg "0x0"
  let a3 ← parse (.bin .w8) dbg "0x1"
  holds (rel "<=" a2 a3)
  let a4 ← parse (.bin .w8) dbg "0x1"
  let a5 ← parse (.bin .w8) dbg "0x0"
  holds (rel ">" a4 a5)
  let a6 ← parse (.bin .w8) dbg "0x1"
  let a7 ← parse (.bin .w8) dbg "0x2"
  holds (rel "<" a6 a7)
  let a8 ← parse (.bin .w8) dbg "0x1"
  let a9 ← parse (.bin .w8) dbg "0x2"
  holds (rel "<=" a8 a9)
  let a10 ← parse (.bin .w8) dbg "0x2"
  let a11 ← parse (.bin .w8) dbg "0x1"
  holds (rel ">" a10 a11)
  let a12 ← parse (.bin .w8) dbg "0x00ff"
  let a13 ← parse (.bin .w8) dbg "0x0100"
  holds (rel "<" a12 a13)
  let a14 ← parse (.bin .w8) dbg "0x1001"
  let a15 ← parse (.bin .w8) dbg "0x0100"
  holds (rel ">" a14 a15)
  let a16 ← parse (.bin .w32) dbg "0x0"
  let a17 ← parse (.bin .w32) dbg "0x1"
  holds (rel "<" a16 a17)
  let a18 ← parse (.bin .w32) dbg "0x0"
  let a19 ← parse (.bin .w32) dbg "0x1"
  holds (rel "<=" a18 a19)
  let a20 ← parse (.bin .w32) dbg "0x1"
  let a21 ← parse (.bin .w32) dbg "0x0"
  holds (rel ">" a20 a21)
  let a22 ← parse (.bin .w32) dbg "0x1"
  let a23 ← parse (.bin .w32) dbg "0x2"
  holds (rel "<" a22 a23)
  let a24 ← parse (.bin .w32) dbg "0x1"
  let a25 ← parse (.bin .w32) dbg "0x2"
  holds (rel "<=" a24 a25)
  let a26 ← parse (.bin .w32) dbg "0x2"
  let a27 ← parse (.bin .w32) dbg "0x1"
  holds (rel ">" a26 a27)
  let a28 ← parse (.bin .w32) dbg "0x00000000ffffffff"
  let a29 ← parse (.bin .w32) dbg "0x0000000100000000"
  holds (rel "<" a28 a29)
  let a30 ← parse (.bin .w32) dbg "0x0000000100000001"
  let a31 ← parse (.bin .w32) dbg "0x0000000100000000"
  holds (rel ">" a30 a31)
  let a32 ← parse (.dec .w8) dbg "0"
  let a33 ← parse (.dec .w8) dbg "1"
  holds (rel "<" a32 a33)
  let a34 ← parse (.dec .w8) dbg "0"
  let a35 ← parse (.dec .w8) dbg "1"
  holds (rel "<=" a34 a35)
  let a36 ← parse (.dec .w8) dbg "1"
  let a37 ← parse (.dec .w8) dbg "0"
  holds (rel ">" a36 a37)
  let a38 ← parse (.dec .w8) dbg "1"
  let a39 ← parse (.dec .w8) dbg "2"
  holds (rel "<" a38 a39)
  let a40 ← parse (.dec .w8) dbg "1"
  let a41 ← parse (.dec .w8) dbg "2"
  holds (rel "<=" a40 a41)
  let a42 ← parse (.dec .w8) dbg "2"
  let a43 ← parse (.dec .w8) dbg "1"
  holds (rel ">" a42 a43)
  let a44 ← parse (.dec .w8) dbg "0099"
  let a45 ← parse (.dec .w8) dbg "0100"
  holds (rel "<" a44 a45)
  let a46 ← parse (.dec .w8) dbg "1001"
  let a47 ← parse (.dec .w8) dbg "0100"
  holds (rel ">" a46 a47)
  let a48 ← parse (.dec .w32) dbg "0"
  let a49 ← parse (.dec .w32) dbg "0x1"
  holds (rel "<" a48 a49)
  let a50 ← parse (.dec .w32) dbg "0"
  let a51 ← parse (.dec .w32) dbg "0x1"
  holds (rel "<=" a50 a51)
  let a52 ← parse (.dec .w32) dbg "1"
  let a53 ← parse (.dec .w32) dbg "0x0"
  holds (rel ">" a52 a53)
  let a54 ← parse (.dec .w32) dbg "1"
  let a55 ← parse (.dec .w32) dbg "0x2"
  holds (rel "<" a54 a55)
  let a56 ← parse (.dec .w32) dbg "1"
  let a57 ← parse (.dec .w32) dbg "0x2"
  holds (rel "<=" a56 a57)
  let a58 ← parse (.dec .w32) dbg "2"
  let a59 ← parse (.dec .w32) dbg "0x1"
  holds (rel ">" a58 a59)
  let a60 ← parse (.dec .w32) dbg "000000000999999999"
  let a61 ← parse (.dec .w32) dbg "000000001000000000"
  holds (rel "<" a60 a61)
  let a62 ← parse (.dec .w32) dbg "000000001000000001"
  let a63 ← parse (.dec .w32) dbg "000000001000000000"
  holds (rel ">" a62 a63)

/-! ## `tests/div.rs` -/

/-- `tests/div.rs:19-37`. -/
def test_div_assign_digit_binary (dbg : Bool) : R Unit := do
  let a0 ← parse (.bin .w8) dbg "0xe7691881761813f81a7"
  let n := a0
  let n ← divWord (.bin .w8) dbg n 135
  expect (← fmtX (.bin .w8) dbg n) "0x1b6d2aba029e5998aa"
  let a1 ← parse (.bin .w8) dbg "0xe7691881761813f81a7"
  let n := a1
  let n ← divWord (.bin .w8) dbg n 1
  expect (← fmtX (.bin .w8) dbg n) "0xe7691881761813f81a7"
  let a2 ← parse (.bin .w32) dbg "0x829ef171ac352f24a9dbb827c"
  let n := a2
  let n ← divWord (.bin .w32) dbg n 2274033217
  expect (← fmtX (.bin .w32) dbg n) "0xf6b424a056a70a431"
  let a3 ← parse (.bin .w32) dbg "0x829ef171"
  let n := a3
  let n ← divWord (.bin .w32) dbg n 2274033217
  expect (← fmtX (.bin .w32) dbg n) "0x0"

/-- `tests/div.rs:39-65`. -/
def test_div_assign_digit_decimal (dbg : Bool) : R Unit := do
  let a0 ← parse (.dec .w8) dbg "9002219982873646582917"
  let n := a0
  let n ← divWord (.dec .w8) dbg n 87
  expect (← fmtD (.dec .w8) dbg n) "103473792906593638884"
  let a1 ← parse (.dec .w8) dbg "9002219982873646582917"
  let n := a1
  let n ← divWord (.dec .w8) dbg n 1
  expect (← fmtD (.dec .w8) dbg n) "9002219982873646582917"
  let a2 ← parse (.dec .w8) dbg "9002219982873646582917"
  let n := a2
  let n ← divWord (.dec .w8) dbg n 123
  expect (← fmtD (.dec .w8) dbg n) "73188780348566232381"
  let a3 ← parse (.dec .w32) dbg "93081309173747392873837475872"
  let n := a3
  let n ← divWord (.dec .w32) dbg n 91829892
  expect (← fmtD (.dec .w32) dbg n) "1013627557938839706724"
  let a4 ← parse (.dec .w32) dbg "93081309173747392873837475872"
  let n := a4
  let n ← divWord (.dec .w32) dbg n 2891829892
  expect (← fmtD (.dec .w32) dbg n) "32187684839709580287"
  let a5 ← parse (.dec .w32) dbg "982198881"
  let n := a5
  let n ← divWord (.dec .w32) dbg n 982198882
  expect (← fmtD (.dec .w32) dbg n) "0"

/-- `tests/div.rs:67-73`. -/
def test_div_assign_by_digit_zero_binary (dbg : Bool) : R Unit := do
  let a0 ← parse (.bin .w8) dbg "0xe7691881761813f81a7"
  let n := a0
  let n ← divWord (.bin .w8) dbg n 0
  return ()

/-- `tests/div.rs:75-81`. -/
def test_div_assign_by_digit_zero_decimal (dbg : Bool) : R Unit := do
  let a0 ← parse (.dec .w8) dbg "39103919881210219921"
  let n := a0
  let n ← divWord (.dec .w8) dbg n 0
  return ()

/-- `tests/div.rs:83-115`. -/
def test_div_assign_big_binary (dbg : Bool) : R Unit := do
  let a0 ← parse (.bin .w8) dbg "0xe7691881761813f81a798af534"
  let n := a0
  let a1 ← parse (.bin .w8) dbg "0x827df251fd1919f"
  let m := a1
  let n ← divAssignOp (.bin .w8) dbg n m
  expect (← fmtX (.bin .w8) dbg n) "0x1c5fb8fa79d9"
  let a2 ← parse (.bin .w16) dbg "0xe7691881761813f81a7"
  let n := a2
  let m := ubigOne
  let n ← divAssignOp (.bin .w16) dbg n m
  expect (← fmtX (.bin .w16) dbg n) "0xe7691881761813f81a7"
  let a3 ← parse (.bin .w32) dbg "0x829e82f453f2613f2092ff171ac352f24a9dbb827c"
  let n := a3
  let a4 ← parse (.bin .w32) dbg "0x4df8982fd526aaac45"
  let m := a4
  let n ← divAssignOp (.bin .w32) dbg n m
  expect (← fmtX (.bin .w32) dbg n) "0x1acdba0651bcf9c842d70578f"
  let a5 ← parse (.bin .w32) dbg "0x829e82f453f2613f2092ff171ac352f24a9dbb827c"
  let n := a5
  let a6 ← parse (.bin .w32) dbg "0x829e82f453f2613f2092ff171ac352f24a9dbb827d"
  let m := a6
  let n ← divAssignOp (.bin .w32) dbg n m
  expect (← fmtX (.bin .w32) dbg n) "0x0"
  let a7 ← parse (.bin .w64) dbg "0xe7691881761813f81a798af53482fd526aaac45829e82f453f2613f2092ff171ac352f24a9dbb827c"
  let n := a7
  let a8 ← parse (.bin .w64) dbg "0x829e82f453f2613f2092ff171ac352f24a9dbb827d"
  let m := a8
  let n ← divAssignOp (.bin .w64) dbg n m
  expect (← fmtX (.bin .w64) dbg n) "0x1c58a60ae96e6206a9c9394ea075e5988ff78dd9"
  let a9 ← parse (.bin .w64) dbg "0xe7691881761813f81a798af53482fd526aaac45829e82f453f2613f2092ff171ac352f24a9dbb827c"
  let n := a9
  let a10 ← parse (.bin .w64) dbg "0xffffffffffffffffffffffffffffff"
  let m := a10
  let n ← divAssignOp (.bin .w64) dbg n m
  expect (← fmtX (.bin .w64) dbg n) "0xe7691881761813f81a798af53482fe39d3c345ce41fc275fb8b"

/-- `tests/div.rs:117-159`. -/
def test_div_assign_big_decimal (dbg : Bool) : R Unit := do
  let a0 ← parse (.dec .w8) dbg "9002219982873646582917"
  let n := a0
  let a1 ← parse (.dec .w8) dbg "937486293"
  let m := a1
  let n ← divAssignOp (.dec .w8) dbg n m
  expect (← fmtD (.dec .w8) dbg n) "9602508378086"
  let a2 ← parse (.dec .w8) dbg "9002219982873646582917"
  let n := a2
  let m := ubigOne
  let n ← divAssignOp (.dec .w8) dbg n m
  expect (← fmtD (.dec .w8) dbg n) "9002219982873646582917"
  let a3 ← parse (.dec .w32) dbg "930813094274987073019737146173747392873837475872"
  let n := a3
  let a4 ← parse (.dec .w32) dbg "9374894284708131986293"
  let m := a4
  let n ← divAssignOp (.dec .w32) dbg n m
  expect (← fmtD (.dec .w32) dbg n) "99287849655359182589853179"
  let a5 ← parse (.dec .w32) dbg "930813094274987073019737146173747392873837475872"
  let n := a5
  let a6 ← parse (.dec .w32) dbg "930813094274987073019737146173747392873837475873"
  let m := a6
  let n ← divAssignOp (.dec .w32) dbg n m
  expect (← fmtD (.dec .w32) dbg n) "0"
  let a7 ← parse (.dec .w32) dbg "930813094274987073019737146173747392873837475872"
  let n := a7
  let a8 ← parse (.dec .w32) dbg "930813094274987073019737146173747392873837475872"
  let m := a8
  let n ← divAssignOp (.dec .w32) dbg n m
  expect (← fmtD (.dec .w32) dbg n) "1"
  let a9 ← parse (.dec .w64) dbg "9824927049720029841301497204970192193810497583965928748296429198881"
  let n := a9
  let a10 ← parse (.dec .w64) dbg "930813094274987073146173747392873837475872"
  let m := a10
  let n ← divAssignOp (.dec .w64) dbg n m
  expect (← fmtD (.dec .w64) dbg n) "10555209321988205425269567"
  let a11 ← parse (.dec .w64) dbg "9824927049720029841301497204970192193810497583965928748296429198882"
  let n := a11
  let a12 ← parse (.dec .w64) dbg "9824927049720029841301497204970192193810497583965928748296429198883"
  let m := a12
  let n ← divAssignOp (.dec .w64) dbg n m
  expect (← fmtD (.dec .w64) dbg n) "0"
  let a13 ← parse (.dec .w64) dbg "9824927049720029841301497204970192193810497583965928748296429198882"
  let n := a13
  let a14 ← parse (.dec .w64) dbg "9824927049720029841301497204970192193810497583965928748296429198882"
  let m := a14
  let n ← divAssignOp (.dec .w64) dbg n m
  expect (← fmtD (.dec .w64) dbg n) "1"

/-- `tests/div.rs:163-177`. -/
def test_div_digit_binary (dbg : Bool) : R Unit := do
  let a0 ← parse (.bin .w8) dbg "0xe7691881761813f81a7"
  let a1 ← divWord (.bin .w8) dbg a0 135
  let n := a1
  expect (← fmtX (.bin .w8) dbg n) "0x1b6d2aba029e5998aa"
  let a2 ← parse (.bin .w8) dbg "0xe7691881761813f81a7"
  let a3 ← divWord (.bin .w8) dbg a2 1
  let n := a3
  expect (← fmtX (.bin .w8) dbg n) "0xe7691881761813f81a7"
  let a4 ← parse (.bin .w32) dbg "0x829ef171ac352f24a9dbb827c"
  let a5 ← divWord (.bin .w32) dbg a4 2274033217
  let n := a5
  expect (← fmtX (.bin .w32) dbg n) "0xf6b424a056a70a431"
  let a6 ← parse (.bin .w32) dbg "0x829ef171"
  let a7 ← divWord (.bin .w32) dbg a6 2274033217
  let n := a7
  expect (← fmtX (.bin .w32) dbg n) "0x0"

/-- `tests/div.rs:179-199`. -/
def test_div_digit_decimal (dbg : Bool) : R Unit := do
  let a0 ← parse (.dec .w8) dbg "9002219982873646582917"
  let a1 ← divWord (.dec .w8) dbg a0 87
  let n := a1
  expect (← fmtD (.dec .w8) dbg n) "103473792906593638884"
  let a2 ← parse (.dec .w8) dbg "9002219982873646582917"
  let a3 ← divWord (.dec .w8) dbg a2 1
  let n := a3
  expect (← fmtD (.dec .w8) dbg n) "9002219982873646582917"
  let a4 ← parse (.dec .w8) dbg "9002219982873646582917"
  let a5 ← divWord (.dec .w8) dbg a4 123
  let n := a5
  expect (← fmtD (.dec .w8) dbg n) "73188780348566232381"
  let a6 ← parse (.dec .w32) dbg "93081309173747392873837475872"
  let a7 ← divWord (.dec .w32) dbg a6 91829892
  let n := a7
  expect (← fmtD (.dec .w32) dbg n) "1013627557938839706724"
  let a8 ← parse (.dec .w32) dbg "93081309173747392873837475872"
  let a9 ← divWord (.dec .w32) dbg a8 2891829892
  let n := a9
  expect (← fmtD (.dec .w32) dbg n) "32187684839709580287"
  let a10 ← parse (.dec .w32) dbg "982198881"
  let a11 ← divWord (.dec .w32) dbg a10 982198882
  let n := a11
  expect (← fmtD (.dec .w32) dbg n) "0"

/-- `tests/div.rs:201-206`. -/
def test_div_by_digit_zero_binary (dbg : Bool) : R Unit := do
  let a0 ← parse (.bin .w8) dbg "0xe7691881761813f81a7"
  let a1 ← divWord (.bin .w8) dbg a0 0
  let _n := a1
  return ()

/-- `tests/div.rs:208-213`. -/
def test_div_by_digit_zero_decimal (dbg : Bool) : R Unit := do
  let a0 ← parse (.dec .w8) dbg "39103919881210219921"
  let a1 ← divWord (.dec .w8) dbg a0 0
  let _n := a1
  return ()

/-- `tests/div.rs:215-247`. -/
def test_div_big_binary (dbg : Bool) : R Unit := do
  let a0 ← parse (.bin .w8) dbg "0xe7691881761813f81a798af534"
  let n := a0
  let a1 ← parse (.bin .w8) dbg "0x827df251fd1919f"
  let m := a1
  let a2 ← div (.bin .w8) dbg n m
  let q := a2
  expect (← fmtX (.bin .w8) dbg q) "0x1c5fb8fa79d9"
  let a3 ← parse (.bin .w16) dbg "0xe7691881761813f81a7"
  let n := a3
  let m := ubigOne
  let a4 ← div (.bin .w16) dbg n m
  let q := a4
  expect (← fmtX (.bin .w16) dbg q) "0xe7691881761813f81a7"
  let a5 ← parse (.bin .w32) dbg "0x829e82f453f2613f2092ff171ac352f24a9dbb827c"
  let n := a5
  let a6 ← parse (.bin .w32) dbg "0x4df8982fd526aaac45"
  let m := a6
  let a7 ← div (.bin .w32) dbg n m
  let q := a7
  expect (← fmtX (.bin .w32) dbg q) "0x1acdba0651bcf9c842d70578f"
  let a8 ← parse (.bin .w32) dbg "0x829e82f453f2613f2092ff171ac352f24a9dbb827c"
  let n := a8
  let a9 ← parse (.bin .w32) dbg "0x829e82f453f2613f2092ff171ac352f24a9dbb827d"
  let m := a9
  let a10 ← div (.bin .w32) dbg n m
  let q := a10
  expect (← fmtX (.bin .w32) dbg q) "0x0"
  let a11 ← parse (.bin .w64) dbg "0xe7691881761813f81a798af53482fd526aaac45829e82f453f2613f2092ff171ac352f24a9dbb827c"
  let n := a11
  let a12 ← parse (.bin .w64) dbg "0x829e82f453f2613f2092ff171ac352f24a9dbb827d"
  let m := a12
  let a13 ← div (.bin .w64) dbg n m
  let q := a13
  expect (← fmtX (.bin .w64) dbg q) "0x1c58a60ae96e6206a9c9394ea075e5988ff78dd9"
  let a14 ← parse (.bin .w64) dbg "0xe7691881761813f81a798af53482fd526aaac45829e82f453f2613f2092ff171ac352f24a9dbb827c"
  let n := a14
  let a15 ← parse (.bin .w64) dbg "0xffffffffffffffffffffffffffffff"
  let m := a15
  let a16 ← div (.bin .w64) dbg n m
  let q := a16
  expect (← fmtX (.bin .w64) dbg q) "0xe7691881761813f81a798af53482fe39d3c345ce41fc275fb8b"

/-- `tests/div.rs:249-296`. -/
def test_div_big_decimal (dbg : Bool) : R Unit := do
  let a0 ← parse (.dec .w8) dbg "900000"
  let n := a0
  let a1 ← parse (.dec .w8) dbg "11000"
  let m := a1
  let a2 ← div (.dec .w8) dbg n m
  let q := a2
  expect (← fmtD (.dec .w8) dbg q) "81"
  let a3 ← parse (.dec .w8) dbg "9002219982873646582917"
  let n := a3
  let a4 ← parse (.dec .w8) dbg "937486293"
  let m := a4
  let a5 ← div (.dec .w8) dbg n m
  let q := a5
  expect (← fmtD (.dec .w8) dbg q) "9602508378086"
  let a6 ← parse (.dec .w8) dbg "9002219982873646582917"
  let n := a6
  let m := ubigOne
  let a7 ← div (.dec .w8) dbg n m
  let q := a7
  expect (← fmtD (.dec .w8) dbg q) "9002219982873646582917"
  let a8 ← parse (.dec .w32) dbg "930813094274987073019737146173747392873837475872"
  let n := a8
  let a9 ← parse (.dec .w32) dbg "9374894284708131986293"
  let m := a9
  let a10 ← div (.dec .w32) dbg n m
  let q := a10
  expect (← fmtD (.dec .w32) dbg q) "99287849655359182589853179"
  let a11 ← parse (.dec .w32) dbg "930813094274987073019737146173747392873837475872"
  let n := a11
  let a12 ← parse (.dec .w32) dbg "930813094274987073019737146173747392873837475873"
  let m := a12
  let a13 ← div (.dec .w32) dbg n m
  let q := a13
  expect (← fmtD (.dec .w32) dbg q) "0"
  let a14 ← parse (.dec .w32) dbg "930813094274987073019737146173747392873837475872"
  let n := a14
  let a15 ← parse (.dec .w32) dbg "930813094274987073019737146173747392873837475872"
  let m := a15
  let a16 ← div (.dec .w32) dbg n m
  let q := a16
  expect (← fmtD (.dec .w32) dbg q) "1"
  let a17 ← parse (.dec .w64) dbg "9824927049720029841301497204970192193810497583965928748296429198881"
  let n := a17
  let a18 ← parse (.dec .w64) dbg "930813094274987073146173747392873837475872"
  let m := a18
  let a19 ← div (.dec .w64) dbg n m
  let q := a19
  expect (← fmtD (.dec .w64) dbg q) "10555209321988205425269567"
  let a20 ← parse (.dec .w64) dbg "9824927049720029841301497204970192193810497583965928748296429198882"
  let n := a20
  let a21 ← parse (.dec .w64) dbg "9824927049720029841301497204970192193810497583965928748296429198883"
  let m := a21
  let a22 ← div (.dec .w64) dbg n m
  let q := a22
  expect (← fmtD (.dec .w64) dbg q) "0"
  let a23 ← parse (.dec .w64) dbg "9824927049720029841301497204970192193810497583965928748296429198882"
  let n := a23
  let a24 ← parse (.dec .w64) dbg "9824927049720029841301497204970192193810497583965928748296429198882"
  let m := a24
  let a25 ← div (.dec .w64) dbg n m
  let q := a25
  expect (← fmtD (.dec .w64) dbg q) "1"

/-- `tests/div.rs:298-305`. -/
def test_div_big_zero_binary (dbg : Bool) : R Unit := do
  let a0 ← parse (.bin .w64) dbg "23740928407201749107429489127"
  let n := a0
  let m := ubigZero
  let a1 ← div (.bin .w64) dbg n m
  let _q := a1
  return ()

/-- `tests/div.rs:307-314`. -/
def test_div_big_zero_decimal (dbg : Bool) : R Unit := do
  let a0 ← parse (.dec .w64) dbg "23740928407201749107429489127"
  let n := a0
  let m := ubigZero
  let a1 ← div (.dec .w64) dbg n m
  let _q := a1
  return ()

/-! ## `tests/mul.rs` -/

/-- `tests/mul.rs:19-33`. -/
def test_mul_assign_digit_binary (dbg : Bool) : R Unit := do
  let n := ubigZero
  let n ← mulWord (.bin .w32) dbg n 305419896
  expect (← fmtX (.bin .w32) dbg n) "0x0"
  let a0 ← parse (.bin .w32) dbg "0xaabbccddeeff00998877665544332211"
  let n := a0
  let n ← mulWord (.bin .w32) dbg n 305419896
  expect (← fmtX (.bin .w32) dbg n) "0xc241c3856bd10289c83f942dc760fa942ddadf8"
  let a1 ← parse (.bin .w32) dbg "0xffffffffffffffffffffffffffffffffffffffff"
  let n := a1
  let n ← mulWord (.bin .w32) dbg n 4294967295
  expect (← fmtX (.bin .w32) dbg n) "0xfffffffeffffffffffffffffffffffffffffffff00000001"

/-- `tests/mul.rs:35-61`. -/
def test_mul_assign_digit_decimal (dbg : Bool) : R Unit := do
  let n := ubigZero
  let n ← mulWord (.dec .w32) dbg n 12345678
  expect (← fmtD (.dec .w32) dbg n) "0"
  let n := ubigZero
  let n ← mulWord (.dec .w32) dbg n 4294967295
  expect (← fmtD (.dec .w32) dbg n) "0"
  let a0 ← parse (.dec .w32) dbg "11223344556677889900998877665544332211"
  let n := a0
  let n ← mulWord (.dec .w32) dbg n 12345678
  expect (← fmtD (.dec .w32) dbg n) "138559797979797978437184022020202020202034058"
  let a1 ← parse (.dec .w32) dbg "11223344556677889900998877665544332211"
  let n := a1
  let n ← mulWord (.dec .w32) dbg n 4294967295
  expect (← fmtD (.dec .w32) dbg n) "48203897811447810974400967405218855218860039245"
  let a2 ← parse (.dec .w32) dbg "9999999999999999999999999999999999999999999999"
  let n := a2
  let n ← mulWord (.dec .w32) dbg n 999999999
  expect (← fmtD (.dec .w32) dbg n) "9999999989999999999999999999999999999999999999000000001"
  let a3 ← parse (.dec .w32) dbg "9999999999999999999999999999999999999999999999"
  let n := a3
  let n ← mulWord (.dec .w32) dbg n 4294967295
  expect (← fmtD (.dec .w32) dbg n) "42949672949999999999999999999999999999999999995705032705"

/-- `tests/mul.rs:63-74`. -/
def test_mul_digit_binary (dbg : Bool) : R Unit := do
  let a0 ← mulWord (.bin .w32) dbg ubigZero 305419896
  let n := a0
  expect (← fmtX (.bin .w32) dbg n) "0x0"
  let a1 ← parse (.bin .w32) dbg "0xaabbccddeeff00998877665544332211"
  let a2 ← mulWord (.bin .w32) dbg a1 305419896
  let n := a2
  expect (← fmtX (.bin .w32) dbg n) "0xc241c3856bd10289c83f942dc760fa942ddadf8"
  let a3 ← parse (.bin .w32) dbg "0xffffffffffffffffffffffffffffffffffffffff"
  let a4 ← mulWord (.bin .w32) dbg a3 4294967295
  let n := a4
  expect (← fmtX (.bin .w32) dbg n) "0xfffffffeffffffffffffffffffffffffffffffff00000001"

/-- `tests/mul.rs:76-96`. -/
def test_mul_digit_decimal (dbg : Bool) : R Unit := do
  let a0 ← mulWord (.dec .w32) dbg ubigZero 12345678
  let n := a0
  expect (← fmtD (.dec .w32) dbg n) "0"
  let a1 ← mulWord (.dec .w32) dbg ubigZero 4294967295
  let n := a1
  expect (← fmtD (.dec .w32) dbg n) "0"
  let a2 ← parse (.dec .w32) dbg "11223344556677889900998877665544332211"
  let a3 ← mulWord (.dec .w32) dbg a2 12345678
  let n := a3
  expect (← fmtD (.dec .w32) dbg n) "138559797979797978437184022020202020202034058"
  let a4 ← parse (.dec .w32) dbg "11223344556677889900998877665544332211"
  let a5 ← mulWord (.dec .w32) dbg a4 4294967295
  let n := a5
  expect (← fmtD (.dec .w32) dbg n) "48203897811447810974400967405218855218860039245"
  let a6 ← parse (.dec .w32) dbg "9999999999999999999999999999999999999999999999"
  let a7 ← mulWord (.dec .w32) dbg a6 999999999
  let n := a7
  expect (← fmtD (.dec .w32) dbg n) "9999999989999999999999999999999999999999999999000000001"
  let a8 ← parse (.dec .w32) dbg "9999999999999999999999999999999999999999999999"
  let a9 ← mulWord (.dec .w32) dbg a8 4294967295
  let n := a9
  expect (← fmtD (.dec .w32) dbg n) "42949672949999999999999999999999999999999999995705032705"

/-- `tests/mul.rs:98-130`. -/
def test_mul_assign_big_binary (dbg : Bool) : R Unit := do
  let n0 := ubigZero
  let a0 ← parse (.bin .w8) dbg "0x1234567890abcdeffedcba0987654321"
  let n1 := a0
  let n0 ← mul (.bin .w8) dbg n0 n1
  expect (← fmtX (.bin .w8) dbg n0) "0x0"
  let a1 ← parse (.bin .w8) dbg "0x1234567890abcdeffedcba0987654321"
  let n0 := a1
  let n1 := ubigZero
  let n0 ← mul (.bin .w8) dbg n0 n1
  expect (← fmtX (.bin .w8) dbg n0) "0x0"
  let a2 ← parse (.bin .w8) dbg "0xfedcba0987654321"
  let n0 := a2
  let a3 ← parse (.bin .w8) dbg "0x1234567890abcdeffedcba0987654321"
  let n1 := a3
  let n0 ← mul (.bin .w8) dbg n0 n1
  expect (← fmtX (.bin .w8) dbg n0) "0x121fa000a3723a58c00503ab15959929cefea12cd7a44a41"
  let a4 ← parse (.bin .w8) dbg "0x1234567890abcdeffedcba0987654321"
  let n0 := a4
  let a5 ← parse (.bin .w8) dbg "0xfedcba0987654321"
  let n1 := a5
  let n0 ← mul (.bin .w8) dbg n0 n1
  expect (← fmtX (.bin .w8) dbg n0) "0x121fa000a3723a58c00503ab15959929cefea12cd7a44a41"
  let a6 ← parse (.bin .w8) dbg "0x1234567890abcdeffedcba0987654321"
  let n0 := a6
  let a7 ← parse (.bin .w8) dbg "0xfedcba0987654321ffffffffffffffff"
  let n1 := a7
  let n0 ← mul (.bin .w8) dbg n0 n1
  expect (← fmtX (.bin .w8) dbg n0) "0x121fa000a3723a58d2395a23a6416719bba704bdce5dbf72012345f6789abcdf"
  let a8 ← parse (.bin .w8) dbg "0xffffffffffffffff55555555555555551234567890abcdeffedcba0987654321"
  let n0 := a8
  let a9 ← parse (.bin .w8) dbg "0xffffffffffffffff0123456789abcdeffedcba0987654321ffffffffffffffff3333333333333333"
  let n1 := a9
  let n0 ← mul (.bin .w8) dbg n0 n1
  expect (← fmtX (.bin .w8) dbg n0) "0xfffffffffffffffe56789abcdf012345baf98ce7bc493272427386d5dc70a52112574b059c3de1497cf8bbd52d200871ae3a04f80d6f0ac4307826ad10596de8cd070dfe181ef293"

/-- `tests/mul.rs:132-164`. -/
def test_mul_assign_big_decimal (dbg : Bool) : R Unit := do
  let n0 := ubigZero
  let a0 ← parse (.dec .w8) dbg "123456789098765432101234567890987654321"
  let n1 := a0
  let n0 ← mul (.dec .w8) dbg n0 n1
  expect (← fmtD (.dec .w8) dbg n0) "0"
  let a1 ← parse (.dec .w8) dbg "123456789098765432101234567890987654321"
  let n0 := a1
  let n1 := ubigZero
  let n0 ← mul (.dec .w8) dbg n0 n1
  expect (← fmtD (.dec .w8) dbg n0) "0"
  let a2 ← parse (.dec .w8) dbg "9595959595950987654321"
  let n0 := a2
  let a3 ← parse (.dec .w8) dbg "123456789098765432101234567890987654321"
  let n1 := a3
  let n0 ← mul (.dec .w8) dbg n0 n1
  expect (← fmtD (.dec .w8) dbg n0) "1184686360037595433101200204970154951434993533413697789971041"
  let a4 ← parse (.dec .w8) dbg "123456789098765432101234567890987654321"
  let n0 := a4
  let a5 ← parse (.dec .w8) dbg "9595959595950987654321"
  let n1 := a5
  let n0 ← mul (.dec .w8) dbg n0 n1
  expect (← fmtD (.dec .w8) dbg n0) "1184686360037595433101200204970154951434993533413697789971041"
  let a6 ← parse (.dec .w8) dbg "123456789098765432101234567890987654321"
  let n0 := a6
  let a7 ← parse (.dec .w8) dbg "982997489281903873893021388939802022890"
  let n1 := a7
  let n0 ← mul (.dec .w8) dbg n0 n1
  expect (← fmtD (.dec .w8) dbg n0) "121357713718891939860849282139725158093481964939210303155948856078891849407690"
  let a8 ← parse (.dec .w8) dbg "121357713718891939860849282139725158093481964939210303155948856078891849407690"
  let n0 := a8
  let a9 ← parse (.dec .w8) dbg "93029402983198372396198718927039019381098178973717903190830971309179801978"
  let n1 := a9
  let n0 ← mul (.dec .w8) dbg n0 n1
  expect (← fmtD (.dec .w8) dbg n0) "11289835654674419874013163552036167512633752634305413123327030511599249897482191495952901109662410448300334897691877327195498875692661112537790790410820"

/-- `tests/mul.rs:166-198`. -/
def test_mul_big_binary (dbg : Bool) : R Unit := do
  let n0 := ubigZero
  let a0 ← parse (.bin .w8) dbg "0x1234567890abcdeffedcba0987654321"
  let n1 := a0
  let a1 ← mul (.bin .w8) dbg n0 n1
  let n := a1
  expect (← fmtX (.bin .w8) dbg n) "0x0"
  let a2 ← parse (.bin .w8) dbg "0x1234567890abcdeffedcba0987654321"
  let n0 := a2
  let n1 := ubigZero
  let a3 ← mul (.bin .w8) dbg n0 n1
  let n := a3
  expect (← fmtX (.bin .w8) dbg n) "0x0"
  let a4 ← parse (.bin .w8) dbg "0xfedcba0987654321"
  let n0 := a4
  let a5 ← parse (.bin .w8) dbg "0x1234567890abcdeffedcba0987654321"
  let n1 := a5
  let a6 ← mul (.bin .w8) dbg n0 n1
  let n := a6
  expect (← fmtX (.bin .w8) dbg n) "0x121fa000a3723a58c00503ab15959929cefea12cd7a44a41"
  let a7 ← parse (.bin .w8) dbg "0x1234567890abcdeffedcba0987654321"
  let n0 := a7
  let a8 ← parse (.bin .w8) dbg "0xfedcba0987654321"
  let n1 := a8
  let a9 ← mul (.bin .w8) dbg n0 n1
  let n := a9
  expect (← fmtX (.bin .w8) dbg n) "0x121fa000a3723a58c00503ab15959929cefea12cd7a44a41"
  let a10 ← parse (.bin .w8) dbg "0x1234567890abcdeffedcba0987654321"
  let n0 := a10
  let a11 ← parse (.bin .w8) dbg "0xfedcba0987654321ffffffffffffffff"
  let n1 := a11
  let a12 ← mul (.bin .w8) dbg n0 n1
  let n := a12
  expect (← fmtX (.bin .w8) dbg n) "0x121fa000a3723a58d2395a23a6416719bba704bdce5dbf72012345f6789abcdf"
  let a13 ← parse (.bin .w8) dbg "0xffffffffffffffff55555555555555551234567890abcdeffedcba0987654321"
  let n0 := a13
  let a14 ← parse (.bin .w8) dbg "0xffffffffffffffff0123456789abcdeffedcba0987654321ffffffffffffffff3333333333333333"
  let n1 := a14
  let a15 ← mul (.bin .w8) dbg n0 n1
  let n := a15
  expect (← fmtX (.bin .w8) dbg n) "0xfffffffffffffffe56789abcdf012345baf98ce7bc493272427386d5dc70a52112574b059c3de1497cf8bbd52d200871ae3a04f80d6f0ac4307826ad10596de8cd070dfe181ef293"

/-- `tests/mul.rs:200-232`. -/
def test_mul_big_decimal (dbg : Bool) : R Unit := do
  let n0 := ubigZero
  let a0 ← parse (.dec .w8) dbg "123456789098765432101234567890987654321"
  let n1 := a0
  let a1 ← mul (.dec .w8) dbg n0 n1
  let n := a1
  expect (← fmtD (.dec .w8) dbg n) "0"
  let a2 ← parse (.dec .w8) dbg "123456789098765432101234567890987654321"
  let n0 := a2
  let n1 := ubigZero
  let a3 ← mul (.dec .w8) dbg n0 n1
  let n := a3
  expect (← fmtD (.dec .w8) dbg n) "0"
  let a4 ← parse (.dec .w8) dbg "9595959595950987654321"
  let n0 := a4
  let a5 ← parse (.dec .w8) dbg "123456789098765432101234567890987654321"
  let n1 := a5
  let a6 ← mul (.dec .w8) dbg n0 n1
  let n := a6
  expect (← fmtD (.dec .w8) dbg n) "1184686360037595433101200204970154951434993533413697789971041"
  let a7 ← parse (.dec .w8) dbg "123456789098765432101234567890987654321"
  let n0 := a7
  let a8 ← parse (.dec .w8) dbg "9595959595950987654321"
  let n1 := a8
  let a9 ← mul (.dec .w8) dbg n0 n1
  let n := a9
  expect (← fmtD (.dec .w8) dbg n) "1184686360037595433101200204970154951434993533413697789971041"
  let a10 ← parse (.dec .w8) dbg "123456789098765432101234567890987654321"
  let n0 := a10
  let a11 ← parse (.dec .w8) dbg "982997489281903873893021388939802022890"
  let n1 := a11
  let a12 ← mul (.dec .w8) dbg n0 n1
  let n := a12
  expect (← fmtD (.dec .w8) dbg n) "121357713718891939860849282139725158093481964939210303155948856078891849407690"
  let a13 ← parse (.dec .w8) dbg "121357713718891939860849282139725158093481964939210303155948856078891849407690"
  let n0 := a13
  let a14 ← parse (.dec .w8) dbg "93029402983198372396198718927039019381098178973717903190830971309179801978"
  let n1 := a14
  let a15 ← mul (.dec .w8) dbg n0 n1
  let n := a15
  expect (← fmtD (.dec .w8) dbg n) "11289835654674419874013163552036167512633752634305413123327030511599249897482191495952901109662410448300334897691877327195498875692661112537790790410820"

/-! ## `tests/pow.rs` -/

/-- `tests/pow.rs:19-53`. -/
def test_pow_binary (dbg : Bool) : R Unit := do
  let n := ubigZero
  let a0 ← UBig.pow (.bin .w8) dbg n 0
  let m := a0
  expect (← fmtX (.bin .w8) dbg m) "0x1"
  let n := ubigZero
  let a1 ← UBig.pow (.bin .w8) dbg n 13
  let m := a1
  expect (← fmtX (.bin .w8) dbg m) "0x0"
  let a2 ← parse (.bin .w8) dbg "0xfedcba98"
  let n := a2
  let a3 ← UBig.pow (.bin .w8) dbg n 1
  let m := a3
  expect (← fmtX (.bin .w8) dbg m) "0xfedcba98"
  let a4 ← parse (.bin .w8) dbg "0xfedcba98"
  let n := a4
  let a5 ← UBig.pow (.bin .w8) dbg n 2
  let m := a5
  expect (← fmtX (.bin .w8) dbg m) "0xfdbac096dd413a40"
  let a6 ← parse (.bin .w8) dbg "0xfedcba98"
  let n := a6
  let a7 ← UBig.pow (.bin .w8) dbg n 13
  let m := a7
  expect (← fmtX (.bin .w8) dbg m) "0xf198d2747a110de9256ef6e6084ab7b9fd88abb07e0b7af71db30ef0f458076de8eb6ed7ffe5050e7715a6ddafedf18000000000"
  let a8 ← parse (.bin .w32) dbg "0xfedcba98"
  let n := a8
  let a9 ← UBig.pow (.bin .w32) dbg n 13
  let m := a9
  expect (← fmtX (.bin .w32) dbg m) "0xf198d2747a110de9256ef6e6084ab7b9fd88abb07e0b7af71db30ef0f458076de8eb6ed7ffe5050e7715a6ddafedf18000000000"
  let a10 ← parse (.bin .w32) dbg "0x1"
  let n := a10
  let a11 ← UBig.pow (.bin .w32) dbg n 356
  let m := a11
  expect (← fmtX (.bin .w32) dbg m) "0x1"
  let a12 ← parse (.bin .w32) dbg "0x2"
  let n := a12
  let a13 ← UBig.pow (.bin .w32) dbg n 356
  let m := a13
  expect (← fmtX (.bin .w32) dbg m) "0x100000000000000000000000000000000000000000000000000000000000000000000000000000000000000000"

/-- `tests/pow.rs:55-89`. -/
def test_pow_decimal (dbg : Bool) : R Unit := do
  let n := ubigZero
  let a0 ← UBig.pow (.dec .w8) dbg n 0
  let m := a0
  expect (← fmtD (.dec .w8) dbg m) "1"
  let n := ubigZero
  let a1 ← UBig.pow (.dec .w8) dbg n 13
  let m := a1
  expect (← fmtD (.dec .w8) dbg m) "0"
  let a2 ← parse (.dec .w8) dbg "982282810"
  let n := a2
  let a3 ← UBig.pow (.dec .w8) dbg n 1
  let m := a3
  expect (← fmtD (.dec .w8) dbg m) "982282810"
  let a4 ← parse (.dec .w8) dbg "982282810"
  let n := a4
  let a5 ← UBig.pow (.dec .w8) dbg n 2
  let m := a5
  expect (← fmtD (.dec .w8) dbg m) "964879518821496100"
  let a6 ← parse (.dec .w8) dbg "982282810"
  let n := a6
  let a7 ← UBig.pow (.dec .w8) dbg n 13
  let m := a7
  expect (← fmtD (.dec .w8) dbg m) "792638332352224578622119426724922794977683169682171995983750988396136915147220543547941320563348899948410000000000000"
  let a8 ← parse (.dec .w32) dbg "982282810"
  let n := a8
  let a9 ← UBig.pow (.dec .w32) dbg n 13
  let m := a9
  expect (← fmtD (.dec .w32) dbg m) "792638332352224578622119426724922794977683169682171995983750988396136915147220543547941320563348899948410000000000000"
  let a10 ← parse (.dec .w32) dbg "1"
  let n := a10
  let a11 ← UBig.pow (.dec .w32) dbg n 356
  let m := a11
  expect (← fmtD (.dec .w32) dbg m) "1"
  let a12 ← parse (.dec .w32) dbg "2"
  let n := a12
  let a13 ← UBig.pow (.dec .w32) dbg n 356
  let m := a13
  expect (← fmtD (.dec .w32) dbg m) "146783911423364576743092537299333564210980159306769991919205685720763064069663027716481187399048043939495936"

/-! ## `tests/rem.rs` -/

/-- `tests/rem.rs:19-45`. -/
def test_rem_assign_digit_binary (dbg : Bool) : R Unit := do
  let a0 ← parse (.bin .w8) dbg "0xe7691881761813f81a7"
  let n := a0
  let n ← remWordAssign (.bin .w8) dbg n 135
  expect (← fmtX (.bin .w8) dbg n) "0x1"
  let a1 ← parse (.bin .w8) dbg "0xe7691881761813f81a7"
  let n := a1
  let n ← remWordAssign (.bin .w8) dbg n 1
  expect (← fmtX (.bin .w8) dbg n) "0x0"
  let a2 ← parse (.bin .w16) dbg "0x3275ea9937d3dfe1543def144aaacf24"
  let n := a2
  let n ← remWordAssign (.bin .w16) dbg n 62309
  expect (← fmtX (.bin .w16) dbg n) "0xdd93"
  let a3 ← parse (.bin .w32) dbg "0x829ef171ac352f24a9dbb827c"
  let n := a3
  let n ← remWordAssign (.bin .w32) dbg n 2274033217
  expect (← fmtX (.bin .w32) dbg n) "0x7acf340b"
  let a4 ← parse (.bin .w32) dbg "0x829ef171"
  let n := a4
  let n ← remWordAssign (.bin .w32) dbg n 2274033217
  expect (← fmtX (.bin .w32) dbg n) "0x829ef171"
  let a5 ← parse (.bin .w64) dbg "0x829ef171f5353cf273828fd667372fd6242ade1983ddfffe"
  let n := a5
  let n ← remWordAssign (.bin .w64) dbg n 9366996259809777462
  expect (← fmtX (.bin .w64) dbg n) "0x6e5c25b8c68d5924"

/-- `tests/rem.rs:47-81`. -/
def test_rem_assign_digit_decimal (dbg : Bool) : R Unit := do
  let a0 ← parse (.dec .w8) dbg "9002219982873646582917"
  let n := a0
  let n ← remWordAssign (.dec .w8) dbg n 87
  expect (← fmtD (.dec .w8) dbg n) "9"
  let a1 ← parse (.dec .w8) dbg "9002219982873646582917"
  let n := a1
  let n ← remWordAssign (.dec .w8) dbg n 1
  expect (← fmtD (.dec .w8) dbg n) "0"
  let a2 ← parse (.dec .w8) dbg "9002219982873646582917"
  let n := a2
  let n ← remWordAssign (.dec .w8) dbg n 123
  expect (← fmtD (.dec .w8) dbg n) "54"
  let a3 ← parse (.dec .w16) dbg "90022199828736465829179002219982873646582917"
  let n := a3
  let n ← remWordAssign (.dec .w16) dbg n 8345
  expect (← fmtD (.dec .w16) dbg n) "5572"
  let a4 ← parse (.dec .w32) dbg "93081309173747392873837475872"
  let n := a4
  let n ← remWordAssign (.dec .w32) dbg n 91829892
  expect (← fmtD (.dec .w32) dbg n) "60882064"
  let a5 ← parse (.dec .w32) dbg "93081309173747392873837475872"
  let n := a5
  let n ← remWordAssign (.dec .w32) dbg n 2891829892
  expect (← fmtD (.dec .w32) dbg n) "1116936868"
  let a6 ← parse (.dec .w32) dbg "982198881"
  let n := a6
  let n ← remWordAssign (.dec .w32) dbg n 982198882
  expect (← fmtD (.dec .w32) dbg n) "982198881"
  let a7 ← parse (.dec .w64) dbg "498274927462984759874294867203710386146272569189313981"
  let n := a7
  let n ← remWordAssign (.dec .w64) dbg n 3958234847986999123
  expect (← fmtD (.dec .w64) dbg n) "864138130113784515"

/-- `tests/rem.rs:83-89`. -/
def test_rem_assign_by_digit_zero_binary (dbg : Bool) : R Unit := do
  let a0 ← parse (.bin .w8) dbg "0xe7691881761813f81a7"
  let n := a0
  let n ← remWordAssign (.bin .w8) dbg n 0
  return ()

/-- `tests/rem.rs:91-97`. -/
def test_rem_assign_by_digit_zero_decimal (dbg : Bool) : R Unit := do
  let a0 ← parse (.dec .w8) dbg "39103919881210219921"
  let n := a0
  let n ← remWordAssign (.dec .w8) dbg n 0
  return ()

/-- `tests/rem.rs:99-121`. -/
def test_rem_assign_big_binary (dbg : Bool) : R Unit := do
  let a0 ← parse (.bin .w8) dbg "0x272fddae3514e1414ffe52717dfe717"
  let n := a0
  let a1 ← parse (.bin .w8) dbg "0xffe72718933fe9"
  let m := a1
  let n ← remAssignOp (.bin .w8) dbg n m
  expect (← fmtX (.bin .w8) dbg n) "0xa612ddc004b82c"
  let a2 ← parse (.bin .w16) dbg "0x30177230ab15e5d8ae22f6ab1e8ed7d"
  let n := a2
  let a3 ← parse (.bin .w16) dbg "0x3728289281"
  let m := a3
  let n ← remAssignOp (.bin .w16) dbg n m
  expect (← fmtX (.bin .w16) dbg n) "0x0"
  let a4 ← parse (.bin .w32) dbg "0x30177230a30177230ab15e5d8ae22f6ab1e8ed7db15e5d8ae22f6ab1e8ed7d"
  let n := a4
  let a5 ← parse (.bin .w32) dbg "0x368dff2535ddf342462efefff34"
  let m := a5
  let n ← remAssignOp (.bin .w32) dbg n m
  expect (← fmtX (.bin .w32) dbg n) "0x82046ee442d49005bc6bb70529"
  let a6 ← parse (.bin .w64) dbg "0x30177230a30177230ab15e6d8ae22f6ab1e8ed7db15e5d8ae22f6ab1e8ed7d"
  let n := a6
  let a7 ← parse (.bin .w64) dbg "0x368dff2535d4676dfefe646efdf342552efefff34"
  let m := a7
  let n ← remAssignOp (.bin .w64) dbg n m
  expect (← fmtX (.bin .w64) dbg n) "0xbb68f67da829880d3695b52744a1227fcf93a95d"

/-- `tests/rem.rs:123-145`. -/
def test_rem_assign_big_decimal (dbg : Bool) : R Unit := do
  let a0 ← parse (.dec .w8) dbg "7849374978203198420749827429"
  let n := a0
  let a1 ← parse (.dec .w8) dbg "274097309742780"
  let m := a1
  let n ← remAssignOp (.dec .w8) dbg n m
  expect (← fmtD (.dec .w8) dbg n) "147172302973209"
  let a2 ← parse (.dec .w16) dbg "77427309730270207042742749648729740935793246297832"
  let n := a2
  let a3 ← parse (.dec .w16) dbg "972498704274092492174970279"
  let m := a3
  let n ← remAssignOp (.dec .w16) dbg n m
  expect (← fmtD (.dec .w16) dbg n) "95061865451716395454014970"
  let a4 ← parse (.dec .w32) dbg "457787921314029600398699209789811884151080151838812560337357067840"
  let n := a4
  let a5 ← parse (.dec .w32) dbg "48274807097205970972097520"
  let m := a5
  let n ← remAssignOp (.dec .w32) dbg n m
  expect (← fmtD (.dec .w32) dbg n) "0"
  let a6 ← parse (.dec .w64) dbg "409274097205720582757338649279470129742085692846502857029472095729856928"
  let n := a6
  let a7 ← parse (.dec .w64) dbg "924874928740274085620847057805692759326592"
  let m := a7
  let n ← remAssignOp (.dec .w64) dbg n m
  expect (← fmtD (.dec .w64) dbg n) "579494661511233909925933152107839265085216"

/-- `tests/rem.rs:147-153`. -/
def test_rem_assign_by_big_zero_binary (dbg : Bool) : R Unit := do
  let a0 ← parse (.bin .w8) dbg "0xe7691881761813f81a7"
  let n := a0
  let n ← remAssignOp (.bin .w8) dbg n ubigZero
  return ()

/-- `tests/rem.rs:155-161`. -/
def test_rem_assign_by_big_zero_decimal (dbg : Bool) : R Unit := do
  let a0 ← parse (.dec .w8) dbg "39103919881210219921"
  let n := a0
  let n ← remAssignOp (.dec .w8) dbg n ubigZero
  return ()

/-- `tests/rem.rs:164-184`. -/
def test_rem_digit_binary (dbg : Bool) : R Unit := do
  let a0 ← parse (.bin .w8) dbg "0xe7691881761813f81a7"
  let a1 ← remWord (.bin .w8) dbg a0 135
  let n := a1
  expect (← fmtX (.bin .w8) dbg n) "0x1"
  let a2 ← parse (.bin .w8) dbg "0xe7691881761813f81a7"
  let a3 ← remWord (.bin .w8) dbg a2 1
  let n := a3
  expect (← fmtX (.bin .w8) dbg n) "0x0"
  let a4 ← parse (.bin .w16) dbg "0x3275ea9937d3dfe1543def144aaacf24"
  let a5 ← remWord (.bin .w16) dbg a4 62309
  let n := a5
  expect (← fmtX (.bin .w16) dbg n) "0xdd93"
  let a6 ← parse (.bin .w32) dbg "0x829ef171ac352f24a9dbb827c"
  let a7 ← remWord (.bin .w32) dbg a6 2274033217
  let n := a7
  expect (← fmtX (.bin .w32) dbg n) "0x7acf340b"
  let a8 ← parse (.bin .w32) dbg "0x829ef171"
  let a9 ← remWord (.bin .w32) dbg a8 2274033217
  let n := a9
  expect (← fmtX (.bin .w32) dbg n) "0x829ef171"
  let a10 ← parse (.bin .w64) dbg "0x829ef171f5353cf273828fd667372fd6242ade1983ddfffe"
  let a11 ← remWord (.bin .w64) dbg a10 9366996259809777462
  let n := a11
  expect (← fmtX (.bin .w64) dbg n) "0x6e5c25b8c68d5924"

/-- `tests/rem.rs:186-212`. -/
def test_rem_digit_decimal (dbg : Bool) : R Unit := do
  let a0 ← parse (.dec .w8) dbg "9002219982873646582917"
  let a1 ← remWord (.dec .w8) dbg a0 87
  let n := a1
  expect (← fmtD (.dec .w8) dbg n) "9"
  let a2 ← parse (.dec .w8) dbg "9002219982873646582917"
  let a3 ← remWord (.dec .w8) dbg a2 1
  let n := a3
  expect (← fmtD (.dec .w8) dbg n) "0"
  let a4 ← parse (.dec .w8) dbg "9002219982873646582917"
  let a5 ← remWord (.dec .w8) dbg a4 123
  let n := a5
  expect (← fmtD (.dec .w8) dbg n) "54"
  let a6 ← parse (.dec .w16) dbg "90022199828736465829179002219982873646582917"
  let a7 ← remWord (.dec .w16) dbg a6 8345
  let n := a7
  expect (← fmtD (.dec .w16) dbg n) "5572"
  let a8 ← parse (.dec .w32) dbg "93081309173747392873837475872"
  let a9 ← remWord (.dec .w32) dbg a8 91829892
  let n := a9
  expect (← fmtD (.dec .w32) dbg n) "60882064"
  let a10 ← parse (.dec .w32) dbg "93081309173747392873837475872"
  let a11 ← remWord (.dec .w32) dbg a10 2891829892
  let n := a11
  expect (← fmtD (.dec .w32) dbg n) "1116936868"
  let a12 ← parse (.dec .w32) dbg "982198881"
  let a13 ← remWord (.dec .w32) dbg a12 982198882
  let n := a13
  expect (← fmtD (.dec .w32) dbg n) "982198881"
  let a14 ← parse (.dec .w64) dbg "498274927462984759874294867203710386146272569189313981"
  let a15 ← remWord (.dec .w64) dbg a14 3958234847986999123
  let n := a15
  expect (← fmtD (.dec .w64) dbg n) "864138130113784515"

/-- `tests/rem.rs:214-219`. -/
def test_rem_by_digit_zero_binary (dbg : Bool) : R Unit := do
  let a0 ← parse (.bin .w8) dbg "0xe7691881761813f81a7"
  let a1 ← remWord (.bin .w8) dbg a0 0
  let _n := a1
  return ()

/-- `tests/rem.rs:221-226`. -/
def test_rem_by_digit_zero_decimal (dbg : Bool) : R Unit := do
  let a0 ← parse (.dec .w8) dbg "39103919881210219921"
  let a1 ← remWord (.dec .w8) dbg a0 0
  let _n := a1
  return ()

/-- `tests/rem.rs:228-250`. -/
def test_rem_big_binary (dbg : Bool) : R Unit := do
  let a0 ← parse (.bin .w8) dbg "0x272fddae3514e1414ffe52717dfe717"
  let n := a0
  let a1 ← parse (.bin .w8) dbg "0xffe72718933fe9"
  let m := a1
  let a2 ← rem (.bin .w8) dbg n m
  let r := a2
  expect (← fmtX (.bin .w8) dbg r) "0xa612ddc004b82c"
  let a3 ← parse (.bin .w16) dbg "0x30177230ab15e5d8ae22f6ab1e8ed7d"
  let n := a3
  let a4 ← parse (.bin .w16) dbg "0x3728289281"
  let m := a4
  let a5 ← rem (.bin .w16) dbg n m
  let r := a5
  expect (← fmtX (.bin .w16) dbg r) "0x0"
  let a6 ← parse (.bin .w32) dbg "0x30177230a30177230ab15e5d8ae22f6ab1e8ed7db15e5d8ae22f6ab1e8ed7d"
  let n := a6
  let a7 ← parse (.bin .w32) dbg "0x368dff2535ddf342462efefff34"
  let m := a7
  let a8 ← rem (.bin .w32) dbg n m
  let r := a8
  expect (← fmtX (.bin .w32) dbg r) "0x82046ee442d49005bc6bb70529"
  let a9 ← parse (.bin .w64) dbg "0x30177230a30177230ab15e6d8ae22f6ab1e8ed7db15e5d8ae22f6ab1e8ed7d"
  let n := a9
  let a10 ← parse (.bin .w64) dbg "0x368dff2535d4676dfefe646efdf342552efefff34"
  let m := a10
  let a11 ← rem (.bin .w64) dbg n m
  let r := a11
  expect (← fmtX (.bin .w64) dbg r) "0xbb68f67da829880d3695b52744a1227fcf93a95d"

/-- `tests/rem.rs:252-274`. -/
def test_rem_big_decimal (dbg : Bool) : R Unit := do
  let a0 ← parse (.dec .w8) dbg "7849374978203198420749827429"
  let n := a0
  let a1 ← parse (.dec .w8) dbg "274097309742780"
  let m := a1
  let a2 ← rem (.dec .w8) dbg n m
  let r := a2
  expect (← fmtD (.dec .w8) dbg r) "147172302973209"
  let a3 ← parse (.dec .w16) dbg "77427309730270207042742749648729740935793246297832"
  let n := a3
  let a4 ← parse (.dec .w16) dbg "972498704274092492174970279"
  let m := a4
  let a5 ← rem (.dec .w16) dbg n m
  let r := a5
  expect (← fmtD (.dec .w16) dbg r) "95061865451716395454014970"
  let a6 ← parse (.dec .w32) dbg "457787921314029600398699209789811884151080151838812560337357067840"
  let n := a6
  let a7 ← parse (.dec .w32) dbg "48274807097205970972097520"
  let m := a7
  let a8 ← rem (.dec .w32) dbg n m
  let r := a8
  expect (← fmtD (.dec .w32) dbg r) "0"
  let a9 ← parse (.dec .w64) dbg "409274097205720582757338649279470129742085692846502857029472095729856928"
  let n := a9
  let a10 ← parse (.dec .w64) dbg "924874928740274085620847057805692759326592"
  let m := a10
  let a11 ← rem (.dec .w64) dbg n m
  let r := a11
  expect (← fmtD (.dec .w64) dbg r) "579494661511233909925933152107839265085216"

/-- `tests/rem.rs:276-281`. -/
def test_rem_by_big_zero_binary (dbg : Bool) : R Unit := do
  let a0 ← parse (.bin .w32) dbg "0xe7691881761813f81a7"
  let a1 ← rem (.bin .w32) dbg a0 ubigZero
  let _n := a1
  return ()

/-- `tests/rem.rs:283-288`. -/
def test_rem_by_big_zero_decimal (dbg : Bool) : R Unit := do
  let a0 ← parse (.dec .w64) dbg "39103919881210219921"
  let a1 ← rem (.dec .w64) dbg a0 ubigZero
  let _n := a1
  return ()

/-! ## `tests/shl.rs` -/

/-- `tests/shl.rs:19-53`. -/
def test_shl_assign_binary (dbg : Bool) : R Unit := do
  let n := ubigZero
  let n ← shl (.bin .w32) dbg n 15
  expect (← fmtX (.bin .w32) dbg n) "0x0"
  let a0 ← parse (.bin .w32) dbg "0x71919fc729e01f34d132"
  let n := a0
  let n ← shl (.bin .w32) dbg n 15
  expect (← fmtX (.bin .w32) dbg n) "0x38c8cfe394f00f9a68990000"
  let a1 ← parse (.bin .w32) dbg "0x71919fc729e01f34d132"
  let n := a1
  let n ← shl (.bin .w32) dbg n 73
  expect (← fmtX (.bin .w32) dbg n) "0xe3233f8e53c03e69a264000000000000000000"
  let a2 ← parse (.bin .w32) dbg "0x71919fc729e01f34d132"
  let n := a2
  let n ← shl (.bin .w32) dbg n 0
  expect (← fmtX (.bin .w32) dbg n) "0x71919fc729e01f34d132"
  let a3 ← parse (.bin .w32) dbg "0xfffffffffffffffffffffffffffffffffffffffffff"
  let n := a3
  let n ← shl (.bin .w32) dbg n 128
  expect (← fmtX (.bin .w32) dbg n) "0xfffffffffffffffffffffffffffffffffffffffffff00000000000000000000000000000000"
  let a4 ← parse (.bin .w64) dbg "0x71919fc729e01f34d132"
  let n := a4
  let n ← shl (.bin .w64) dbg n 73
  expect (← fmtX (.bin .w64) dbg n) "0xe3233f8e53c03e69a264000000000000000000"
  let a5 ← parse (.bin .w64) dbg "0xfffffffffffffffffffffffffffffffffffffffffff"
  let n := a5
  let n ← shl (.bin .w64) dbg n 128
  expect (← fmtX (.bin .w64) dbg n) "0xfffffffffffffffffffffffffffffffffffffffffff00000000000000000000000000000000"
  let a6 ← parse (.bin .w64) dbg "0xfffffffffffffffffffffffffffffffffffffffffff"
  let n := a6
  let n ← shl (.bin .w64) dbg n 0
  expect (← fmtX (.bin .w64) dbg n) "0xfffffffffffffffffffffffffffffffffffffffffff"

/-- `tests/shl.rs:55-89`. -/
def test_shl_assign_decimal (dbg : Bool) : R Unit := do
  let n := ubigZero
  let n ← shl (.dec .w32) dbg n 15
  expect (← fmtD (.dec .w32) dbg n) "0"
  let a0 ← parse (.dec .w32) dbg "71919437299019348132"
  let n := a0
  let n ← shl (.dec .w32) dbg n 15
  expect (← fmtD (.dec .w32) dbg n) "2356656121414265999589376"
  let a1 ← parse (.dec .w32) dbg "71919437299019348132"
  let n := a1
  let n ← shl (.dec .w32) dbg n 73
  expect (← fmtD (.dec .w32) dbg n) "679259880335467951013695731362983516831744"
  let a2 ← parse (.dec .w32) dbg "71919437299019348132"
  let n := a2
  let n ← shl (.dec .w32) dbg n 0
  expect (← fmtD (.dec .w32) dbg n) "71919437299019348132"
  let a3 ← parse (.dec .w32) dbg "999999999999999999999999999999999999999"
  let n := a3
  let n ← shl (.dec .w32) dbg n 128
  expect (← fmtD (.dec .w32) dbg n) "340282366920938463463374607431768211455659717633079061536536625392568231788544"
  let a4 ← parse (.dec .w64) dbg "71919437299019348132"
  let n := a4
  let n ← shl (.dec .w64) dbg n 73
  expect (← fmtD (.dec .w64) dbg n) "679259880335467951013695731362983516831744"
  let a5 ← parse (.dec .w64) dbg "71919437299019348132"
  let n := a5
  let n ← shl (.dec .w64) dbg n 0
  expect (← fmtD (.dec .w64) dbg n) "71919437299019348132"
  let a6 ← parse (.dec .w64) dbg "999999999999999999999999999999999999999"
  let n := a6
  let n ← shl (.dec .w64) dbg n 128
  expect (← fmtD (.dec .w64) dbg n) "340282366920938463463374607431768211455659717633079061536536625392568231788544"

/-- `tests/shl.rs:91-117`. -/
def test_shl_binary (dbg : Bool) : R Unit := do
  let a0 ← shl (.bin .w32) dbg ubigZero 15
  let n := a0
  expect (← fmtX (.bin .w32) dbg n) "0x0"
  let a1 ← parse (.bin .w32) dbg "0x71919fc729e01f34d132"
  let a2 ← shl (.bin .w32) dbg a1 15
  let n := a2
  expect (← fmtX (.bin .w32) dbg n) "0x38c8cfe394f00f9a68990000"
  let a3 ← parse (.bin .w32) dbg "0x71919fc729e01f34d132"
  let a4 ← shl (.bin .w32) dbg a3 73
  let n := a4
  expect (← fmtX (.bin .w32) dbg n) "0xe3233f8e53c03e69a264000000000000000000"
  let a5 ← parse (.bin .w32) dbg "0x71919fc729e01f34d132"
  let a6 ← shl (.bin .w32) dbg a5 0
  let n := a6
  expect (← fmtX (.bin .w32) dbg n) "0x71919fc729e01f34d132"
  let a7 ← parse (.bin .w32) dbg "0xfffffffffffffffffffffffffffffffffffffffffff"
  let a8 ← shl (.bin .w32) dbg a7 128
  let n := a8
  expect (← fmtX (.bin .w32) dbg n) "0xfffffffffffffffffffffffffffffffffffffffffff00000000000000000000000000000000"
  let a9 ← parse (.bin .w64) dbg "0x71919fc729e01f34d132"
  let a10 ← shl (.bin .w64) dbg a9 73
  let n := a10
  expect (← fmtX (.bin .w64) dbg n) "0xe3233f8e53c03e69a264000000000000000000"
  let a11 ← parse (.bin .w64) dbg "0x71919fc729e01f34d132"
  let a12 ← shl (.bin .w64) dbg a11 0
  let n := a12
  expect (← fmtX (.bin .w64) dbg n) "0x71919fc729e01f34d132"
  let a13 ← parse (.bin .w64) dbg "0xfffffffffffffffffffffffffffffffffffffffffff"
  let a14 ← shl (.bin .w64) dbg a13 128
  let n := a14
  expect (← fmtX (.bin .w64) dbg n) "0xfffffffffffffffffffffffffffffffffffffffffff00000000000000000000000000000000"

/-- `tests/shl.rs:119-145`. -/
def test_shl_decimal (dbg : Bool) : R Unit := do
  let a0 ← shl (.dec .w32) dbg ubigZero 15
  let n := a0
  expect (← fmtD (.dec .w32) dbg n) "0"
  let a1 ← parse (.dec .w32) dbg "71919437299019348132"
  let a2 ← shl (.dec .w32) dbg a1 15
  let n := a2
  expect (← fmtD (.dec .w32) dbg n) "2356656121414265999589376"
  let a3 ← parse (.dec .w32) dbg "71919437299019348132"
  let a4 ← shl (.dec .w32) dbg a3 73
  let n := a4
  expect (← fmtD (.dec .w32) dbg n) "679259880335467951013695731362983516831744"
  let a5 ← parse (.dec .w32) dbg "71919437299019348132"
  let a6 ← shl (.dec .w32) dbg a5 0
  let n := a6
  expect (← fmtD (.dec .w32) dbg n) "71919437299019348132"
  let a7 ← parse (.dec .w32) dbg "999999999999999999999999999999999999999"
  let a8 ← shl (.dec .w32) dbg a7 128
  let n := a8
  expect (← fmtD (.dec .w32) dbg n) "340282366920938463463374607431768211455659717633079061536536625392568231788544"
  let a9 ← parse (.dec .w64) dbg "71919437299019348132"
  let a10 ← shl (.dec .w64) dbg a9 73
  let n := a10
  expect (← fmtD (.dec .w64) dbg n) "679259880335467951013695731362983516831744"
  let a11 ← parse (.dec .w64) dbg "71919437299019348132"
  let a12 ← shl (.dec .w64) dbg a11 0
  let n := a12
  expect (← fmtD (.dec .w64) dbg n) "71919437299019348132"
  let a13 ← parse (.dec .w64) dbg "999999999999999999999999999999999999999"
  let a14 ← shl (.dec .w64) dbg a13 128
  let n := a14
  expect (← fmtD (.dec .w64) dbg n) "340282366920938463463374607431768211455659717633079061536536625392568231788544"

/-! ## `tests/shr.rs` -/

/-- `tests/shr.rs:19-53`. -/
def test_shr_assign_binary (dbg : Bool) : R Unit := do
  let n := ubigZero
  let n ← shr (.bin .w32) dbg n 15
  expect (← fmtX (.bin .w32) dbg n) "0x0"
  let a0 ← parse (.bin .w32) dbg "0x71919fc729e01f34d132"
  let n := a0
  let n ← shr (.bin .w32) dbg n 15
  expect (← fmtX (.bin .w32) dbg n) "0xe3233f8e53c03e69"
  let a1 ← parse (.bin .w32) dbg "0x71919fc729e01f34d132"
  let n := a1
  let n ← shr (.bin .w32) dbg n 73
  expect (← fmtX (.bin .w32) dbg n) "0x38"
  let a2 ← parse (.bin .w32) dbg "0x71919fc729e01f34d132"
  let n := a2
  let n ← shr (.bin .w32) dbg n 82
  expect (← fmtX (.bin .w32) dbg n) "0x0"
  let a3 ← parse (.bin .w32) dbg "0x71919fc729e01f34d132"
  let n := a3
  let n ← shr (.bin .w32) dbg n 0
  expect (← fmtX (.bin .w32) dbg n) "0x71919fc729e01f34d132"
  let a4 ← parse (.bin .w32) dbg "0xfffffffffffffffffffffffffffffffffffffffffff"
  let n := a4
  let n ← shr (.bin .w32) dbg n 128
  expect (← fmtX (.bin .w32) dbg n) "0xfffffffffff"
  let a5 ← parse (.bin .w64) dbg "0x71919fc729e01f34d132"
  let n := a5
  let n ← shr (.bin .w64) dbg n 0
  expect (← fmtX (.bin .w64) dbg n) "0x71919fc729e01f34d132"
  let a6 ← parse (.bin .w64) dbg "0xfffffffffffffffffffffffffffffffffffffffffff"
  let n := a6
  let n ← shr (.bin .w64) dbg n 128
  expect (← fmtX (.bin .w64) dbg n) "0xfffffffffff"

/-- `tests/shr.rs:55-84`. -/
def test_shr_binary (dbg : Bool) : R Unit := do
  let a0 ← shr (.bin .w32) dbg ubigZero 15
  let n := a0
  expect (← fmtX (.bin .w32) dbg n) "0x0"
  let a1 ← parse (.bin .w32) dbg "0x71919fc729e01f34d132"
  let a2 ← shr (.bin .w32) dbg a1 15
  let n := a2
  expect (← fmtX (.bin .w32) dbg n) "0xe3233f8e53c03e69"
  let a3 ← parse (.bin .w32) dbg "0x71919fc729e01f34d132"
  let a4 ← shr (.bin .w32) dbg a3 73
  let n := a4
  expect (← fmtX (.bin .w32) dbg n) "0x38"
  let a5 ← parse (.bin .w32) dbg "0x71919fc729e01f34d132"
  let a6 ← shr (.bin .w32) dbg a5 0
  let n := a6
  expect (← fmtX (.bin .w32) dbg n) "0x71919fc729e01f34d132"
  let a7 ← parse (.bin .w32) dbg "0x71919fc729e01f34d132"
  let a8 ← shr (.bin .w32) dbg a7 82
  let n := a8
  expect (← fmtX (.bin .w32) dbg n) "0x0"
  let a9 ← parse (.bin .w32) dbg "0xfffffffffffffffffffffffffffffffffffffffffff"
  let a10 ← shr (.bin .w32) dbg a9 128
  let n := a10
  expect (← fmtX (.bin .w32) dbg n) "0xfffffffffff"
  let a11 ← parse (.bin .w64) dbg "0x71919fc729e01f34d132"
  let a12 ← shr (.bin .w64) dbg a11 73
  let n := a12
  expect (← fmtX (.bin .w64) dbg n) "0x38"
  let a13 ← parse (.bin .w64) dbg "0x71919fc729e01f34d132"
  let a14 ← shr (.bin .w64) dbg a13 0
  let n := a14
  expect (← fmtX (.bin .w64) dbg n) "0x71919fc729e01f34d132"
  let a15 ← parse (.bin .w64) dbg "0xfffffffffffffffffffffffffffffffffffffffffff"
  let a16 ← shr (.bin .w64) dbg a15 128
  let n := a16
  expect (← fmtX (.bin .w64) dbg n) "0xfffffffffff"

/-! ## `tests/square.rs` -/

/-- `tests/square.rs:18-40`. -/
def test_square_binary (dbg : Bool) : R Unit := do
  let a0 ← parse (.bin .w8) dbg "0xaabbccddeeff00998877665544332211"
  let n := a0
  let a1 ← UBig.square (.bin .w8) dbg n
  let nsq := a1
  expect (← fmtX (.bin .w8) dbg nsq) "0x71ddf5dbb1984aa3b5e6d00c54005c14678e40e5e3a082ccd7135f999f4e8521"
  let a2 ← parse (.bin .w32) dbg "0x8782defe72928faed45543232223fd298743fdfe6282d35ef256ffff3282912ff"
  let n := a2
  let a3 ← UBig.square (.bin .w32) dbg n
  let nsq := a3
  expect (← fmtX (.bin .w32) dbg nsq) "0x47bb4a1799813c0210d0c678607db42588d651f6cec650ad64d352b37679c705a8e52595f01d20c894af36365da1d27f656f0580369a9412354740eea0c716da01"
  let a4 ← parse (.bin .w64) dbg "0x8782defe72928faed45543232223fd298743fdfe6282d35ef256ffff3282912ff"
  let n := a4
  let a5 ← UBig.square (.bin .w64) dbg n
  let nsq := a5
  expect (← fmtX (.bin .w64) dbg nsq) "0x47bb4a1799813c0210d0c678607db42588d651f6cec650ad64d352b37679c705a8e52595f01d20c894af36365da1d27f656f0580369a9412354740eea0c716da01"
  let a6 ← parse (.bin .w8) dbg "0xfffffffffffffffffffffffffffffffffffffffffffffffffffffffffffffffffffffffffffffffffffffff"
  let n := a6
  let a7 ← UBig.square (.bin .w8) dbg n
  let nsq := a7
  expect (← fmtX (.bin .w8) dbg nsq) "0xffffffffffffffffffffffffffffffffffffffffffffffffffffffffffffffffffffffffffffffffffffffe000000000000000000000000000000000000000000000000000000000000000000000000000000000000001"
  let a8 ← parse (.bin .w64) dbg "0xfffffffffffffffffffffffffffffffffffffffffffffffffffffffffffffffffffffffffffffffffffffff"
  let n := a8
  let a9 ← UBig.square (.bin .w64) dbg n
  let nsq := a9
  expect (← fmtX (.bin .w64) dbg nsq) "0xffffffffffffffffffffffffffffffffffffffffffffffffffffffffffffffffffffffffffffffffffffffe000000000000000000000000000000000000000000000000000000000000000000000000000000000000001"

/-- `tests/square.rs:42-64`. -/
def test_square_decimal (dbg : Bool) : R Unit := do
  let a0 ← parse (.dec .w8) dbg "90727377009702372093809109273071309"
  let n := a0
  let a1 ← UBig.square (.dec .w8) dbg n
  let nsq := a1
  expect (← fmtD (.dec .w8) dbg nsq) "8231456939060670541592732870350998958165109827496929456075301798973481"
  let a2 ← parse (.dec .w32) dbg "93930273848473992847564646555552735478998990939373836272"
  let n := a2
  let a3 ← UBig.square (.dec .w32) dbg n
  let nsq := a3
  expect (← fmtD (.dec .w32) dbg nsq) "8822896345249317283051705810912339219361910538931465262594904474090285837738020601641946335849934832374262857984"
  let a4 ← parse (.dec .w64) dbg "3290847429837828822896345249317283051705810912339219361910538931465262594904474090285837738020601641946335849934832374262857984"
  let n := a4
  let a5 ← UBig.square (.dec .w64) dbg n
  let nsq := a5
  expect (← fmtD (.dec .w64) dbg nsq) "10829676806470243697243025330900165325427709743339480433570580434846912014896850953531952081670526694872997116697146897578279823010880330068960918790299855167047725234049466035765365196628178125021675079324727934964042656069974880069014484242351752544256"
  let a6 ← parse (.dec .w8) dbg "999999999999999999999999999999999999999999999999999999999999999999999999999999999999"
  let n := a6
  let a7 ← UBig.square (.dec .w8) dbg n
  let nsq := a7
  expect (← fmtD (.dec .w8) dbg nsq) "999999999999999999999999999999999999999999999999999999999999999999999999999999999998000000000000000000000000000000000000000000000000000000000000000000000000000000000001"
  let a8 ← parse (.dec .w64) dbg "999999999999999999999999999999999999999999999999999999999999999999999999999999999999"
  let n := a8
  let a9 ← UBig.square (.dec .w64) dbg n
  let nsq := a9
  expect (← fmtD (.dec .w64) dbg nsq) "999999999999999999999999999999999999999999999999999999999999999999999999999999999998000000000000000000000000000000000000000000000000000000000000000000000000000000000001"

/-! ## `tests/sub.rs` -/

/-- `tests/sub.rs:19-33`. -/
def test_sub_assign_digit_binary (dbg : Bool) : R Unit := do
  let a0 ← parse (.bin .w32) dbg "0x32"
  let n := a0
  let n ← subWord (.bin .w32) dbg n 0
  expect (← fmtX (.bin .w32) dbg n) "0x32"
  let a1 ← parse (.bin .w32) dbg "0x112345677"
  let n := a1
  let n ← subWord (.bin .w32) dbg n 4294967295
  expect (← fmtX (.bin .w32) dbg n) "0x12345678"
  let a2 ← parse (.bin .w32) dbg "0x10000000000000000"
  let n := a2
  let n ← subWord (.bin .w32) dbg n 1
  expect (← fmtX (.bin .w32) dbg n) "0xffffffffffffffff"

/-- `tests/sub.rs:35-41`. -/
def test_sub_assign_digit_binary_underflow (dbg : Bool) : R Unit := do
  let a0 ← parse (.bin .w32) dbg "0x32"
  let n := a0
  let n ← subWord (.bin .w32) dbg n 100
  return ()

/-- `tests/sub.rs:43-61`. -/
def test_sub_assign_digit_decimal (dbg : Bool) : R Unit := do
  let a0 ← parse (.dec .w32) dbg "101"
  let n := a0
  let n ← subWord (.dec .w32) dbg n 0
  expect (← fmtD (.dec .w32) dbg n) "101"
  let a1 ← parse (.dec .w32) dbg "2000000000"
  let n := a1
  let n ← subWord (.dec .w32) dbg n 2000000000
  expect (← fmtD (.dec .w32) dbg n) "0"
  let a2 ← parse (.dec .w32) dbg "4418424084"
  let n := a2
  let n ← subWord (.dec .w32) dbg n 4294967295
  expect (← fmtD (.dec .w32) dbg n) "123456789"
  let a3 ← parse (.dec .w32) dbg "1000000000000000000"
  let n := a3
  let n ← subWord (.dec .w32) dbg n 1
  expect (← fmtD (.dec .w32) dbg n) "999999999999999999"

/-- `tests/sub.rs:63-69`. -/
def test_sub_assign_digit_decimal_underflow (dbg : Bool) : R Unit := do
  let a0 ← parse (.dec .w32) dbg "101"
  let n := a0
  let n ← subWord (.dec .w32) dbg n 1003
  return ()

/-- `tests/sub.rs:71-82`. -/
def test_sub_digit_binary (dbg : Bool) : R Unit := do
  let a0 ← parse (.bin .w32) dbg "0x32"
  let a1 ← subWord (.bin .w32) dbg a0 0
  let n := a1
  expect (← fmtX (.bin .w32) dbg n) "0x32"
  let a2 ← parse (.bin .w32) dbg "0x112345677"
  let a3 ← subWord (.bin .w32) dbg a2 4294967295
  let n := a3
  expect (← fmtX (.bin .w32) dbg n) "0x12345678"
  let a4 ← parse (.bin .w32) dbg "0x10000000000000000"
  let a5 ← subWord (.bin .w32) dbg a4 1
  let n := a5
  expect (← fmtX (.bin .w32) dbg n) "0xffffffffffffffff"

/-- `tests/sub.rs:84-89`. -/
def test_sub_digit_binary_underflow (dbg : Bool) : R Unit := do
  let a0 ← parse (.bin .w32) dbg "0x32"
  let a1 ← subWord (.bin .w32) dbg a0 100
  let _n := a1
  return ()

/-- `tests/sub.rs:91-105`. -/
def test_sub_digit_decimal (dbg : Bool) : R Unit := do
  let a0 ← parse (.dec .w32) dbg "101"
  let a1 ← subWord (.dec .w32) dbg a0 0
  let n := a1
  expect (← fmtD (.dec .w32) dbg n) "101"
  let a2 ← parse (.dec .w32) dbg "2000000000"
  let a3 ← subWord (.dec .w32) dbg a2 2000000000
  let n := a3
  expect (← fmtD (.dec .w32) dbg n) "0"
  let a4 ← parse (.dec .w32) dbg "4418424084"
  let a5 ← subWord (.dec .w32) dbg a4 4294967295
  let n := a5
  expect (← fmtD (.dec .w32) dbg n) "123456789"
  let a6 ← parse (.dec .w32) dbg "1000000000000000000"
  let a7 ← subWord (.dec .w32) dbg a6 1
  let n := a7
  expect (← fmtD (.dec .w32) dbg n) "999999999999999999"

/-- `tests/sub.rs:107-112`. -/
def test_sub_digit_decimal_underflow (dbg : Bool) : R Unit := do
  let a0 ← parse (.dec .w32) dbg "101"
  let a1 ← subWord (.dec .w32) dbg a0 1003
  let _n := a1
  return ()

/-- `tests/sub.rs:114-136`. -/
def test_sub_assign_big_binary (dbg : Bool) : R Unit := do
  let n := ubigZero
  let n ← sub (.bin .w32) dbg n ubigZero
  expect (← fmtX (.bin .w32) dbg n) "0x0"
  let a0 ← parse (.bin .w32) dbg "0x99999999"
  let n := a0
  let a1 ← parse (.bin .w32) dbg "0x87654321"
  let n ← sub (.bin .w32) dbg n a1
  expect (← fmtX (.bin .w32) dbg n) "0x12345678"
  let a2 ← parse (.bin .w32) dbg "0x1234567918111110"
  let n := a2
  let a3 ← parse (.bin .w32) dbg "0x87654321"
  let n ← sub (.bin .w32) dbg n a3
  expect (← fmtX (.bin .w32) dbg n) "0x1234567890abcdef"
  let a4 ← parse (.bin .w32) dbg "0x1234567918111110"
  let n := a4
  let a5 ← parse (.bin .w32) dbg "0x1234567890abcdef"
  let n ← sub (.bin .w32) dbg n a5
  expect (← fmtX (.bin .w32) dbg n) "0x87654321"
  let a6 ← parse (.bin .w32) dbg "0x10000000000000009"
  let n := a6
  let a7 ← parse (.bin .w32) dbg "0xa"
  let n ← sub (.bin .w32) dbg n a7
  expect (← fmtX (.bin .w32) dbg n) "0xffffffffffffffff"

/-- `tests/sub.rs:138-144`. -/
def test_sub_assign_big_binary_underflow (dbg : Bool) : R Unit := do
  let a0 ← parse (.bin .w32) dbg "0x1234567890123456"
  let n := a0
  let a1 ← parse (.bin .w32) dbg "0x1234567890123457"
  let n ← sub (.bin .w32) dbg n a1
  return ()

/-- `tests/sub.rs:146-168`. -/
def test_sub_assign_big_decimal (dbg : Bool) : R Unit := do
  let n := ubigZero
  let n ← sub (.dec .w32) dbg n ubigZero
  expect (← fmtD (.dec .w32) dbg n) "0"
  let a0 ← parse (.dec .w32) dbg "99999999"
  let n := a0
  let a1 ← parse (.dec .w32) dbg "87654321"
  let n ← sub (.dec .w32) dbg n a1
  expect (← fmtD (.dec .w32) dbg n) "12345678"
  let a2 ← parse (.dec .w32) dbg "1234567977777777"
  let n := a2
  let a3 ← parse (.dec .w32) dbg "87654321"
  let n ← sub (.dec .w32) dbg n a3
  expect (← fmtD (.dec .w32) dbg n) "1234567890123456"
  let a4 ← parse (.dec .w32) dbg "1234567977777777"
  let n := a4
  let a5 ← parse (.dec .w32) dbg "1234567890123456"
  let n ← sub (.dec .w32) dbg n a5
  expect (← fmtD (.dec .w32) dbg n) "87654321"
  let a6 ← parse (.dec .w32) dbg "1000000000000000009"
  let n := a6
  let a7 ← parse (.dec .w32) dbg "10"
  let n ← sub (.dec .w32) dbg n a7
  expect (← fmtD (.dec .w32) dbg n) "999999999999999999"

/-- `tests/sub.rs:170-176`. -/
def test_sub_assign_big_decimal_underflow (dbg : Bool) : R Unit := do
  let a0 ← parse (.bin .w32) dbg "123456789012345678"
  let n := a0
  let a1 ← parse (.bin .w32) dbg "123456789012345679"
  let n ← sub (.bin .w32) dbg n a1
  return ()

/-- `tests/sub.rs:178-196`. -/
def test_sub_big_binary (dbg : Bool) : R Unit := do
  let a0 ← sub (.bin .w32) dbg ubigZero ubigZero
  let n := a0
  expect (← fmtX (.bin .w32) dbg n) "0x0"
  let a1 ← parse (.bin .w32) dbg "0x99999999"
  let a2 ← parse (.bin .w32) dbg "0x87654321"
  let a3 ← sub (.bin .w32) dbg a1 a2
  let n := a3
  expect (← fmtX (.bin .w32) dbg n) "0x12345678"
  let a4 ← parse (.bin .w32) dbg "0x1234567918111110"
  let a5 ← parse (.bin .w32) dbg "0x87654321"
  let a6 ← sub (.bin .w32) dbg a4 a5
  let n := a6
  expect (← fmtX (.bin .w32) dbg n) "0x1234567890abcdef"
  let a7 ← parse (.bin .w32) dbg "0x1234567918111110"
  let a8 ← parse (.bin .w32) dbg "0x1234567890abcdef"
  let a9 ← sub (.bin .w32) dbg a7 a8
  let n := a9
  expect (← fmtX (.bin .w32) dbg n) "0x87654321"
  let a10 ← parse (.bin .w32) dbg "0x10000000000000009"
  let a11 ← parse (.bin .w32) dbg "0xa"
  let a12 ← sub (.bin .w32) dbg a10 a11
  let n := a12
  expect (← fmtX (.bin .w32) dbg n) "0xffffffffffffffff"

/-- `tests/sub.rs:198-204`. -/
def test_sub_big_binary_underflow (dbg : Bool) : R Unit := do
  let a0 ← parse (.bin .w32) dbg "0x1234567890123456"
  let a1 ← parse (.bin .w32) dbg "0x1234567890123457"
  let a2 ← sub (.bin .w32) dbg a0 a1
  let _n := a2
  return ()

/-- `tests/sub.rs:206-224`. -/
def test_sub_big_decimal (dbg : Bool) : R Unit := do
  let a0 ← sub (.dec .w32) dbg ubigZero ubigZero
  let n := a0
  expect (← fmtD (.dec .w32) dbg n) "0"
  let a1 ← parse (.dec .w32) dbg "99999999"
  let a2 ← parse (.dec .w32) dbg "87654321"
  let a3 ← sub (.dec .w32) dbg a1 a2
  let n := a3
  expect (← fmtD (.dec .w32) dbg n) "12345678"
  let a4 ← parse (.dec .w32) dbg "1234567977777777"
  let a5 ← parse (.dec .w32) dbg "87654321"
  let a6 ← sub (.dec .w32) dbg a4 a5
  let n := a6
  expect (← fmtD (.dec .w32) dbg n) "1234567890123456"
  let a7 ← parse (.dec .w32) dbg "1234567977777777"
  let a8 ← parse (.dec .w32) dbg "1234567890123456"
  let a9 ← sub (.dec .w32) dbg a7 a8
  let n := a9
  expect (← fmtD (.dec .w32) dbg n) "87654321"
  let a10 ← parse (.dec .w32) dbg "1000000000000000009"
  let a11 ← parse (.dec .w32) dbg "10"
  let a12 ← sub (.dec .w32) dbg a10 a11
  let n := a12
  expect (← fmtD (.dec .w32) dbg n) "999999999999999999"

/-- `tests/sub.rs:226-232`. -/
def test_sub_big_decimal_underflow (dbg : Bool) : R Unit := do
  let a0 ← parse (.bin .w32) dbg "123456789012345678"
  let a1 ← parse (.bin .w32) dbg "123456789012345679"
  let a2 ← sub (.bin .w32) dbg a0 a1
  let _n := a2
  return ()

example : test_add_assign_digit_binary true = .ok () := by decide +kernel
example : test_add_assign_digit_decimal true = .ok () := by decide +kernel
example : test_add_digit_binary true = .ok () := by decide +kernel
example : test_add_digit_decimal true = .ok () := by decide +kernel
example : test_add_assign_big_binary true = .ok () := by decide +kernel
example : test_add_assign_big_decimal true = .ok () := by decide +kernel
example : test_add_big_binary true = .ok () := by decide +kernel
example : test_add_big_decimal true = .ok () := by decide +kernel
example : cmp_test_eq true = .ok () := by decide +kernel
example : test_cmp true = .ok () := by decide +kernel
example : test_div_assign_digit_binary true = .ok () := by decide +kernel
example : test_div_assign_digit_decimal true = .ok () := by decide +kernel
example : ∀ dbg, ¬ (test_div_assign_by_digit_zero_binary dbg = .ok ()) := by decide +kernel
example : ∀ dbg, ¬ (test_div_assign_by_digit_zero_decimal dbg = .ok ()) := by decide +kernel
example : test_div_assign_big_binary true = .ok () := by decide +kernel
example : test_div_assign_big_decimal true = .ok () := by decide +kernel
example : test_div_digit_binary true = .ok () := by decide +kernel
example : test_div_digit_decimal true = .ok () := by decide +kernel
example : ∀ dbg, ¬ (test_div_by_digit_zero_binary dbg = .ok ()) := by decide +kernel
example : ∀ dbg, ¬ (test_div_by_digit_zero_decimal dbg = .ok ()) := by decide +kernel
example : test_div_big_binary true = .ok () := by decide +kernel
example : test_div_big_decimal true = .ok () := by decide +kernel
example : ∀ dbg, ¬ (test_div_big_zero_binary dbg = .ok ()) := by decide +kernel
example : ∀ dbg, ¬ (test_div_big_zero_decimal dbg = .ok ()) := by decide +kernel
example : test_mul_assign_digit_binary true = .ok () := by decide +kernel
example : test_mul_assign_digit_decimal true = .ok () := by decide +kernel
example : test_mul_digit_binary true = .ok () := by decide +kernel
example : test_mul_digit_decimal true = .ok () := by decide +kernel
example : test_mul_assign_big_binary true = .ok () := by decide +kernel
example : test_mul_assign_big_decimal true = .ok () := by decide +kernel
example : test_mul_big_binary true = .ok () := by decide +kernel
example : test_mul_big_decimal true = .ok () := by decide +kernel
example : test_pow_binary true = .ok () := by decide +kernel
example : test_pow_decimal true = .ok () := by decide +kernel
example : test_rem_assign_digit_binary true = .ok () := by decide +kernel
example : test_rem_assign_digit_decimal true = .ok () := by decide +kernel
example : ∀ dbg, ¬ (test_rem_assign_by_digit_zero_binary dbg = .ok ()) := by decide +kernel
example : ∀ dbg, ¬ (test_rem_assign_by_digit_zero_decimal dbg = .ok ()) := by decide +kernel
example : test_rem_assign_big_binary true = .ok () := by decide +kernel
example : test_rem_assign_big_decimal true = .ok () := by decide +kernel
example : ∀ dbg, ¬ (test_rem_assign_by_big_zero_binary dbg = .ok ()) := by decide +kernel
example : ∀ dbg, ¬ (test_rem_assign_by_big_zero_decimal dbg = .ok ()) := by decide +kernel
example : test_rem_digit_binary true = .ok () := by decide +kernel
example : test_rem_digit_decimal true = .ok () := by decide +kernel
example : ∀ dbg, ¬ (test_rem_by_digit_zero_binary dbg = .ok ()) := by decide +kernel
example : ∀ dbg, ¬ (test_rem_by_digit_zero_decimal dbg = .ok ()) := by decide +kernel
example : test_rem_big_binary true = .ok () := by decide +kernel
example : test_rem_big_decimal true = .ok () := by decide +kernel
example : ∀ dbg, ¬ (test_rem_by_big_zero_binary dbg = .ok ()) := by decide +kernel
example : ∀ dbg, ¬ (test_rem_by_big_zero_decimal dbg = .ok ()) := by decide +kernel
example : test_shl_assign_binary true = .ok () := by decide +kernel
example : test_shl_assign_decimal true = .ok () := by decide +kernel
example : test_shl_binary true = .ok () := by decide +kernel
example : test_shl_decimal true = .ok () := by decide +kernel
example : test_shr_assign_binary true = .ok () := by decide +kernel
example : test_shr_binary true = .ok () := by decide +kernel
example : test_square_binary true = .ok () := by decide +kernel
example : test_square_decimal true = .ok () := by decide +kernel
example : test_sub_assign_digit_binary true = .ok () := by decide +kernel
example : ∀ dbg, ¬ (test_sub_assign_digit_binary_underflow dbg = .ok ()) := by decide +kernel
example : test_sub_assign_digit_decimal true = .ok () := by decide +kernel
example : ∀ dbg, ¬ (test_sub_assign_digit_decimal_underflow dbg = .ok ()) := by decide +kernel
example : test_sub_digit_binary true = .ok () := by decide +kernel
example : ∀ dbg, ¬ (test_sub_digit_binary_underflow dbg = .ok ()) := by decide +kernel
example : test_sub_digit_decimal true = .ok () := by decide +kernel
example : ∀ dbg, ¬ (test_sub_digit_decimal_underflow dbg = .ok ()) := by decide +kernel
example : test_sub_assign_big_binary true = .ok () := by decide +kernel
example : ∀ dbg, ¬ (test_sub_assign_big_binary_underflow dbg = .ok ()) := by decide +kernel
example : test_sub_assign_big_decimal true = .ok () := by decide +kernel
example : ∀ dbg, ¬ (test_sub_assign_big_decimal_underflow dbg = .ok ()) := by decide +kernel
example : test_sub_big_binary true = .ok () := by decide +kernel
example : ∀ dbg, ¬ (test_sub_big_binary_underflow dbg = .ok ()) := by decide +kernel
example : test_sub_big_decimal true = .ok () := by decide +kernel
example : ∀ dbg, ¬ (test_sub_big_decimal_underflow dbg = .ok ()) := by decide +kernel

end Babs.Tests
