import Verif.Tests.Conformance

/-!
The crate's unit tests of `mul.rs`, `div.rs` and their submodules,
run in the model in the debug profile: every test function is translated statement by statement.
These are tests of the model, not properties.
-/

set_option linter.unusedVariables false

namespace Babs.Tests

/-- `src/ubig/mul.rs:252-299`. -/
def ubig_mul_test_double_carry_assign_binary (dbg : Bool) : R Unit := do
  let nr : List Nat := []
  let (nr, carry) ← doubleCarryAssign (DType.ops (.bin .w8) dbg) nr true
  holds (decide (nr = []))
  holds (carry)
  let nr : List Nat := [120, 242, 118]
  let (nr, carry) ← doubleCarryAssign (DType.ops (.bin .w8) dbg) nr true
  holds (decide (nr = [241, 228, 237]))
  holds (!carry)
  let nr : List Nat := [120, 242, 134]
  let (nr, carry) ← doubleCarryAssign (DType.ops (.bin .w8) dbg) nr true
  holds (decide (nr = [241, 228, 13]))
  holds (carry)
  let nr : List Nat := [120, 242, 134]
  let (nr, carry) ← doubleCarryAssign (DType.ops (.bin .w16) dbg) nr true
  holds (decide (nr = [241, 484, 268]))
  holds (!carry)
  let nr : List Nat := [4728, 33010, 50054]
  let (nr, carry) ← doubleCarryAssign (DType.ops (.bin .w16) dbg) nr false
  holds (decide (nr = [9456, 484, 34573]))
  holds (carry)
  let nr : List Nat := [4728, 33010, 50054]
  let (nr, carry) ← doubleCarryAssign (DType.ops (.bin .w32) dbg) nr false
  holds (decide (nr = [9456, 66020, 100108]))
  holds (!carry)
  let nr : List Nat := [4294906488, 3280306418, 1984807814]
  let (nr, carry) ← doubleCarryAssign (DType.ops (.bin .w32) dbg) nr true
  holds (decide (nr = [4294845681, 2265645541, 3969615629]))
  holds (!carry)
  let nr : List Nat := [4294906488, 3280306418, 1984807814]
  let (nr, carry) ← doubleCarryAssign (DType.ops (.bin .w64) dbg) nr true
  holds (decide (nr = [8589812977, 6560612836, 3969615628]))
  holds (!carry)
  let nr : List Nat := [8355821675656188536, 9264581684404519154, 9335386284862849926]
  let (nr, carry) ← doubleCarryAssign (DType.ops (.bin .w64) dbg) nr false
  holds (decide (nr = [16711643351312377072, 82419295099486692, 224028496016148237]))
  holds (carry)

/-- `src/ubig/mul.rs:301-353`. -/
def ubig_mul_test_double_carry_assign_decimal (dbg : Bool) : R Unit := do
  let nr : List Nat := []
  let (nr, carry) ← doubleCarryAssign (DType.ops (.dec .w8) dbg) nr true
  holds (decide (nr = []))
  holds (carry)
  let nr : List Nat := [78, 92, 36]
  let (nr, carry) ← doubleCarryAssign (DType.ops (.dec .w8) dbg) nr true
  holds (decide (nr = [57, 85, 73]))
  holds (!carry)
  let nr : List Nat := [78, 92, 76]
  let (nr, carry) ← doubleCarryAssign (DType.ops (.dec .w8) dbg) nr true
  holds (decide (nr = [57, 85, 53]))
  holds (carry)
  let nr : List Nat := [78, 92, 76]
  let (nr, carry) ← doubleCarryAssign (DType.ops (.dec .w16) dbg) nr true
  holds (decide (nr = [157, 184, 152]))
  holds (!carry)
  let nr : List Nat := [8765, 4321, 5000]
  let (nr, carry) ← doubleCarryAssign (DType.ops (.dec .w16) dbg) nr false
  holds (decide (nr = [7530, 8643, 0]))
  holds (carry)
  let nr : List Nat := [8765, 4321, 5000]
  let (nr, carry) ← doubleCarryAssign (DType.ops (.dec .w32) dbg) nr false
  holds (decide (nr = [17530, 8642, 10000]))
  holds (!carry)
  let nr : List Nat := [999999999, 999999999, 999999999]
  let (nr, carry) ← doubleCarryAssign (DType.ops (.dec .w32) dbg) nr false
  holds (decide (nr = [999999998, 999999999, 999999999]))
  holds (carry)
  let nr : List Nat := [999999999, 999999999, 999999999]
  let (nr, carry) ← doubleCarryAssign (DType.ops (.dec .w64) dbg) nr false
  holds (decide (nr = [1999999998, 1999999998, 1999999998]))
  holds (!carry)
  let nr : List Nat := [5789987625187287987, 3981928988564766999]
  let (nr, carry) ← doubleCarryAssign (DType.ops (.dec .w64) dbg) nr false
  holds (decide (nr = [1579975250374575974, 7963857977129533999]))
  holds (!carry)
  let nr : List Nat := [3981928988564766999, 5789987625187287987]
  let (nr, carry) ← doubleCarryAssign (DType.ops (.dec .w64) dbg) nr false
  holds (decide (nr = [7963857977129533998, 1579975250374575974]))
  holds (carry)

/-- `src/ubig/mul.rs:355-402`. -/
def ubig_mul_test_mul_add_assign_digit_binary (dbg : Bool) : R Unit := do
  let nr : List Nat := []
  let (nr, carry) ← mulAddAssignDigit (DType.ops (.bin .w8) dbg) nr 87 50
  holds (decide (nr = []))
  holds (decide (carry = 50))
  let nr : List Nat := [255, 97, 167]
  let (nr, carry) ← mulAddAssignDigit (DType.ops (.bin .w8) dbg) nr 87 50
  holds (decide (nr = [219, 77, 226]))
  holds (decide (carry = 56))
  let nr : List Nat := [243, 167, 80]
  let (nr, carry) ← mulAddAssignDigit (DType.ops (.bin .w8) dbg) nr 3 50
  holds (decide (nr = [11, 248, 241]))
  holds (decide (carry = 0))
  let nr : List Nat := []
  let (nr, carry) ← mulAddAssignDigit (DType.ops (.bin .w16) dbg) nr 42367 12952
  holds (decide (nr = []))
  holds (decide (carry = 12952))
  let nr : List Nat := [65507, 24986, 43007]
  let (nr, carry) ← mulAddAssignDigit (DType.ops (.bin .w16) dbg) nr 42367 12952
  holds (decide (nr = [29493, 21202, 61850]))
  holds (decide (carry = 27802))
  let nr : List Nat := [65507, 24986, 80]
  let (nr, carry) ← mulAddAssignDigit (DType.ops (.bin .w16) dbg) nr 255 12952
  holds (decide (nr = [5557, 14693, 20497]))
  holds (decide (carry = 0))
  let nr : List Nat := []
  let (nr, carry) ← mulAddAssignDigit (DType.ops (.bin .w32) dbg) nr 2776596401 848859043
  holds (decide (nr = []))
  holds (decide (carry = 848859043))
  let nr : List Nat := [4293072634, 1637521919, 2818519580]
  let (nr, carry) ← mulAddAssignDigit (DType.ops (.bin .w32) dbg) nr 2776603378 848859043
  holds (decide (nr = [991734775, 2864112486, 2053079679]))
  holds (decide (carry = 1822111892))
  let nr : List Nat := [4293072634, 1637521919, 2013213212]
  let (nr, carry) ← mulAddAssignDigit (DType.ops (.bin .w32) dbg) nr 2 848859043
  holds (decide (nr = [845069719, 3275043840, 4026426424]))
  holds (decide (carry = 0))

/-- `src/ubig/mul.rs:404-451`. -/
def ubig_mul_test_mul_add_assign_digit_decimal (dbg : Bool) : R Unit := do
  let nr : List Nat := []
  let (nr, carry) ← mulAddAssignDigit (DType.ops (.dec .w8) dbg) nr 57 32
  holds (decide (nr = []))
  holds (decide (carry = 32))
  let nr : List Nat := [99, 61, 97]
  let (nr, carry) ← mulAddAssignDigit (DType.ops (.dec .w8) dbg) nr 57 32
  holds (decide (nr = [75, 33, 64]))
  holds (decide (carry = 55))
  let nr : List Nat := [93, 87, 21]
  let (nr, carry) ← mulAddAssignDigit (DType.ops (.dec .w8) dbg) nr 3 32
  holds (decide (nr = [11, 64, 65]))
  holds (decide (carry = 0))
  let nr : List Nat := []
  let (nr, carry) ← mulAddAssignDigit (DType.ops (.dec .w16) dbg) nr 8739 3298
  holds (decide (nr = []))
  holds (decide (carry = 3298))
  let nr : List Nat := [9935, 6193, 4324]
  let (nr, carry) ← mulAddAssignDigit (DType.ops (.dec .w16) dbg) nr 8739 3298
  holds (decide (nr = [5263, 9309, 2848]))
  holds (decide (carry = 3779))
  let nr : List Nat := [9935, 6193, 45]
  let (nr, carry) ← mulAddAssignDigit (DType.ops (.dec .w16) dbg) nr 175 3298
  holds (decide (nr = [1923, 3949, 7983]))
  holds (decide (carry = 0))
  let nr : List Nat := []
  let (nr, carry) ← mulAddAssignDigit (DType.ops (.dec .w32) dbg) nr 123761987 321563982
  holds (decide (nr = []))
  holds (decide (carry = 321563982))
  let nr : List Nat := [873817123, 999987999, 281784299]
  let (nr, carry) ← mulAddAssignDigit (DType.ops (.dec .w32) dbg) nr 123761987 321563982
  holds (decide (nr = [738667383, 840539356, 873402614]))
  holds (decide (carry = 34874184))
  let nr : List Nat := [873817123, 999987999, 4299]
  let (nr, carry) ← mulAddAssignDigit (DType.ops (.dec .w32) dbg) nr 2987 321563982
  holds (decide (nr = [413310383, 964155623, 12844099]))
  holds (decide (carry = 0))

/-- `src/ubig/mul.rs:453-519`. -/
def ubig_mul_test_mul_digit_into_binary (dbg : Bool) : R Unit := do
  let nr : List Nat := []
  let product : List Nat := List.replicate 1 0
  let product ← mulDigitInto (DType.ops (.bin .w8) dbg) dbg nr 87 product
  holds (decide (product = [0]))
  let nr : List Nat := [255, 97, 167]
  let product : List Nat := List.replicate 4 0
  let product ← mulDigitInto (DType.ops (.bin .w8) dbg) dbg nr 87 product
  holds (decide (product = [169, 77, 226, 56]))
  let nr : List Nat := [243, 167, 80]
  let product : List Nat := List.replicate 4 0
  let product ← mulDigitInto (DType.ops (.bin .w8) dbg) dbg nr 3 product
  holds (decide (product = [217, 247, 241, 0]))
  let nr : List Nat := []
  let product : List Nat := List.replicate 1 0
  let product ← mulDigitInto (DType.ops (.bin .w16) dbg) dbg nr 42367 product
  holds (decide (product = [0]))
  let nr : List Nat := [65507, 24986, 43007]
  let product : List Nat := List.replicate 4 0
  let product ← mulDigitInto (DType.ops (.bin .w16) dbg) dbg nr 42367 product
  holds (decide (product = [16541, 21202, 61850, 27802]))
  let nr : List Nat := [65507, 24986, 80]
  let product : List Nat := List.replicate 4 0
  let product ← mulDigitInto (DType.ops (.bin .w16) dbg) dbg nr 255 product
  holds (decide (product = [58141, 14692, 20497, 0]))
  let nr : List Nat := []
  let product : List Nat := List.replicate 1 0
  let product ← mulDigitInto (DType.ops (.bin .w32) dbg) dbg nr 2776596401 product
  holds (decide (product = [0]))
  let nr : List Nat := [4293072634, 1637521919, 2818519580]
  let product : List Nat := List.replicate 4 0
  let product ← mulDigitInto (DType.ops (.bin .w32) dbg) dbg nr 2776603378 product
  holds (decide (product = [142875732, 2864112486, 2053079679, 1822111892]))
  let nr : List Nat := [4293072634, 1637521919, 2013213212]
  let product : List Nat := List.replicate 4 0
  let product ← mulDigitInto (DType.ops (.bin .w32) dbg) dbg nr 2 product
  holds (decide (product = [4291177972, 3275043839, 4026426424, 0]))
  let nr : List Nat := [18438606564936017705, 7033103092670126803]
  let product : List Nat := List.replicate 3 0
  let product ← mulDigitInto (DType.ops (.bin .w64) dbg) dbg nr 4415002237311359730 product
  holds (decide (product = [7467175666883702466, 16557708824464436602, 1683287075773682207]))

/-- `src/ubig/mul.rs:521-587`. -/
def ubig_mul_test_mul_digit_into_decimal (dbg : Bool) : R Unit := do
  let nr : List Nat := []
  let product : List Nat := List.replicate 1 0
  let product ← mulDigitInto (DType.ops (.dec .w8) dbg) dbg nr 57 product
  holds (decide (product = [0]))
  let nr : List Nat := [99, 61, 97]
  let product : List Nat := List.replicate 4 0
  let product ← mulDigitInto (DType.ops (.dec .w8) dbg) dbg nr 57 product
  holds (decide (product = [43, 33, 64, 55]))
  let nr : List Nat := [93, 87, 21]
  let product : List Nat := List.replicate 4 0
  let product ← mulDigitInto (DType.ops (.dec .w8) dbg) dbg nr 3 product
  holds (decide (product = [79, 63, 65, 0]))
  let nr : List Nat := []
  let product : List Nat := List.replicate 1 0
  let product ← mulDigitInto (DType.ops (.dec .w16) dbg) dbg nr 8739 product
  holds (decide (product = [0]))
  let nr : List Nat := [9935, 6193, 4324]
  let product : List Nat := List.replicate 4 0
  let product ← mulDigitInto (DType.ops (.dec .w16) dbg) dbg nr 8739 product
  holds (decide (product = [1965, 9309, 2848, 3779]))
  let nr : List Nat := [9935, 6193, 45]
  let product : List Nat := List.replicate 4 0
  let product ← mulDigitInto (DType.ops (.dec .w16) dbg) dbg nr 175 product
  holds (decide (product = [8625, 3948, 7983, 0]))
  let nr : List Nat := []
  let product : List Nat := List.replicate 1 0
  let product ← mulDigitInto (DType.ops (.dec .w32) dbg) dbg nr 123761987 product
  holds (decide (product = [0]))
  let nr : List Nat := [873817123, 999987999, 281784299]
  let product : List Nat := List.replicate 4 0
  let product ← mulDigitInto (DType.ops (.dec .w32) dbg) dbg nr 123761987 product
  holds (decide (product = [417103401, 840539356, 873402614, 34874184]))
  let nr : List Nat := [873817123, 999987999, 4299]
  let product : List Nat := List.replicate 4 0
  let product ← mulDigitInto (DType.ops (.dec .w32) dbg) dbg nr 2987 product
  holds (decide (product = [91746401, 964155623, 12844099, 0]))
  let nr : List Nat := [5873817123123777879, 7999987999345142555]
  let product : List Nat := List.replicate 3 0
  let product ← mulDigitInto (DType.ops (.dec .w64) dbg) dbg nr 6123761987748339967 product
  holds (decide (product = [3334168447886189993, 432382588376065863, 4899002241283267563]))

/-- `src/ubig/mul.rs:589-648`. -/
def ubig_mul_test_mul_pair_add_assign_digit_decimal (dbg : Bool) : R Unit := do
  let nr : List Nat := []
  let (nr, carry) ← mulPairAddAssignDigit (DType.ops (.dec .w8) dbg) nr 33 27 93
  holds (decide (nr = []))
  holds (decide (carry = (93, 0)))
  let nr : List Nat := [67]
  let (nr, carry) ← mulPairAddAssignDigit (DType.ops (.dec .w8) dbg) nr 33 27 93
  holds (decide (nr = [4]))
  holds (decide (carry = (32, 18)))
  let nr : List Nat := [99]
  let (nr, carry) ← mulPairAddAssignDigit (DType.ops (.dec .w8) dbg) nr 99 99 99
  holds (decide (nr = [0]))
  holds (decide (carry = (0, 99)))
  let nr : List Nat := [99, 99]
  let (nr, carry) ← mulPairAddAssignDigit (DType.ops (.dec .w8) dbg) nr 99 99 99
  holds (decide (nr = [0, 1]))
  holds (decide (carry = (98, 99)))
  let nr : List Nat := [18, 0, 90, 71, 12, 28, 27, 7]
  let (nr, carry) ← mulPairAddAssignDigit (DType.ops (.dec .w8) dbg) nr 23 67 92
  holds (decide (nr = [6, 11, 82, 83, 9, 99, 11, 95]))
  holds (decide (carry = (88, 4)))
  let nr : List Nat := List.replicate 8 99
  let (nr, carry) ← mulPairAddAssignDigit (DType.ops (.dec .w8) dbg) nr 99 99 99
  holds (decide (nr = [0, 1, 99, 99, 99, 99, 99, 99]))
  holds (decide (carry = (98, 99)))

/-- `src/ubig/mul/karatsuba.rs:159-243`. -/
def ubig_mul_karatsuba_test_mul_big_into_karatsuba_binary (dbg : Bool) : R Unit := do
  let nr0 : List Nat := [0, 0, 0, 0]
  let nr1 : List Nat := [1, 2, 3, 4]
  let result : List Nat := List.replicate 8 0
  let work : List Nat := List.replicate 16 0
  let (result, work,
    n) ← mulKaratsubaInto (DType.ops (.bin .w8) dbg) dbg (mulBigIntoWithWork (DType.ops (.bin .w8) dbg) dbg 100) nr0 nr1 result work
  holds (decide (n = 0))
  holds (decide (result = List.replicate 8 0))
  let nr0 : List Nat := [8, 9, 16, 17]
  let nr1 : List Nat := [1, 2, 3, 4]
  let result : List Nat := List.replicate 8 0
  let work : List Nat := List.replicate 16 0
  let (result, work,
    n) ← mulKaratsubaInto (DType.ops (.bin .w8) dbg) dbg (mulBigIntoWithWork (DType.ops (.bin .w8) dbg) dbg 100) nr0 nr1 result work
  holds (decide (n = 7))
  holds (decide (result = [8, 25, 58, 108, 118, 115, 68, 0]))
  let nr0 : List Nat := [8, 9, 16, 17, 248, 130]
  let nr1 : List Nat := [248, 130, 51, 244]
  let result : List Nat := List.replicate 10 0
  let work : List Nat := List.replicate 16 0
  let (result, work,
    n) ← mulKaratsubaInto (DType.ops (.bin .w8) dbg) dbg (mulBigIntoWithWork (DType.ops (.bin .w8) dbg) dbg 100) nr0 nr1 result work
  holds (decide (n = 10))
  holds (decide (result = [192, 207, 182, 24, 200, 135, 175, 202, 238, 124]))
  let nr0 : List Nat := [248, 130, 51, 244]
  let nr1 : List Nat := [8, 9, 16, 17, 248, 130]
  let result : List Nat := List.replicate 10 0
  let work : List Nat := List.replicate 16 0
  let (result, work,
    n) ← mulKaratsubaInto (DType.ops (.bin .w8) dbg) dbg (mulBigIntoWithWork (DType.ops (.bin .w8) dbg) dbg 100) nr0 nr1 result work
  holds (decide (n = 10))
  holds (decide (result = [192, 207, 182, 24, 200, 135, 175, 202, 238, 124]))
  let nr0 : List Nat := [8, 9, 16, 17, 248, 130]
  let nr1 : List Nat := [248, 130, 51, 244]
  let result : List Nat := List.replicate 10 0
  let work : List Nat := List.replicate 16 0
  let (result, work,
    n) ← mulKaratsubaInto (DType.ops (.bin .w64) dbg) dbg (mulBigIntoWithWork (DType.ops (.bin .w64) dbg) dbg 100) nr0 nr1 result work
  holds (decide (n = 9))
  holds (decide (result = [1984, 3272, 5546, 8707, 66726, 69251, 33696, 67142, 31720, 0]))

/-- `src/ubig/mul/karatsuba.rs:245-310`. -/
def ubig_mul_karatsuba_test_mul_big_into_karatsuba_decimal (dbg : Bool) : R Unit := do
  let nr0 : List Nat := [0, 0, 0, 0]
  let nr1 : List Nat := [1, 2, 3, 4]
  let result : List Nat := List.replicate 8 0
  let work : List Nat := List.replicate 16 0
  let (result, work,
    n) ← mulKaratsubaInto (DType.ops (.dec .w8) dbg) dbg (mulBigIntoWithWork (DType.ops (.dec .w8) dbg) dbg 100) nr0 nr1 result work
  holds (decide (n = 0))
  holds (decide (result = List.replicate 8 0))
  let nr0 : List Nat := [8, 9, 10, 11]
  let nr1 : List Nat := [1, 2, 3, 4]
  let result : List Nat := List.replicate 8 0
  let work : List Nat := List.replicate 16 0
  let (result, work,
    n) ← mulKaratsubaInto (DType.ops (.dec .w8) dbg) dbg (mulBigIntoWithWork (DType.ops (.dec .w8) dbg) dbg 100) nr0 nr1 result work
  holds (decide (n = 7))
  holds (decide (result = [8, 25, 52, 90, 88, 73, 44, 0]))
  let nr0 : List Nat := [8, 9, 10, 11, 98, 52]
  let nr1 : List Nat := [98, 52, 33, 94]
  let result : List Nat := List.replicate 10 0
  let work : List Nat := List.replicate 16 0
  let (result, work,
    n) ← mulKaratsubaInto (DType.ops (.dec .w8) dbg) dbg (mulBigIntoWithWork (DType.ops (.dec .w8) dbg) dbg 100) nr0 nr1 result work
  holds (decide (n = 10))
  holds (decide (result = [84, 5, 25, 64, 78, 8, 88, 98, 97, 49]))
  let nr0 : List Nat := [98, 52, 33, 94]
  let nr1 : List Nat := [8, 9, 10, 11, 98, 52]
  let result : List Nat := List.replicate 10 0
  let work : List Nat := List.replicate 16 0
  let (result, work,
    n) ← mulKaratsubaInto (DType.ops (.dec .w8) dbg) dbg (mulBigIntoWithWork (DType.ops (.dec .w8) dbg) dbg 100) nr0 nr1 result work
  holds (decide (n = 10))
  holds (decide (result = [84, 5, 25, 64, 78, 8, 88, 98, 97, 49]))

/-- `src/ubig/mul/karatsuba.rs:312-382`. -/
def ubig_mul_karatsuba_test_square_karatsuba_into_binary (dbg : Bool) : R Unit := do
  let nr0 : List Nat := [47, 244, 137, 18]
  let square : List Nat := List.replicate 8 0
  let work : List Nat := List.replicate 8 0
  let (square, work,
    n) ← squareKaratsubaInto (DType.ops (.bin .w8) dbg) dbg (squareIntoWithWork (DType.ops (.bin .w8) dbg) dbg 100) nr0 square work
  holds (decide (n = 8))
  holds (decide (square = [161, 160, 55, 223, 173, 176, 87, 1]))
  let nr0 : List Nat := [17722, 0, 0, 22191]
  let square : List Nat := List.replicate 8 0
  let work : List Nat := List.replicate 8 0
  let (square, work,
    n) ← squareKaratsubaInto (DType.ops (.bin .w16) dbg) dbg (squareIntoWithWork (DType.ops (.bin .w16) dbg) dbg 100) nr0 square work
  holds (decide (n = 8))
  holds (decide (square = [20772, 4792, 0, 40268, 12001, 0, 2977, 7514]))
  let nr0 : List Nat := [1922228020, 2208125690, 645136090]
  let square : List Nat := List.replicate 6 0
  let work : List Nat := List.replicate 8 0
  let (square, work,
    n) ← squareKaratsubaInto (DType.ops (.bin .w32) dbg) dbg (squareIntoWithWork (DType.ops (.bin .w32) dbg) dbg 100) nr0 square work
  holds (decide (n = 6))
  holds (decide (square = [2850792080, 250111133, 3240072079, 2202745785, 3575335851, 96904247]))
  let nr0 : List Nat := List.replicate 7 18446744073709551615
  let square : List Nat := List.replicate 14 0
  let work : List Nat := List.replicate 16 0
  let (square, work,
    n) ← squareKaratsubaInto (DType.ops (.bin .w64) dbg) dbg (squareIntoWithWork (DType.ops (.bin .w64) dbg) dbg 100) nr0 square work
  holds (decide (n = 14))
  holds (decide (square = [1, 0, 0, 0, 0, 0, 0, 18446744073709551614, 18446744073709551615,
    18446744073709551615, 18446744073709551615, 18446744073709551615, 18446744073709551615,
    18446744073709551615]))

/-- `src/ubig/mul/karatsuba.rs:384-456`. -/
def ubig_mul_karatsuba_test_square_karatsuba_into_decimal (dbg : Bool) : R Unit := do
  let nr0 : List Nat := [27, 86, 93, 2]
  let square : List Nat := List.replicate 8 0
  let work : List Nat := List.replicate 8 0
  let (square, work,
    n) ← squareKaratsubaInto (DType.ops (.dec .w8) dbg) dbg (squareIntoWithWork (DType.ops (.dec .w8) dbg) dbg 100) nr0 square work
  holds (decide (n = 7))
  holds (decide (square = [29, 51, 64, 28, 55, 63, 8, 0]))
  let nr0 : List Nat := [5673, 9872, 1234, 9999, 123]
  let square : List Nat := List.replicate 10 0
  let work : List Nat := List.replicate 14 0
  let (square, work,
    n) ← squareKaratsubaInto (DType.ops (.dec .w16) dbg) dbg (squareIntoWithWork (DType.ops (.dec .w16) dbg) dbg 100) nr0 square work
  holds (decide (n = 10))
  holds (decide (square = [2929, 930, 8549, 3896, 2352, 6079, 6277, 9782, 5375, 1]))
  let nr0 : List Nat := [872201010, 9872664, 23987345]
  let square : List Nat := List.replicate 6 0
  let work : List Nat := List.replicate 8 0
  let (square, work,
    n) ← squareKaratsubaInto (DType.ops (.dec .w32) dbg) dbg (squareIntoWithWork (DType.ops (.dec .w32) dbg) dbg 100) nr0 square work
  holds (decide (n = 6))
  holds (decide (square = [845020100, 785115881, 584115691, 36815202, 720622663, 575392]))
  let nr0 : List Nat := List.replicate 7 9876543210123456789
  let square : List Nat := List.replicate 14 0
  let work : List Nat := List.replicate 16 0
  let (square, work,
    n) ← squareKaratsubaInto (DType.ops (.dec .w64) dbg) dbg (squareIntoWithWork (DType.ops (.dec .w64) dbg) dbg 100) nr0 square work
  holds (decide (n = 14))
  holds (decide (square = [2267946958750190521, 4290504495643956714, 6313062032537722908,
    8335619569431489102, 358177106325255296, 2380734643219021491, 4403292180112787685,
    1889955799506172837, 9867398262612406645, 7844840725718640450, 5822283188824874256,
    3799725651931108062, 1777168115037341868, 9754610578143575674]))

/-- `src/ubig/mul/toom3.rs:446-480`. -/
def ubig_mul_toom3_test_big_into_toom3 (dbg : Bool) : R Unit := do
  let n : List Nat := [9012, 5678, 1234, 7890, 3456, 12]
  let m : List Nat := [1098, 5432, 9876, 4321, 8765, 9]
  let prod : List Nat := List.replicate 12 0
  let work : List Nat := List.replicate 28 0
  let (prod, work,
    nr_digits) ← mulToom3Into (DType.ops (.dec .w16) dbg) dbg (mulBigIntoWithWork (DType.ops (.dec .w16) dbg) dbg 100) n m prod work
  holds (decide (nr_digits = 11))
  holds (decide (prod = [5176, 8617, 5858, 5208, 6009, 4937, 1632, 6761, 3124, 9326, 121, 0]))
  let n : List Nat := [22, 99, 31, 227, 115, 152, 166, 22, 51, 114, 187]
  let m : List Nat := [114, 131, 143, 247, 114, 167, 161, 153, 74, 207, 50, 93]
  let prod : List Nat := List.replicate 23 0
  let work : List Nat := List.replicate 60 0
  let (prod, work,
    nr_digits) ← mulToom3Into (DType.ops (.bin .w8) dbg) dbg (mulBigIntoWithWork (DType.ops (.bin .w8) dbg) dbg 100) n m prod work
  holds (decide (nr_digits = 23))
  holds (decide (prod = [204, 97, 248, 198, 194, 209, 133, 99, 148, 231, 13, 156, 244, 203, 234, 23,
    159, 193, 43, 165, 176, 61, 68]))
  let n : List Nat := List.replicate 5 255
  let m : List Nat := List.replicate 5 255
  let prod : List Nat := List.replicate 10 0
  let work : List Nat := List.replicate 28 0
  let (prod, work,
    nr_digits) ← mulToom3Into (DType.ops (.bin .w8) dbg) dbg (mulBigIntoWithWork (DType.ops (.bin .w8) dbg) dbg 100) n m prod work
  holds (decide (nr_digits = 10))
  holds (decide (prod = [1, 0, 0, 0, 0, 254, 255, 255, 255, 255]))
  let n : List Nat := [0, 0, 0, 0, 0, 0, 0, 0, 1]
  let m : List Nat := [0, 0, 0, 0, 1]
  let prod : List Nat := List.replicate 14 0
  let work : List Nat := List.replicate 50 0
  let (prod, work,
    nr_digits) ← mulToom3Into (DType.ops (.dec .w8) dbg) dbg (mulBigIntoWithWork (DType.ops (.dec .w8) dbg) dbg 100) n m prod work
  holds (decide (nr_digits = 13))
  holds (decide (prod = [0, 0, 0, 0, 0, 0, 0, 0, 0, 0, 0, 0, 1, 0]))

/-- `src/ubig/mul/toom3.rs:482-598`. -/
def ubig_mul_toom3_test_square_toom3_into_binary (dbg : Bool) : R Unit := do
  let nr0 : List Nat := [47, 244, 137, 18, 3]
  let square : List Nat := List.replicate 10 0
  let work : List Nat := List.replicate 30 0
  let (square, work,
    n) ← squareToom3Into (DType.ops (.bin .w8) dbg) dbg (squareIntoWithWork (DType.ops (.bin .w8) dbg) dbg 100) nr0 square work
  holds (decide (n = 9))
  holds (decide (square = [161, 160, 55, 223, 199, 105, 147, 112, 9, 0]))
  let nr0 : List Nat := [17722, 0, 0, 0, 22191]
  let square : List Nat := List.replicate 10 0
  let work : List Nat := List.replicate 30 0
  let (square, work,
    n) ← squareToom3Into (DType.ops (.bin .w16) dbg) dbg (squareIntoWithWork (DType.ops (.bin .w16) dbg) dbg 100) nr0 square work
  holds (decide (n = 10))
  holds (decide (square = [20772, 4792, 0, 0, 40268, 12001, 0, 0, 2977, 7514]))
  let nr0 : List Nat := [1922228020, 2208125690, 645136090, 1929204686, 898110175, 4294967295,
    640669219, 845513090, 4252447452]
  let square : List Nat := List.replicate 18 0
  let work : List Nat := List.replicate 58 0
  let (square, work,
    n) ← squareToom3Into (DType.ops (.bin .w32) dbg) dbg (squareIntoWithWork (DType.ops (.bin .w32) dbg) dbg 100) nr0 square work
  holds (decide (n = 18))
  holds (decide (square = [2850792080, 250111133, 3240072079, 2704157545, 2914037430, 3707590297,
    269838995, 4042084337, 4264888740, 3073631480, 3483864436, 1809473334, 317072661, 2073193071,
    3631700970, 4117973806, 2389589359, 4210348551]))
  let nr0 : List Nat := List.replicate 17 18446744073709551615
  let square : List Nat := List.replicate 34 0
  let work : List Nat := List.replicate 100 0
  let (square, work,
    n) ← squareToom3Into (DType.ops (.bin .w64) dbg) dbg (squareIntoWithWork (DType.ops (.bin .w64) dbg) dbg 100) nr0 square work
  holds (decide (n = 34))
  holds (decide (square = [1, 0, 0, 0, 0, 0, 0, 0, 0, 0, 0, 0, 0, 0, 0, 0, 0, 18446744073709551614,
    18446744073709551615, 18446744073709551615, 18446744073709551615, 18446744073709551615,
    18446744073709551615, 18446744073709551615, 18446744073709551615, 18446744073709551615,
    18446744073709551615, 18446744073709551615, 18446744073709551615, 18446744073709551615,
    18446744073709551615, 18446744073709551615, 18446744073709551615, 18446744073709551615]))

/-- `src/ubig/mul/toom3.rs:600-690`. -/
def ubig_mul_toom3_test_square_toom3_into_decimal (dbg : Bool) : R Unit := do
  let nr0 : List Nat := [27, 86, 0, 93, 2]
  let square : List Nat := List.replicate 10 0
  let work : List Nat := List.replicate 30 0
  let (square, work,
    n) ← squareToom3Into (DType.ops (.dec .w8) dbg) dbg (squareIntoWithWork (DType.ops (.dec .w8) dbg) dbg 100) nr0 square work
  holds (decide (n = 9))
  holds (decide (square = [29, 51, 42, 96, 54, 5, 54, 58, 8, 0]))
  let nr0 : List Nat := [5673, 9872, 1234, 9999, 123]
  let square : List Nat := List.replicate 10 0
  let work : List Nat := List.replicate 30 0
  let (square, work,
    n) ← squareToom3Into (DType.ops (.dec .w16) dbg) dbg (squareIntoWithWork (DType.ops (.dec .w16) dbg) dbg 100) nr0 square work
  holds (decide (n = 10))
  holds (decide (square = [2929, 930, 8549, 3896, 2352, 6079, 6277, 9782, 5375, 1]))
  let nr0 : List Nat := [872201010, 9872664, 23987345, 234198372, 929821119, 909928872, 373444756]
  let square : List Nat := List.replicate 14 0
  let work : List Nat := List.replicate 58 0
  let (square, work,
    n) ← squareToom3Into (DType.ops (.dec .w32) dbg) dbg (squareIntoWithWork (DType.ops (.dec .w32) dbg) dbg 100) nr0 square work
  holds (decide (n = 14))
  holds (decide (square = [845020100, 785115881, 584115691, 234326642, 23625172, 271489707,
    762922611, 164247573, 142583099, 29860931, 783458785, 685234659, 463515868, 139460986]))
  let nr0 : List Nat := List.replicate 7 9876543210123456789
  let square : List Nat := List.replicate 14 0
  let work : List Nat := List.replicate 100 0
  let (square, work,
    n) ← squareToom3Into (DType.ops (.dec .w64) dbg) dbg (squareIntoWithWork (DType.ops (.dec .w64) dbg) dbg 100) nr0 square work
  holds (decide (n = 14))
  holds (decide (square = [2267946958750190521, 4290504495643956714, 6313062032537722908,
    8335619569431489102, 358177106325255296, 2380734643219021491, 4403292180112787685,
    1889955799506172837, 9867398262612406645, 7844840725718640450, 5822283188824874256,
    3799725651931108062, 1777168115037341868, 9754610578143575674]))

/-- `src/ubig/mul/long.rs:76-154`. -/
def ubig_mul_long_test_mul_big_long_into_binary (dbg : Bool) : R Unit := do
  let nr0 : List Nat := []
  let nr1 : List Nat := [127, 54, 35]
  let result : List Nat := List.replicate 3 0
  let (result, n) ← mulBigLongInto (DType.ops (.bin .w8) dbg) nr0 nr1 result
  holds (decide (n = 0))
  holds (decide (result = List.replicate 3 0))
  let nr0 : List Nat := [128]
  let nr1 : List Nat := [127, 54, 35]
  let result : List Nat := List.replicate 4 0
  let (result, n) ← mulBigLongInto (DType.ops (.bin .w8) dbg) nr0 nr1 result
  holds (decide (n = 4))
  holds (decide (result = [128, 63, 155, 17]))
  let nr0 : List Nat := [128, 101, 33, 254, 156]
  let nr1 : List Nat := [127, 54, 35]
  let result : List Nat := List.replicate 8 0
  let (result, n) ← mulBigLongInto (DType.ops (.bin .w8) dbg) nr0 nr1 result
  holds (decide (n = 8))
  holds (decide (result = [128, 90, 122, 254, 13, 42, 152, 21]))
  let nr0 : List Nat := [127, 54, 35]
  let nr1 : List Nat := [128, 101, 33, 254, 156]
  let result : List Nat := List.replicate 8 0
  let (result, n) ← mulBigLongInto (DType.ops (.bin .w8) dbg) nr0 nr1 result
  holds (decide (n = 8))
  holds (decide (result = [128, 90, 122, 254, 13, 42, 152, 21]))
  let nr0 : List Nat := [32562, 13949, 9120]
  let nr1 : List Nat := [32776, 25923, 8703, 254]
  let result : List Nat := List.replicate 7 0
  let (result, n) ← mulBigLongInto (DType.ops (.bin .w16) dbg) nr0 nr1 result
  holds (decide (n = 7))
  holds (decide (result = [63888, 30618, 8981, 16962, 16952, 23985, 35]))
  let nr0 : List Nat := [32562, 13949, 9120]
  let nr1 : List Nat := [32776, 25923, 8703, 254]
  let result : List Nat := List.replicate 7 0
  let (result, n) ← mulBigLongInto (DType.ops (.bin .w32) dbg) nr0 nr1 result
  holds (decide (n = 6))
  holds (decide (result = [1067252112, 1301297150, 943904133, 366086655, 82914406, 2316480, 0]))

/-- `src/ubig/mul/long.rs:156-234`. -/
def ubig_mul_long_test_mul_big_long_into_decimal (dbg : Bool) : R Unit := do
  let nr0 : List Nat := []
  let nr1 : List Nat := [49, 36, 23]
  let result : List Nat := List.replicate 3 0
  let (result, n) ← mulBigLongInto (DType.ops (.dec .w8) dbg) nr0 nr1 result
  holds (decide (n = 0))
  holds (decide (result = List.replicate 3 0))
  let nr0 : List Nat := [50]
  let nr1 : List Nat := [49, 36, 23]
  let result : List Nat := List.replicate 4 0
  let (result, n) ← mulBigLongInto (DType.ops (.dec .w8) dbg) nr0 nr1 result
  holds (decide (n = 4))
  holds (decide (result = [50, 24, 68, 11]))
  let nr0 : List Nat := [50, 65, 21, 98, 95]
  let nr1 : List Nat := [49, 36, 23]
  let result : List Nat := List.replicate 8 0
  let (result, n) ← mulBigLongInto (DType.ops (.dec .w8) dbg) nr0 nr1 result
  holds (decide (n = 8))
  holds (decide (result = [50, 9, 69, 98, 36, 61, 42, 22]))
  let nr0 : List Nat := [49, 36, 23]
  let nr1 : List Nat := [50, 65, 21, 98, 95]
  let result : List Nat := List.replicate 8 0
  let (result, n) ← mulBigLongInto (DType.ops (.dec .w8) dbg) nr0 nr1 result
  holds (decide (n = 8))
  holds (decide (result = [50, 9, 69, 98, 36, 61, 42, 22]))
  let nr0 : List Nat := [7932, 3677, 2380]
  let nr1 : List Nat := [8008, 6543, 2155, 98]
  let result : List Nat := List.replicate 7 0
  let (result, n) ← mulBigLongInto (DType.ops (.dec .w16) dbg) nr0 nr1 result
  holds (decide (n = 7))
  holds (decide (result = [9456, 843, 9246, 9632, 1673, 3789, 23]))
  let nr0 : List Nat := [7932, 3677, 2380]
  let nr1 : List Nat := [8008, 6543, 2155, 98]
  let result : List Nat := List.replicate 7 0
  let (result, n) ← mulBigLongInto (DType.ops (.dec .w32) dbg) nr0 nr1 result
  holds (decide (n = 6))
  holds (decide (result = [63519456, 81344492, 60211111, 24273611, 5489246, 233240, 0]))

/-- `src/ubig/mul/long.rs:236-305`. -/
def ubig_mul_long_test_square_long_into_binary (dbg : Bool) : R Unit := do
  let nr0 : List Nat := []
  let square : List Nat := []
  let (square, n) ← squareLongInto (DType.ops (.bin .w8) dbg) dbg nr0 square
  holds (decide (n = 0))
  holds (decide (square = []))
  let nr0 : List Nat := [9]
  let square : List Nat := List.replicate 2 0
  let (square, n) ← squareLongInto (DType.ops (.bin .w8) dbg) dbg nr0 square
  holds (decide (n = 1))
  holds (decide (square = [81, 0]))
  let nr0 : List Nat := [47]
  let square : List Nat := List.replicate 2 0
  let (square, n) ← squareLongInto (DType.ops (.bin .w8) dbg) dbg nr0 square
  holds (decide (n = 2))
  holds (decide (square = [161, 8]))
  let nr0 : List Nat := [47, 244, 137, 18]
  let square : List Nat := List.replicate 8 0
  let (square, n) ← squareLongInto (DType.ops (.bin .w8) dbg) dbg nr0 square
  holds (decide (n = 8))
  holds (decide (square = [161, 160, 55, 223, 173, 176, 87, 1]))
  let nr0 : List Nat := [1922228020, 2208125690, 645136090]
  let square : List Nat := List.replicate 6 0
  let (square, n) ← squareLongInto (DType.ops (.bin .w32) dbg) dbg nr0 square
  holds (decide (n = 6))
  holds (decide (square = [2850792080, 250111133, 3240072079, 2202745785, 3575335851, 96904247]))
  let nr0 : List Nat := List.replicate 7 18446744073709551615
  let square : List Nat := List.replicate 14 0
  let (square, n) ← squareLongInto (DType.ops (.bin .w64) dbg) dbg nr0 square
  holds (decide (n = 14))
  holds (decide (square = [1, 0, 0, 0, 0, 0, 0, 18446744073709551614, 18446744073709551615,
    18446744073709551615, 18446744073709551615, 18446744073709551615, 18446744073709551615,
    18446744073709551615]))

/-- `src/ubig/mul/long.rs:307-376`. -/
def ubig_mul_long_test_square_long_into_decimal (dbg : Bool) : R Unit := do
  let nr0 : List Nat := []
  let square : List Nat := []
  let (square, n) ← squareLongInto (DType.ops (.dec .w8) dbg) dbg nr0 square
  holds (decide (n = 0))
  holds (decide (square = []))
  let nr0 : List Nat := [9]
  let square : List Nat := List.replicate 2 0
  let (square, n) ← squareLongInto (DType.ops (.dec .w8) dbg) dbg nr0 square
  holds (decide (n = 1))
  holds (decide (square = [81, 0]))
  let nr0 : List Nat := [27]
  let square : List Nat := List.replicate 2 0
  let (square, n) ← squareLongInto (DType.ops (.dec .w8) dbg) dbg nr0 square
  holds (decide (n = 2))
  holds (decide (square = [29, 7]))
  let nr0 : List Nat := [27, 86, 93, 2]
  let square : List Nat := List.replicate 8 0
  let (square, n) ← squareLongInto (DType.ops (.dec .w8) dbg) dbg nr0 square
  holds (decide (n = 7))
  holds (decide (square = [29, 51, 64, 28, 55, 63, 8, 0]))
  let nr0 : List Nat := [872201010, 9872664, 23987345]
  let square : List Nat := List.replicate 6 0
  let (square, n) ← squareLongInto (DType.ops (.dec .w32) dbg) dbg nr0 square
  holds (decide (n = 6))
  holds (decide (square = [845020100, 785115881, 584115691, 36815202, 720622663, 575392]))
  let nr0 : List Nat := List.replicate 7 9876543210123456789
  let square : List Nat := List.replicate 14 0
  let (square, n) ← squareLongInto (DType.ops (.dec .w64) dbg) dbg nr0 square
  holds (decide (n = 14))
  holds (decide (square = [2267946958750190521, 4290504495643956714, 6313062032537722908,
    8335619569431489102, 358177106325255296, 2380734643219021491, 4403292180112787685,
    1889955799506172837, 9867398262612406645, 7844840725718640450, 5822283188824874256,
    3799725651931108062, 1777168115037341868, 9754610578143575674]))

/-- `src/ubig/div.rs:267-294`. -/
def ubig_div_test_rem_digit_binary (dbg : Bool) : R Unit := do
  let n : List Nat := []
  let r0 ← remDigit (DType.ops (.bin .w8) dbg) n 35
  let rem ← unwrapR r0
  holds (decide (rem = 0))
  let n : List Nat := [52, 35, 172, 111]
  let r0 ← remDigit (DType.ops (.bin .w8) dbg) n 35
  let rem ← unwrapR r0
  holds (decide (rem = 10))
  let n : List Nat := [52, 35, 172, 111]
  let r0 ← remDigit (DType.ops (.bin .w16) dbg) n 35
  let rem ← unwrapR r0
  holds (decide (rem = 25))
  let n : List Nat := [879914965, 591822847, 1174404436]
  let r0 ← remDigit (DType.ops (.bin .w32) dbg) n 2772390957
  let rem ← unwrapR r0
  holds (decide (rem = 389222214))
  let n : List Nat := [11765415421197772322, 1311768465459544063, 5044028648503528140,
    5044028648503528140]
  let r0 ← remDigit (DType.ops (.bin .w64) dbg) n 11907328493212270115
  let rem ← unwrapR r0
  holds (decide (rem = 6030542080169228410))

/-- `src/ubig/div.rs:296-323`. -/
def ubig_div_test_rem_digit_decimal (dbg : Bool) : R Unit := do
  let n : List Nat := []
  let r0 ← remDigit (DType.ops (.dec .w8) dbg) n 23
  let rem ← unwrapR r0
  holds (decide (rem = 0))
  let n : List Nat := [34, 23, 87, 94]
  let r0 ← remDigit (DType.ops (.dec .w8) dbg) n 23
  let rem ← unwrapR r0
  holds (decide (rem = 2))
  let n : List Nat := [34, 23, 87, 94]
  let r0 ← remDigit (DType.ops (.dec .w16) dbg) n 23
  let rem ← unwrapR r0
  holds (decide (rem = 4))
  let n : List Nat := [786333654, 877956000, 999]
  let r0 ← remDigit (DType.ops (.dec .w32) dbg) n 746338876
  let rem ← unwrapR r0
  holds (decide (rem = 589833110))
  let n : List Nat := [4887845550996777877, 3569987999789676455, 6767888677923221344,
    2898999342484877009]
  let r0 ← remDigit (DType.ops (.dec .w64) dbg) n 3575466978777965622
  let rem ← unwrapR r0
  holds (decide (rem = 3225957266729764797))

/-- `src/ubig/div.rs:325-357`. -/
def ubig_div_test_div3_carry_assign_binary (dbg : Bool) : R Unit := do
  let n : List Nat := []
  let (n, nd, rem) ← div3CarryAssign (DType.ops (.bin .w8) dbg) n 0
  holds (decide (nd = 0))
  holds (decide (rem = 0))
  holds (decide (n = []))
  let n : List Nat := [0, 250, 19, 242]
  let (n, nd, rem) ← div3CarryAssign (DType.ops (.bin .w8) dbg) n 2
  holds (decide (nd = 4))
  holds (decide (rem = 0))
  holds (decide (n = [0, 254, 91, 251]))
  let n : List Nat := [30239, 64061, 7226]
  let (n, nd, rem) ← div3CarryAssign (DType.ops (.bin .w16) dbg) n 0
  holds (decide (nd = 3))
  holds (decide (rem = 0))
  holds (decide (n = [31925, 65044, 2408]))
  let n : List Nat := [392296566, 4198367203, 473608728]
  let (n, nd, rem) ← div3CarryAssign (DType.ops (.bin .w32) dbg) n 1
  holds (decide (nd = 3))
  holds (decide (rem = 2))
  holds (decide (n = [2994077052, 2831111499, 1589525341]))
  let n : List Nat := [1684900923318956021, 9738739477731213283, 1]
  let (n, nd, rem) ← div3CarryAssign (DType.ops (.bin .w64) dbg) n 0
  holds (decide (nd = 2))
  holds (decide (rem = 1))
  holds (decide (n = [12859463023579353084, 9395161183813588299, 0]))

/-- `src/ubig/div.rs:359-397`. -/
def ubig_div_test_div3_carry_assign_decimal (dbg : Bool) : R Unit := do
  let n : List Nat := []
  let (n, nd, rem) ← div3CarryAssign (DType.ops (.dec .w8) dbg) n 2
  holds (decide (nd = 0))
  holds (decide (rem = 2))
  holds (decide (n = []))
  let n : List Nat := [0, 35, 98, 22]
  let (n, nd, rem) ← div3CarryAssign (DType.ops (.dec .w8) dbg) n 2
  holds (decide (nd = 4))
  holds (decide (rem = 1))
  holds (decide (n = [33, 78, 32, 74]))
  let n : List Nat := [0, 0, 1]
  let (n, nd, rem) ← div3CarryAssign (DType.ops (.dec .w16) dbg) n 1
  holds (decide (nd = 3))
  holds (decide (rem = 2))
  holds (decide (n = [6666, 6666, 3333]))
  let n : List Nat := [0, 0, 1]
  let (n, nd, rem) ← div3CarryAssign (DType.ops (.dec .w16) dbg) n 0
  holds (decide (nd = 2))
  holds (decide (rem = 1))
  holds (decide (n = [3333, 3333, 0]))
  let n : List Nat := [891563891, 821976524, 321098000]
  let (n, nd, rem) ← div3CarryAssign (DType.ops (.dec .w32) dbg) n 0
  holds (decide (nd = 3))
  holds (decide (rem = 0))
  holds (decide (n = [630521297, 940658841, 107032666]))
  let n : List Nat := [5891563891999567342, 1821976524213465888]
  let (n, nd, rem) ← div3CarryAssign (DType.ops (.dec .w64) dbg) n 1
  holds (decide (nd = 2))
  holds (decide (rem = 2))
  holds (decide (n = [5297187963999855780, 3940658841404488629]))

/-- `src/ubig/div.rs:399-431`. -/
def ubig_div_test_div_assign_digit_binary (dbg : Bool) : R Unit := do
  let n : List Nat := []
  let (n, r0) ← divAssignDigit (DType.ops (.bin .w8) dbg) n 83
  let (nquot, rem) ← unwrapR r0
  holds (decide (n = []))
  holds (decide (nquot = 0))
  holds (decide (rem = 0))
  let n : List Nat := [0, 68, 83, 172]
  let (n, r0) ← divAssignDigit (DType.ops (.bin .w8) dbg) n 83
  let (nquot, rem) ← unwrapR r0
  holds (decide (n = [92, 130, 19, 2]))
  holds (decide (nquot = 4))
  holds (decide (rem = 44))
  let n : List Nat := [0, 68, 83, 172]
  let (n, r0) ← divAssignDigit (DType.ops (.bin .w8) dbg) n 230
  let (nquot, rem) ← unwrapR r0
  holds (decide (n = [53, 206, 191, 0]))
  holds (decide (nquot = 3))
  holds (decide (rem = 98))
  let n : List Nat := [0, 68, 83, 172]
  let (n, r0) ← divAssignDigit (DType.ops (.bin .w16) dbg) n 230
  let (nquot, rem) ← unwrapR r0
  holds (decide (n = [53568, 58412, 49009, 0]))
  holds (decide (nquot = 3))
  holds (decide (rem = 128))
  let n : List Nat := [141960744, 1795096132, 964798317, 172]
  let (n, r0) ← divAssignDigit (DType.ops (.bin .w32) dbg) n 3867634243
  let (nquot, rem) ← unwrapR r0
  holds (decide (n = [3883525156, 1089426661, 191, 0]))
  holds (decide (nquot = 3))
  holds (decide (rem = 1411156156))

/-- `src/ubig/div.rs:433-465`. -/
def ubig_div_test_div_assign_digit_decimal (dbg : Bool) : R Unit := do
  let n : List Nat := []
  let (n, r0) ← divAssignDigit (DType.ops (.dec .w8) dbg) n 53
  let (nquot, rem) ← unwrapR r0
  holds (decide (n = []))
  holds (decide (nquot = 0))
  holds (decide (rem = 0))
  let n : List Nat := [0, 44, 53, 87]
  let (n, r0) ← divAssignDigit (DType.ops (.dec .w8) dbg) n 53
  let (nquot, rem) ← unwrapR r0
  holds (decide (n = [92, 15, 65, 1]))
  holds (decide (nquot = 4))
  holds (decide (rem = 24))
  let n : List Nat := [0, 44, 53, 87]
  let (n, r0) ← divAssignDigit (DType.ops (.dec .w8) dbg) n 99
  let (nquot, rem) ← unwrapR r0
  holds (decide (n = [85, 41, 88, 0]))
  holds (decide (nquot = 3))
  holds (decide (rem = 85))
  let n : List Nat := [0, 44, 53, 87]
  let (n, r0) ← divAssignDigit (DType.ops (.dec .w16) dbg) n 99
  let (nquot, rem) ← unwrapR r0
  holds (decide (n = [8585, 4141, 8788, 0]))
  holds (decide (nquot = 3))
  holds (decide (rem = 85))
  let n : List Nat := [987654321, 123456789, 999888777, 444555666]
  let (n, r0) ← divAssignDigit (DType.ops (.dec .w32) dbg) n 918273645
  let (nquot, rem) ← unwrapR r0
  holds (decide (n = [669748356, 650930945, 484121121, 0]))
  holds (decide (nquot = 3))
  holds (decide (rem = 890776701))

/-- `src/ubig/div.rs:467-477`. -/
def ubig_div_test_div_assign_digit_zero (dbg : Bool) : R Unit := do
  let n : List Nat := [16140763015798990376, 8318115936221462084, 964798317, 172]
  let (n, res) ← divAssignDigit (DType.ops (.bin .w64) dbg) n 0
  holds (decide (res = (.error .divisionByZero)))
  let n : List Nat := [0, 44, 53, 87]
  let (n, res) ← divAssignDigit (DType.ops (.dec .w8) dbg) n 0
  holds (decide (res = (.error .divisionByZero)))

/-- `src/ubig/div.rs:479-523`. -/
def ubig_div_test_div_assign_digit_pair_binary (dbg : Bool) : R Unit := do
  let n : List Nat := []
  let (n, r0) ← divAssignDigitPair (DType.ops (.bin .w8) dbg) n 4 5
  let (nquot, rem_low, rem_high) ← unwrapR r0
  holds (decide (n = []))
  holds (decide (nquot = 0))
  holds (decide (rem_low = 0))
  holds (decide (rem_high = 0))
  let n : List Nat := [136]
  let (n, r0) ← divAssignDigitPair (DType.ops (.bin .w8) dbg) n 4 5
  let (nquot, rem_low, rem_high) ← unwrapR r0
  holds (decide (n = [0]))
  holds (decide (nquot = 0))
  holds (decide (rem_low = 136))
  holds (decide (rem_high = 0))
  let n : List Nat := [136, 4]
  let (n, r0) ← divAssignDigitPair (DType.ops (.bin .w8) dbg) n 4 5
  let (nquot, rem_low, rem_high) ← unwrapR r0
  holds (decide (n = [0, 0]))
  holds (decide (nquot = 0))
  holds (decide (rem_low = 136))
  holds (decide (rem_high = 4))
  let n : List Nat := [1, 2, 3]
  let (n, r0) ← divAssignDigitPair (DType.ops (.bin .w8) dbg) n 4 5
  let (nquot, rem_low, rem_high) ← unwrapR r0
  holds (decide (n = [153, 0, 0]))
  holds (decide (nquot = 1))
  holds (decide (rem_low = 157))
  holds (decide (rem_high = 2))
  let n : List Nat := [20808, 421, 64786, 33190, 6531, 65530, 35409, 32657]
  let (n, r0) ← divAssignDigitPair (DType.ops (.bin .w16) dbg) n 34657 4269
  let (nquot, rem_low, rem_high) ← unwrapR r0
  holds (decide (n = [56390, 61452, 46731, 52492, 35988, 42531, 7, 0]))
  holds (decide (nquot = 7))
  holds (decide (rem_low = 61634))
  holds (decide (rem_high = 2382))
  let n : List Nat := [27611464, 2175204626, 4294580611, 2140244561]
  let (n, r0) ← divAssignDigitPair (DType.ops (.bin .w32) dbg) n 2271285421 5
  let (nquot, rem_low, rem_high) ← unwrapR r0
  holds (decide (n = [3101931975, 1027419158, 387106595, 0]))
  holds (decide (nquot = 3))
  holds (decide (rem_low = 2126337485))
  holds (decide (rem_high = 4))

/-- `src/ubig/div.rs:525-576`. -/
def ubig_div_test_div_assign_digit_pair_decimal (dbg : Bool) : R Unit := do
  let n : List Nat := []
  let (n, r0) ← divAssignDigitPair (DType.ops (.dec .w8) dbg) n 4 5
  let (nquot, rem_low, rem_high) ← unwrapR r0
  holds (decide (n = []))
  holds (decide (nquot = 0))
  holds (decide (rem_low = 0))
  holds (decide (rem_high = 0))
  let n : List Nat := [88]
  let (n, r0) ← divAssignDigitPair (DType.ops (.dec .w8) dbg) n 4 5
  let (nquot, rem_low, rem_high) ← unwrapR r0
  holds (decide (n = [0]))
  holds (decide (nquot = 0))
  holds (decide (rem_low = 88))
  holds (decide (rem_high = 0))
  let n : List Nat := [88, 4]
  let (n, r0) ← divAssignDigitPair (DType.ops (.dec .w8) dbg) n 4 5
  let (nquot, rem_low, rem_high) ← unwrapR r0
  holds (decide (n = [0, 0]))
  holds (decide (nquot = 0))
  holds (decide (rem_low = 88))
  holds (decide (rem_high = 4))
  let n : List Nat := [1, 2, 3]
  let (n, r0) ← divAssignDigitPair (DType.ops (.dec .w8) dbg) n 4 5
  let (nquot, rem_low, rem_high) ← unwrapR r0
  holds (decide (n = [59, 0, 0]))
  holds (decide (nquot = 1))
  holds (decide (rem_low = 65))
  holds (decide (rem_high = 4))
  let n : List Nat := [8291, 9818, 1782, 8181, 79, 3181, 9716, 2191]
  let (n, r0) ← divAssignDigitPair (DType.ops (.dec .w16) dbg) n 4534 1982
  let (nquot, rem_low, rem_high) ← unwrapR r0
  holds (decide (n = [7899, 6751, 5211, 3817, 8633, 1056, 1, 0]))
  holds (decide (nquot = 7))
  holds (decide (rem_low = 4225))
  holds (decide (rem_high = 1385))
  let n : List Nat := [738181009, 198118981, 345123731, 673291756]
  let (n, r0) ← divAssignDigitPair (DType.ops (.dec .w32) dbg) n 21 287278981
  let (nquot, rem_low, rem_high) ← unwrapR r0
  holds (decide (n = [102985940, 343686106, 2, 0]))
  holds (decide (nquot = 3))
  holds (decide (rem_low = 575476269))
  holds (decide (rem_high = 80183613))
  let n : List Nat := [17, 29, 98]
  let (n, r0) ← divAssignDigitPair (DType.ops (.dec .w8) dbg) n 93 93
  let (nquot, rem_low, rem_high) ← unwrapR r0
  holds (decide (n = [4, 1, 0]))
  holds (decide (nquot = 2))
  holds (decide (rem_low = 45))
  holds (decide (rem_high = 60))

/-- `src/ubig/div.rs:578-588`. -/
def ubig_div_test_div_assign_digit_pair_zero (dbg : Bool) : R Unit := do
  let n : List Nat := [1, 2, 3]
  let (n, res) ← divAssignDigitPair (DType.ops (.bin .w8) dbg) n 0 0
  holds (decide (res = (.error .divisionByZero)))
  let n : List Nat := [8291, 9818, 1782, 8181, 79, 3181, 9716, 2191]
  let (n, res) ← divAssignDigitPair (DType.ops (.dec .w16) dbg) n 0 0
  holds (decide (res = (.error .divisionByZero)))

/-- `src/ubig/div.rs:590-638`. -/
def ubig_div_test_div_big_den_gt_num (dbg : Bool) : R Unit := do
  let num : List Nat := []
  let den : List Nat := [83, 18, 145]
  let quot : List Nat := List.replicate 0 0
  let (num, quot, r0) ← divBig (DType.ops (.bin .w8) dbg) dbg num den quot
  let (nquot, nrem) ← unwrapR r0
  holds (decide (nquot = 0))
  holds (decide (nrem = 0))
  holds (decide (quot = []))
  holds (decide (num = []))
  let num : List Nat := [7436709619801474365, 7426998774730642687]
  let den : List Nat := [17716942815846690293, 1311768466913966210, 1668444159]
  let quot : List Nat := List.replicate 3 0
  let (num, quot, r0) ← divBig (DType.ops (.bin .w64) dbg) dbg num den quot
  let (nquot, nrem) ← unwrapR r0
  holds (decide (nquot = 0))
  holds (decide (nrem = 2))
  holds (decide (quot = [0, 0, 0]))
  holds (decide ((num.take nrem) = [7436709619801474365, 7426998774730642687]))
  let num : List Nat := []
  let den : List Nat := [53, 12, 91]
  let quot : List Nat := List.replicate 0 0
  let (num, quot, r0) ← divBig (DType.ops (.dec .w8) dbg) dbg num den quot
  let (nquot, nrem) ← unwrapR r0
  holds (decide (nquot = 0))
  holds (decide (nrem = 0))
  holds (decide (quot = []))
  holds (decide (num = []))
  let num : List Nat := [2827928982748837756, 9987857888374321333]
  let den : List Nat := [3464444454444454777, 9399999474765588888, 867984998999572288]
  let quot : List Nat := List.replicate 3 0
  let (num, quot, r0) ← divBig (DType.ops (.dec .w64) dbg) dbg num den quot
  let (nquot, nrem) ← unwrapR r0
  holds (decide (nquot = 0))
  holds (decide (nrem = 2))
  holds (decide (quot = [0, 0, 0]))
  holds (decide ((num.take nrem) = [2827928982748837756, 9987857888374321333]))

/-- `src/ubig/div.rs:640-654`. -/
def ubig_div_test_div_big_zero (dbg : Bool) : R Unit := do
  let num : List Nat := [1, 2, 3]
  let den : List Nat := []
  let quot : List Nat := List.replicate 4 0
  let (num, quot, res) ← divBig (DType.ops (.bin .w8) dbg) dbg num den quot
  holds (decide (res = (.error .divisionByZero)))
  let num : List Nat := [1, 2, 3]
  let den : List Nat := []
  let quot : List Nat := List.replicate 4 0
  let (num, quot, res) ← divBig (DType.ops (.dec .w64) dbg) dbg num den quot
  holds (decide (res = (.error .divisionByZero)))

/-- `src/ubig/div.rs:656-670`. -/
def ubig_div_test_div_big_no_space (dbg : Bool) : R Unit := do
  let num : List Nat := [1, 2, 3, 4, 5]
  let den : List Nat := [1, 2, 3]
  let quot : List Nat := List.replicate 2 0
  let (num, quot, res) ← divBig (DType.ops (.bin .w8) dbg) dbg num den quot
  holds (decide (res = (.error .noSpace)))
  let num : List Nat := [1, 2, 3, 4, 5]
  let den : List Nat := [1, 2, 3, 4]
  let quot : List Nat := List.replicate 1 0
  let (num, quot, res) ← divBig (DType.ops (.dec .w64) dbg) dbg num den quot
  holds (decide (res = (.error .noSpace)))

/-- `src/ubig/div.rs:672-704`. -/
def ubig_div_test_div_big_two_digits (dbg : Bool) : R Unit := do
  let num : List Nat := [26420, 26386, 10749, 65331, 25980]
  let den : List Nat := [32243, 291]
  let quot : List Nat := List.replicate 4 0
  let (num, quot, r0) ← divBig (DType.ops (.bin .w16) dbg) dbg num den quot
  let (nquot, nrem) ← unwrapR r0
  holds (decide (nquot = 4))
  holds (decide (nrem = 2))
  holds (decide (quot = [8269, 45860, 8590, 89]))
  holds (decide ((num.take nrem) = [9501, 123]))
  let num : List Nat := [4453, 3885, 3324, 8998, 6754]
  let den : List Nat := [3756, 123]
  let quot : List Nat := List.replicate 4 0
  let (num, quot, r0) ← divBig (DType.ops (.dec .w16) dbg) dbg num den quot
  let (nquot, nrem) ← unwrapR r0
  holds (decide (nquot = 4))
  holds (decide (nrem = 2))
  holds (decide (quot = [6267, 9489, 7506, 54]))
  holds (decide ((num.take nrem) = [5601, 6]))

/-- `src/ubig/div/long.rs:140-209`. -/
def ubig_div_long_test_div_big_long_binary (dbg : Bool) : R Unit := do
  let num : List Nat := [67, 152, 18, 254, 242, 67]
  let den : List Nat := [83, 18, 145]
  let quot : List Nat := List.replicate 4 0
  let work : List Nat := List.replicate 4 0
  let (num, quot, work, nquot, nrem) ← divBigLong (DType.ops (.bin .w8) dbg) dbg num den quot work
  holds (decide (nquot = 3))
  holds (decide (nrem = 3))
  holds (decide (quot = [1, 232, 119, 0]))
  holds (decide ((num.take nrem) = [240, 77, 81]))
  let num : List Nat := [1731493887, 1729232905, 704464893, 4281597747, 1702676866]
  let den : List Nat := [2046778867, 305419896, 1668444159]
  let quot : List Nat := List.replicate 3 0
  let work : List Nat := List.replicate 4 0
  let (num, quot, work, nquot, nrem) ← divBigLong (DType.ops (.bin .w32) dbg) dbg num den quot work
  holds (decide (nquot = 3))
  holds (decide (nrem = 3))
  holds (decide (quot = [3362587602, 88123033, 1]))
  holds (decide ((num.take nrem) = [2099811753, 775519339, 85991414]))
  let num : List Nat := [7436709619801474365, 7426998774730642687, 7426998774730642687,
    7426998774730642687, 7426998774730642687, 7426998774730642687, 7426998774730642687,
    7426998774730642687, 7426998774730642687, 7426998774730642687]
  let den : List Nat := [17716942815846690293, 1311768466913966210, 1668444159]
  let quot : List Nat := List.replicate 8 0
  let work : List Nat := List.replicate 4 0
  let (num, quot, work, nquot, nrem) ← divBigLong (DType.ops (.bin .w64) dbg) dbg num den quot work
  holds (decide (nquot = 8))
  holds (decide (nrem = 3))
  holds (decide (quot = [2880254166490874858, 4277942008652874995, 1663998660641081677,
    6765542184904822184, 356339746554236080, 9676148762056239945, 14164975984615613574,
    4451451811]))
  holds (decide ((num.take nrem) = [17383479648247080011, 11486189908758794218, 1605964416]))

/-- `src/ubig/div/long.rs:211-290`. -/
def ubig_div_long_test_div_big_long_decimal (dbg : Bool) : R Unit := do
  let num : List Nat := [43, 98, 12, 98, 92, 43]
  let den : List Nat := [53, 12, 91]
  let quot : List Nat := List.replicate 4 0
  let work : List Nat := List.replicate 4 0
  let (num, quot, work, nquot, nrem) ← divBigLong (DType.ops (.dec .w8) dbg) dbg num den quot work
  holds (decide (nquot = 3))
  holds (decide (nrem = 3))
  holds (decide (quot = [81, 20, 48, 0]))
  holds (decide ((num.take nrem) = [50, 23, 37]))
  let num : List Nat := [736877958, 473222398, 123987987, 857833398, 12345]
  let den : List Nat := [847928000, 340987987, 345756986]
  let quot : List Nat := List.replicate 3 0
  let work : List Nat := List.replicate 4 0
  let (num, quot, work, nquot, nrem) ← divBigLong (DType.ops (.dec .w32) dbg) dbg num den quot work
  holds (decide (nquot = 2))
  holds (decide (nrem = 3))
  holds (decide (quot = [748731383, 35706, 0]))
  holds (decide ((num.take nrem) = [612453958, 628288073, 241893843]))
  let num : List Nat := [2827928982748837756, 9987857888374321333, 9567099055999999999,
    9567099055999999999, 9567099055999999999, 9567099055999999999, 9567099055999999999,
    9567099055999999999, 9567099055999999999, 9567099055999999999, 9567099055999999999,
    9567099055999999999, 9567099055999999999]
  let den : List Nat := [3464444454444454777, 9399999474765588888, 867984998999572288]
  let quot : List Nat := List.replicate 11 0
  let work : List Nat := List.replicate 4 0
  let (num, quot, work, nquot, nrem) ← divBigLong (DType.ops (.dec .w64) dbg) dbg num den quot work
  holds (decide (nquot = 11))
  holds (decide (nrem = 3))
  holds (decide (quot = [2739132595692916609, 186009061497178731, 3515246891635834223,
    1016137553008377404, 9633276126066576086, 4265899626824713455, 2736435672850267122,
    3717274131184765525, 6660916798959678502, 221940091440616178, 11]))
  holds (decide ((num.take nrem) = [2701266084816146563, 3684527600083895574, 347460090911990341]))

/-- `src/ubig/div/bz.rs:151-174`. -/
def ubig_div_bz_testbz (dbg : Bool) : R Unit := do
  let num : List Nat := List.replicate 5 0
  let num := num.set 4 20
  let den : List Nat := [0, 0, 1]
  let quot : List Nat := List.replicate 3 0
  let work : List Nat := List.replicate 7 0
  let (num, quot, work, nquot,
    nrem) ← divBigBz (DType.ops (.bin .w8) dbg) dbg (divBigLeaf (DType.ops (.bin .w8) dbg) dbg) num den quot work
  holds (decide (nquot = 3))
  holds (decide (nrem = 0))
  holds (decide ((quot.take nquot) = [0, 0, 20]))
  holds (decide ((num.take nrem) = []))
  let num : List Nat := [0, 0, 90]
  let den : List Nat := [0, 10, 1]
  let quot : List Nat := List.replicate 1 0
  let work : List Nat := List.replicate 7 0
  let (num, quot, work, nquot,
    nrem) ← divBigBz (DType.ops (.dec .w8) dbg) dbg (divBigLeaf (DType.ops (.dec .w8) dbg) dbg) num den quot work
  holds (decide (nquot = 1))
  holds (decide (nrem = 2))
  holds (decide ((quot.take nquot) = [81]))
  holds (decide ((num.take nrem) = [0, 90]))

example : ubig_mul_test_double_carry_assign_binary true = .ok () := by decide +kernel
example : ubig_mul_test_double_carry_assign_decimal true = .ok () := by decide +kernel
example : ubig_mul_test_mul_add_assign_digit_binary true = .ok () := by decide +kernel
example : ubig_mul_test_mul_add_assign_digit_decimal true = .ok () := by decide +kernel
example : ubig_mul_test_mul_digit_into_binary true = .ok () := by decide +kernel
example : ubig_mul_test_mul_digit_into_decimal true = .ok () := by decide +kernel
example : ubig_mul_test_mul_pair_add_assign_digit_decimal true = .ok () := by decide +kernel
example : ubig_mul_karatsuba_test_mul_big_into_karatsuba_binary true = .ok () := by decide +kernel
example : ubig_mul_karatsuba_test_mul_big_into_karatsuba_decimal true = .ok () := by decide +kernel
example : ubig_mul_karatsuba_test_square_karatsuba_into_binary true = .ok () := by decide +kernel
example : ubig_mul_karatsuba_test_square_karatsuba_into_decimal true = .ok () := by decide +kernel
example : ubig_mul_toom3_test_big_into_toom3 true = .ok () := by decide +kernel
example : ubig_mul_toom3_test_square_toom3_into_binary true = .ok () := by decide +kernel
example : ubig_mul_toom3_test_square_toom3_into_decimal true = .ok () := by decide +kernel
example : ubig_mul_long_test_mul_big_long_into_binary true = .ok () := by decide +kernel
example : ubig_mul_long_test_mul_big_long_into_decimal true = .ok () := by decide +kernel
example : ubig_mul_long_test_square_long_into_binary true = .ok () := by decide +kernel
example : ubig_mul_long_test_square_long_into_decimal true = .ok () := by decide +kernel
example : ubig_div_test_rem_digit_binary true = .ok () := by decide +kernel
example : ubig_div_test_rem_digit_decimal true = .ok () := by decide +kernel
example : ubig_div_test_div3_carry_assign_binary true = .ok () := by decide +kernel
example : ubig_div_test_div3_carry_assign_decimal true = .ok () := by decide +kernel
example : ubig_div_test_div_assign_digit_binary true = .ok () := by decide +kernel
example : ubig_div_test_div_assign_digit_decimal true = .ok () := by decide +kernel
example : ubig_div_test_div_assign_digit_zero true = .ok () := by decide +kernel
example : ubig_div_test_div_assign_digit_pair_binary true = .ok () := by decide +kernel
example : ubig_div_test_div_assign_digit_pair_decimal true = .ok () := by decide +kernel
example : ubig_div_test_div_assign_digit_pair_zero true = .ok () := by decide +kernel
example : ubig_div_test_div_big_den_gt_num true = .ok () := by decide +kernel
example : ubig_div_test_div_big_zero true = .ok () := by decide +kernel
example : ubig_div_test_div_big_no_space true = .ok () := by decide +kernel
example : ubig_div_test_div_big_two_digits true = .ok () := by decide +kernel
example : ubig_div_long_test_div_big_long_binary true = .ok () := by decide +kernel
example : ubig_div_long_test_div_big_long_decimal true = .ok () := by decide +kernel
example : ubig_div_bz_testbz true = .ok () := by decide +kernel

end Babs.Tests
