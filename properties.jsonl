{"id": "C01", "title": "UBig::new normalises and keeps the value", "statement": "UBig::new(digits) denotes exactly the number sum(digits[i]*radix^i) and stores no leading zero digit, so nr_digits() is minimal and zero is the empty digit vector.", "quantifier": "all digit vectors of any length, all eight digit types", "why_tests_cant": "Digit vectors of unbounded length; a test fixes a handful of vectors.", "anchors": ["src/ubig.rs: UBig::new, UBig::drop_leading_zeros, UBig::nr_digits", "src/ubig/support.rs: drop_leading_zeros"]}
{"id": "C02", "title": "Equality of normalised numbers is equality of value", "statement": "Two UBig values in normal form are == exactly when they denote the same number; is_zero() holds exactly for the number 0.", "quantifier": "all pairs of normalised numbers of any length, all digit types", "why_tests_cant": "Injectivity of the representation over infinitely many pairs cannot be enumerated.", "anchors": ["src/ubig.rs: derive(PartialEq, Eq) on UBig, Zero for UBig"]}
{"id": "C03", "title": "Comparison is the numeric order", "statement": "cmp / partial_cmp / < on normalised numbers give exactly the order of the denoted numbers (so the order is total, transitive and consistent with ==).", "quantifier": "all pairs of normalised numbers of any length, all digit types", "why_tests_cant": "Order laws quantify over all pairs and triples of unbounded numbers.", "anchors": ["src/ubig/cmp.rs: cmp, lt", "src/ubig.rs: Ord, PartialOrd for UBig"]}
{"id": "C04", "title": "Addition of big numbers is exact", "statement": "x + y (and +=, by value or by reference, including the doubling case where both operands are the same object) denotes val(x)+val(y), never panics and yields a normalised number.", "quantifier": "all pairs of normalised numbers of any length, all digit types, debug and release builds", "why_tests_cant": "Carry chains can have any length; overflow of the digit word could happen only at specific values.", "anchors": ["src/ubig/ops.rs: AddAssign, Add", "src/ubig/add.rs: inc_assign, add_assign_digit, add_assign_big, add_big_into", "src/ubig.rs: add_assign_big_at_offset"]}
{"id": "C05", "title": "Addition of a machine word is exact", "statement": "x + n and x += n for a native word n denote val(x)+n, also for decimal types when n does not fit in a single decimal digit (n >= radix); no panic; normalised result.", "quantifier": "all numbers, all native words n of the digit's storage type", "why_tests_cant": "All combinations of number and word, with carries of any length.", "anchors": ["src/ubig/ops.rs: AddAssign<T> for UBig<BinaryDigit<T>> / UBig<DecimalDigit<T>>", "src/ubig/add.rs: add_assign_digit", "src/digit.rs: DecimalDigit::fits_single, split"]}
{"id": "C06", "title": "Subtraction of big numbers is exact or panics", "statement": "x - y (and -=) denotes val(x)-val(y) when val(x) >= val(y), and panics with an underflow when val(x) < val(y); it never returns a wrapped-around value.", "quantifier": "all pairs of normalised numbers of any length, all digit types", "why_tests_cant": "Borrow chains of any length; the dichotomy is over all pairs.", "anchors": ["src/ubig/ops.rs: SubAssign, Sub", "src/ubig/sub.rs: dec_assign, sub_assign_big, sub_big_into", "src/ubig.rs: sub_assign_big_at_offset"]}
{"id": "C07", "title": "Subtraction yields a normalised number", "statement": "The result of x - y (big or native word) is in normal form, so that comparing it with == or < against other numbers, or is_zero(), gives the numeric answer.", "quantifier": "all pairs of normalised numbers with x >= y", "why_tests_cant": "A leading zero appears only when a borrow clears exactly the top digit and the lower digits cancel; random tests do not hit it.", "anchors": ["src/ubig/sub.rs: sub_assign_digit, sub_assign_big, sub_big_into", "src/ubig/ops.rs: SubAssign"]}
{"id": "C08", "title": "Subtraction of a machine word is exact or panics", "statement": "x - n for a native word n denotes val(x)-n when val(x) >= n and panics otherwise, also for decimal types when n >= radix.", "quantifier": "all numbers, all native words", "why_tests_cant": "The defective region (numbers with three or more digits and n >= radix) is a matter of input shape, and the property speaks of all shapes.", "anchors": ["src/ubig/ops.rs: SubAssign<T> for UBig<BinaryDigit<T>> / UBig<DecimalDigit<T>>", "src/ubig/sub.rs: sub_assign_digit"]}
{"id": "C09", "title": "Multiplication by a machine word is exact", "statement": "x * n and x *= n denote val(x)*n, including n = 0 and, for decimal types, n >= radix which is handled with a pair of digits; never panics; normalised result.", "quantifier": "all numbers, all native words, all digit types", "why_tests_cant": "Carry propagation through two simultaneous carry chains over unbounded length.", "anchors": ["src/ubig/ops.rs: MulAssign<T>", "src/ubig.rs: mul_add_assign_digit, mul_pair_add_assign_digit", "src/ubig/mul.rs: mul_add_assign_digit, mul_pair_add_assign_digit"]}
{"id": "C10", "title": "Multiplication of big numbers is exact and total", "statement": "x * y denotes val(x)*val(y), for every size, whichever of the long, Karatsuba or Toom-3 algorithms is used, and never panics.", "quantifier": "all pairs of normalised numbers of any length, all digit types, debug and release", "why_tests_cant": "Failures need special digit patterns in large operands (41 digits or more); the space is unbounded.", "anchors": ["src/ubig/ops.rs: MulAssign, Mul", "src/ubig.rs: mul_big", "src/ubig/mul.rs: mul_big_into, mul_big_into_with_work", "src/ubig/mul/karatsuba.rs", "src/ubig/mul/toom3.rs", "src/ubig/mul/long.rs"]}
{"id": "C11", "title": "A product that is returned is the right product", "statement": "Whenever x * y returns, the value returned is exactly val(x)*val(y) in normal form; the only way it can fail to return is the panic of an unwrapped underflow.", "quantifier": "all pairs of normalised numbers of any length", "why_tests_cant": "Absence of silent corruption over all operand sizes and all three algorithms.", "anchors": ["src/ubig/mul.rs", "src/ubig/mul/karatsuba.rs: mul_big_karatsuba_into", "src/ubig/mul/toom3.rs: mul_big_toom3_into"]}
{"id": "C12", "title": "Schoolbook multiplication and squaring are exact and total", "statement": "When the shorter operand has fewer than 20 digits (or the squared number has fewer than 20), multiplication and squaring never panic and are exact.", "quantifier": "all operands with a short factor, the other of any length", "why_tests_cant": "The longer factor is unbounded.", "anchors": ["src/ubig/mul/long.rs: mul_big_long_into, square_big_long_into", "src/ubig/mul.rs: mul_big_into, square_into"]}
{"id": "C13", "title": "Squaring is multiplication by itself", "statement": "x.square() denotes val(x)^2 whenever it returns, agrees with x*x, and is in normal form.", "quantifier": "all numbers of any length", "why_tests_cant": "Separate algorithms (long, Karatsuba, Toom-3 squaring) must agree for all sizes.", "anchors": ["src/ubig.rs: UBig::square", "src/ubig/mul.rs: square_into", "src/ubig/mul/karatsuba.rs: square_karatsuba_into", "src/ubig/mul/toom3.rs: square_toom3_into"]}
{"id": "C14", "title": "Power", "statement": "x.pow(e) denotes val(x)^e (with x^0 = 1, also for x = 0).", "quantifier": "all numbers and all exponents of any unsigned primitive type", "why_tests_cant": "Unbounded exponents.", "anchors": ["src/ubig/ops.rs: Pow for UBig, impl_pow"]}
{"id": "C15", "title": "Division by a machine word is exact", "statement": "x / n and x % n for a native word n that fits in one digit satisfy x = n*(x/n) + x%n with x%n < n; n = 0 panics.", "quantifier": "all numbers of any length, all nonzero words below the radix", "why_tests_cant": "Unbounded number length.", "anchors": ["src/ubig/ops.rs: DivAssign<T>, RemAssign<T>, Rem<T>", "src/ubig.rs: div_assign_digit, rem_digit", "src/ubig/div.rs: div_assign_digit, rem_digit"]}
{"id": "C16", "title": "Decimal division by a word above the radix is exact", "statement": "For decimal types, x / n and x % n with n >= radix are the exact quotient and remainder.", "quantifier": "all numbers, all native words n >= radix", "why_tests_cant": "The wrong answers occur only for divisors whose scaled leading part overflows; property is over all n.", "anchors": ["src/ubig/ops.rs: DivAssign<T>, RemAssign<T> for UBig<DecimalDigit<T>>", "src/ubig/div.rs: div_assign_digit_pair"]}
{"id": "C17", "title": "Division of big numbers is exact", "statement": "div_assign_big, / and % satisfy x = q*y + r with r < y for every nonzero y, and return normalised q and r.", "quantifier": "all pairs of normalised numbers with nonzero divisor, any length, all digit types", "why_tests_cant": "Failure needs a partial remainder that shares its leading digit with the scaled divisor (binary), or a divisor that overflows when scaled (decimal).", "anchors": ["src/ubig.rs: div_assign_big, rem_assign_big", "src/ubig/div.rs: div_big, div_big_with_work, div_assign_digit_pair", "src/ubig/div/long.rs", "src/ubig/div/bz.rs"]}
{"id": "C18", "title": "Schoolbook division is exact when no quotient-digit tie occurs", "statement": "For a divisor of 3 to 19 digits whose scaled form fits, long division returns the exact quotient and remainder if no partial remainder shares the leading digit of the scaled divisor; for decimal types it does so even with such ties.", "quantifier": "all dividends of any length and all such divisors", "why_tests_cant": "Needs the theory of quotient digit estimation for every digit combination.", "anchors": ["src/ubig/div/long.rs: div_big_long, div_big_long_scaled"]}
{"id": "C19", "title": "Division by zero is reported", "statement": "Dividing by zero never yields a number: div_assign_big / rem_assign_big return Err(DivisionByZero), the operators panic; conversely no other division reports DivisionByZero.", "quantifier": "all dividends", "why_tests_cant": "All dividends of any size.", "anchors": ["src/ubig.rs: div_assign_big, rem_assign_big, div_assign_digit, rem_digit", "src/ubig/ops.rs"]}
{"id": "C20", "title": "A failed division leaves the dividend unchanged", "statement": "When div_assign_big or rem_assign_big returns Err, self still denotes the original number in normal form.", "quantifier": "all dividends", "why_tests_cant": "Tests check the Err value only.", "anchors": ["src/ubig.rs: div_assign_big, rem_assign_big"]}
{"id": "C21", "title": "Binary left shift is multiplication by a power of two", "statement": "For binary types x << n denotes val(x)*2^n, never panics and the result is normalised.", "quantifier": "all numbers and all shift amounts", "why_tests_cant": "Unbounded shifts and sizes.", "anchors": ["src/ubig/ops.rs: ShlAssign<usize> for UBig<BinaryDigit<T>>", "src/ubig/shl.rs"]}
{"id": "C22", "title": "Binary right shift is division by a power of two", "statement": "For binary types x >> n denotes floor(val(x)/2^n) for every n and never panics.", "quantifier": "all numbers and all shift amounts", "why_tests_cant": "Unbounded shifts and sizes.", "anchors": ["src/ubig/ops.rs: ShrAssign<usize> for UBig<BinaryDigit<T>>", "src/ubig/shr.rs"]}
{"id": "C23", "title": "Decimal shifts", "statement": "For decimal types x << n denotes val(x)*2^n and x >> n denotes floor(val(x)/2^n).", "quantifier": "all numbers and all shift amounts", "why_tests_cant": "Unbounded shifts and sizes.", "anchors": ["src/ubig/ops.rs: ShlAssign/ShrAssign<usize> for UBig<DecimalDigit<T>>", "src/ubig/shl.rs", "src/ubig/shr.rs"]}
{"id": "C24", "title": "Conversion from machine words", "statement": "UBig::from(n) denotes n and is normalised, for binary types and for decimal types (where n may need two digits).", "quantifier": "all native words, all digit types", "why_tests_cant": "64-bit words cannot be enumerated.", "anchors": ["src/ubig.rs: From<T> for UBig"]}
{"id": "C25", "title": "Decimal strings parse to their value", "statement": "from_str on a nonempty string of decimal digits of any length succeeds with the denoted number in normal form, for binary and decimal types.", "quantifier": "all digit strings of any length, all digit types", "why_tests_cant": "Unbounded strings; chunking boundaries.", "anchors": ["src/ubig.rs: FromStr for UBig<BinaryDigit<T>> / UBig<DecimalDigit<T>>", "src/digit.rs: from_base_str"]}
{"id": "C26", "title": "Hexadecimal strings parse to their value", "statement": "from_str on \"0x\" followed by a nonempty string of hexadecimal digits of any length succeeds with the denoted number in normal form, for binary and decimal types.", "quantifier": "all hex strings of any length, both letter cases", "why_tests_cant": "Unbounded strings.", "anchors": ["src/ubig.rs: FromStr"]}
{"id": "C27", "title": "Malformed strings are rejected", "statement": "from_str returns Err(InvalidNumber) for every string that is not a decimal numeral or 0x-prefixed hexadecimal numeral.", "quantifier": "all strings", "why_tests_cant": "Unbounded set of strings; misplaced signs survive because each chunk is parsed on its own.", "anchors": ["src/ubig.rs: FromStr", "src/digit.rs: from_base_str"]}
{"id": "C28", "title": "Decimal display is the decimal numeral and round-trips", "statement": "For decimal types, Display prints the decimal numeral of the value without leading zeros, and parsing it gives back the same number.", "quantifier": "all normalised numbers of any length", "why_tests_cant": "Zero padding of inner digits must be right for all digit values and positions.", "anchors": ["src/ubig.rs: Display for UBig<DecimalDigit<T>>, FromStr"]}
{"id": "C29", "title": "Hexadecimal formatting is the hexadecimal numeral and round-trips", "statement": "For binary types, {:x} and {:X} print the hexadecimal numeral of the value without leading zeros, and parsing it with a 0x prefix gives back the same number.", "quantifier": "all normalised numbers of any length", "why_tests_cant": "Same as for decimal display.", "anchors": ["src/ubig.rs: LowerHex, UpperHex for UBig<BinaryDigit<T>>, FromStr"]}
{"id": "C30", "title": "Conversion to decimal preserves the value", "statement": "to_decimal() (and so Display for binary types) denotes the same number as the binary number.", "quantifier": "all binary numbers of any length", "why_tests_cant": "Wrong for numbers of 16 or more digits whose low part has leading zero decimals.", "anchors": ["src/ubig.rs: to_decimal, build_decimal, Display for UBig<BinaryDigit<T>>"]}
{"id": "C31", "title": "Digit arithmetic never overflows and is exact", "statement": "For valid digits, each digit operation (inc, dec, add, sub, shifts, double, multiply, divide, divide by three, multiply-accumulate) does no overflowing machine arithmetic and returns the exact mathematical digit and carry, for all eight digit types.", "quantifier": "all digit values and carries of each of the eight types", "why_tests_cant": "For 32 and 64 bit digits the value space is too large to enumerate.", "anchors": ["src/digit.rs: Digit for BinaryDigit<u8..u64>, DecimalDigit<u8..u64>"]}
{"id": "C32", "title": "The reciprocal-based 10^19 division is exact", "statement": "The multiply-by-reciprocal division by 10^19 used for 64-bit decimal digits returns the true quotient and remainder, without overflowing, for every n < 10^38.", "quantifier": "all n < 10^38", "why_tests_cant": "10^38 values; correctness depends on the rounding error of the reciprocal constant.", "anchors": ["src/digit.rs: div_rem_base"]}
{"id": "C33", "title": "Debug and release builds agree", "statement": "For operations that return in a debug build, a release build returns the same number: no debug assertion guards a live defect and no arithmetic wraps silently.", "quantifier": "all inputs of each operation", "why_tests_cant": "Tests run in one profile; agreement is over all inputs.", "anchors": ["src/ubig/mul/karatsuba.rs: debug_assert", "src/ubig/div/long.rs: debug_assert", "src/digit.rs"]}
{"id": "C34", "title": "Scratch space always suffices", "statement": "Multiplication and squaring of any size allocate enough scratch space: no 'Insufficient work space' or 'Not enough space' assertion, slice index or length panic can occur.", "quantifier": "all operand sizes", "why_tests_cant": "Sizes are unbounded and the recursion is irregular.", "anchors": ["src/ubig/mul.rs: calc_mul_work_size", "src/ubig/mul/karatsuba.rs: calc_karatsuba_work_size", "src/ubig/mul/toom3.rs: calc_toom3_work_size"]}
{"id": "C35", "title": "Different representations agree", "statement": "Running the same computation (construct, add, multiply by a word, subtract, compare) on any two of the eight number types gives the same numbers.", "quantifier": "all inputs, all pairs of digit types", "why_tests_cant": "Relational property over all inputs and 8x8 type pairs.", "anchors": ["src/lib.rs: UBigBin8..UBigDec64"]}
{"id": "C36", "title": "Subtraction undoes addition", "statement": "(x + y) - y equals x as a number for all x and y, and x - y panics exactly when y > x.", "quantifier": "all pairs of normalised numbers", "why_tests_cant": "Algebraic law over unbounded numbers.", "anchors": ["src/ubig/ops.rs: Add, Sub"]}
{"id": "C37", "title": "Multiplication by single digits distributes and commutes with addition", "statement": "(x + y) * n = x*n + y*n and (x*n)/n = x with remainder 0 for every nonzero word n below the radix, as equal UBig values.", "quantifier": "all numbers and words", "why_tests_cant": "Algebraic laws over unbounded numbers.", "anchors": ["src/ubig/ops.rs: Add, Mul, Div, Rem"]}
{"id": "C38", "title": "Semiring laws", "statement": "Addition is commutative and associative, multiplication is commutative, associative and distributes over addition, zero and one are neutral, and a product is zero only if a factor is: both sides of each law, when returned, are the same UBig (the same digits).", "quantifier": "all triples of normalised numbers, all digit types, both build profiles", "why_tests_cant": "The two sides run through different algorithms depending on the sizes; tests compare a few sizes.", "anchors": ["src/ubig/ops.rs: Add, Mul", "src/ubig.rs: Zero, One, mul_big"]}
{"id": "C39", "title": "Order is compatible with arithmetic", "statement": "cmp is a total order that agrees with ==; adding a number to both sides, or multiplying both sides by a nonzero number, does not change the result of a comparison.", "quantifier": "all triples of normalised numbers", "why_tests_cant": "Algebraic law over unbounded numbers.", "anchors": ["src/ubig.rs: Ord, PartialOrd", "src/ubig/ops.rs: Add, Mul"]}
{"id": "C40", "title": "Shift laws", "statement": "(x << n) >> n = x; two shifts in the same direction are one shift by the sum; x >> n is the quotient of x by 2^n and the bits shifted out are the remainder; x << n is the product of x and 2^n.", "quantifier": "all numbers and shift counts", "why_tests_cant": "Relates the shifts to the general division and multiplication algorithms for all sizes.", "anchors": ["src/ubig/ops.rs: Shl, Shr, Div, Rem, Mul"]}
{"id": "C41", "title": "Laws of powers, and division of products", "statement": "x^(a+b) = x^a * x^b, (x^a)^b = x^(a*b), and (x*y)/y = x with remainder zero, as equal UBig values.", "quantifier": "all numbers and exponents", "why_tests_cant": "Relates square-and-multiply at different exponents; (x*y)/y fails only for rare products.", "anchors": ["src/ubig/ops.rs: Pow, Mul, Div, Rem"]}
{"id": "C42", "title": "The Fibonacci program computes Fibonacci numbers", "statement": "The generic program of benches/fibo.rs, run with any of the number types, returns the k-th Fibonacci number in normal form for every k.", "quantifier": "all k, all digit types, both build profiles", "why_tests_cant": "The benchmark does not check its result; a program of shifts, sums, differences and products of unbounded size.", "anchors": ["benches/fibo.rs: fibonacci, fibonacci_work"]}
{"id": "C43", "title": "Operations accept numbers with leading zeros", "statement": "A number that is not in normal form (as returned by a subtraction, C07) can be used as an operand: addition, subtraction, multiplication, division, comparison and display treat it as the number it denotes.", "quantifier": "all numbers with leading zeros", "why_tests_cant": "Needs inputs that are only produced by a rare pattern of subtractions, combined with every other operation.", "anchors": ["src/ubig/ops.rs", "src/ubig.rs"]}
{"id": "C44", "title": "Operators on digits give digits", "statement": "The operators + and * on BinaryDigit and DecimalDigit return a valid digit (less than the radix), or panic; zero and one are neutral; UBig::new makes a valid number of any digits.", "quantifier": "all pairs of digits, all eight digit types, both build profiles", "why_tests_cant": "There are 2^128 pairs of digits; the operators are not tested.", "anchors": ["src/digit.rs: Add, Mul for BinaryDigit and DecimalDigit", "src/ubig.rs: UBig::new"]}
{"id": "C45", "title": "Number of digits", "statement": "nr_digits is zero for zero and otherwise the k with radix^(k-1) <= x < radix^k; a sum has as many digits as the larger term or one more; a product has as many as both factors together or one less.", "quantifier": "all normalised numbers", "why_tests_cant": "Unbounded sizes.", "anchors": ["src/ubig.rs: nr_digits"]}
{"id": "C46", "title": "The benchmarked divisions by 10^19 agree with division", "statement": "The alternative routines for dividing a double-width number by 10^19 in the benchmarks (multiplication by an inverse with four or three multiplications, the plain operator, the div instruction, and long division by halves) return the quotient and the remainder and do not overflow; the checksum printed for each of them is the same.", "quantifier": "all numbers below 10^38, both build profiles", "why_tests_cant": "The benchmark only times the routines on one input; the corrections needed depend on the input and there are 10^38 of them.", "anchors": ["benches/divbase.rs: mul_inv_base, mul_inv_base_2, div_op_base, divq, divq_base, div_long_base, test_div_base"]}
{"id": "C47", "title": "Programs with branches and loops compute what the same programs compute on numbers", "statement": "A program that keeps numbers in variables, combines them with the operators of the crate, branches on comparisons and tests for zero, and loops, ends with variables that hold the numbers the same program computes on mathematical integers; so two digit types, or two build profiles, give the same result.", "quantifier": "all programs over the operations, all initial numbers, all digit types, both build profiles", "why_tests_cant": "Tests run single operations on chosen operands; a program feeds results of one operation into the next and takes branches on them, for unboundedly many steps, so every operation must preserve the representation invariant that comparison and the other operations rely on.", "anchors": ["src/ubig.rs: UBig", "src/ubig/ops.rs: Add, Sub, Mul, Div, Rem, Shl, Shr, PartialOrd", "src/ubig/cmp.rs: cmp, lt"]}
{"id": "C48", "title": "Every operation comes to an end", "statement": "Multiplication, squaring, powers, division, remainder, shifts, parsing and printing end with a value or a panic; none recurses forever. The recursion of the fast multiplication, squaring and division algorithms is at most about log2(n/16) levels deep for n digits, so it cannot exhaust the stack for numbers that fit in memory.", "quantifier": "all lists of digits, also ones that are not valid numbers, all digit types, both build profiles", "why_tests_cant": "A recursion that does not shrink its operands for some lengths shows up only for those lengths; tests cover few lengths and cannot distinguish a slow run from an infinite one.", "anchors": ["src/ubig/mul.rs: mul_big_into_with_work, square_into_with_work", "src/ubig/mul/karatsuba.rs: mul_karatsuba_into, calc_karatsuba_work_size", "src/ubig/mul/toom3.rs: mul_toom3_into, calc_toom3_work_size", "src/ubig/div/bz.rs: div_big_bz_2n_n", "src/ubig/ops.rs: pow", "src/ubig.rs: to_decimal, build_decimal"]}
{"id": "C49", "title": "A program that finishes has computed the right number", "statement": "A program that builds numbers with the operations of the crate and branches on comparisons either panics or ends with the number that the same program yields when it computes with natural numbers. Consequently two runs that both finish, with different digit types or build profiles, give the same number. The only panics are unwrapped errors, an index out of bounds, the messages of the crate, and the shift that is not implemented; no digit operation overflows and no assertion fails.", "quantifier": "all programs with branches and loops, all input numbers of any length, all digit types, both build profiles; excluded are the operations known to return a wrong number", "why_tests_cant": "A test checks the programs it contains with the numbers it contains; that no other combination yields a silent wrong result is a statement about all programs and all sizes.", "anchors": ["src/ubig/ops.rs: all operators", "src/ubig.rs: mul_big, square, div_assign_big, rem_assign_big, cmp, is_zero", "src/ubig/mul.rs: mul_big_into, square_big_into"]}
{"id": "C50", "title": "All forms of an operator agree", "statement": "x + y, x + &y, &x + y, &x + &y, x += y and x += &y give the same digits or panic in the same way; likewise for -, *, / and %, for the operators with a digit or a machine word (by value, by reference, assignment), for the shifts and for pow. So every property proved of one form holds of all.", "quantifier": "all digit vectors, normalised or not, all words and shift distances, all digit types, both build profiles, all forms", "why_tests_cant": "There are about eighty operator impls, some of which forward and some of which do the work in another way (x % n allocates, x %= n works in place); a test compares them on a few inputs.", "anchors": ["src/ubig/ops.rs: impl Add, AddAssign, Sub, SubAssign, Mul, MulAssign, Div, DivAssign, Rem, RemAssign, Shl, ShlAssign, Shr, ShrAssign, Pow"]}
{"id": "C51", "title": "A panic leaves the operand as it was", "statement": "If an operator that works in place (-=, *=, /=, %=, <<=, >>=) panics and the caller catches the panic, the variable still holds the number it held before.", "quantifier": "all normalised numbers of any length, all words and shift distances, all digit types, both build profiles", "why_tests_cant": "Tests of panics (should_panic) end with the panic and never look at the operand; what is left behind depends on how far the routine got, for inputs of any length.", "anchors": ["src/ubig/ops.rs: SubAssign, MulAssign, DivAssign, RemAssign, ShlAssign, ShrAssign", "src/ubig.rs: sub_assign_big_at_offset, div_assign_big, rem_assign_big", "src/ubig/sub.rs: sub_assign_big, sub_assign_digit, dec_assign"]}
{"id": "C52", "title": "It is known exactly which products panic", "statement": "A product panics if and only if one of the subtractions that it performs meets a number with leading zeros that is taken for the larger one: of halves in Karatsuba's method, of parts of the numbers or of products of their values in the method of Toom and Cook. The condition is a function of the two numbers alone. Hence a product panics if and only if the product with the factors swapped does, and all digit patterns outside the condition are multiplied exactly.", "quantifier": "all pairs of numbers of any size; all digit types, both build profiles", "why_tests_cant": "The failing inputs are a thin set among numbers of 20 to thousands of digits; no test can show that the set is exactly this one.", "anchors": ["src/ubig/mul/karatsuba.rs: mul_big_karatsuba_into", "src/ubig/mul/toom3.rs: mul_big_toom3_into", "src/ubig/sub.rs: sub_big_into, sub_big_into_abs_sign, sub_assign_big_abs_sign, dec_assign", "src/ubig/mul.rs: mul_big_into, mul_big_into_with_work", "src/ubig.rs: mul_big"]}
{"id": "C53", "title": "The lengths for which multiplication is safe", "statement": "All products of a number of k digits with a number of j digits are computed without a panic if and only if one of k and j is less than 20 or both are at most 40. All squares of numbers of k digits are computed without a panic if and only if k is at most 40.", "quantifier": "all lengths k and j, without bound; all numbers of these lengths; all digit types, both build profiles", "why_tests_cant": "It is a statement about all numbers of the safe lengths and about every one of the infinitely many unsafe pairs of lengths, across three algorithms.", "anchors": ["src/ubig/mul.rs: mul_big, mul_big_into, mul_big_into_with_work, square, square_into", "src/ubig/mul/karatsuba.rs", "src/ubig/mul/toom3.rs"]}
{"id": "C54", "title": "The lengths for which division is safe", "statement": "All divisions of a number of k digits by a number of j digits, j > 0, are exact if and only if the divisor has one digit or, with binary digits, the dividend is not longer than the divisor; with decimal digits, the dividend is shorter than the divisor. For decimal digits and every j > 1 there is one divisor of j digits by which no number at least as large can be divided. With any digits, and if scaling the divisor does not overflow and no tie of leading digits occurs, division by a number of j >= 20 digits reaches a panic for some numbers if and only if k is at least j plus the number of digits of the smallest part into which the recursive division splits the divisor (j halved, rounding up, until it is less than 20).", "quantifier": "all lengths k and j, without bound; all numbers of these lengths; all digit types, both build profiles", "why_tests_cant": "It is a statement about all numbers of the safe lengths and about every one of the infinitely many unsafe pairs of lengths.", "anchors": ["src/ubig/div/bz.rs: div_big_bz, div_big_bz_2n_n, div_big_bz_3n_2n, block_size", "src/ubig/div/long.rs: div_big_long, div_big_long_scaled", "src/ubig/div.rs: div_big_with_work"]}
{"id": "C55", "title": "It is known exactly which powers panic", "statement": "x.pow(e) of at most 2262 digits, or of any size if none of its squares meets stale digits, panics if and only if one of the squares x^(2^i), 2^(i+1) <= e, or one of the products of these that make up the power panics, which is a condition on the numbers x and e alone; otherwise it returns x^e. The same holds of left shifts of decimal numbers, which multiply with a power of two. For every length of at least 41 digits there is a number of that length none of whose powers from the second on is returned; if the length times the exponent is at most 40, every power is returned and right.", "quantifier": "all numbers and all exponents whose power has at most 2262 digits or of which no square meets stale digits; all lengths without bound for the last two sentences; all digit types, both build profiles", "why_tests_cant": "Powers that panic are rare and hard to hit by trying: there is a number of 24 digits whose square is right and whose fourth power panics, and one of 21 digits whose fourth power is right and whose fifth panics.", "anchors": ["src/ubig/ops.rs: pow, shl for decimal digits", "src/ubig.rs: square", "src/ubig/mul/karatsuba.rs: mul_big_karatsuba_into, square_karatsuba_into"]}
{"id": "C56", "title": "Squaring is multiplication of a number with itself, panics included", "statement": "x.square() panics if and only if x * x does, which is a condition on the number alone (C52), and otherwise both return the same number, the square.", "quantifier": "all numbers; all digit types, both build profiles. Proved for numbers of at most 1131 digits and longer ones that meet no stale digits; false of the code in general beyond that", "why_tests_cant": "Squaring is implemented by separate routines with their own buffers and work space. The inputs on which both panic are rare and have a shape that random numbers do not have, so that a test compares only the results that are returned.", "anchors": ["src/ubig.rs: square, mul_big", "src/ubig/mul.rs: square_into, square_into_with_work, mul_big_into, mul_big_into_with_work", "src/ubig/mul/karatsuba.rs: square_karatsuba_into, mul_big_karatsuba_into", "src/ubig/mul/toom3.rs: square_toom3_into, mul_big_toom3_into"]}
{"id": "C57", "title": "The Fibonacci benchmark computes the number it names", "statement": "The benchmark F(100_000) returns the 100000th Fibonacci number in normal form, without a panic, in every number type. For every k, whether the program panics is a condition on k and the radix alone: one of the products on the way does.", "quantifier": "all digit types, both build profiles; the condition for all k", "why_tests_cant": "The benchmark discards its result, and the number is of 4000 to 10000 digits, so that all three multiplication algorithms are nested in each other. That the numbers met are none of those that make a multiplication panic is not visible from tests of the multiplication.", "anchors": ["benches/fibo.rs: fibonacci, fibonacci_work, bench_fibonacci", "src/ubig/mul.rs: mul_big_into"]}
{"id": "C58", "title": "Exactly which long divisions panic", "statement": "Divide by a number of 20 digits or more that is at most the dividend, whose scaled form fits (C18), and, for binary types, without ties. The quotient and the remainder are returned and right if and only if the recursion meets no equal leading digits and needs no product that panics (C52); otherwise /, %, /= and %= all panic. The condition is about the two numbers alone.", "quantifier": "all dividends and divisors of any size; all digit types, both build profiles", "why_tests_cant": "The recursion depth grows with the size of the divisor, and the quotients that decide about a panic are those of parts of the numbers at every level. Random inputs almost never meet the condition, and a test cannot show that it is complete.", "anchors": ["src/ubig/div.rs: div_big, div_big_with_work", "src/ubig/div/bz.rs: div_big_bz, div_big_bz_2n_n, div_big_bz_3n_2n", "src/ubig.rs: div_assign_big, rem_assign_big"]}
{"id": "C59", "title": "Exactly which programs panic", "statement": "A program that performs none of the operations known to return a wrong number (C49) returns the right number if each operation that it performs on the way meets a condition on numbers, and panics otherwise. In particular, whether it panics does not depend on the build profile.", "quantifier": "all programs of operations, comparisons and branches, all inputs of any size; all digit types, both build profiles. Squares of more than 1131 digits and powers of more than 2262 digits must meet a sufficient condition", "why_tests_cant": "A test runs one program on one input. That the condition describes every program on every input needs the exact behaviour of every operation.", "anchors": ["src/ubig.rs: all operations", "src/ubig/ops.rs"]}
{"id": "C60", "title": "What the conversion benchmark computes", "statement": "The benchmark program of the base conversion, which shifts one to the left by 100000 places and converts the result to decimal, computes the decimal digits of 2^100000 in digits of 32 and of 64 bits, in both build profiles. The same program in digits of 8 bits panics for every shift by at least 326560 places, in particular for the 1000000 places that the benchmark names.", "quantifier": "the digit types and exponents that the benchmark names, both build profiles; every conversion of a power of two that passes the test of the conditions of C30", "why_tests_cant": "A benchmark does not look at the result. Each run takes hundreds of divisions of thousands of digits, any of which may meet one of the panics and wrong quotients of C17; that none does has to be established for the numbers that occur.", "anchors": ["benches/base.rs: bench_to_decimal", "src/ubig.rs: UBig::to_decimal"]}
{"id": "C61", "title": "The contracts of Ord, Zero and One", "statement": "For any three values of UBig, also such with leading zeros (which a subtraction can leave, C07): cmp gives exactly one of Less, Equal and Greater and the opposite with the arguments swapped; Equal is the same as ==; it is transitive; so a sequence can be sorted in one way only, and for normalised numbers that is the order of the numbers. zero() is neutral for +, one() for *.", "quantifier": "all values of any length, normalised or not, all digit types, both build profiles", "why_tests_cant": "The laws of a total order relate all triples of values; BTreeMap, sort and binary_search may misbehave if one triple violates them, and the values with leading zeros do not occur in the tests.", "anchors": ["src/ubig/cmp.rs: cmp", "src/ubig.rs: Ord for UBig, PartialOrd for UBig, derive(Eq, PartialEq), Zero for UBig, One for UBig"]}
{"id": "C62", "title": "Modular powers, trial division and Collatz sequences", "statement": "User programs that work on numbers of any length but divide by digits only never panic and give the right number: the power of a number modulo a digit by repeated squaring, the least prime factor below a bound by trial division, and any number of steps of the Collatz sequence.", "quantifier": "all numbers of any length, all moduli and bounds up to the radix, all exponents and numbers of steps, all digit types, both build profiles", "why_tests_cant": "The claim is about whole runs of loops whose number of rounds and whose branches depend on the numbers; every intermediate number has to be right and normalised.", "anchors": ["src/ubig/ops.rs: Mul, MulAssign, AddAssign, DivAssign, RemAssign and Rem with words", "src/ubig.rs: is_zero, From"]}
