# Formal model of babs (arbitrary precision unsigned integers)

Subject: the Rust crate in /repo (`gvissers/babs` at the pinned commit), read as text.
The model and the proofs are in Lean 4 (`/verif/lean`), the list of properties in `properties.jsonl`.

## How the code is modelled

* **Digits** are natural numbers: the raw content of the storage word (`self.0`).
  All eight digit types (binary and decimal over u8, u16, u32, u64) are modelled with their own machine arithmetic.
  Machine arithmetic is explicit: each `+ - * << >>` is checked against the word width.
  In a *debug* build an overflow is a panic, in a *release* build it wraps (a flag `dbg` selects the build profile;
  `debug_assert!` is checked only when `dbg` is set). `as` casts truncate.
* **Panics** are values: every function that can panic returns `R α := Except Panic α`, with the reason
  (overflow, slice index, `unwrap` of an `Err`, failed assertion, division by zero, `unimplemented!`, explicit `panic!`).
* **Rust `Result`s** are data inside `R`, so the content of a mutated buffer after an `Err` is visible.
* **`&mut` slices** are lists passed in and returned. Sub-slicing (`&mut nr[a..b]`) is bounds checked and spliced back.
  Scratch (`work`) and result buffers are modelled as real buffers with arbitrary stale content, not as fresh memory.
* **Loops** are structural recursions on the slice, or recursions on fuel. Running out of fuel is a separate panic value,
  and the theorems show that it does not happen (C48: the functions satisfy the equations of the code, without fuel).
* **Generic code** (`T: Digit`) is generic in the model over a record `Digit` of the trait's operations;
  theorems about it assume only the arithmetic laws `Lawful`, which are proved for each of the eight digit types.

The specification (`Verif/Spec.lean`) is small: the number denoted by a digit list (`val`), valid digits (`Digs`),
normal form (`Canon`), and `Rep b ds n` ("ds is the normal form of n in base b"); `Returns x Q` (no panic, result satisfies
`Q`), `ReturnsOr E x Q` (or a panic in `E`), `Panics x p`, `Agree d r` (debug against release). For text: `Numeral`,
`Standard`, formatting flags. `Verif/SpecDiv.lean` defines when a scaled division has a *tie* (see B5) and when the recursive division panics (see B14), in terms of numbers; `Verif/SpecDivLen.lean` the size of the parts into which it splits the divisor. `Verif/SpecMul.lean` defines when a product
or power meets none of the differences that make multiplication panic (see B4), also in terms of numbers; `Verif/SpecKara.lean` exactly when a product with a factor of less than 128 digits panics, `Verif/SpecToom.lean` the same for all products; `Verif/SpecSquare.lean` when a square or power meets no stale digits (see B13); `Verif/SpecDec.lean` when a conversion to decimal loses no zeros (see B7).

Layout: `Verif/Model/` the code; `Verif/Proofs/` lemmas; `Verif/Props/` the theorems named in the manifest, each with
examples that meet its hypotheses; `Verif/Proofs/Packed*.lean` a second evaluator of squaring, proved equal to the model,
that keeps a list of digits as one number and is fast enough for the kernel to evaluate squares of thousands of digits,
used in `Verif/Proofs/Scale/`; `Verif/Tests/` all of the crate's own tests (74 integration tests with 330
assertions, 110 unit tests with 1439 assertions), translated statement by statement and evaluated in
the model by the kernel; all of them pass. They are evidence that the model follows the code, not
proofs of properties.

## Trusted base

* Lean's kernel; axioms `propext`, `Classical.choice`, `Quot.sound` only. `AXIOMS.md` lists the axioms of every theorem
  named in `MANIFEST.json`, as printed by `#print axioms`. No `sorry`, no axioms of our own, no `native_decide`/`bv_decide`.
* That the model follows the code. Each definition cites the file and lines it models.
* The meaning given to Rust primitives: fixed width arithmetic, `overflowing_*`, `leading_zeros`, `as` casts, shifts
  (a release build masks the shift amount), slice indexing, `Vec::drain/truncate/splice/resize`, `rchunks`,
  `from_str_radix`, integer formatting.

Simplification: the conditions of two `debug_assert!`s that index a slice are evaluated in the model's release build too
(they cannot fail for lawful digits, so no result depends on it).

What is modelled: every function of `src/` outside the test modules, each cited with its lines, the Fibonacci program
of `benches/fibo.rs`, the conversion program of `benches/base.rs` and the division routines of `benches/divbase.rs` (the one that is inline assembly as the processor's manual describes the instruction `div`). Not cited because they only forward: `UBig::digits`, `UBig::rem_digit`, `PartialOrd::partial_cmp`,
`DecimalDigit::fits_single` (`n < rx` in the model) and `DecimalDigit::split` (`n / rx` and `n % rx`). The operator
`impl`s of `ops.rs`, by value, by reference and assigning, are modelled one by one in `Model/Forms.lean`.

Not modelled: memory (allocation failure, `usize` overflow of lengths: lengths are natural numbers; every subtraction of lengths in the source was checked to be guarded by a comparison, so none wraps), running time,
`Debug` output, the `Display` text of `Error`,
values a user builds with invalid digits (for instance `DecimalDigit(200u8)`; the fields are public), except in C44.

## Outcome per property

Where the code violates a property, the violation is proved for a concrete input (theorems `..._wrong`, `..._panics`, ...)
and the part that does hold is proved under a name ending in `_partial`. B-numbers refer to the list of defects below.

| id | what is modelled | what is proved, and how |
|----|------------------|-------------------------|
| C01 | `UBig.new`, `dropLeadingZeros` | in full; induction on the digit list |
| C02 | equality of digit lists | in full; uniqueness of positional notation |
| C03 | `cmp`, `lt` | in full; length, then lexicographic induction |
| C04 | `incAssign`, `addAssignBig`, `addBigInto`, `UBig.add` | in full, all sizes; invariant `val out + b^n * carry = ...` |
| C05 | `addAssignDigit`, decimal split | in full |
| C06 | `decAssign`, `subAssignBig`, `subBigInto` | in full; underflow panic exactly when smaller |
| C07 | same | false (B1); the exact condition for a normalised result is proved |
| C08 | `subAssignDigit`, decimal split | false for decimal words of two digits (B2, B3); exact condition proved |
| C09 | `mulAddAssignDigit`, `mulPairAddAssignDigit` | in full; invariant with two carries |
| C10 | `mulBigInto` with all buffers | total for factors of any size that meet no bad difference (`mulSafe`), which includes 40 digits, a factor of less than 20, and all binary powers of two; exact condition for all sizes (C52); false at 41 digits (B4) and for every larger length (C53) |
| C11 | same | in full for all sizes: Karatsuba and Toom-3 with real scratch buffers, recursion on fuel |
| C12 | `mulBigLongInto`, `squareBigLongInto` | in full; nested loop invariants |
| C13 | `squareInto` | exact when returned up to 1131 digits and no further (`square_exact_or_unwrap_iff`), returned if `mulSafe`; any size: exact when returned if `squareSound`, exact and returned if `squareSafe` (no bad difference, no stale digits), in particular all binary powers of two; wrong in every type for a number of 1132 digits, and for `10^8192` in 8-bit digits (B13) |
| C14 | `pow` | relative to C13: results of at most 2262 digits and no more (`pow_exact_or_unwrap_iff`); total if `powSafe`, in particular up to 40 digits; any size if also `powFresh`, in particular all powers of binary powers of two; exact when returned if the squares are `squareSound`; numbers whose powers panic or are wrong in every type (B4, B13) |
| C15 | `divAssignDigit`, `remDigit` | in full; fold from the most significant digit |
| C16 | `divAssignDigitPair` | exact when the scaled divisor fits, wrong otherwise (B6; for u8 exactly 157..199); in release builds the exact condition for a panic |
| C17 | `divBig`, `divAssignBig`, Burnikel-Ziegler | false (B5, B6, B14); all sizes: exact if no tie occurs and the scaled divisor fits, with an exact condition for panics; below 20 digits which of the wrong cases return and which panic |
| C18 | `divBigLong`, `divBigLongScaled` | in full; below 20 digits binary division is right *iff* no tie occurs |
| C19 | all division entry points | in full |
| C20 | `divAssignBig`, `remAssignBig` | proved for `rem_assign_big`; false for `div_assign_big` (B12) |
| C21 | `shlAssignBin` | value in full; zero is not normalised (B8) |
| C22 | `shrAssignBin` | exact up to one digit more than there are, panics for every larger shift (B9) |
| C23 | `shlAssignDec`, `shrAssignDec` | left: exact when returned for all n in 16-bit digits, where shifts by 2^20 places or more panic (B4), and for n below 2^18, 2^21 and 2^22 in 8-, 32- and 64-bit digits; exactly which panic (C55); right: large shifts are `unimplemented!` (B10) |
| C24 | `fromWord` | in full |
| C25, C26 | `fromStr` on character lists, `from_str_radix` | in full |
| C27 | same | false (B11); for texts without `+`, accepted is the same as well-formed; for all texts, accepted is the same as `Accepted`, which says where a `+` may stand |
| C28, C29 | `Display`, `LowerHex`, `UpperHex`, flags | in full, with round trip |
| C30 | `toDecimal` | exact below 16 digits; false from 16 digits on (B7); right *iff* every lower part has all its digits, given that the squares and divisions are right; the squares are up to 10204 digits (20409 if not 8-bit); 8-bit numbers of 40821 digits or more always panic (B17) |
| C31, C32 | the eight digit types | in full, per operation, both profiles |
| C33 | flag `dbg` | what a debug build returns a release build returns, for every operation and all arguments; B6 is guarded by a debug assertion only |
| C34 | work size functions and asserted lengths | multiplication all sizes, squaring to 1131 digits, or any size if `squareSafe`; division panics (B14) exactly when equal leading digits are met or a product panics |
| C35 | programs over the operations | all programs of construction, parsing, sum, product, division by a word and top-level subtraction |
| C36, C37 | | corollaries |
| C38, C39 | | semiring and order laws, as equality of digit lists |
| C40, C41 | | laws of shifts; laws of powers of any size if the squares and products met are safe, unconditional for binary powers of two; `(x*y)/y` of any size under the conditions of C10 and C17 (false for binary types otherwise, B5) |
| C42 | `benches/fibo.rs`; `SpecFib.lean` | right for every k if returned; returned iff no product met panics (`fibPanics`), in particular up to 40 digits; no k for which one does is known |
| C43 | numbers with leading zeros | arithmetic accepts them; subtraction, division, comparison and display do not (B16) |
| C47 | programs with variables, branches and loops over the operations (finite trees; a loop is unrolled as often as it runs) | for all programs each step of which meets the conditions of its operation; unconditional for factorials, Fibonacci numbers by addition, Horner evaluation, digit sums, gcd with a one-digit number |
| C48 | the value `noFuel` of a recursion that has used up its budget | for all lists of digits, except that the conversion of binary numbers of more than 20409 digits of 16, 32 or 64 bits to decimal is shown to end only if the powers of the decimal radix it divides by are right (with 8-bit digits it always ends); the recursive functions are shown to satisfy the equations of the code, which has no budgets |
| C49 | same as C47, with panics | for all programs that perform none of the operations known to return a wrong number (a weaker condition than that of C47, which excludes panics too); false without (`client_wrong`) |
| C50 | `Model/Forms.lean`: each operator `impl` of `ops.rs` | in full, for all lists of digits |
| C51 | `After`: the content of the first operand when an assigning operator panics | true of `*=`, shifts, `%=` by zero, division by the word zero; false of `-=` and of `/=` by zero (B18), with the exact content left behind; for panics within a division by a nonzero number `Model/DivLeft.lean` follows the storage of the operand up to the point of the panic: exact for binary types and for decimal types in release builds, in debug builds for part of the divisors that do not fit |
| C52 | `SpecKara.lean`: lengths and values of the differences of halves, in numbers; `SpecToom.lean`: the same for the values of the polynomials and the interpolation | in full: exact condition for factors of any size |
| C53 | the same, and the first product that Toom-Cook multiplication makes of the low parts | in full, for all lengths |
| C54 | `SpecDivLen.lean`: the size of the parts of the divisor | in full: for which lengths all divisions are right, and for which some panic although the scaled divisor fits and no tie occurs |
| C55 | `SpecToom.lean`: `powStepPanics`, the steps of repeated squaring, in numbers | exact condition for powers of at most 2262 digits, and of any size if no square meets stale digits (`powClean`); for every length of at least 41 digits a number no power of which is returned |
| C56 | `SpecToom.lean`, for the squaring routines | exact condition for numbers of at most 1131 digits, and of any size if no stale digits are met (`squareClean`), the same as for the product of the number with itself; of the others some are squared wrongly (B13) |
| C57 | `benches/fibo.rs` at k = 100000 | in full; the condition of C42 is evaluated by the kernel on the numbers, not on digits |
| C58 | `SpecDiv.lean`: the recursion in numbers, with `productOk` of `SpecProduct.lean` for the products | in full |
| C59 | same as C49 | for all programs that perform none of the operations known to return a wrong number, where squares of more than 1131 digits and powers of more than 2262 digits must not meet stale digits (`squareClean`, `powClean`) |
| C60 | `benches/base.rs` | 2^100000 for u32 and u64, and the panic from 2^326560 on, in particular at 2^1000000, for u8; the conditions of C30 are evaluated by the kernel on numbers. Missing: u8 at 2^100000 (a tie occurs on the way, and no theorem covers what follows a wrong quotient), u32 and u64 at 2^1000000 (evaluation too large) |
| C61 | `cmpBig`, `ubigZero`, `ubigOne` on all lists | in full for `Ord` and `Zero`; `One` for normalised numbers (a product has no leading zeros) |
| C62 | programs in the sense of C47 | in full |
| C46 | `benches/divbase.rs` | in full; the instruction `div` of the fifth routine is modelled after the processor's manual |
| C44, C45 | `digitAdd`, `digitMul`, `nrDigits` | C44 false for decimal digits (B15); C45 in full |

## Defects of the code found

Each is proved about the model with a concrete input.

* **B1** `sub_assign_big` and `sub_assign_digit` leave leading zeros (`sub_not_normalised`, `subDigit_not_normalised`): `10000 - 9999` has three digits.
* **B2, B3** decimal `SubAssign` with a word of two digits does not give the right number (`subWord_decimal_wrong`).
* **B4** Karatsuba multiplication unwraps a false underflow when a half has leading zeros (`mul_panics`, `square_panics`; 41 digits, every type). Numbers with this effect exist for every pair of lengths of at least 20 and 41 digits
  (`mul_safe_lengths`, `mul_unsafe_lengths`, `square_safe_lengths`).
* **B5** long division of binary numbers: when the leading digits of remainder and divisor are equal the estimate of the
  quotient digit is wrong (`div_tie_wrong`, `div_tie_wrong_long`, `mul_div_binary_wrong`). `div_binary_exact_iff` says exactly when, below 20 digits.
* **B6** decimal division scales the divisor by doubling without checking that it still fits (`div_scale_wrong`, `divWord_large_wrong`).
  A divisor that becomes a power of the radix is replaced by zero: `UBigDec8` cannot divide by 1250, and there is such a
  divisor of every length from 2 (`div_decimal_lost_divisor`).
* **B7** `build_decimal` appends the low part without padding it with zeros (`toDecimal_wrong`, `display_binary_wrong`).
  `toDecimal_exact_iff_partial` says exactly when this matters.
* **B8** zero shifted left by a digit or more is not normalised (`shl_binary_zero_not_normalised`).
* **B9** shifting right by more than one digit beyond the length panics (`shr_binary_panics`).
* **B10** decimal right shifts by more than `4*MAX_HEX_PLACES` bits are `unimplemented!` (`shr_decimal_unimplemented`).
* **B11** `from_str` accepts `+` at chunk boundaries inside a number and the empty text (`parse_accepts_plus`, `parse_accepts_empty`).
* **B12** `div_assign_big` by zero loses the dividend (`div_zero_destroys`).
* **B13** `square_toom3_into` does not clear its buffers; with three nested levels of Toom-Cook the result can be wrong
  without any panic (`square_wrong`, `square_ne_mul`: 1132 digits, every digit type, both profiles; `square_scale_wrong`: `10^8192` in digits of eight bits).
* **B14** Burnikel-Ziegler division can index out of bounds (`div_bz_panics`). It does whenever a part of the
  dividend has the same leading digit as the part of the divisor by which it is divided (`div_panics_of_equal_leading`).
* **B15** `+` and `*` on decimal digits give words that are not digits, and `UBig::new` accepts them (`digit_add_wrong`).
* **B16** consequences of B1: a false underflow panic, a wrong quotient, and the text "001" (`sub_unnormalised_panics`,
  `div_unnormalised_wrong`, `display_unnormalised_wrong`).
* **B17** consequence of B4 and B13: no number of 40821 or more digits of `BinaryDigit<u8>` can be converted to decimal or
  printed, because the powers of ten are squared wrongly and then a square panics (`toDecimal_long_panics`,
  `display_long_panics`).
* **B18** `x -= y` that underflows leaves `x - y + radix^k` in `x`, and `x /= 0` leaves zeros in `x`, for a caller that
  catches the panic (`sub_left_behind_wrong`, `subWord_large_left_behind`, `div_left_behind`). A panicking `/=` always leaves zeros with binary types, and a panicking `%=` with decimal types can leave
  a multiple of `x` that was truncated (`div_binary_left_behind`, `div_decimal_left_behind`, `divWord_large_left_behind`).
* **B19** Toom-Cook multiplication and squaring unwrap a false underflow in the interpolation, although no earlier step
  fails: the difference `r(-1) - r(0)` is returned with leading zeros and taken for the larger number (`interpolation_panics`;
  128 digits, every type). The evaluation can fail in the same way (an example beside it).

## Mutation tests

`seeded/LOG.jsonl` has one line per wrong program tried: the definition, the edit, the claim it breaks, the manifest theorems that
no longer check, and theorems tightened. They are run in a copy outside this directory, with an independent
oracle (random and boundary inputs evaluated in the mutated model against the statements) to tell real from equivalent mutants.
Later attempts were stopped soon after the first error and without the oracle; their lines name the lemmas that failed
(`lemmas_failed`) and only those manifest theorems that were reached.
