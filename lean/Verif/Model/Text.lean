import Verif.Model.UBig

/-!
# Text: `FromStr` and the formatting traits of `src/ubig.rs`

Strings are lists of characters.  The standard library functions used (`from_str_radix`, the
formatting of machine integers, `pad_integral`, `rchunks`) are modelled after their documentation.
-/

namespace Babs

/-- `char::to_digit`. -/
def charToDigit (base : Nat) (c : Char) : Option Nat :=
  let d :=
    if '0' ≤ c ∧ c ≤ '9' then some (c.toNat - '0'.toNat)
    else if 'a' ≤ c ∧ c ≤ 'z' then some (c.toNat - 'a'.toNat + 10)
    else if 'A' ≤ c ∧ c ≤ 'Z' then some (c.toNat - 'A'.toNat + 10)
    else none
  d.bind fun d => if d < base then some d else none

/-- The digits of `from_str_radix` for a type of `w` bits: `none` for a bad digit or overflow. -/
def parseDigits (w base : Nat) : List Char → Nat → Option Nat
  | [], acc => some acc
  | c :: cs, acc => do
    let d ← charToDigit base c
    if acc * base + d < 2 ^ w then parseDigits w base cs (acc * base + d) else none

/-- `uN::from_str_radix`: an empty string and a lone sign are errors, a leading `+` is skipped. -/
def fromStrRadix (w base : Nat) (s : List Char) : Option Nat :=
  match s with
  | [] => none
  | ['+'] => none
  | '+' :: cs => parseDigits w base cs 0
  | cs => parseDigits w base cs 0

/-- `slice::rchunks(k)`: chunks of `k`, counted from the end; the first chunk is the end of the
list. -/
def rchunksGo (k : Nat) : Nat → List Char → List (List Char)
  | 0, _ => []
  | fuel + 1, s =>
    if s = [] then [] else s.drop (s.length - k) :: rchunksGo k fuel (s.take (s.length - k))

/-- `slice::rchunks(k)`. -/
def rchunks (k : Nat) (s : List Char) : List (List Char) := rchunksGo k s.length s

/-- `str::is_ascii`. -/
def isAscii (s : List Char) : Bool := s.all fun c => decide (c.toNat < 128)

/-- `str::strip_prefix("0x")`. -/
def stripHexPrefix : List Char → Option (List Char)
  | '0' :: 'x' :: s => some s
  | _ => none

/-- A digit of a formatted number. -/
def digitChar (upper : Bool) (d : Nat) : Char :=
  if d < 10 then Char.ofNat ('0'.toNat + d)
  else Char.ofNat ((if upper then 'A' else 'a').toNat + (d - 10))

/-- The digits of `n`, least significant first. -/
def digitsLE (base : Nat) : Nat → Nat → List Nat
  | 0, _ => []
  | fuel + 1, n => if n = 0 then [] else (n % base) :: digitsLE base fuel (n / base)

/-- The text of a machine integer, as in `write!(s, "{}", n)` and `write!(s, "{:x}", n)`. -/
def fmtWord (base : Nat) (upper : Bool) (n : Nat) : List Char :=
  if n = 0 then ['0'] else (digitsLE base n n).reverse.map (digitChar upper)

/-- `write!(s, "{:0width$}", n)`. -/
def fmtWordPadded (base : Nat) (upper : Bool) (width n : Nat) : List Char :=
  let s := fmtWord base upper n
  List.replicate (width - s.length) '0' ++ s

/-- `Formatter::padding`: text put before and after the number. -/
def padding (fill : Char) (align : Align) (n : Nat) : List Char × List Char :=
  match align with
  | .left => ([], List.replicate n fill)
  | .right => (List.replicate n fill, [])
  | .center => (List.replicate (n / 2) fill, List.replicate ((n + 1) / 2) fill)

/-- `Formatter::pad_integral(true, prefix, buf)`. -/
def padIntegral (f : FmtFlags) (pre buf : List Char) : List Char :=
  let sign := if f.signPlus then ['+'] else []
  let pre := sign ++ (if f.alternate then pre else [])
  let n := pre.length + buf.length
  match f.width with
  | none => pre ++ buf
  | some min =>
    if min ≤ n then pre ++ buf
    else if f.zeroPad then pre ++ List.replicate (min - n) '0' ++ buf
    else
      let (before, after) := padding f.fill (f.align.getD .right) (min - n)
      before ++ pre ++ buf ++ after

/-- `fmt` of a machine integer: `Display` for `base = 10`, else `LowerHex` or `UpperHex`. -/
def fmtPrim (f : FmtFlags) (base : Nat) (upper : Bool) (n : Nat) : List Char :=
  padIntegral f (if base = 10 then [] else ['0', 'x']) (fmtWord base upper n)

namespace UBig

/-- `BinaryDigit::NR_HEX_PLACES`, `src/digit.rs:142`. -/
def nrHexPlaces (w : Width) : Nat := 2 * w.bytes

/-- `BinaryDigit::MAX_DECIMAL_PLACES`, `src/digit.rs:144`. -/
def maxDecimalPlaces (w : Width) : Nat := w.bytes * 643 / 267

/-- `from_base_str`, `src/digit.rs:161-166` and `292-297` (binary), `522-534` and `694-706`
(decimal). -/
def digitFromStr (t : DType) (base : Nat) (s : List Char) : Res Nat :=
  match t with
  | .bin w => match fromStrRadix w.bits base s with
    | some d => .ok d
    | none => .error .invalidNumber
  | .dec w => match fromStrRadix w.bits base s with
    | some d => if d < w.decRadix then .ok d else .error .invalidNumber
    | none => .error .invalidNumber

/-- `src/ubig.rs:416-420` and `465-469`: one digit for every chunk. -/
def parseChunks (t : DType) (base : Nat) : List (List Char) → Res (List Nat)
  | [] => .ok []
  | part :: parts =>
    match digitFromStr t base part with
    | .error e => .error e
    | .ok d => match parseChunks t base parts with
      | .error e => .error e
      | .ok ds => .ok (d :: ds)

/-- `src/ubig.rs:429-433` and `455-459`: multiply by the scale and add the digit of the chunk. -/
def parseScaled (t : DType) (dbg : Bool) (base scale : Nat) :
    List (List Char) → List Nat → R (Res (List Nat))
  | [], result => .ok (.ok result)
  | part :: parts, result =>
    match digitFromStr t base part with
    | .error e => .ok (.error e)
    | .ok d => do
      let result ← mulAddDigit (t.ops dbg) result scale d
      parseScaled t dbg base scale parts result

/-- Turn the result of `parseChunks` into a number with `UBig::new`. -/
def newOfChunks : Res (List Nat) → R (Res (List Nat))
  | .error e => .ok (.error e)
  | .ok ds => do return .ok (← new ds)

/-- `FromStr`, `src/ubig.rs:402-437` (binary) and `439-473` (decimal).  The scales of lines 426-427
and 453 are written as the constants they are: `ten.pow(MAX_DECIMAL_PLACES)` and
`T::one() << (4 * MAX_HEX_PLACES)`, which fit in the storage type. -/
def fromStr (t : DType) (dbg : Bool) (s : List Char) : R (Res (List Nat)) :=
  if !isAscii s then .ok (.error .invalidNumber)
  else match t, stripHexPrefix s with
    | .bin w, some s => newOfChunks (parseChunks t 16 (rchunks (nrHexPlaces w) s))
    | .bin w, none =>
      parseScaled t dbg 10 (10 ^ maxDecimalPlaces w) (rchunks (maxDecimalPlaces w) s).reverse []
    | .dec w, some s =>
      parseScaled t dbg 16 (2 ^ (4 * maxHexPlaces w)) (rchunks (maxHexPlaces w) s).reverse []
    | .dec w, none => newOfChunks (parseChunks t 10 (rchunks (nrDecimalPlacesDec w) s))

/-- The text of a number of two or more digits: the top digit in full, the others padded to
`places` characters. -/
def fmtDigits (base : Nat) (upper : Bool) (places : Nat) (x : List Nat) : List Char :=
  match x.reverse with
  | [] => []
  | top :: rest => fmtWord base upper top ++ rest.flatMap (fmtWordPadded base upper places)

/-- `LowerHex` and `UpperHex`, `src/ubig.rs:475-495` and `497-517`. -/
def fmtHex (w : Width) (upper : Bool) (f : FmtFlags) (x : List Nat) : List Char :=
  match x with
  | [] => fmtPrim f 16 upper 0
  | [d] => fmtPrim f 16 upper d
  | x => padIntegral f ['0', 'x'] (fmtDigits 16 upper (nrHexPlaces w) x)

/-- `Display` of a decimal number, `src/ubig.rs:528-548`. -/
def fmtDec (w : Width) (f : FmtFlags) (x : List Nat) : List Char :=
  match x with
  | [] => fmtPrim f 10 false 0
  | [d] => fmtPrim f 10 false d
  | x => padIntegral f [] (fmtDigits 10 false (nrDecimalPlacesDec w) x)

/-- `Display`: binary numbers (`src/ubig.rs:519-526`) are converted to decimal first. -/
def display (t : DType) (dbg : Bool) (f : FmtFlags) (x : List Nat) : R (List Char) :=
  match t with
  | .bin w => do return fmtDec w f (← toDecimal dbg w x)
  | .dec w => .ok (fmtDec w f x)

end UBig

end Babs
