import Verif.Base
import Verif.Model.Num
import Mathlib.Data.Int.Log
/-!
# Decimal numbers as text: `strtod` and `operator<<(double)`

`strtod` (C locale) is modelled by the exact rational number the text denotes: rounding to binary, overflow
to infinity and signed zeros are not modelled. Texts are lists of characters; a NUL character ends the C
string, which the models respect because NUL takes part in no number.
-/
namespace CCGL

/-- A `double` read from text. -/
inductive DVal where
  | fin (q : ℚ)
  | inf (neg : Bool)
  | nan
deriving Repr, DecidableEq

/-- Value as used in arithmetic where the text is known to be finite. -/
def DVal.toQ : DVal → ℚ
  | .fin q => q
  | _ => 0

/-- `0-9a-fA-F`. -/
def isHexC (c : Char) : Bool :=
  isDigitC c || ('a'.toNat ≤ c.toNat && c.toNat ≤ 'f'.toNat) || ('A'.toNat ≤ c.toNat && c.toNat ≤ 'F'.toNat)

def hexVal (c : Char) : Nat :=
  if isDigitC c then digitVal c
  else if 'a'.toNat ≤ c.toNat then c.toNat - 'a'.toNat + 10 else c.toNat - 'A'.toNat + 10

/-- Horner value of a string of base-16 digits. -/
def hexsVal (acc : Nat) : Str → Nat
  | [] => acc
  | c :: s => hexsVal (acc * 16 + hexVal c) s

/-- Exponent part: marker (in either case), optional sign, at least one digit; otherwise nothing is consumed.
Value and number of characters. -/
def expPart (marker : Char) (s : Str) : Int × Nat :=
  match s with
  | [] => (0, 0)
  | c :: t =>
    if toLowerC c = marker then
      let sg := signPart t
      let ds := sg.2.2.takeWhile isDigitC
      if ds = [] then (0, 0)
      else (if sg.1 then -(digitsVal 0 ds : Int) else digitsVal 0 ds, 1 + sg.2.1 + ds.length)
    else (0, 0)

/-- Optional fraction: `.` and digits. Digits and number of characters. -/
def fracPart (p : Char → Bool) (s : Str) : Str × Nat :=
  match s with
  | [] => ([], 0)
  | c :: t => if c = '.' then (t.takeWhile p, 1 + (t.takeWhile p).length) else ([], 0)

/-- ISO C `strtod`, decimal form: value and number of characters. -/
def decScan (s : Str) : Option (ℚ × Nat) :=
  let ip := s.takeWhile isDigitC
  let r1 := s.drop ip.length
  let fp := fracPart isDigitC r1
  if ip = [] ∧ fp.1 = [] then none
  else
    let ex := expPart 'e' (r1.drop fp.2)
    some ((digitsVal 0 (ip ++ fp.1) : ℚ) / 10 ^ fp.1.length * (10 : ℚ) ^ ex.1, ip.length + fp.2 + ex.2)

/-- ISO C `strtod`, hexadecimal form after `0x`. -/
def hexScan (s : Str) : Option (ℚ × Nat) :=
  let ip := s.takeWhile isHexC
  let r1 := s.drop ip.length
  let fp := fracPart isHexC r1
  if ip = [] ∧ fp.1 = [] then none
  else
    let ex := expPart 'p' (r1.drop fp.2)
    some ((hexsVal 0 (ip ++ fp.1) : ℚ) / 16 ^ fp.1.length * (2 : ℚ) ^ ex.1, ip.length + fp.2 + ex.2)

/-- `nan(n-char-sequence)`: number of characters of the parenthesised part. -/
def nanTail (s : Str) : Nat :=
  match s with
  | [] => 0
  | c :: t =>
    if c = '(' then
      let w := t.takeWhile (fun c => isDigitC c || c = '_' || ('a'.toNat ≤ c.toNat && c.toNat ≤ 'z'.toNat) ||
        ('A'.toNat ≤ c.toNat && c.toNat ≤ 'Z'.toNat))
      if (t.drop w.length).head? = some ')' then w.length + 2 else 0
    else 0

/-- The unsigned subject sequence of `strtod`. -/
def udblScan (s : Str) : Option (DVal × Nat) :=
  let low := s.map toLowerC
  if "infinity".toList <+: low then some (.inf false, 8)
  else if "inf".toList <+: low then some (.inf false, 3)
  else if "nan".toList <+: low then some (.nan, 3 + nanTail (s.drop 3))
  else if "0x".toList <+: low then
    match hexScan (s.drop 2) with
    | some r => some (.fin r.1, 2 + r.2)
    | none => (decScan s).map (fun r => (.fin r.1, r.2))
  else (decScan s).map (fun r => (.fin r.1, r.2))

def DVal.negate : DVal → DVal
  | .fin q => .fin (-q)
  | .inf b => .inf (!b)
  | .nan => .nan

/-- ISO C `strtod(nptr, &endptr)`: value and `endptr - nptr`; 0 and nothing consumed without a number. -/
def strtod (s : Str) : DVal × Nat :=
  let nws := (s.takeWhile isSpaceC).length
  let sg := signPart (s.dropWhile isSpaceC)
  match udblScan sg.2.2 with
  | none => (.fin 0, 0)
  | some r => (if sg.1 then r.1.negate else r.1, nws + sg.2.1 + r.2)

/-- utils_string.cpp:306-311 `IsDouble(num_str, success)`. -/
def isDouble (s : Str) : DVal × Bool :=
  let r := strtod s
  (r.1, decide (r.2 = s.length))

/-- utils_string.h:374-380 `IsNumber`. -/
def isNumber (s : Str) : Bool := (isDouble s).2

/-- utils_string.h:352-355 `ToDouble`. -/
def toDouble (s : Str) : DVal := (isDouble s).1

/-- utils_string.h:358-372 `SplitStringForValues(items, delimiter, values)` on the previous contents `old`;
`cast` is `static_cast<T>`. Returned flag and new contents. -/
def splitStringForValues {τ : Type} (cast : DVal → τ) (items : Str) (d : Char) (old : List τ) : Bool × List τ :=
  let strs := splitDelim d items
  if strs = [] then (false, old)
  else
    let vals := strs.filterMap (fun f => if f.any isDigitC then some (cast (strtod f).1) else none)
    (decide (strs.length = vals.length), vals)

/-! ## Output of numbers -/

/-- Round half to even (the rounding of `printf` in the default rounding mode). -/
def roundEven (q : ℚ) : Int :=
  let f := ⌊q⌋
  if q - f < 1 / 2 then f
  else if 1 / 2 < q - f then f + 1
  else if f % 2 = 0 then f else f + 1

/-- Decimal digits of `n` padded with zeros to `k` digits. -/
def padDec : Nat → Nat → Str
  | 0, _ => []
  | k + 1, n => padDec k (n / 10) ++ [digitChar (n % 10)]

/-- Remove trailing zeros (`%g` without `#`). -/
def stripZeros (s : Str) : Str := (s.reverse.dropWhile (fun c => c = '0')).reverse

/-- Six significant digits of a positive number: `m * 10^(e-5)` with `10^5 ≤ m < 10^6`. -/
def sixDigits (q : ℚ) : Nat × Int :=
  let e := Int.log 10 q
  let m := (roundEven (q * (10 : ℚ) ^ (5 - e))).toNat
  if m = 10 ^ 6 then (10 ^ 5, e + 1) else (m, e)

/-- `digits[.fraction]` without trailing zeros, for `m / 10^k`. -/
def fixedText (m k : Nat) : Str :=
  let fr := stripZeros (padDec k (m % 10 ^ k))
  natToDec (m / 10 ^ k) ++ (if fr = [] then [] else '.' :: fr)

/-- Exponent of `%g`: sign and at least two digits. -/
def expText (e : Int) : Str :=
  let a := natToDec e.natAbs
  (if e < 0 then '-' else '+') :: (if a.length < 2 then '0' :: a else a)

/-- `%.6g` of a positive number. -/
def fmtPos (q : ℚ) : Str :=
  let me := sixDigits q
  if -4 ≤ me.2 ∧ me.2 < 6 then fixedText me.1 (5 - me.2).toNat
  else fixedText me.1 5 ++ 'e' :: expText me.2

/-- `os << setprecision(6) << x` (ISO C++: `%.6g`), e.g. data_raster.hpp:343, 3163, 3190 and, with the default
precision 6, data_raster.cpp:198-203. -/
def fmtG (x : ℚ) : Str :=
  if x = 0 then ['0'] else if x < 0 then '-' :: fmtPos (-x) else fmtPos x

end CCGL
