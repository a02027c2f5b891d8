import Verif.Model.Str
/-!
# Model of the number/text conversions of `src/utils_string.cpp`

`strtol`-family: C locale, base 10, saturating as POSIX prescribes. Texts are lists of characters; a NUL
character ends the C string, which the models below respect because NUL is neither blank, sign nor digit.
-/
namespace CCGL

/-- `'0'..'9'`. -/
def isDigitC (c : Char) : Bool := '0'.toNat ≤ c.toNat && c.toNat ≤ '9'.toNat

def digitVal (c : Char) : Nat := c.toNat - '0'.toNat

def digitChar (n : Nat) : Char := Char.ofNat ('0'.toNat + n)

/-- Decimal text of a natural number, as printed by `printf("%u")`/`"%llu"`. -/
def natToDec (n : Nat) : Str :=
  if _h : n < 10 then [digitChar n] else natToDec (n / 10) ++ [digitChar (n % 10)]
termination_by n

/-- Decimal text of an integer, as printed by `printf("%lld")`.
utils_string.cpp:152-156 `itoa` (= `_i64toa_s`, lines 115-117, because `CPP_64`, basic.h:354-362) and
utils_string.cpp:164-168 `i64toa`; for natural numbers utils_string.cpp:176-180 `utoa`, 188-192 `u64toa`.
The wide forms `itow` (158-162), `i64tow` (170-174), `utow` (182-186), `u64tow` (194-198) print with `swprintf` and `%ld`/`%lu`, which are
64 bits wide here, into 99 of 100 characters (no text is longer than 20): the same characters. -/
def intToDec (i : Int) : Str :=
  match i with
  | .ofNat n => natToDec n
  | .negSucc n => '-' :: natToDec (n + 1)

/-- Horner value of a digit string. -/
def digitsVal (acc : Nat) : Str → Nat
  | [] => acc
  | c :: s => digitsVal (acc * 10 + digitVal c) s

/-- Result of the syntactic part of `strtol`/`strtoul`: sign, value of the digits, and the number of
characters consumed (`endptr - nptr`); without a digit nothing is consumed. -/
structure StrtoRes where
  neg : Bool
  mag : Nat
  used : Nat
deriving Repr, DecidableEq

/-- Optional sign of `strtol`: negative?, characters consumed, rest. -/
def signPart : Str → Bool × Nat × Str
  | [] => (false, 0, [])
  | c :: t => if c = '-' then (true, 1, t) else if c = '+' then (false, 1, t) else (false, 0, c :: t)

/-- Syntactic part of `strtol(nptr, &endptr, 10)` (ISO C): blanks, optional sign, digits. -/
def strtoScan (s : Str) : StrtoRes :=
  let nws := (s.takeWhile isSpaceC).length
  let s1 := s.dropWhile isSpaceC
  let sg := signPart s1
  let ds := sg.2.2.takeWhile isDigitC
  if ds = [] then ⟨false, 0, 0⟩ else ⟨sg.1, digitsVal 0 ds, nws + sg.2.1 + ds.length⟩

/-- `LONG_MIN`, `LONG_MAX` (64-bit `long`), `ULONG_MAX`. -/
def longMax : Int := 2 ^ 63 - 1
def longMin : Int := -(2 ^ 63)
def ulongMax : Nat := 2 ^ 64 - 1

/-- Value and `endptr` of `strtol`/`strtoll` (saturating). -/
def strtol (s : Str) : Int × Nat :=
  let r := strtoScan s
  let v : Int := if r.neg then -(r.mag : Int) else r.mag
  (if v < longMin then longMin else if longMax < v then longMax else v, r.used)

/-- Value and `endptr` of `strtoul`/`strtoull`: saturating; a minus sign negates modulo `2^64`. -/
def strtoul (s : Str) : Nat × Nat :=
  let r := strtoScan s
  (if ulongMax < r.mag then ulongMax
   else if r.neg then (2 ^ 64 - r.mag) % 2 ^ 64 else r.mag, r.used)

/-- `static_cast<int>` of a 64-bit value (two's complement wrap-around of GCC). -/
def wrapInt32 (i : Int) : Int := (i + 2 ^ 31) % 2 ^ 32 - 2 ^ 31

/-- utils_string.cpp:250-255 `IsInt(num_str, success)`: returned value and `success`. The overload for wide strings (257-262) is the same
program with `wcstol` and `itow`, which treat ASCII characters alike (no other character is accepted); so are the other four overloads. -/
def isInt (s : Str) : Int × Bool :=
  let r := strtol s
  let result := wrapInt32 r.1
  (result, decide (r.2 = s.length) && decide (intToDec result = s))

/-- utils_string.cpp:264-269 `IsInt64`; wide strings 271-276. -/
def isInt64 (s : Str) : Int × Bool :=
  let r := strtol s
  (r.1, decide (r.2 = s.length) && decide (intToDec r.1 = s))

/-- utils_string.cpp:292-297 `IsUInt64` and 278-283 `IsUInt` (`vuint` is 64 bits wide, `strtoul` and
`strtoull` coincide); wide strings 299-304 and 285-290 (there the value passes through `vint64_t`, which keeps its bits). -/
def isUInt64 (s : Str) : Nat × Bool :=
  let r := strtoul s
  (r.1, decide (r.2 = s.length) && decide (natToDec r.1 = s))

/-- utils_string.h:327-331 `ToInt`: the value of `IsInt`, success ignored. -/
def toInt (s : Str) : Int := (isInt s).1

end CCGL
