import Verif.Model.Dec
import Verif.Model.Out
/-!
# Model of `ftoa`, `ftow`, `atow` and `wtoa` (src/utils_string.cpp:139-150, 200-251)

The C locale's decimal point. A buffer is represented by the characters before its NUL.
-/
namespace CCGL
namespace FText

/-- The argument of `%f`: a finite `double` with sign bit `neg` and magnitude `a` (there is a negative zero), an infinity or a NaN. -/
inductive FArg where
  | fin (neg : Bool) (a : ℚ)
  | inf (neg : Bool)
  | nan (neg : Bool)
deriving Repr, DecidableEq

/-- The sign printed by `printf`. -/
def signText (neg : Bool) : Str := if neg then ['-'] else []

/-- `|x| * 10^6`, rounded to an integer as `printf` does. -/
def micro (a : ℚ) : Nat := (roundEven (a * 10 ^ 6)).toNat

/-- The text of `printf("%f", x)` (ISO C: six digits after the point; `inf`, `nan`). -/
def fmtF : FArg → Str
  | .fin neg a => signText neg ++ (natToDec (micro a / 10 ^ 6) ++ '.' :: padDec 6 (micro a % 10 ^ 6))
  | .inf neg => signText neg ++ "inf".toList
  | .nan neg => signText neg ++ "nan".toList

/-- utils_string.cpp:144-147 the loop `while (zero[-1] == '0') *--zero = '\0'` from the end `k` of the text on; before the buffer nothing may be read. -/
def trimZ (s : Str) : Nat → Out Nat
  | 0 => .ub
  | k + 1 => if s[k]? = some '0' then trimZ s k else .ok (k + 1)

/-- utils_string.cpp:139-150 `_gcvt_s(buffer, size, value, numberOfDigits)`: the contents of the buffer. `snprintf` writes at most `size - 1` characters. -/
def gcvtS (size : Nat) (x : FArg) : Out Str :=
  let b := (fmtF x).take (size - 1)
  if '.' ∈ b then do
    let k ← trimZ b b.length
    let b1 := b.take k
    .ok (if b1.getLast? = some '.' then b1.dropLast else b1)
  else .ok b

/-- utils_string.cpp:200-208 `ftoa(number)`; `buffer[len - 1]` of an empty text is undefined. -/
def ftoa (x : FArg) : Out Str := do
  let b ← gcvtS 320 x
  if b = [] then .ub
  else .ok (if b.getLast? = some '.' then b.dropLast else b)

/-- What `mbstowcs` and `wcstombs` do in the current locale to a string without NUL: the converted characters, or an invalid sequence. -/
structure Locale where
  toWide : Str → Option Str
  toNarrow : Str → Option Str

/-- The locale of a program that does not call `setlocale`, with characters below 128 only (ISO C guarantees no others). -/
def cLocale : Locale where
  toWide s := if s.all (fun c => decide (c.toNat < 128)) then some s else none
  toNarrow s := if s.all (fun c => decide (c.toNat < 128)) then some s else none

/-- `c_str()`: a C string ends at the first NUL. -/
def cstr (s : Str) : Str := s.takeWhile (fun c => c ≠ Char.ofNat 0)

/-- A conversion with result `r`: `_wtoa(…, 0, 0)` gives the length plus 1; for an invalid sequence it gives `(size_t)-1 + 1 = 0`, the buffer has no
element, the second call may write without limit and the construction of the string reads the buffer: undefined. -/
def convert (r : Option Str) : Out Str :=
  match r with
  | some w => .ok (cstr w)
  | none => .ub

/-- utils_string.cpp:242-251 `atow(astr)`. -/
def atow (L : Locale) (s : Str) : Out Str := convert (L.toWide (cstr s))

/-- utils_string.cpp:222-231 `wtoa(wstr)`. -/
def wtoa (L : Locale) (s : Str) : Out Str := convert (L.toNarrow (cstr s))

/-- utils_string.cpp:210-212 `ftow(number)`. -/
def ftow (L : Locale) (x : FArg) : Out Str := do
  let s ← ftoa x
  atow L s

end FText
end CCGL
