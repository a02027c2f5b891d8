import Verif.Model.Out
import Verif.Model.PowTable
import Mathlib.Analysis.SpecialFunctions.Log.Basic
import Mathlib.Analysis.SpecialFunctions.Pow.Real
/-!
# Numeric helpers (`src/utils_math.h`, `src/utils_math.cpp`)

Simplification, for all definitions here: `float` arithmetic is carried out in the real numbers (no rounding,
no overflow, no NaN), except where a float is taken apart as a bit pattern: bit patterns are natural numbers and the
bit operations are modelled exactly.
-/
noncomputable section
namespace CCGL.MathFn

/-- utils_math.cpp:5-9 `Expo(xx, upper, lower)` (`exp` is the real exponential). -/
def expo (xx upper lower : ℝ) : ℝ :=
  let xx := if xx < lower then lower else xx
  let xx := if xx > upper then upper else xx
  Real.exp xx

/-- utils_math.h:149: the default bounds of `Expo`. -/
def expoDefault (xx : ℝ) : ℝ := expo xx 20 (-20)

/-- utils_math.cpp:11-16 `Power(a, n)` (`pow` is the real power; the code calls it with a non-negative base only). -/
def power (a n : ℝ) : ℝ :=
  if a ≥ 0 then a ^ n else -((-a) ^ n)

/-- C++ `static_cast<uint32_t>` of a floating-point value: truncation towards zero; undefined when the truncated value
is not representable. -/
def toU32 (v : ℝ) : Out Nat :=
  if -1 < v ∧ v < 4294967296 then .ok (⌊v⌋.toNat) else .ub

/-- utils_math.cpp:362: the bit-level part of `pow_lookup`: exponent and sign bits of `i`, mantissa from the table
indexed by the upper 11 mantissa bits of `i`; reading outside the table is undefined. -/
def powBits (i : Nat) : Out Nat :=
  match powTable[(i &&& 0x7FFFFF) >>> (23 - 11)]? with
  | some t => .ok ((i &&& 0xFF800000) ||| t)
  | none => .ub

/-- utils_math.cpp:356-364 `pow_lookup(exp, log_base)`: the bit pattern of the returned float. Simplification: the
argument of the cast is computed in real arithmetic and `M_LOG2E` is exactly `1 / ln 2`. -/
def powLookup (e logBase : ℝ) : Out Nat := do
  let i ← toU32 (e * 8388608 * logBase * (1 / Real.log 2) + 127 * 8388608)
  powBits i

/-- utils_math.cpp:60-67 (`ApprLn(float)`): the exponent extracted from the bit pattern, `((i >> 23) & 0xff) - 0x80`. -/
def lnExponent (i : Nat) : Int := ((i >>> 23 &&& 0xff : Nat) : Int) - 0x80

/-- utils_math.cpp:70: the mantissa re-biased to exponent 0: `(i & 0x7fffff) + 0x3f800000`. -/
def lnMantissaBits (i : Nat) : Nat := (i &&& 0x7fffff) + 0x3f800000

/-- utils_math.cpp:75: the cubic approximating `1 + log2` of a mantissa in `[1, 2)` (the float version's coefficients). -/
def lnPolyF (u : ℝ) : ℝ := ((0.15824870 * u - 1.05187502) * u + 3.04788415) * u - 1.15360271

/-- utils_math.cpp:89-92: the cubic of the double version. -/
def lnPolyD (u : ℝ) : ℝ :=
  ((0.1582487026083649643648 * u - 1.0518750217176431040285) * u + 3.0478841468943745615315) * u
    - 1.1536207104929913242752

/-- utils_math.cpp:82-95: the exponent of a double, `((i >> 52) & 0x7ff) - 0x400`. -/
def lnExponentD (i : Nat) : Int := ((i >>> 52 &&& 0x7ff : Nat) : Int) - 0x400

/-- utils_math.cpp:88. -/
def lnMantissaBitsD (i : Nat) : Nat := (i &&& 0xfffffffffffff) + 0x3ff0000000000000

/-- The number a 32-bit pattern stands for when it is read through the union's `float` member. Simplification: given for
positive normal patterns (sign 0, exponent field 1..254) only; the theorems use it for no other pattern. -/
def decode32 (x : Nat) : ℝ := (2 : ℝ) ^ (((x / 2 ^ 23 : Nat) : ℤ) - 127) * (1 + ((x % 2 ^ 23 : Nat) : ℝ) / 2 ^ 23)

/-- The same for the 64-bit union of the `double` versions. -/
def decode64 (x : Nat) : ℝ := (2 : ℝ) ^ (((x / 2 ^ 52 : Nat) : ℤ) - 1023) * (1 + ((x % 2 ^ 52 : Nat) : ℝ) / 2 ^ 52)

/-- utils_math.cpp:58-80 `ApprLn(float)` on the bit pattern `i` of its argument (`M_LN2` is exactly `ln 2`). -/
def apprLnF (i : Nat) : ℝ := ((lnExponent i : ℝ) + lnPolyF (decode32 (lnMantissaBits i))) * Real.log 2

/-- utils_math.cpp:82-94 `ApprLn(double)`. -/
def apprLnD (i : Nat) : ℝ := ((lnExponentD i : ℝ) + lnPolyD (decode64 (lnMantissaBitsD i))) * Real.log 2

/-- utils_math.h:323-326 `ApprPow(a, b)`, `i` being the bit pattern of `a`: the bit pattern of the result. -/
def apprPow (i : Nat) (b : ℝ) : Out Nat := powLookup b (apprLnF i)

/-- One Newton step of `ApprSqrt`, utils_math.cpp:31-33: `x = x*(1.5f - xhalf*x*x)`. -/
def newton (xhalf x : ℝ) : ℝ := x * (1.5 - xhalf * x * x)

/-- utils_math.cpp:18-39 `ApprSqrt(float)` on the argument's bit pattern `i`: `j.i = 0x5f375a86 - (j.i >> 1)` with 32-bit
wrap-around, three Newton steps, product with the argument. -/
def apprSqrtF (i : Nat) : ℝ :=
  let z := decode32 i
  let xhalf := 0.5 * z
  let x := decode32 ((0x5f375a86 + 2 ^ 32 - (i >>> 1)) % 2 ^ 32)
  let x := newton xhalf x
  let x := newton xhalf x
  let x := newton xhalf x
  z * x

/-- utils_math.cpp:41-56 `ApprSqrt(double)`. -/
def apprSqrtD (i : Nat) : ℝ :=
  let z := decode64 i
  let xhalf := 0.5 * z
  let x := decode64 ((0x5fe6eb50c7b537a9 + 2 ^ 64 - (i >>> 1)) % 2 ^ 64)
  let x := newton xhalf x
  let x := newton xhalf x
  let x := newton xhalf x
  z * x

/-- utils_math.h:249-262 `__p_exp_ln2`. -/
def pExpLn2 (x : ℝ) : ℝ :=
  1 / (1 + (-0.9998684) * x + 0.4982926 * x * x + (-0.1595332) * x * x * x + 0.0293641 * x * x * x * x)

/-- utils_math.h:269-279 `__p_exp_pos`: `k = x / ln2` truncated to `long`, `twok = 1ULL << k` stored into a `long`:
the shift is undefined for `k ≥ 64` (and for negative `k`), `k = 63` gives the most negative `long`
(two's complement). -/
def pExpPos (x : ℝ) : Out ℝ :=
  let k : Int := if 0 ≤ x then ⌊x / Real.log 2⌋ else ⌈x / Real.log 2⌉
  if k < 0 ∨ 64 ≤ k then .ub else
  let twok : Int := if k = 63 then -(2 ^ 63) else 2 ^ k.toNat
  let x' := x - (k : ℝ) * Real.log 2
  .ok ((twok : ℝ) * pExpLn2 x')

/-- utils_math.h:281-287 `ApprExp`. -/
def apprExp (x : ℝ) : Out ℝ :=
  if x ≥ 0 then pExpPos x else do
    let v ← pExpPos (-x)
    .ok (1 / v)

end CCGL.MathFn
end
