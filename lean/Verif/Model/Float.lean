import Verif.Model.Out
import Mathlib.Data.Real.Basic
import Mathlib.Analysis.Real.Sqrt
/-!
# IEEE 754 double arithmetic (the type `double` of the C++ code)

A `double` is a real number of the form `m * 2^e` with `|m| < 2^53` and `e ≥ -1074`. Simplifications: the exponent has no
upper limit (overflow to infinity is not modelled), there is no NaN and no signed zero. The rounding is any function that
returns a nearest double; the rule for ties (to even on the hardware in use) is left open, so the theorems hold for all of
them. Every operation is rounded on its own (no fused operations, no extended precision).
-/
namespace CCGL.Flt

/-- The numbers a `double` can hold (basic.h uses the compiler's type; IEEE 754 binary64). -/
def IsDouble (x : ℝ) : Prop := ∃ m e : ℤ, |m| < 2 ^ 53 ∧ -1074 ≤ e ∧ x = m * (2 : ℝ) ^ e

/-- A rounding to nearest: what the floating-point unit applies to the exact result of each operation. -/
structure Rounding where
  fl : ℝ → ℝ
  mem : ∀ x, IsDouble (fl x)
  near : ∀ x y, IsDouble y → |fl x - x| ≤ |y - x|

/-- `a + b` of two `double`s. -/
def Rounding.add (R : Rounding) (a b : ℝ) : ℝ := R.fl (a + b)
/-- `a - b`. -/
def Rounding.sub (R : Rounding) (a b : ℝ) : ℝ := R.fl (a - b)
/-- `a * b`. -/
def Rounding.mul (R : Rounding) (a b : ℝ) : ℝ := R.fl (a * b)
/-- `a / b`, `b` not zero. -/
noncomputable def Rounding.div (R : Rounding) (a b : ℝ) : ℝ := R.fl (a / b)
/-- `sqrt(a)`, correctly rounded as IEEE 754 requires, `a` not negative. -/
noncomputable def Rounding.sqrt (R : Rounding) (a : ℝ) : ℝ := R.fl (Real.sqrt a)

end CCGL.Flt
