import Mathlib.Data.Real.Basic
import Mathlib.Analysis.SpecialFunctions.Pow.Real
/-!
# Specification vocabulary for the numeric helpers (independent of the model)
-/
noncomputable section
namespace CCGL.MathFn.Spec

/-- `x` is the IEEE-754 single-precision bit pattern of the positive normal number `v`:
sign 0, biased exponent `e` with `1 ≤ e ≤ 254`, fraction `m < 2^23`, `v = 2^(e-127) · (1 + m/2^23)`. -/
def PosNormal32 (x : ℕ) (v : ℝ) : Prop :=
  ∃ e m : ℕ, 1 ≤ e ∧ e ≤ 254 ∧ m < 2 ^ 23 ∧ x = e * 2 ^ 23 + m ∧
    v = (2 : ℝ) ^ ((e : ℤ) - 127) * (1 + (m : ℝ) / 2 ^ 23)

/-- The same for double precision. -/
def PosNormal64 (x : ℕ) (v : ℝ) : Prop :=
  ∃ e m : ℕ, 1 ≤ e ∧ e ≤ 2046 ∧ m < 2 ^ 52 ∧ x = e * 2 ^ 52 + m ∧
    v = (2 : ℝ) ^ ((e : ℤ) - 1023) * (1 + (m : ℝ) / 2 ^ 52)

/-- `v` approximates `w > 0` with relative error at most `ε`. -/
def RelClose (ε v w : ℝ) : Prop := |v - w| ≤ ε * w

end CCGL.MathFn.Spec
end
