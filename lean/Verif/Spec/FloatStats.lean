import Verif.Model.FloatStats
/-!
# Specification: how far statistics in double arithmetic may be from the exact ones
-/
noncomputable section
namespace CCGL.Flt.Spec

/-- Half the distance from 1 to the next double: 2⁻⁵³. -/
def unit : ℝ := 1 / 2 ^ 53

/-- The values of a layer that are not NoData. -/
def valid (ex : ℝ) (l : List ℝ) : List ℝ := by classical exact l.filter (fun v => v ≠ ex)

/-- Values other than NoData are not both tiny with it (2⁻⁵³ is about 1e-16); true of every NoData value like -9999. -/
def Apart (ex : ℝ) (l : List ℝ) : Prop := ∀ v ∈ l, v ≠ ex → 1 / 2 ^ 53 ≤ |v| ∨ 1 / 2 ^ 53 ≤ |ex|

/-- Sum of the absolute values. -/
def absSum (l : List ℝ) : ℝ := (l.map (fun v => |v|)).sum
/-- Arithmetic mean. -/
def mean (l : List ℝ) : ℝ := l.sum / l.length
/-- Mean of the absolute values. -/
def absMean (l : List ℝ) : ℝ := absSum l / l.length
/-- Standard deviation. -/
def deviation (l : List ℝ) : ℝ := Real.sqrt ((l.map (fun v => (v - mean l) ^ 2)).sum / l.length)

/-- The number of additions a value of a plan can pass through: its thread's iterations, then the combinations. -/
def depth : Plan → Nat
  | .thread is => is.length
  | .join a b => max (depth a) (depth b) + 1

/-- `x` is the sum of the values `l` up to the rounding of `k` additions. -/
def NearSum (k : Nat) (x : ℝ) (l : List ℝ) : Prop := |x - l.sum| ≤ ((1 + unit) ^ k - 1) * absSum l

/-- `st` are the statistics of the values `l`, the squares being added with at most `k` additions in a row: the number of values,
maximum and minimum are exact (for values in the range of `float`), the range is rounded once, mean and deviation have a
relative error that grows with the number of operations (2⁻¹⁰⁷⁵ and 2⁻⁵³⁷ are for results below the normal range). -/
structure NearStats (k : Nat) (st : Stats) (l : List ℝ) : Prop where
  num : st.num = some (l.length : ℝ)
  empty : l = [] → st.mean = none ∧ st.std = none
  mean : l ≠ [] → ∃ m, st.mean = some m ∧ |m - Spec.mean l| ≤ ((1 + unit) ^ (l.length + 1) - 1) * absMean l + (2 : ℝ) ^ (-1075 : ℤ)
  std : l ≠ [] → ∃ m s, st.mean = some m ∧ st.std = some s ∧ 0 ≤ s ∧
    (1 - unit) ^ (k + 5) * deviation l - (2 : ℝ) ^ (-537 : ℤ) ≤ s ∧
    s ≤ (1 + unit) ^ (k + 5) * (deviation l + |m - Spec.mean l| + (2 : ℝ) ^ (-537 : ℤ))
  extrema : l ≠ [] → (∀ v ∈ l, |v| ≤ (fltMax : ℝ)) → ∃ a b r, a ∈ l ∧ (∀ v ∈ l, v ≤ a) ∧ b ∈ l ∧ (∀ v ∈ l, b ≤ v) ∧
    st.mx = some a ∧ st.mn = some b ∧ st.range = some r ∧ |r - (a - b)| ≤ unit * (a - b)

/-- Layer `j` (from 0) of an array `values[cell][layer]`. -/
def column (vals : List (List ℝ)) (j : Nat) : List ℝ := vals.map (fun c => c.getD j 0)

end CCGL.Flt.Spec
