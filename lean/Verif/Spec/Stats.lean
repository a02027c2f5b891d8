import Verif.Model.Stats
/-!
# Specifications for statistics
-/
namespace CCGL.Spec

/-- The values that are not (nearly) equal to the excluded value. -/
def validValues (ex : ℚ) (l : List ℚ) : List ℚ := l.filter (fun v => decide (1 / 10 ^ 32 ≤ |v - ex|))

/-- `m` is the maximum of the values. -/
def IsMaxOf (m : ℚ) (l : List ℚ) : Prop := m ∈ l ∧ ∀ x ∈ l, x ≤ m
/-- `m` is the minimum of the values. -/
def IsMinOf (m : ℚ) (l : List ℚ) : Prop := m ∈ l ∧ ∀ x ∈ l, m ≤ x
/-- Arithmetic mean. -/
def meanOf (l : List ℚ) : ℚ := l.sum / l.length
/-- Mean squared deviation. -/
def varianceOf (l : List ℚ) : ℚ := (l.map (fun v => (v - meanOf l) ^ 2)).sum / l.length

/-- All values are in the range of `float`. -/
def InFloat (l : List ℚ) : Prop := ∀ v ∈ l, |v| ≤ fltMax

/-- `st` are the statistics of the values `l`; for no values mean and deviation are NaN. Maximum, minimum
and range are claimed for values in the range of `float`. -/
structure IsStats (st : Stats) (l : List ℚ) : Prop where
  num : st.num = some (l.length : ℝ)
  mean : l ≠ [] → st.mean = some ((meanOf l : ℚ) : ℝ)
  std : l ≠ [] → st.std = some (Real.sqrt ((varianceOf l : ℚ) : ℝ))
  mean_nan : l = [] → st.mean = none ∧ st.std = none
  extrema : l ≠ [] → InFloat l → ∃ a b : ℚ, IsMaxOf a l ∧ IsMinOf b l ∧
    st.mx = some (a : ℝ) ∧ st.mn = some (b : ℝ) ∧ st.range = some ((a - b : ℚ) : ℝ)

/-- Layer `j` (from 0) of an array `values[cell][layer]`. -/
def column (vals : List (List ℚ)) (j : Nat) : List ℚ := vals.map (fun c => c.getD j 0)

/-- The stored values of a layer (from 1) of a raster. -/
def layerValues (r : Raster) (lyr : Int) : List ℚ :=
  if r.is2d then column (r.raster2.getD []) (lyr - 1).toNat else r.raster1.getD []

/-- The six statistics by name, in any letter case. -/
def StatName (n : Str) : Prop :=
  getUpper n ∈ ["VALID_CELLNUMBER".toList, "MEAN".toList, "MIN".toList, "MAX".toList, "STD".toList,
    "RANGE".toList]

/-- `d` is the statistic named `n` (in any letter case) of the values `l`. For no values mean and deviation are NaN; maximum, minimum
and range are claimed for values in the range of `float`. -/
structure IsStatistic (n : Str) (l : List ℚ) (d : Dbl) : Prop where
  num : getUpper n = "VALID_CELLNUMBER".toList → d = some (l.length : ℝ)
  mean : getUpper n = "MEAN".toList → d = if l = [] then none else some ((meanOf l : ℚ) : ℝ)
  std : getUpper n = "STD".toList → d = if l = [] then none else some (Real.sqrt ((varianceOf l : ℚ) : ℝ))
  mx : getUpper n = "MAX".toList → l ≠ [] → InFloat l → ∃ a : ℚ, IsMaxOf a l ∧ d = some (a : ℝ)
  mn : getUpper n = "MIN".toList → l ≠ [] → InFloat l → ∃ b : ℚ, IsMinOf b l ∧ d = some (b : ℝ)
  range : getUpper n = "RANGE".toList → l ≠ [] → InFloat l → ∃ a b : ℚ, IsMaxOf a l ∧ IsMinOf b l ∧ d = some ((a - b : ℚ) : ℝ)

/-- `d` is the statistic named `n` of the valid values of layer `lyr` of raster `r`. -/
def StatValue (r : Raster) (n : Str) (lyr : Int) (d : Dbl) : Prop :=
  IsStatistic n (validValues r.noData (layerValues r lyr)) d

/-- A query that can be answered: data, an existing layer, a known name. -/
def Answerable (r : Raster) (n : Str) (lyr : Int) : Prop :=
  r.validData = true ∧ 1 ≤ lyr ∧ lyr ≤ r.nLyrs ∧ StatName n

/-- The values a history of calls has to return: statistics are taken from a snapshot of the raster made at
the first answerable query or the last update; other queries return the raster's default value. -/
def Expected : Raster → Option Raster → List StatObj.Call → List Dbl → Prop
  | _, _, [], outs => outs = []
  | r, snap, .op x :: cs, outs => ∃ r', r.step x = .ok r' ∧ Expected r' snap cs outs
  | r, _, .update _ :: cs, outs => Expected r (some r) cs outs
  | r, snap, .query _ n l :: cs, outs => ∃ d rest, outs = d :: rest ∧
      ((Answerable r n l ∧ StatValue (snap.getD r) n l d ∧ Expected r (some (snap.getD r)) cs rest) ∨
       (¬ Answerable r n l ∧ d = some (r.dflt : ℝ) ∧ Expected r snap cs rest))

end CCGL.Spec
