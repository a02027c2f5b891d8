import Verif.Props.SubsetData

/-!
# Handing values to a subset (C15)

`SetData` and `Set2DData` take values only for as many cells as the subset has; anything else is refused and nothing
changes. Values that are taken are exactly the values that are held afterwards.
-/

namespace CCGL

open Raster

/-- C15: `SetData` and `Set2DData` refuse values for another number of cells than the subset has, and no values at all, and
the subset stays as it was. -/
theorem C15_set_refused (s : Subset) (n lyr : Int) (a : Ptr ℚ) (b : Ptr (List ℚ)) :
    ((n ≠ s.nCells ∨ a = none) → s.setData n a = .ok (s, false)) ∧
    ((n ≠ s.nCells ∨ b = none) → s.set2DData n lyr b = .ok (s, false)) := by
  constructor
  · intro h
    unfold Subset.setData
    by_cases hn : n = s.nCells
    · rcases h with h | h
      · exact absurd hn h
      · rw [if_neg (by simpa using hn), h]
    · rw [if_pos hn]
  · intro h
    unfold Subset.set2DData
    by_cases hn : n = s.nCells
    · rcases h with h | h
      · exact absurd hn h
      · rw [if_neg (by simpa using hn), h]
    · rw [if_pos hn]

/-- C15: the values `Set2DData` takes - one row of `lyr` values for each cell of a subset that has got none before - are the
values the subset holds afterwards; it becomes usable and nothing else of it changes. -/
theorem C15_set2D {s : Subset} {lyr : Int} {l : List (List ℚ)} (hpos : 0 < s.nCells) (hl : 0 < lyr)
    (hn : (l.length : Int) = s.nCells) (hrow : ∀ c ∈ l, (c.length : Int) = lyr)
    (hd : ∀ old, s.data2d = some old → (old.length : Int) = s.nCells ∧ ∀ c ∈ old, (c.length : Int) = lyr) :
    s.set2DData s.nCells lyr (some l) = .ok ({ s with nLyrs := lyr, usable := true, data2d := some l }, true) := by
  unfold Subset.set2DData
  rw [if_neg (by simp)]
  have h1 : ¬ ((l.length : Int) ≠ s.nCells ∨ l.any (fun c => decide ((c.length : Int) ≠ lyr)) = true) := by
    simp only [List.any_eq_true, decide_eq_true_eq, not_or, not_exists, not_and, not_not]
    exact ⟨hn, hrow⟩
  simp only
  rw [if_neg h1]
  cases ho : s.data2d with
  | none =>
    simp only
    rw [if_neg (by omega)]
  | some old =>
    have h2 : ¬ (old.any (fun c => decide ((c.length : Int) ≠ lyr)) = true ∨ (old.length : Int) ≠ s.nCells) := by
      simp only [List.any_eq_true, decide_eq_true_eq, not_or, not_exists, not_and, not_not]
      exact ⟨fun c hc => (hd old ho).2 c hc, (hd old ho).1⟩
    simp only
    rw [if_neg h2]

/-- C15: the values `SetData` takes - one for each cell - are the values the subset holds afterwards. -/
theorem C15_set {s : Subset} {l : List ℚ} (hn : (l.length : Int) = s.nCells) (hpos : 0 < s.nCells)
    (hd : ∀ old, s.data = some old → (old.length : Int) = s.nCells) :
    s.setData s.nCells (some l) = .ok ({ s with nLyrs := 1, usable := true, data := some l }, true) := setData_fit hn hpos hd

def exSetSub : Subset := { Subset.new 0 1 0 1 with nCells := 2, nLyrs := 1, glob := some [0, 3], data := some [7, 8] }

example : exSetSub.setData 3 (some [1, 2, 3]) = .ok (exSetSub, false) ∧ exSetSub.set2DData 3 2 (some [[1, 2], [3, 4], [5, 6]]) = .ok (exSetSub, false) :=
  ⟨(C15_set_refused exSetSub 3 2 _ none).1 (.inl (by decide)), (C15_set_refused exSetSub 3 2 none _).2 (.inl (by decide))⟩

example : exSetSub.set2DData 2 2 (some [[1, 2], [3, 4]]) =
    .ok ({ exSetSub with nLyrs := 2, usable := true, data2d := some [[1, 2], [3, 4]] }, true) :=
  C15_set2D (s := exSetSub) (by decide) (by decide) (by decide) (by decide) (by intro old h; cases h)

example : exSetSub.setData 2 (some [5, 6]) = .ok ({ exSetSub with nLyrs := 1, usable := true, data := some [5, 6] }, true) :=
  C15_set (s := exSetSub) (by decide) (by decide) (by intro old h; cases h; rfl)

end CCGL
