import Verif.Props.Recls
/-!
# `PrepareCombSubsetData` refuses subsets that do not fit together (C15)
-/
namespace CCGL

theorem lyrsStep_none (b : Bool) : ∀ subs : IMap Subset, subs.foldl (subsetLyrsStep b) none = none
  | [] => rfl
  | e :: subs => by rw [List.foldl_cons]; exact lyrsStep_none b subs

/-- What an accepted list of subsets looks like. -/
theorem lyrs_accepted (b : Bool) : ∀ (subs : IMap Subset) (acc n : Int), subs.foldl (subsetLyrsStep b) (some acc) = some n →
    (0 ≤ acc → n = acc) ∧ ∀ e ∈ subs, e.2.usable = true →
      (b = true → e.2.data.isSome = true ∨ e.2.data2d.isSome = true) ∧ (0 ≤ e.2.nLyrs → n = e.2.nLyrs)
  | [], acc, n, h => by
    simp only [List.foldl_nil, Option.some.injEq] at h
    exact ⟨fun _ => h.symm, fun e he => by cases he⟩
  | e :: subs, acc, n, h => by
    rw [List.foldl_cons] at h
    unfold subsetLyrsStep at h
    dsimp only at h
    cases hu : e.2.usable with
    | false =>
      rw [hu] at h
      simp only [Bool.not_false, if_true] at h
      obtain ⟨h1, h2⟩ := lyrs_accepted b subs acc n h
      refine ⟨h1, fun e' he' => ?_⟩
      rcases List.mem_cons.1 he' with rfl | he'
      · intro h; rw [hu] at h; cases h
      · exact h2 e' he'
    | true =>
      rw [hu] at h
      simp only [Bool.not_true, Bool.false_eq_true, if_false] at h
      by_cases hd : (e.2.data.isSome || e.2.data2d.isSome || !b) = true
      · rw [hd] at h
        simp only [Bool.not_true, Bool.false_eq_true, if_false] at h
        have hd' : b = true → e.2.data.isSome = true ∨ e.2.data2d.isSome = true := by
          rintro rfl
          simpa using hd
        by_cases ha : acc < 0
        · rw [if_pos ha] at h
          obtain ⟨h1, h2⟩ := lyrs_accepted b subs _ n h
          refine ⟨fun h => by omega, fun e' he' => ?_⟩
          rcases List.mem_cons.1 he' with rfl | he'
          · exact fun _ => ⟨hd', h1⟩
          · exact h2 e' he'
        · rw [if_neg ha] at h
          by_cases hne : e.2.nLyrs ≠ acc
          · rw [if_pos hne] at h
            have := lyrsStep_none b subs
            unfold subsetLyrsStep at this
            rw [this] at h
            cases h
          · rw [if_neg hne] at h
            obtain ⟨h1, h2⟩ := lyrs_accepted b subs acc n h
            refine ⟨h1, fun e' he' => ?_⟩
            rcases List.mem_cons.1 he' with rfl | he'
            · exact fun _ => ⟨hd', fun _ => by rw [h1 (by omega)]; omega⟩
            · exact h2 e' he'
      · rw [Bool.not_eq_true] at hd
        rw [hd] at h
        simp only [Bool.not_false, if_true] at h
        have := lyrsStep_none b subs
        unfold subsetLyrsStep at this
        rw [this] at h
        cases h

/-- C15: subsets with different numbers of layers are not combined (`false` is returned and nothing is read or written), whatever the options. -/
theorem C15_refuses_layers (rs : RasterS) {k k' : Int} {s s' : Subset} (h : (k, s) ∈ rs.subs) (h' : (k', s') ∈ rs.subs) (hu : s.usable = true)
    (hu' : s'.usable = true) (hl : 0 ≤ s.nLyrs) (hl' : 0 ≤ s'.nLyrs) (hne : s.nLyrs ≠ s'.nLyrs) (outOrigin includeNoData : Bool)
    (recls : IMap (List ℚ)) (dv : ℚ) : prepareComb rs outOrigin includeNoData recls dv = .ok none := by
  unfold prepareComb
  by_cases h0 : rs.subs = []
  · rw [if_pos h0]
  · rw [if_neg h0]
    cases reclsLyrs recls with
    | none => rfl
    | some lr =>
      cases hs : subsetLyrs rs.subs (decide (recls = [])) with
      | none => rfl
      | some n =>
        obtain ⟨-, h2⟩ := lyrs_accepted _ _ _ _ hs
        have e1 := (h2 _ h hu).2 hl
        have e2 := (h2 _ h' hu').2 hl'
        exact absurd (e1.symm.trans e2) hne

/-- C15: without a table, a usable subset that has got no values yet makes `PrepareCombSubsetData` return `false` as well. -/
theorem C15_refuses_empty (rs : RasterS) {k : Int} {s : Subset} (h : (k, s) ∈ rs.subs) (hu : s.usable = true) (h1 : s.data.isSome = false)
    (h2 : s.data2d.isSome = false) (outOrigin includeNoData : Bool) (dv : ℚ) : prepareComb rs outOrigin includeNoData [] dv = .ok none := by
  unfold prepareComb
  by_cases h0 : rs.subs = []
  · rw [if_pos h0]
  · rw [if_neg h0]
    cases reclsLyrs [] with
    | none => rfl
    | some lr =>
      cases hs : subsetLyrs rs.subs (decide (([] : IMap (List ℚ)) = [])) with
      | none => rfl
      | some n =>
        obtain ⟨-, q⟩ := lyrs_accepted _ _ _ _ hs
        rcases (q _ h hu).1 (by simp) with e | e
        · rw [h1] at e; cases e
        · rw [h2] at e; cases e

/-- Both refusals happen: the subsets of a built raster, one of which has got other layers; and subsets that have got no values. -/
example : ∃ (rs : RasterS) (k k' : Int) (s s' : Subset), (k, s) ∈ rs.subs ∧ (k', s') ∈ rs.subs ∧ s.usable = true ∧ s'.usable = true ∧
    0 ≤ s.nLyrs ∧ 0 ≤ s'.nLyrs ∧ s.nLyrs ≠ s'.nLyrs ∧ s.data.isSome = false ∧ s.data2d.isSome = false :=
  ⟨⟨exSubs.1.ras, [(1, { Subset.new 0 0 0 0 with nLyrs := 1 }), (2, { Subset.new 0 0 1 1 with nLyrs := 2 })]⟩,
    1, 2, _, _, List.mem_cons_self .., by simp; rfl, rfl, rfl, by decide, by decide, by decide, rfl, rfl⟩

end CCGL
