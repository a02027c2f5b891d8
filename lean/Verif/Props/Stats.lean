import Verif.Lemmas.Stats
import Verif.Model.Par
import Verif.Props.Raster
import Mathlib.Tactic.NormNum
/-!
# Properties of statistics and parallel loops (C19–C22)
-/
namespace CCGL
open Spec

/-! ## C19 -/

/-- C19 for every array, excluded value and schedule of the parallel loop; the extrema are claimed for
values in the range of `float` (see `C19_false_large`), everything else without restriction. -/
theorem C19_statistics_partial (s : Sched) (values : List ℚ) (ex : ℚ) (hs : s.Of values.length) :
    ∃ st, basicStats1 s (some values) values.length ex = .ok st ∧ IsStats st (validValues ex values) :=
  ⟨_, basicStats1_eq s values ex hs, finish_isStats _ _ _ rfl _ rfl⟩

theorem push_filter (ex : ℚ) (l : List ℚ) : ∀ a : Acc,
    l.foldl (Acc.push ex) a = (validValues ex l).foldl (Acc.push ex) a := by
  induction l with
  | nil => intro a; rfl
  | cons v l ih =>
    intro a
    by_cases hv : floatEqual v ex = true
    · have e2 : validValues ex (v :: l) = validValues ex l := by
        unfold validValues
        rw [List.filter_cons_of_neg]
        rw [floatEqual_valid] at hv; simpa using hv
      rw [e2, List.foldl_cons, show a.push ex v = a by unfold Acc.push; rw [if_pos hv]]
      exact ih a
    · have e2 : validValues ex (v :: l) = v :: validValues ex l := by
        unfold validValues
        rw [List.filter_cons_of_pos]
        rw [floatEqual_valid] at hv; simpa using hv
      rw [e2, List.foldl_cons, List.foldl_cons]
      exact ih _

theorem sqDev_filter (ex : ℚ) (m : Option ℚ) (l : List ℚ) :
    (l.map (sqDev ex m)).sum = ((validValues ex l).map (sqDev ex m)).sum := by
  induction l with
  | nil => rfl
  | cons v l ih =>
    by_cases hv : floatEqual v ex = true
    · have e2 : validValues ex (v :: l) = validValues ex l := by
        unfold validValues
        rw [List.filter_cons_of_neg]
        rw [floatEqual_valid] at hv; simpa using hv
      rw [e2, List.map_cons, List.sum_cons, ih, show sqDev ex m v = 0 by unfold sqDev; rw [if_pos hv], zero_add]
    · have e2 : validValues ex (v :: l) = v :: validValues ex l := by
        unfold validValues
        rw [List.filter_cons_of_pos]
        rw [floatEqual_valid] at hv; simpa using hv
      rw [e2, List.map_cons, List.sum_cons, ih, List.map_cons, List.sum_cons]

/-- Excluded values have no influence: arrays with the same valid values (in order) have the same
statistics, whatever excluded values are between them. -/
theorem C19_excluded (s s' : Sched) (a b : List ℚ) (ex : ℚ) (hs : s.Of a.length) (hs' : s'.Of b.length)
    (h : validValues ex a = validValues ex b) :
    basicStats1 s (some a) a.length ex = basicStats1 s' (some b) b.length ex := by
  rw [basicStats1_eq s a ex hs, basicStats1_eq s' b ex hs', push_filter ex a, push_filter ex b, h,
    sqDev_filter ex _ a, sqDev_filter ex _ b, h]

/-- A `double` array with a value beyond `FLT_MAX` gets the wrong minimum (and range). -/
theorem C19_false_large : ∃ (values : List ℚ) (ex : ℚ) (s : Sched) (st : Stats),
    s.Of values.length ∧ basicStats1 s (some values) values.length ex = .ok st ∧
    validValues ex values = values ∧ values = [2 * fltMax] ∧ st.mn = some (fltMax : ℝ) := by
  refine ⟨[2 * fltMax], NODATA, [[0]], _, ?_, basicStats1_eq _ _ _ ?_, ?_, rfl, ?_⟩
  · exact List.Perm.refl _
  · exact List.Perm.refl _
  · decide +kernel
  · have : ([2 * fltMax].foldl (Acc.push NODATA) Acc.start).mn = fltMax := by decide +kernel
    simp only [finishStats, this]

example : validValues (-9999) [3, -9999, 5, 4, -9999] = [3, 5, 4] := by decide +kernel
example : ∃ s : Sched, s.Of 5 ∧ s = [[3, 1], [0, 2, 4]] :=
  ⟨_, (by unfold Sched.Of; decide +kernel), rfl⟩

/-! ## C20 -/

/-- C20: every layer's slot holds exactly the result of the one-dimensional function on this layer. -/
theorem C20_layers (s : Schedule) (vals : List (List ℚ)) (lyrs : Nat) (ex : ℚ)
    (hrow : ∀ c ∈ vals, c.length = lyrs) :
    ∃ l, basicStats2 s (some vals) vals.length lyrs ex = .ok l ∧ l.length = lyrs ∧
      ∀ j (h : j < l.length) (s' : Sched), s'.Of (column vals j).length →
        basicStats1 s' (some (column vals j)) (column vals j).length ex = .ok l[j] := by
  refine ⟨_, basicStats2_eq s vals ex lyrs hrow, by simp, ?_⟩
  intro j h s' hs'
  rw [basicStats1_eq s' _ ex hs']
  simp

/-- C20: and these are the statistics of the layer's valid values. -/
theorem C20_stats (s : Schedule) (vals : List (List ℚ)) (lyrs : Nat) (ex : ℚ)
    (hrow : ∀ c ∈ vals, c.length = lyrs) :
    ∃ l, basicStats2 s (some vals) vals.length lyrs ex = .ok l ∧ l.length = lyrs ∧
      ∀ j (h : j < l.length), IsStats l[j] (validValues ex (column vals j)) := by
  refine ⟨_, basicStats2_eq s vals ex lyrs hrow, by simp, ?_⟩
  intro j h
  simp only [List.getElem_map, List.getElem_range]
  exact finish_isStats _ _ _ rfl _ rfl

/-- C20: layers do not influence each other: changing other layers keeps the slot. -/
theorem C20_independent (s s' : Schedule) (v w : List (List ℚ)) (n m : Nat) (ex : ℚ)
    (hv : ∀ c ∈ v, c.length = n) (hw : ∀ c ∈ w, c.length = m) (j : Nat) (hj : j < n) (hj' : j < m)
    (h : column v j = column w j) : ∃ l l', basicStats2 s (some v) v.length n ex = .ok l ∧
      basicStats2 s' (some w) w.length m ex = .ok l' ∧ l[j]? = l'[j]? ∧ (l[j]?).isSome := by
  refine ⟨_, _, basicStats2_eq s v ex n hv, basicStats2_eq s' w ex m hw, ?_, ?_⟩
  · simp [List.getElem?_map, List.getElem?_range hj, List.getElem?_range hj', h]
  · simp [List.getElem?_map, List.getElem?_range hj]

example : column [[1, 2], [3, 4], [5, 6]] 1 = [2, 4, 6] ∧
    ∀ c ∈ ([[1, 2], [3, 4], [5, 6]] : List (List ℚ)), c.length = 2 := by decide +kernel

/-! ## C21 -/

/-- C21: `Sum` is the sum for every distribution of the cells over threads and every order of combining
the partial results; the array may be longer than the number of cells summed. -/
theorem C21_sum (s : Sched) (data : List ℚ) (n : Nat) (hn : n ≤ data.length) (hs : s.Of n) :
    sumArr s (some data) = .ok (data.take n).sum := by
  unfold sumArr
  rw [ompSum_sched _ (fun i => (data.take n).getD i 0) s n hs 0 ?_, zero_add]
  · have := map_range_getD (data.take n) 0
    rw [List.length_take, min_eq_left hn] at this
    rw [this]
  · intro i hi
    rw [readAt_some_nat _ i (by omega), List.getD_eq_getElem _ _ (by simp; omega), List.getElem_take]

/-- C21: the same for the indexed sum. -/
theorem C21_sumIdx (s : Sched) (idx : List Int) (data : List ℚ) (hs : s.Of idx.length)
    (hi : ∀ j ∈ idx, 0 ≤ j ∧ j < data.length) :
    sumIdx s (some idx) (some data) = .ok (idx.map (fun j => data.getD j.toNat 0)).sum := by
  unfold sumIdx
  rw [ompSum_sched _ (fun i => data.getD (idx.getD i 0).toNat 0) s idx.length hs 0 ?_, zero_add]
  · have := map_range_comp (fun j : Int => data.getD j.toNat 0) idx 0
    rw [this]
  · intro i h
    have hm := hi idx[i] (List.getElem_mem h)
    rw [readAt_some_nat _ i h, Out.ok_bind, readAt_some_int _ _ hm.1 hm.2,
      show idx.getD i 0 = idx[i] from List.getD_eq_getElem _ _ h,
      List.getD_eq_getElem _ _ (by omega)]

/-- C21: the statistics do not depend on the schedule. -/
theorem C21_statistics (s s' : Sched) (values : List ℚ) (ex : ℚ) (hs : s.Of values.length)
    (hs' : s'.Of values.length) :
    basicStats1 s (some values) values.length ex = basicStats1 s' (some values) values.length ex := by
  rw [basicStats1_eq s values ex hs, basicStats1_eq s' values ex hs']

theorem C21_statistics2 (s s' : Schedule) (vals : List (List ℚ)) (lyrs : Nat) (ex : ℚ)
    (hrow : ∀ c ∈ vals, c.length = lyrs) :
    basicStats2 s (some vals) vals.length lyrs ex = basicStats2 s' (some vals) vals.length lyrs ex := by
  rw [basicStats2_eq s vals ex lyrs hrow, basicStats2_eq s' vals ex lyrs hrow]

theorem parRun_at {σ : Type} (tr : List (ParAct σ)) : ∀ (mem : Nat → σ) (i : Nat),
    parRun tr mem i = ((tr.filter (fun a => a.1 = i)).map (·.2)).foldl (fun x f => f x) (mem i) := by
  induction tr with
  | nil => intro mem i; rfl
  | cons a tr ih =>
    obtain ⟨k, f⟩ := a
    intro mem i
    rw [parRun, ih]
    by_cases h : k = i
    · subst h
      rw [List.filter_cons_of_pos (by simp), List.map_cons, List.foldl_cons, if_pos rfl]
    · rw [List.filter_cons_of_neg (by simpa using h), if_neg (by omega)]

/-- C21 for the writing loops: whatever the interleaving of the iterations' atomic actions, each iteration's
data ends as if this iteration had run alone, hence all interleavings agree with the sequential loop. -/
theorem C21_interleaving {σ : Type} (n : Nat) (prog : Nat → List (σ → σ)) (tr : List (ParAct σ))
    (h : Interleaving n prog tr) (mem : Nat → σ) (i : Nat) :
    parRun tr mem i = if i < n then (prog i).foldl (fun x f => f x) (mem i) else mem i := by
  rw [parRun_at]
  split_ifs with hi
  · rw [h.2 i hi]
  · have : tr.filter (fun a => a.1 = i) = [] := by
      rw [List.filter_eq_nil_iff]
      intro a ha
      have := h.1 a ha
      simp only [decide_eq_true_eq]; omega
    rw [this]; rfl

theorem replProg_run (nd v : ℚ) (n : Nat) : ∀ (c : ReplCell), n ≤ c.row.length →
    ((replProg nd v n).foldl (fun x f => f x) c).row =
      (c.row.take n).map (fun x => if floatEqual x nd then v else x) ++ c.row.drop n := by
  induction n with
  | zero => intro c _; simp [replProg]
  | succ n ih =>
    intro c h
    have hp : replProg nd v (n + 1) = replProg nd v n ++ [replTest nd n, replStore v n] := by
      simp [replProg, List.range_succ]
    rw [hp, List.foldl_append]
    have hc := ih c (by omega)
    generalize (replProg nd v n).foldl (fun x f => f x) c = c' at hc
    have hget : c'.row.getD n 0 = c.row.getD n 0 := by
      rw [hc, List.getD_append_right _ _ _ _ (by simp)]
      simp [List.getD_eq_getElem?_getD, List.getElem?_drop, min_eq_left (by omega : n ≤ c.row.length)]
    simp only [List.foldl_cons, List.foldl_nil, replTest, replStore]
    rw [hget]
    have hn : n < c.row.length := by omega
    have hd : c.row.drop n = c.row.getD n 0 :: c.row.drop (n + 1) := by
      rw [show c.row.getD n 0 = c.row[n] from List.getD_eq_getElem _ _ hn]; exact List.drop_eq_getElem_cons hn
    have ht : c.row.take (n + 1) = c.row.take n ++ [c.row.getD n 0] := by
      rw [show c.row.getD n 0 = c.row[n] from List.getD_eq_getElem _ _ hn]; simp
    rw [ht, List.map_append, List.append_assoc]
    by_cases hf : floatEqual (c.row.getD n 0) nd = true
    · rw [if_pos hf]
      simp only [List.map_cons, List.map_nil, hf, if_true]
      rw [hc, hd, List.set_append_right _ _ (by simp)]
      simp [min_eq_left (by omega : n ≤ c.row.length)]
    · rw [if_neg hf]
      simp only [List.map_cons, List.map_nil, if_neg hf]
      rw [hc, hd]; rfl

/-- C21 for `ReplaceNoData`: under every interleaving every stored value ends as the sequential loop
leaves it (replaced exactly if it was NoData). -/
theorem C21_replaceNoData (nd v : ℚ) (lyrs : Nat) (cells : List (List ℚ)) (hrow : ∀ c ∈ cells, c.length = lyrs)
    (tr : List (ParAct ReplCell)) (h : Interleaving cells.length (fun _ => replProg nd v lyrs) tr)
    (i : Nat) (hi : i < cells.length) :
    (parRun tr (fun k => ⟨cells.getD k [], false⟩) i).row =
      (cells[i]).map (fun x => if floatEqual x nd then v else x) := by
  rw [C21_interleaving _ _ _ h, if_pos hi]
  have hl := hrow _ (List.getElem_mem hi)
  have e : cells.getD i [] = cells[i] := List.getD_eq_getElem _ _ hi
  rw [e, replProg_run nd v lyrs ⟨cells[i], false⟩ (by simp [hl])]
  simp [← hl]

/-- Two iterations of one layer, actions of the two interleaved. -/
example : Interleaving 2 (fun _ => replProg (-9999) 7 1)
    [(1, replTest (-9999) 0), (0, replTest (-9999) 0), (1, replStore 7 0), (0, replStore 7 0)] := by
  refine ⟨by simp, ?_⟩
  intro i hi
  interval_cases i <;> simp [replProg]

/-- The order in which the stored cells are visited does not matter for the object model either. -/
theorem C21_order {r : Raster} {ls} (h : r.Holds ls) (hn : r.nCells = ls.length) (v : ℚ)
    (order : List (Int × Int)) (ho : order.Perm r.cellLayers) :
    ∃ r₁ r₂ ls₁ ls₂, Raster.passCells (fun x => .ok (if floatEqual x r.noData then some v else none)) r order = .ok r₁ ∧
      Raster.passCells (fun x => .ok (if floatEqual x r.noData then some v else none)) r r.cellLayers = .ok r₂ ∧
      r₁.Holds ls₁ ∧ r₂.Holds ls₂ ∧ ls₁.length = ls₂.length ∧
      ∀ i l : Nat, i < ls.length → (l : Int) < r.nLyrs → cellAt ls₁ i l = cellAt ls₂ i l := by
  have hmem : ∀ p ∈ r.cellLayers, 0 ≤ p.1 ∧ p.1 < ls.length ∧ 0 ≤ p.2 ∧ p.2 < r.nLyrs := by
    intro p hp
    have := (mem_gridCells _ _ _).1 hp
    rw [hn] at this; exact ⟨this.1, this.2.1, this.2.2.1, this.2.2.2⟩
  obtain ⟨r1, l1, a1, _, a3, a4, a5⟩ := Raster.passCells_spec
    (fun x => .ok (if floatEqual x r.noData then some v else none))
    (fun x => if floatEqual x r.noData then some v else none) order r ls h
    (ho.nodup_iff.2 (Raster.gridCells_nodup _ _)) (fun p hp => hmem p (ho.mem_iff.1 hp)) (fun _ _ => rfl)
  obtain ⟨r2, l2, b1, _, b3, b4, b5⟩ := Raster.passCells_spec
    (fun x => .ok (if floatEqual x r.noData then some v else none))
    (fun x => if floatEqual x r.noData then some v else none) r.cellLayers r ls h
    (Raster.gridCells_nodup _ _) hmem (fun _ _ => rfl)
  refine ⟨r1, r2, l1, l2, a1, b1, a3, b3, by omega, ?_⟩
  intro i l hi hl
  rw [a5 i l hi hl, b5 i l hi hl]
  simp only [ho.mem_iff]

/-- `MaxInArray`/`MinInArray`. -/
theorem maxLoop_ok (a : List ℚ) (is : List Nat) : ∀ (m : ℚ), (∀ i ∈ is, i < a.length) →
    ∃ x, maxLoop (some a) is m = .ok x ∧ m ≤ x ∧ (∀ i ∈ is, a.getD i 0 ≤ x) ∧ (x = m ∨ ∃ i ∈ is, x = a.getD i 0) := by
  induction is with
  | nil => intro m _; exact ⟨m, rfl, le_rfl, by simp, .inl rfl⟩
  | cons i is ih =>
    intro m h
    have hi := h i (by simp)
    rw [maxLoop, readAt_some_nat _ i hi, Out.ok_bind]
    obtain ⟨x, e, h1, h2, h3⟩ := ih (if a[i] > m then a[i] else m) (fun k hk => h k (by simp [hk]))
    refine ⟨x, e, ?_, ?_, ?_⟩
    · split_ifs at h1 with hc <;> linarith
    · intro k hk
      rcases List.mem_cons.1 hk with rfl | hk
      · rw [List.getD_eq_getElem _ _ hi]; split_ifs at h1 with hc <;> linarith
      · exact h2 k hk
    · rcases h3 with h3 | ⟨k, hk, h3⟩
      · split_ifs at h3 with hc
        · exact .inr ⟨i, by simp, by rw [h3, List.getD_eq_getElem _ _ hi]⟩
        · exact .inl h3
      · exact .inr ⟨k, by simp [hk], h3⟩

theorem minLoop_ok (a : List ℚ) (is : List Nat) : ∀ (m : ℚ), (∀ i ∈ is, i < a.length) →
    ∃ x, minLoop (some a) is m = .ok x ∧ x ≤ m ∧ (∀ i ∈ is, x ≤ a.getD i 0) ∧ (x = m ∨ ∃ i ∈ is, x = a.getD i 0) := by
  induction is with
  | nil => intro m _; exact ⟨m, rfl, le_rfl, by simp, .inl rfl⟩
  | cons i is ih =>
    intro m h
    have hi := h i (by simp)
    rw [minLoop, readAt_some_nat _ i hi, Out.ok_bind]
    obtain ⟨x, e, h1, h2, h3⟩ := ih (if a[i] < m then a[i] else m) (fun k hk => h k (by simp [hk]))
    refine ⟨x, e, ?_, ?_, ?_⟩
    · split_ifs at h1 with hc <;> linarith
    · intro k hk
      rcases List.mem_cons.1 hk with rfl | hk
      · rw [List.getD_eq_getElem _ _ hi]; split_ifs at h1 with hc <;> linarith
      · exact h2 k hk
    · rcases h3 with h3 | ⟨k, hk, h3⟩
      · split_ifs at h3 with hc
        · exact .inr ⟨i, by simp, by rw [h3, List.getD_eq_getElem _ _ hi]⟩
        · exact .inl h3
      · exact .inr ⟨k, by simp [hk], h3⟩

/-- `MaxInArray` and `MinInArray` of a non-empty array are its maximum and minimum. -/
theorem C19_maxInArray (a : List ℚ) (h : a ≠ []) : ∃ x, maxInArray (some a) a.length = .ok x ∧ IsMaxOf x a := by
  have h0 : 0 < a.length := List.length_pos_of_ne_nil h
  unfold maxInArray
  have e0 : readAt (some a) 0 = .ok a[0] := readAt_some_nat a 0 h0
  rw [e0, Out.ok_bind]
  obtain ⟨x, e, h1, h2, h3⟩ := maxLoop_ok a (List.range' 1 ((a.length : Int) - 1).toNat) a[0]
    (by intro i hi; rw [List.mem_range'_1] at hi; omega)
  refine ⟨x, e, ?_, ?_⟩
  · rcases h3 with rfl | ⟨i, hi, rfl⟩
    · exact List.getElem_mem h0
    · rw [List.mem_range'_1] at hi
      rw [List.getD_eq_getElem _ _ (by omega)]; exact List.getElem_mem _
  · intro y hy
    obtain ⟨i, hi, rfl⟩ := List.mem_iff_getElem.1 hy
    rcases Nat.eq_zero_or_pos i with rfl | hp
    · exact h1
    · have := h2 i (by rw [List.mem_range'_1]; omega)
      rwa [List.getD_eq_getElem _ _ hi] at this

theorem C19_minInArray (a : List ℚ) (h : a ≠ []) : ∃ x, minInArray (some a) a.length = .ok x ∧ IsMinOf x a := by
  have h0 : 0 < a.length := List.length_pos_of_ne_nil h
  unfold minInArray
  have e0 : readAt (some a) 0 = .ok a[0] := readAt_some_nat a 0 h0
  rw [e0, Out.ok_bind]
  obtain ⟨x, e, h1, h2, h3⟩ := minLoop_ok a (List.range' 1 ((a.length : Int) - 1).toNat) a[0]
    (by intro i hi; rw [List.mem_range'_1] at hi; omega)
  refine ⟨x, e, ?_, ?_⟩
  · rcases h3 with rfl | ⟨i, hi, rfl⟩
    · exact List.getElem_mem h0
    · rw [List.mem_range'_1] at hi
      rw [List.getD_eq_getElem _ _ (by omega)]; exact List.getElem_mem _
  · intro y hy
    obtain ⟨i, hi, rfl⟩ := List.mem_iff_getElem.1 hy
    rcases Nat.eq_zero_or_pos i with rfl | hp
    · exact h1
    · have := h2 i (by rw [List.mem_range'_1]; omega)
      rwa [List.getD_eq_getElem _ _ hi] at this

/-! ## C22 -/

theorem StatObj.step_query (o : StatObj) (s : Schedule) (n : Str) (l : Int) :
    o.step (.query s n l) = (o.getStatistics s n l >>= fun x => pure (x.1, some x.2)) := rfl
theorem StatObj.step_update (o : StatObj) (s : Schedule) :
    o.step (.update s) = (o.update s >>= fun o' => pure (o', none)) := rfl

theorem run_expected (cs : List StatObj.Call) : ∀ (o : StatObj) (snap : Option Raster) (_ : SInv o snap)
    (_ : Built o.r) (o' : StatObj) (outs : List Dbl), o.run cs = .ok (o', outs) → Expected o.r snap cs outs := by
  induction cs with
  | nil =>
    intro o snap _ _ o' outs e
    simp only [StatObj.run, Out.ok.injEq, Prod.mk.injEq] at e
    exact e.2.symm
  | cons c cs ih =>
    intro o snap hi hb o' outs e
    unfold StatObj.run at e
    obtain ⟨⟨o1, q⟩, e1, e⟩ := Out.bind_ok e
    obtain ⟨⟨o2, rest⟩, e2, e⟩ := Out.bind_ok e
    simp only [Out.pure_eq, Out.ok.injEq, Prod.mk.injEq] at e
    obtain ⟨rfl, rfl⟩ := e
    cases c with
    | op x =>
      obtain ⟨r', h1, h2⟩ := Out.bind_ok e1
      simp only [Out.pure_eq, Out.ok.injEq, Prod.mk.injEq] at h2
      obtain ⟨rfl, rfl⟩ := h2
      have hb' : Built r' := hb.step x h1
      refine ⟨r', h1, ?_⟩
      refine ih { o with r := r' } snap ⟨hb'.inv, hi.none_, ?_⟩ hb' _ _ e2
      intro r0 hr0
      obtain ⟨k1, k2, k3, k4, k5⟩ := hi.some_ r0 hr0
      have d1 := Raster.step_is2d h1
      have d2 := Raster.step_nLyrs h1
      exact ⟨k1, by rw [k2]; exact d1.symm, by rw [k3]; exact d2.symm,
        fun h => k4 (by rw [← d1]; exact h), fun h => k5 (by rw [← d1]; exact h)⟩
    | query s n l =>
      obtain ⟨o3, d, e3, hr, hcase⟩ := hi.query_ok s n l
      rw [StatObj.step_query, e3, Out.ok_bind] at e1
      simp only [Out.pure_eq, Out.ok.injEq, Prod.mk.injEq] at e1
      obtain ⟨rfl, rfl⟩ := e1
      refine ⟨d, rest, rfl, ?_⟩
      rcases hcase with ⟨a1, a2, a3⟩ | ⟨a1, a2, a3⟩
      · refine .inl ⟨a1, a2, ?_⟩
        have := ih _ _ a3 (by rw [hr]; exact hb) _ _ e2
        rwa [hr] at this
      · refine .inr ⟨a1, a2, ?_⟩
        have := ih _ _ a3 (by rw [hr]; exact hb) _ _ e2
        rwa [hr] at this
    | update s =>
      obtain ⟨o3, e3, hr, hi3⟩ := hi.update_ok s
      rw [StatObj.step_update, e3, Out.ok_bind] at e1
      simp only [Out.pure_eq, Out.ok.injEq, Prod.mk.injEq] at e1
      obtain ⟨rfl, rfl⟩ := e1
      have := ih _ _ hi3 (by rw [hr]; exact hb) _ _ e2
      rw [hr] at this
      exact this

theorem fresh_sinv {r : Raster} (h : Built r) : SInv (StatObj.fresh r) none :=
  ⟨h.inv, fun _ => ⟨rfl, rfl⟩, by simp⟩

/-- C22: over any history of raster operations, statistics queries and updates, the values returned are those
of the snapshot taken at the first query or the last update. (The array getters are in `C22_false_array`.) -/
theorem C22_cache_partial {r : Raster} (hb : Built r) (cs : List StatObj.Call) (o' : StatObj) (outs : List Dbl)
    (e : (StatObj.fresh r).run cs = .ok (o', outs)) : Expected r none cs outs :=
  run_expected cs (StatObj.fresh r) none (fresh_sinv hb) hb o' outs e

/-- C22: queries and updates themselves never fail: a history fails only if one of its raster operations
does. -/
theorem C22_total {r : Raster} (hb : Built r) (cs : List StatObj.Call)
    (hq : ∀ c ∈ cs, ∀ x, c ≠ .op x) : ∃ o' outs, (StatObj.fresh r).run cs = .ok (o', outs) := by
  have key : ∀ (cs : List StatObj.Call) (o : StatObj) (snap : Option Raster), SInv o snap →
      (∀ c ∈ cs, ∀ x, c ≠ .op x) → ∃ o' outs, o.run cs = .ok (o', outs) := by
    intro cs
    induction cs with
    | nil => intro o _ _ _; exact ⟨o, [], rfl⟩
    | cons c cs ih =>
      intro o snap hi hq
      unfold StatObj.run
      cases c with
      | op x => exact absurd rfl (hq _ (by simp) x)
      | query s n l =>
        obtain ⟨o3, d, e3, hr, hcase⟩ := hi.query_ok s n l
        have : ∃ snap', SInv o3 snap' := by
          rcases hcase with h | h
          · exact ⟨_, h.2.2⟩
          · exact ⟨_, h.2.2⟩
        obtain ⟨snap', hi'⟩ := this
        obtain ⟨o4, outs, e4⟩ := ih o3 snap' hi' (fun c hc => hq c (by simp [hc]))
        refine ⟨o4, d :: outs, ?_⟩
        rw [StatObj.step_query, e3, Out.ok_bind, Out.pure_eq, Out.ok_bind, e4, Out.ok_bind]; rfl
      | update s =>
        obtain ⟨o3, e3, hr, hi3⟩ := hi.update_ok s
        obtain ⟨o4, outs, e4⟩ := ih o3 _ hi3 (fun c hc => hq c (by simp [hc]))
        refine ⟨o4, outs, ?_⟩
        rw [StatObj.step_update, e3, Out.ok_bind, Out.pure_eq, Out.ok_bind, e4, Out.ok_bind]; rfl
  exact key cs _ none (fresh_sinv hb) hq

/-- C22: directly after an update a query returns the statistics of the current values. -/
theorem C22_update {r : Raster} (hb : Built r) (cs : List StatObj.Call) (o : StatObj) (outs : List Dbl)
    (e : (StatObj.fresh r).run cs = .ok (o, outs)) (s s' : Schedule) (n : Str) (lyr : Int)
    (ha : Answerable o.r n lyr) :
    ∃ o1 o2 d, o.update s = .ok o1 ∧ o1.getStatistics s' n lyr = .ok (o2, d) ∧ StatValue o.r n lyr d := by
  have key : ∀ (cs : List StatObj.Call) (o : StatObj) (snap : Option Raster), SInv o snap → Built o.r →
      ∀ o' outs, o.run cs = .ok (o', outs) → ∃ snap', SInv o' snap' := by
    intro cs
    induction cs with
    | nil =>
      intro o snap hi _ o' outs e
      simp only [StatObj.run, Out.ok.injEq, Prod.mk.injEq] at e
      rw [← e.1]; exact ⟨snap, hi⟩
    | cons c cs ih =>
      intro o snap hi hb o' outs e
      unfold StatObj.run at e
      obtain ⟨⟨o1, q⟩, e1, e⟩ := Out.bind_ok e
      obtain ⟨⟨o2, rest⟩, e2, e⟩ := Out.bind_ok e
      simp only [Out.pure_eq, Out.ok.injEq, Prod.mk.injEq] at e
      obtain ⟨rfl, rfl⟩ := e
      cases c with
      | op x =>
        obtain ⟨r', h1, h2⟩ := Out.bind_ok e1
        simp only [Out.pure_eq, Out.ok.injEq, Prod.mk.injEq] at h2
        obtain ⟨rfl, rfl⟩ := h2
        have hb' : Built r' := hb.step x h1
        refine ih { o with r := r' } snap ⟨hb'.inv, hi.none_, ?_⟩ hb' _ _ e2
        intro r0 hr0
        obtain ⟨k1, k2, k3, k4, k5⟩ := hi.some_ r0 hr0
        have d1 := Raster.step_is2d h1
        have d2 := Raster.step_nLyrs h1
        exact ⟨k1, by rw [k2]; exact d1.symm, by rw [k3]; exact d2.symm,
          fun h => k4 (by rw [← d1]; exact h), fun h => k5 (by rw [← d1]; exact h)⟩
      | query s n l =>
        obtain ⟨o3, d, e3, hr, hcase⟩ := hi.query_ok s n l
        rw [StatObj.step_query, e3, Out.ok_bind] at e1
        simp only [Out.pure_eq, Out.ok.injEq, Prod.mk.injEq] at e1
        obtain ⟨rfl, rfl⟩ := e1
        rcases hcase with ⟨a1, a2, a3⟩ | ⟨a1, a2, a3⟩
        · exact ih _ _ a3 (by rw [hr]; exact hb) _ _ e2
        · exact ih _ _ a3 (by rw [hr]; exact hb) _ _ e2
      | update s =>
        obtain ⟨o3, e3, hr, hi3⟩ := hi.update_ok s
        rw [StatObj.step_update, e3, Out.ok_bind] at e1
        simp only [Out.pure_eq, Out.ok.injEq, Prod.mk.injEq] at e1
        obtain ⟨rfl, rfl⟩ := e1
        exact ih _ _ hi3 (by rw [hr]; exact hb) _ _ e2
  obtain ⟨snap, hi⟩ := key cs _ none (fresh_sinv hb) hb o outs e
  obtain ⟨o1, e1, hr, hi1⟩ := hi.update_ok s
  obtain ⟨o2, d, e2, _, hcase⟩ := hi1.query_ok s' n lyr
  refine ⟨o1, o2, d, e1, e2, ?_⟩
  rw [hr] at hcase
  rcases hcase with ⟨_, h, _⟩ | ⟨h, _⟩
  · exact h
  · exact absurd ha h

/-- C22 is false of the array getters (`GetAverage(int*, double**)` etc.): for every raster with data they
return a null pointer. -/
theorem C22_false_array (o : StatObj) (s : Schedule) (n : Str) (h : o.r.validData = true) :
    o.getStatisticsArr s n = .ok (o, none) := by
  unfold StatObj.getStatisticsArr
  rw [if_pos]
  unfold Raster.validData at h
  cases hd : o.r.is2d <;> simp_all

/-- The stored values are what `GetValueByIndex` returns. -/
theorem C22_layerValues {r : Raster} (hb : Built r) (lyr : Int) (hl : 1 ≤ lyr) (hl' : lyr ≤ r.nLyrs) :
    ((layerValues r lyr).length : Int) = r.nCells ∧
    ∀ i (h : i < (layerValues r lyr).length), r.getValueByIndex i lyr = .ok (layerValues r lyr)[i] := by
  obtain ⟨ls, hc, hn, _, h2, h1⟩ := hb.inv.data
  unfold layerValues Raster.getValueByIndex
  cases hd : r.is2d
  · obtain ⟨hl1, h1⟩ := h1 hd
    simp only [Bool.false_eq_true, if_false]
    rcases h1 with h1 | ⟨h0, h1⟩
    · rw [h1]
      refine ⟨by simp [hn], ?_⟩
      intro i hi
      have hi' : i < ls.length := by simpa using hi
      rw [if_neg]
      · unfold Raster.readCell
        rw [hd, h1]
        simp only [Bool.false_eq_true, if_false]
        exact readAt_some_nat _ i hi
      · simp only [Bool.or_eq_true, Bool.not_eq_true', not_or, Bool.not_eq_false]
        refine ⟨⟨by simp [Raster.validData, hd, h1], (Raster.validIndex_iff _ _).2 ⟨by omega, by omega⟩⟩,
          (Raster.validLayer_iff _ _).2 ⟨hl, hl'⟩⟩
    · rw [h1]
      simp [hn, h0]
  · have h2 := h2 hd
    simp only [if_true]
    rw [h2]
    refine ⟨by simp [column, hn], ?_⟩
    intro i hi
    have hi' : i < ls.length := by simpa [column] using hi
    have hlen := hc _ (List.getElem_mem hi')
    rw [if_neg]
    · unfold Raster.readCell
      rw [hd, h2]
      simp only [if_true]
      rw [readAt_some_nat _ i hi', Out.ok_bind, readAt_some_int _ _ (by omega) (by omega)]
      simp only [column, Option.getD_some, List.getElem_map]
      exact congrArg _ (List.getD_eq_getElem _ _ (by omega)).symm
    · simp only [Bool.or_eq_true, Bool.not_eq_true', not_or, Bool.not_eq_false]
      refine ⟨⟨by simp [Raster.validData, hd, h2], (Raster.validIndex_iff _ _).2 ⟨by omega, by omega⟩⟩,
        (Raster.validLayer_iff _ _).2 ⟨hl, hl'⟩⟩

/-- The sequential schedule. -/
def Schedule.seq : Schedule := ⟨fun _ n => [List.range n], fun _ n => by simp [Sched.Of]⟩

/-- A history with a query, a write, a query answered from the cache, an update and a fresh query. -/
example : ∃ o outs, (StatObj.fresh exRaster).run
    [.query .seq "mean".toList 1, .query .seq "MAX".toList 1, .update .seq, .query .seq "max".toList 1] = .ok (o, outs) ∧
    Answerable exRaster "mean".toList 1 := by
  have hb : Built exRaster := Built.grid1 [1, -9999, 3, 4] 2 2 (-9999) 10 5 5 rfl
  obtain ⟨o, outs, e⟩ := C22_total hb
    [.query .seq "mean".toList 1, .query .seq "MAX".toList 1, .update .seq, .query .seq "max".toList 1] (by simp)
  refine ⟨o, outs, e, by decide +kernel, by decide +kernel, by decide +kernel, ?_⟩
  unfold StatName; decide +kernel

end CCGL
