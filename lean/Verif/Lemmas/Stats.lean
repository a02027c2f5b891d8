import Verif.Spec.Stats
import Verif.Lemmas.Built
/-! Lemmas for statistics. -/
namespace CCGL
open Spec

theorem threadSum_ok (f : Nat → Out ℚ) (g : Nat → ℚ) (is : List Nat) : ∀ (acc : ℚ)
    (_ : ∀ i ∈ is, f i = .ok (g i)), threadSum f is acc = .ok (acc + (is.map g).sum) := by
  induction is with
  | nil => intro acc _; simp [threadSum]
  | cons i is ih =>
    intro acc h
    rw [threadSum, h i (by simp), Out.ok_bind, ih _ (fun j hj => h j (by simp [hj]))]
    simp only [List.map_cons, List.sum_cons, add_assoc]

theorem ompSum_ok (f : Nat → Out ℚ) (g : Nat → ℚ) (s : Sched) : ∀ (acc : ℚ)
    (_ : ∀ i ∈ s.flatten, f i = .ok (g i)), ompSum f s acc = .ok (acc + (s.flatten.map g).sum) := by
  induction s with
  | nil => intro acc _; simp [ompSum]
  | cons t ts ih =>
    intro acc h
    rw [ompSum, threadSum_ok f g t 0 (fun j hj => h j (by simp [hj])), Out.ok_bind,
      ih _ (fun j hj => h j (by
        rw [List.flatten_cons, List.mem_append]; exact .inr hj))]
    simp only [List.flatten_cons, List.map_append, List.sum_append, zero_add, add_assoc]

theorem ompSum_sched (f : Nat → Out ℚ) (g : Nat → ℚ) (s : Sched) (n : Nat) (hs : s.Of n) (acc : ℚ)
    (h : ∀ i < n, f i = .ok (g i)) : ompSum f s acc = .ok (acc + ((List.range n).map g).sum) := by
  rw [ompSum_ok f g s acc (fun i hi => h i (by have := hs.mem_iff.1 hi; simpa using this))]
  congr 2
  exact (hs.map g).sum_eq

theorem map_range_getD {α : Type} (l : List α) (d : α) :
    (List.range l.length).map (fun (i : Nat) => l.getD i d) = l := by
  apply List.ext_getElem
  · simp
  · intro i h1 h2
    simp only [List.getElem_map, List.getElem_range]
    exact List.getD_eq_getElem _ _ h2

theorem map_range_comp {α β : Type} (g : α → β) (l : List α) (d : α) :
    (List.range l.length).map (fun (i : Nat) => g (l.getD i d)) = l.map g := by
  have := congrArg (List.map g) (map_range_getD l d)
  rwa [List.map_map] at this

theorem floatEqual_valid (v ex : ℚ) : floatEqual v ex = !decide (1 / 10 ^ 32 ≤ |v - ex|) := by
  unfold floatEqual
  rcases lt_or_ge (|v - ex|) (1 / 10 ^ 32) with h | h
  · simp only [h, not_le.2 h, decide_true, decide_false, Bool.not_false]
  · simp only [h, not_lt.2 h, decide_true, decide_false, Bool.not_true]

theorem statLoop_ok (l : List ℚ) (ex : ℚ) (is : List Nat) : ∀ (a : Acc) (_ : ∀ i ∈ is, i < l.length),
    statLoop (some l) ex is a = .ok ((is.map (fun i => l.getD i 0)).foldl (Acc.push ex) a) := by
  induction is with
  | nil => intro a _; rfl
  | cons i is ih =>
    intro a h
    have hi := h i (by simp)
    rw [statLoop, readAt_some_nat _ i hi, Out.ok_bind, ih _ (fun j hj => h j (by simp [hj]))]
    simp only [List.map_cons, List.foldl_cons]
    rw [List.getD_eq_getElem _ _ hi]

/-- Result of the first loop. -/
theorem push_fold (ex : ℚ) (l : List ℚ) : ∀ (a : Acc),
    (l.foldl (Acc.push ex) a).num = a.num + (validValues ex l).length ∧
    (l.foldl (Acc.push ex) a).sum = a.sum + (validValues ex l).sum ∧
    (a.mx ≤ (l.foldl (Acc.push ex) a).mx ∧ (∀ v ∈ validValues ex l, v ≤ (l.foldl (Acc.push ex) a).mx) ∧
      ((l.foldl (Acc.push ex) a).mx = a.mx ∨ (l.foldl (Acc.push ex) a).mx ∈ validValues ex l)) ∧
    ((l.foldl (Acc.push ex) a).mn ≤ a.mn ∧ (∀ v ∈ validValues ex l, (l.foldl (Acc.push ex) a).mn ≤ v) ∧
      ((l.foldl (Acc.push ex) a).mn = a.mn ∨ (l.foldl (Acc.push ex) a).mn ∈ validValues ex l)) := by
  induction l with
  | nil => intro a; simp [validValues]
  | cons v l ih =>
    intro a
    simp only [List.foldl_cons]
    by_cases hv : floatEqual v ex = true
    · have e1 : a.push ex v = a := by unfold Acc.push; rw [if_pos hv]
      have e2 : validValues ex (v :: l) = validValues ex l := by
        unfold validValues
        rw [List.filter_cons_of_neg]
        rw [floatEqual_valid] at hv; simpa using hv
      rw [e1, e2]; exact ih a
    · have e1 : a.push ex v = ⟨if a.mx < v then v else a.mx, if a.mn > v then v else a.mn, a.num + 1, a.sum + v⟩ := by
        unfold Acc.push; rw [if_neg hv]
      have e2 : validValues ex (v :: l) = v :: validValues ex l := by
        unfold validValues
        rw [List.filter_cons_of_pos]
        rw [floatEqual_valid] at hv; simpa using hv
      rw [e1, e2]
      obtain ⟨h1, h2, ⟨h3, h4, h5⟩, ⟨h6, h7, h8⟩⟩ := ih ⟨if a.mx < v then v else a.mx, if a.mn > v then v else a.mn, a.num + 1, a.sum + v⟩
      generalize List.foldl (Acc.push ex) _ l = b at *
      simp only at h1 h2 h3 h5 h6 h8
      have m1 : a.mx ≤ (if a.mx < v then v else a.mx) ∧ v ≤ (if a.mx < v then v else a.mx) ∧
          ((if a.mx < v then v else a.mx) = a.mx ∨ (if a.mx < v then v else a.mx) = v) := by
        split_ifs with h
        · exact ⟨h.le, le_rfl, .inr rfl⟩
        · exact ⟨le_rfl, not_lt.1 h, .inl rfl⟩
      have m2 : (if a.mn > v then v else a.mn) ≤ a.mn ∧ (if a.mn > v then v else a.mn) ≤ v ∧
          ((if a.mn > v then v else a.mn) = a.mn ∨ (if a.mn > v then v else a.mn) = v) := by
        split_ifs with h
        · exact ⟨le_of_lt h, le_rfl, .inr rfl⟩
        · exact ⟨le_rfl, not_lt.1 h, .inl rfl⟩
      generalize (if a.mx < v then v else a.mx) = x at *
      generalize (if a.mn > v then v else a.mn) = y at *
      refine ⟨by simp only [List.length_cons]; omega, by simp only [List.sum_cons]; linarith,
        ⟨m1.1.trans h3, ?_, ?_⟩, ⟨h6.trans m2.1, ?_, ?_⟩⟩
      · intro w hw
        rcases List.mem_cons.1 hw with rfl | hw
        · exact m1.2.1.trans h3
        · exact h4 w hw
      · rcases h5 with h5 | h5
        · rw [h5]; rcases m1.2.2 with e | e
          · exact .inl e
          · rw [e]; exact .inr (by simp)
        · exact .inr (by simp [h5])
      · intro w hw
        rcases List.mem_cons.1 hw with rfl | hw
        · exact h6.trans m2.2.1
        · exact h7 w hw
      · rcases h8 with h8 | h8
        · rw [h8]; rcases m2.2.2 with e | e
          · exact .inl e
          · rw [e]; exact .inr (by simp)
        · exact .inr (by simp [h8])

theorem sqDev_sum (ex m : ℚ) (l : List ℚ) :
    (l.map (sqDev ex (some m))).sum = ((validValues ex l).map (fun v => (v - m) ^ 2)).sum := by
  induction l with
  | nil => rfl
  | cons v l ih =>
    by_cases hv : floatEqual v ex = true
    · have e2 : validValues ex (v :: l) = validValues ex l := by
        unfold validValues
        rw [List.filter_cons_of_neg]
        rw [floatEqual_valid] at hv; simpa using hv
      rw [e2, List.map_cons, List.sum_cons, ih, sqDev, if_pos hv, zero_add]
    · have e2 : validValues ex (v :: l) = v :: validValues ex l := by
        unfold validValues
        rw [List.filter_cons_of_pos]
        rw [floatEqual_valid] at hv; simpa using hv
      rw [e2, List.map_cons, List.sum_cons, ih, sqDev, if_neg hv, List.map_cons, List.sum_cons, pow_two]

/-- The results from both loops are the statistics of the valid values. -/
theorem finish_isStats (ex : ℚ) (l : List ℚ) (a : Acc) (ha : a = l.foldl (Acc.push ex) Acc.start) (sq : ℚ)
    (hsq : sq = (l.map (sqDev ex (divD a.sum a.num))).sum) : IsStats (finishStats a sq) (validValues ex l) := by
  obtain ⟨h1, h2, ⟨_, h4, h5⟩, ⟨_, h7, h8⟩⟩ := push_fold ex l Acc.start
  rw [← ha] at h1 h2 h4 h5 h7 h8
  simp only [Acc.start, zero_add] at h1 h2 h5 h8
  have hmean : validValues ex l ≠ [] → divD a.sum a.num = some (meanOf (validValues ex l)) := by
    intro hne
    have : (a.num : ℚ) ≠ 0 := by
      rw [h1]; exact_mod_cast fun h => hne (List.length_eq_zero_iff.1 h)
    rw [divD, if_neg this, h1, h2]; rfl
  refine ⟨?_, ?_, ?_, ?_, ?_⟩
  · simp only [finishStats, h1]
  · intro hne
    simp only [finishStats, hmean hne, Option.map_some]
  · intro hne
    have : (a.num : ℚ) ≠ 0 := by
      rw [h1]; exact_mod_cast fun h => hne (List.length_eq_zero_iff.1 h)
    rw [hmean hne, sqDev_sum] at hsq
    have e : divD sq a.num = some (varianceOf (validValues ex l)) := by
      rw [divD, if_neg this, hsq, h1]; rfl
    simp only [finishStats, e, sqrtD]
  · intro he
    have : (a.num : ℚ) = 0 := by rw [h1, he]; simp
    simp only [finishStats, divD, if_pos this, sqrtD, Option.map_none, and_self]
  · intro hne hf
    obtain ⟨w, hw⟩ := List.exists_mem_of_ne_nil _ hne
    have hwf := abs_le.1 (hf w hw)
    refine ⟨a.mx, a.mn, ⟨?_, h4⟩, ⟨?_, h7⟩, rfl, rfl, rfl⟩
    · rcases h5 with e | e
      · have := h4 w hw
        have : w = a.mx := by rw [e] at this ⊢; exact le_antisymm this hwf.1
        rw [← this]; exact hw
      · exact e
    · rcases h8 with e | e
      · have := h7 w hw
        have : w = a.mn := by rw [e] at this ⊢; exact le_antisymm hwf.2 this
        rw [← this]; exact hw
      · exact e

theorem basicStats1_eq (s : Sched) (l : List ℚ) (ex : ℚ) (hs : s.Of l.length) :
    basicStats1 s (some l) l.length ex =
      .ok (finishStats (l.foldl (Acc.push ex) Acc.start)
        (l.map (sqDev ex (divD (l.foldl (Acc.push ex) Acc.start).sum (l.foldl (Acc.push ex) Acc.start).num))).sum) := by
  have hl : (l.length : Int).toNat = l.length := by omega
  unfold basicStats1
  rw [hl, statLoop_ok l ex _ _ (by intro i hi; simpa using hi), map_range_getD, Out.ok_bind]
  dsimp only
  rw [ompSum_sched _ (fun i => sqDev ex (divD (l.foldl (Acc.push ex) Acc.start).sum
    (l.foldl (Acc.push ex) Acc.start).num) (l.getD i 0)) s l.length hs]
  · rw [Out.ok_bind, zero_add]
    have : (List.range l.length).map (fun i => sqDev ex (divD (l.foldl (Acc.push ex) Acc.start).sum
      (l.foldl (Acc.push ex) Acc.start).num) (l.getD i 0)) =
      l.map (sqDev ex (divD (l.foldl (Acc.push ex) Acc.start).sum (l.foldl (Acc.push ex) Acc.start).num)) := by
      exact map_range_comp _ l 0
    rw [this]; rfl
  · intro i hi
    rw [readAt_some_nat _ i hi, Out.ok_bind, List.getD_eq_getElem _ _ hi]; rfl

/-! ## Two dimensions -/

theorem read2_ok (vals : List (List ℚ)) (i j : Nat) (hi : i < vals.length) (hj : j < (vals[i]).length) :
    read2 (some vals) i j = .ok ((column vals j).getD i 0) := by
  unfold read2 column
  rw [readAt_some_nat _ i hi, Out.ok_bind, readAt_some_nat _ j hj,
    List.getD_eq_getElem _ _ (by simpa using hi), List.getElem_map, List.getD_eq_getElem _ _ hj]

/-- One cell: layer slots `j` of the range are updated. -/
theorem stat2Inner_ok (vals : List (List ℚ)) (ex : ℚ) (i : Nat) (hi : i < vals.length) (L : Nat)
    (hL : (vals[i]).length = L) (js : List Nat) : ∀ (accs : List Acc) (_ : accs.length = L) (_ : js.Nodup)
    (_ : ∀ j ∈ js, j < L),
    ∃ accs', stat2Inner (some vals) ex i js (some accs) = .ok (some accs') ∧ accs'.length = L ∧
      ∀ j (_ : j < L), accs'.getD j Acc.start =
        if j ∈ js then (accs.getD j Acc.start).push ex ((column vals j).getD i 0) else accs.getD j Acc.start := by
  induction js with
  | nil => intro accs h _ _; exact ⟨accs, rfl, h, by simp⟩
  | cons j js ih =>
    intro accs h hnd hlt
    have hj := hlt j (by simp)
    rw [stat2Inner, read2_ok vals i j hi (by omega), Out.ok_bind, readAt_some_nat _ j (by omega), Out.ok_bind,
      writeAt_some _ (j : Int) _ (by omega) (by omega), Out.ok_bind]
    obtain ⟨accs', e, hlen, hv⟩ := ih (accs.set j (accs[j].push ex ((column vals j).getD i 0)))
      (by simpa using h) (List.nodup_cons.1 hnd).2 (fun k hk => hlt k (by simp [hk]))
    refine ⟨accs', e, hlen, ?_⟩
    intro k hk
    rw [hv k hk]
    have hjn := (List.nodup_cons.1 hnd).1
    by_cases hkj : k = j
    · subst hkj
      have hka : k < accs.length := by omega
      have e3 : accs.getD k Acc.start = accs[k] := List.getD_eq_getElem _ _ hka
      rw [if_neg hjn, if_pos (by simp), e3]
      exact (List.getD_eq_getElem _ _ (by simpa using hka)).trans (List.getElem_set_self _)
    · have : (accs.set j (accs[j].push ex ((column vals j).getD i 0))).getD k Acc.start = accs.getD k Acc.start := by
        have hka : k < accs.length := by omega
        rw [show accs.getD k Acc.start = accs[k] from List.getD_eq_getElem _ _ hka]
        exact (List.getD_eq_getElem _ _ (by simpa using hka)).trans (List.getElem_set_ne (by omega) _)
      rw [this]
      simp [hkj]

theorem stat2Loop_ok (vals : List (List ℚ)) (ex : ℚ) (L : Nat) (hL : ∀ c ∈ vals, c.length = L)
    (is : List Nat) : ∀ (accs : List Acc) (_ : accs.length = L) (_ : ∀ i ∈ is, i < vals.length),
    ∃ accs', stat2Loop (some vals) ex L is (some accs) = .ok (some accs') ∧ accs'.length = L ∧
      ∀ j (_ : j < L), accs'.getD j Acc.start =
        (is.map (fun i => (column vals j).getD i 0)).foldl (Acc.push ex) (accs.getD j Acc.start) := by
  induction is with
  | nil => intro accs h _; exact ⟨accs, rfl, h, by simp⟩
  | cons i is ih =>
    intro accs h hlt
    have hi := hlt i (by simp)
    obtain ⟨a1, e1, l1, v1⟩ := stat2Inner_ok vals ex i hi L (hL _ (List.getElem_mem hi)) (List.range L) accs h
      List.nodup_range (by simp)
    rw [stat2Loop, e1, Out.ok_bind]
    obtain ⟨a2, e2, l2, v2⟩ := ih a1 l1 (fun k hk => hlt k (by simp [hk]))
    refine ⟨a2, e2, l2, ?_⟩
    intro j hj
    rw [v2 j hj, v1 j hj, if_pos (by simpa using hj)]
    simp only [List.map_cons, List.foldl_cons]

theorem stat2Finish_ok (s : Schedule) (vals : List (List ℚ)) (ex : ℚ) (L : Nat)
    (hL : ∀ c ∈ vals, c.length = L) (accs : List Acc) (hlen : accs.length = L)
    (ha : ∀ j (_ : j < L), accs.getD j Acc.start = (column vals j).foldl (Acc.push ex) Acc.start)
    (js : List Nat) (hj : ∀ j ∈ js, j < L) :
    stat2Finish s (some vals) vals.length ex (some accs) js =
      .ok (js.map (fun j => finishStats ((column vals j).foldl (Acc.push ex) Acc.start)
        ((column vals j).map (sqDev ex (divD ((column vals j).foldl (Acc.push ex) Acc.start).sum
          ((column vals j).foldl (Acc.push ex) Acc.start).num))).sum)) := by
  induction js with
  | nil => rfl
  | cons j js ih =>
    have hjl := hj j (by simp)
    have hcl : (column vals j).length = vals.length := by simp [column]
    have haj : accs[j] = (column vals j).foldl (Acc.push ex) Acc.start := by
      rw [← ha j hjl]; exact (List.getD_eq_getElem _ _ (by omega)).symm
    rw [stat2Finish, readAt_some_nat _ j (by omega), Out.ok_bind]
    dsimp only
    rw [haj, ompSum_sched _ (fun i => sqDev ex (divD ((column vals j).foldl (Acc.push ex) Acc.start).sum
      ((column vals j).foldl (Acc.push ex) Acc.start).num) ((column vals j).getD i 0)) _ vals.length
      (s.ok j vals.length), Out.ok_bind, ih (fun k hk => hj k (by simp [hk])), Out.ok_bind, zero_add]
    · have : (List.range vals.length).map (fun i => sqDev ex (divD ((column vals j).foldl (Acc.push ex) Acc.start).sum
        ((column vals j).foldl (Acc.push ex) Acc.start).num) ((column vals j).getD i 0)) =
        (column vals j).map (sqDev ex (divD ((column vals j).foldl (Acc.push ex) Acc.start).sum
          ((column vals j).foldl (Acc.push ex) Acc.start).num)) := by
        rw [← hcl]; exact map_range_comp _ (column vals j) 0
      rw [this]; rfl
    · intro i hi
      rw [read2_ok vals i j hi (by rw [hL _ (List.getElem_mem hi)]; exact hjl), Out.ok_bind]; rfl

theorem basicStats2_eq (s : Schedule) (vals : List (List ℚ)) (ex : ℚ) (L : Nat)
    (hL : ∀ c ∈ vals, c.length = L) :
    basicStats2 s (some vals) vals.length L ex =
      .ok ((List.range L).map (fun j => finishStats ((column vals j).foldl (Acc.push ex) Acc.start)
        ((column vals j).map (sqDev ex (divD ((column vals j).foldl (Acc.push ex) Acc.start).sum
          ((column vals j).foldl (Acc.push ex) Acc.start).num))).sum)) := by
  have h1 : (vals.length : Int).toNat = vals.length := by omega
  have h2 : (L : Int).toNat = L := by omega
  unfold basicStats2
  rw [h1, h2]
  obtain ⟨a, e, hl, hv⟩ := stat2Loop_ok vals ex L hL (List.range vals.length) (List.replicate L Acc.start)
    (by simp) (by simp)
  rw [e, Out.ok_bind]
  refine stat2Finish_ok s vals ex L hL a hl ?_ _ (by simp)
  intro j hj
  rw [hv j hj]
  have hcl : (column vals j).length = vals.length := by simp [column]
  have h3 : (List.replicate L Acc.start).getD j Acc.start = Acc.start := by
    rw [List.getD_eq_getElem _ _ (by simpa using hj), List.getElem_replicate]
  rw [h3]
  congr 1
  rw [← hcl]
  exact map_range_getD _ _

/-! ## The cache -/

theorem Raster.writeCell_nLyrs {r r' : Raster} {i l v} (e : r.writeCell i l v = .ok r') : r'.nLyrs = r.nLyrs := by
  unfold Raster.writeCell at e
  split at e
  · obtain ⟨a, _, e⟩ := Out.bind_ok e
    obtain ⟨b, _, e⟩ := Out.bind_ok e
    split at e
    · obtain ⟨d, _, e⟩ := Out.bind_ok e
      simp at e; rw [← e]
    · simp at e
  · obtain ⟨a, _, e⟩ := Out.bind_ok e
    simp at e; rw [← e]

theorem Raster.passCells_nLyrs {f} (il : List (Int × Int)) : ∀ {r r' : Raster}, Raster.passCells f r il = .ok r' →
    r'.nLyrs = r.nLyrs := by
  induction il with
  | nil => intro r r' e; simp [Raster.passCells] at e; rw [e]
  | cons p il ih =>
    intro r r' e
    unfold Raster.passCells at e
    obtain ⟨x, _, e⟩ := Out.bind_ok e
    obtain ⟨y, _, e⟩ := Out.bind_ok e
    obtain ⟨r1, h1, e⟩ := Out.bind_ok e
    rw [ih e]
    cases y with
    | none => simp at h1; rw [h1]
    | some v => exact Raster.writeCell_nLyrs h1

theorem Raster.calc_nLyrs {r r' : Raster} (e : r.calcValidPositions = .ok r') : r'.nLyrs = r.nLyrs := by
  unfold Raster.calcValidPositions at e
  obtain ⟨a, _, e⟩ := Out.bind_ok e
  dsimp only at e
  split at e
  · simp at e
  · obtain ⟨b, _, e⟩ := Out.bind_ok e
    obtain ⟨c, _, e⟩ := Out.bind_ok e
    simp at e; rw [← e]

theorem Raster.step_nLyrs {r r' : Raster} {op : Raster.Op} (e : r.step op = .ok r') : r'.nLyrs = r.nLyrs := by
  cases op with
  | setValue row col v lyr =>
    change r.setValue row col v lyr = .ok r' at e
    unfold Raster.setValue at e
    split at e
    · simp at e; rw [e]
    · obtain ⟨a, _, e⟩ := Out.bind_ok e
      split at e
      · simp at e; rw [e]
      · exact Raster.writeCell_nLyrs e
  | setCalcPositions =>
    obtain ⟨⟨a, b⟩, h1, e⟩ := Out.bind_ok e
    simp at e; subst e
    unfold Raster.setCalcPositions Raster.calcNoMask at h1
    simp only [if_true] at h1
    split at h1
    · simp at h1; rw [h1.1]
    · split at h1
      · simp at h1; rw [h1.1]
      · obtain ⟨⟨x, y⟩, h2, h3⟩ := Out.bind_ok h1
        simp at h3
        rw [← h3.1]
        split at h2
        · obtain ⟨z, h4, h5⟩ := Out.bind_ok h2
          simp at h5
          have := Raster.calc_nLyrs h4
          rw [← h5.1, this]
        · simp at h2; rw [← h2.1]
  | getPositionIdx =>
    obtain ⟨⟨a, b, c⟩, h1, e⟩ := Out.bind_ok e
    simp at e; subst e
    unfold Raster.getPositionIdx at h1
    split at h1
    · simp at h1; rw [h1.1]
    · split at h1
      · simp at h1; rw [h1.1]
      · obtain ⟨z, h4, h5⟩ := Out.bind_ok h1
        simp at h5
        rw [← h5.1]; exact Raster.calc_nLyrs h4
  | getPositionData =>
    obtain ⟨⟨a, b, c⟩, h1, e⟩ := Out.bind_ok e
    simp at e; subst e
    unfold Raster.getPositionData at h1
    split at h1
    · simp at h1; rw [h1.1]
    · split at h1
      · simp at h1; rw [h1.1]
      · obtain ⟨z, h4, h5⟩ := Out.bind_ok h1
        simp at h5
        rw [← h5.1]; exact Raster.calc_nLyrs h4
  | replaceNoData v =>
    obtain ⟨a, h1, e⟩ := Out.bind_ok e
    simp at e; subst e
    have := Raster.passCells_nLyrs _ h1
    exact this
  | reclassify m => exact Raster.passCells_nLyrs _ e
  | getValue row col lyr => obtain ⟨a, h1, e⟩ := Out.bind_ok e; simp at e; rw [e]
  | getValueByIndex i lyr => obtain ⟨a, h1, e⟩ := Out.bind_ok e; simp at e; rw [e]
  | getPosition row col => obtain ⟨a, h1, e⟩ := Out.bind_ok e; simp at e; rw [e]
  | isNoData row col lyr => obtain ⟨a, h1, e⟩ := Out.bind_ok e; simp at e; rw [e]

/-- The stored data of a reachable raster. -/
theorem Raster.RInv.data {r : Raster} (h : r.RInv) : ∃ ls : List (List ℚ),
    (∀ c ∈ ls, (c.length : Int) = r.nLyrs) ∧ r.nCells = ls.length ∧ 1 ≤ r.nLyrs ∧
    (r.is2d = true → r.raster2 = some ls) ∧
    (r.is2d = false → r.nLyrs = 1 ∧ (r.raster1 = some (ls.map (fun c => c.headD 0)) ∨ (ls = [] ∧ r.raster1 = none))) := by
  have key : ∀ ls, r.Holds ls → r.nCells = ls.length → ∃ ls : List (List ℚ),
    (∀ c ∈ ls, (c.length : Int) = r.nLyrs) ∧ r.nCells = ls.length ∧ 1 ≤ r.nLyrs ∧
    (r.is2d = true → r.raster2 = some ls) ∧
    (r.is2d = false → r.nLyrs = 1 ∧ (r.raster1 = some (ls.map (fun c => c.headD 0)) ∨ (ls = [] ∧ r.raster1 = none))) := by
    intro ls hh hn
    obtain ⟨h1, h2, h3⟩ := hh
    refine ⟨ls, h2, hn, h1, ?_, ?_⟩
    · intro hd; simpa [hd] using h3
    · intro hd; simp only [hd, Bool.false_eq_true, if_false] at h3; exact ⟨h3.1, .inl h3.2⟩
  rcases h with ⟨ls, loc, hi⟩ | ⟨hd, hE⟩
  · cases hi with
    | full h => exact key ls h.holds (by rw [h.ncells, h.len])
    | comp h => exact key ls h.holds (by rw [h.ncells, h.len])
    | empty h h1 =>
      exact ⟨[], by simp, by simp [h.ncells], h.lyrs, by simp [h1], fun _ => ⟨h.lyrs1 h1, .inr ⟨rfl, h.data1 h1⟩⟩⟩
  · exact ⟨[], by simp, by simp [hE.ncells], hE.lyrs, fun _ => hE.data2 hd, by simp [hd]⟩

/-- `l` are the statistics of the layers of `r`. -/
def LayerStats (r : Raster) (l : List Stats) : Prop :=
  (l.length : Int) = r.nLyrs ∧ ∀ j (h : j < l.length), IsStats l[j] (validValues r.noData (layerValues r (j + 1)))

theorem calc1_ok {r : Raster} (h : r.RInv) (hd : r.is2d = false) (s : Sched) (hs : s.Of r.nCells.toNat) :
    ∃ st, basicStats1 s r.raster1 r.nCells r.noData = .ok st ∧
      IsStats st (validValues r.noData (layerValues r 1)) := by
  obtain ⟨ls, _, hn, _, _, h1⟩ := h.data
  obtain ⟨_, h1⟩ := h1 hd
  have hlv : layerValues r 1 = r.raster1.getD [] := by simp [layerValues, hd]
  rw [hlv]
  rcases h1 with h1 | ⟨h0, h1⟩
  · have e : r.nCells = ((ls.map (fun c => c.headD 0)).length : Int) := by simp [hn]
    rw [h1, e]
    refine ⟨_, basicStats1_eq s _ _ (by rw [e] at hs; simpa using hs), ?_⟩
    simp only [Option.getD_some]
    exact finish_isStats _ _ _ rfl _ rfl
  · have hn0 : r.nCells = 0 := by simp [hn, h0]
    rw [h1, hn0]
    have hs' : s.flatten = [] := by
      rw [hn0] at hs
      have : s.flatten.Perm [] := hs
      exact this.eq_nil
    refine ⟨finishStats Acc.start 0, ?_, ?_⟩
    · unfold basicStats1
      rw [show ((0 : Int).toNat) = 0 from rfl, List.range_zero, statLoop, Out.ok_bind]
      dsimp only
      rw [ompSum_ok _ (fun _ => 0) s 0 (by rw [hs']; simp), Out.ok_bind, hs']
      simp
    · exact finish_isStats r.noData [] _ rfl _ rfl

theorem calc2_ok {r : Raster} (h : r.RInv) (hd : r.is2d = true) (s : Schedule) :
    ∃ l, basicStats2 s r.raster2 r.nCells r.nLyrs r.noData = .ok l ∧ LayerStats r l := by
  obtain ⟨ls, hc, hn, hL, h2, _⟩ := h.data
  have h2 := h2 hd
  have e : r.nLyrs = (r.nLyrs.toNat : Int) := by omega
  rw [h2, hn]
  rw [e]
  refine ⟨_, basicStats2_eq s ls r.noData r.nLyrs.toNat (fun c hcm => by have := hc c hcm; omega), ?_, ?_⟩
  · simp only [List.length_map, List.length_range]; omega
  · intro j hj
    simp only [List.length_map, List.length_range] at hj
    simp only [List.getElem_map, List.getElem_range]
    have : layerValues r ((j : Int) + 1) = column ls j := by
      simp only [layerValues, hd, if_true, h2, Option.getD_some]
      congr 1
      omega
    rw [this]
    exact finish_isStats _ _ _ rfl _ rfl

theorem find_some_iff (st : Stats) (n : Str) : (st.find (getUpper n)).isSome = true ↔ StatName n := by
  unfold Stats.find StatName
  split_ifs <;> simp_all

/-- An entry of the map found by name is the statistic of that name. -/
theorem IsStats.find {st : Stats} {l : List ℚ} {n : Str} {d : Dbl} (h : IsStats st l) (hf : st.find (getUpper n) = some d) :
    IsStatistic n l d := by
  unfold Stats.find at hf
  have hd : ∀ {a b : Dbl}, some a = some b → b = a := fun h => (Option.some.inj h).symm
  refine ⟨fun e => ?_, fun e => ?_, fun e => ?_, fun e hl hi => ?_, fun e hl hi => ?_, fun e hl hi => ?_⟩
  · rw [if_pos e] at hf
    rw [hd hf]; exact h.num
  · rw [e, if_neg (by decide), if_pos rfl] at hf
    rw [hd hf]
    split
    · next hl => exact (h.mean_nan hl).1
    · next hl => exact h.mean hl
  · rw [e, if_neg (by decide), if_neg (by decide), if_neg (by decide), if_neg (by decide), if_pos rfl] at hf
    rw [hd hf]
    split
    · next hl => exact (h.mean_nan hl).2
    · next hl => exact h.std hl
  · rw [e, if_neg (by decide), if_neg (by decide), if_neg (by decide), if_pos rfl] at hf
    obtain ⟨a, b, h1, h2, h3, h4, h5⟩ := h.extrema hl hi
    exact ⟨a, h1, by rw [hd hf]; exact h3⟩
  · rw [e, if_neg (by decide), if_neg (by decide), if_pos rfl] at hf
    obtain ⟨a, b, h1, h2, h3, h4, h5⟩ := h.extrema hl hi
    exact ⟨b, h2, by rw [hd hf]; exact h4⟩
  · rw [e, if_neg (by decide), if_neg (by decide), if_neg (by decide), if_neg (by decide), if_neg (by decide), if_pos rfl] at hf
    obtain ⟨a, b, h1, h2, h3, h4, h5⟩ := h.extrema hl hi
    exact ⟨a, b, h1, h2, by rw [hd hf]; exact h5⟩

/-- Relation between the object and the snapshot its statistics belong to. -/
structure SInv (o : StatObj) (snap : Option Raster) : Prop where
  inv : o.r.RInv
  none_ : snap = none → o.done = false ∧ o.st2 = some none
  some_ : ∀ r0, snap = some r0 → o.done = true ∧ r0.is2d = o.r.is2d ∧ r0.nLyrs = o.r.nLyrs ∧
    (o.r.is2d = true → ∃ l, o.st2 = some (some l) ∧ LayerStats r0 l) ∧
    (o.r.is2d = false → IsStats o.st1 (validValues r0.noData (layerValues r0 1)))

theorem SInv.calc_ok {o : StatObj} (h : o.r.RInv) (hd : o.done = false) (s : Schedule) :
    ∃ o', o.calculate s = .ok o' ∧ o'.r = o.r ∧ SInv o' (some o.r) := by
  unfold StatObj.calculate
  rw [if_neg (by simp [hd])]
  dsimp only
  cases h2 : o.r.is2d
  · obtain ⟨st, e, hst⟩ := calc1_ok h h2 (s.plan 0 o.r.nCells.toNat) (s.ok _ _)
    rw [if_neg (by simp), e, Out.ok_bind]
    refine ⟨_, rfl, rfl, h, by simp, ?_⟩
    intro r0 hr0
    have : o.r = r0 := by simpa using hr0
    subst this
    exact ⟨rfl, rfl, rfl, by simp [h2], fun _ => hst⟩
  · obtain ⟨ls, _, _, _, h3, _⟩ := h.data
    obtain ⟨l, e, hl⟩ := calc2_ok h h2 s
    rw [if_pos (by simp [h3 h2]), e, Out.ok_bind]
    refine ⟨_, rfl, rfl, h, by simp, ?_⟩
    intro r0 hr0
    have : o.r = r0 := by simpa using hr0
    subst this
    exact ⟨rfl, rfl, rfl, fun _ => ⟨l, rfl, hl⟩, by simp [h2]⟩

theorem SInv.update_ok {o : StatObj} {snap} (h : SInv o snap) (s : Schedule) :
    ∃ o', o.update s = .ok o' ∧ o'.r = o.r ∧ SInv o' (some o.r) := by
  unfold StatObj.update
  dsimp only
  split
  · exact SInv.calc_ok (o := { o with st2 := none, done := false }) h.inv rfl s
  · exact SInv.calc_ok (o := { o with done := false }) h.inv rfl s

theorem SInv.query_ok {o : StatObj} {snap} (h : SInv o snap) (s : Schedule) (n : Str) (lyr : Int) :
    ∃ o' d, o.getStatistics s n lyr = .ok (o', d) ∧ o'.r = o.r ∧
      ((Answerable o.r n lyr ∧ StatValue (snap.getD o.r) n lyr d ∧ SInv o' (some (snap.getD o.r))) ∨
       (¬ Answerable o.r n lyr ∧ d = some (o.r.dflt : ℝ) ∧ SInv o' snap)) := by
  unfold StatObj.getStatistics
  dsimp only
  by_cases hv : o.r.validData = true
  swap
  · rw [if_pos (by simp [hv])]
    exact ⟨o, _, rfl, rfl, .inr ⟨fun ha => hv ha.1, rfl, h⟩⟩
  by_cases hl : o.r.validLayer lyr = true
  swap
  · rw [if_pos (by simp [hl])]
    refine ⟨o, _, rfl, rfl, .inr ⟨fun ha => hl ((Raster.validLayer_iff _ _).2 ⟨ha.2.1, ha.2.2.1⟩), rfl, h⟩⟩
  rw [if_neg (by simp [hv, hl])]
  have hl' := (Raster.validLayer_iff _ _).1 hl
  by_cases hn : StatName n
  swap
  · have hna : ¬ Answerable o.r n lyr := fun ha => hn ha.2.2.2
    have hf : ∀ st : Stats, st.find (getUpper n) = none := by
      intro st
      have := find_some_iff st n
      cases hx : st.find (getUpper n) with
      | none => rfl
      | some d => rw [hx] at this; exact absurd (this.1 rfl) hn
    split
    · split
      · exact ⟨o, _, rfl, rfl, .inr ⟨hna, rfl, h⟩⟩
      · rw [if_pos (by rw [hf]; rfl)]
        exact ⟨o, _, rfl, rfl, .inr ⟨hna, rfl, h⟩⟩
    · rw [hf]
      exact ⟨o, _, rfl, rfl, .inr ⟨hna, rfl, h⟩⟩
  have ha : Answerable o.r n lyr := ⟨hv, hl'.1, hl'.2, hn⟩
  have hf : ∀ st : Stats, ∃ d, st.find (getUpper n) = some d := fun st =>
    Option.isSome_iff_exists.1 ((find_some_iff st n).2 hn)
  cases hd : o.r.is2d
  · -- one layer
    have hlyr : lyr = 1 := by
      obtain ⟨_, _, _, _, _, h1⟩ := h.inv.data
      have := (h1 hd).1; omega
    subst hlyr
    rw [if_neg (by simp)]
    obtain ⟨d0, hd0⟩ := hf o.st1
    rw [hd0]
    dsimp only
    cases hs : snap with
    | none =>
      obtain ⟨o', e, hr, hi⟩ := SInv.calc_ok h.inv (h.none_ hs).1 s
      rw [if_pos (.inr (h.none_ hs).1), e, Out.ok_bind]
      obtain ⟨d, hd'⟩ := hf o'.st1
      rw [hd']
      refine ⟨o', d, rfl, hr, .inl ⟨ha, IsStats.find ?_ hd', hi⟩⟩
      have := (hi.some_ o.r rfl).2.2.2.2 (by rw [hr]; exact hd)
      exact this
    | some r0 =>
      have hdone := (h.some_ r0 hs).1
      have e : o.calculate s = .ok o := by unfold StatObj.calculate; rw [if_pos hdone]
      refine ⟨o, d0, ?_, rfl, .inl ⟨ha, IsStats.find ((h.some_ r0 hs).2.2.2.2 hd) hd0, hs ▸ h⟩⟩
      split
      · rw [e, Out.ok_bind, hd0]; rfl
      · rw [Out.ok_bind, hd0]; rfl
  · obtain ⟨ls, _, _, _, h3, _⟩ := h.inv.data
    rw [if_pos (by simp [h3 hd])]
    have hnot : ¬ ((Stats.initial.find (getUpper n)).isNone = true) := by
      obtain ⟨d, e⟩ := hf Stats.initial; simp [e]
    have fin : ∀ (o' : StatObj) (r0 : Raster) (l : List Stats), o'.st2 = some (some l) → LayerStats r0 l →
        r0.nLyrs = o.r.nLyrs → ∃ d, o'.find2 (getUpper n) lyr = .ok d ∧ StatValue r0 n lyr d := by
      intro o' r0 l h1 h2 h4
      have hlen := h2.1
      have hi : (lyr - 1).toNat < l.length := by omega
      obtain ⟨d, hdd⟩ := hf l[(lyr - 1).toNat]
      refine ⟨d, ?_, IsStats.find ?_ hdd⟩
      · unfold StatObj.find2
        rw [h1]
        dsimp only
        rw [readAt_some_int _ _ (by omega) (by omega), Out.ok_bind, hdd]
      · have := h2.2 _ hi
        rwa [show (((lyr - 1).toNat : Int) + 1) = lyr by omega] at this
    cases hs : snap with
    | none =>
      rw [(h.none_ hs).2]
      dsimp only
      rw [if_neg hnot, if_pos (by rfl)]
      obtain ⟨o', e, hr, hi⟩ := SInv.calc_ok (o := { o with st2 := some none, done := false }) h.inv rfl s
      rw [e, Out.ok_bind]
      obtain ⟨l, h5, h6⟩ := (hi.some_ o.r rfl).2.2.2.1 (by rw [hr]; exact hd)
      obtain ⟨d, h7, h8⟩ := fin o' o.r l h5 h6 rfl
      rw [h7, Out.ok_bind]
      exact ⟨o', d, rfl, hr, .inl ⟨ha, h8, hi⟩⟩
    | some r0 =>
      obtain ⟨hdone, _, hny, h4, _⟩ := h.some_ r0 hs
      obtain ⟨l, h5, h6⟩ := h4 hd
      rw [h5]
      dsimp only
      rw [if_neg hnot, if_neg (by simp), Out.ok_bind]
      obtain ⟨d, h7, h8⟩ := fin o r0 l h5 h6 hny
      rw [h7, Out.ok_bind]
      exact ⟨o, d, rfl, rfl, .inl ⟨ha, h8, hs ▸ h⟩⟩

end CCGL
