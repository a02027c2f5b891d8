import Verif.Lemmas.FloatStats3
/-! # Statistics in doubles: the whole functions -/
namespace CCGL.Flt
open Spec

/-- The running values after the first loop. -/
noncomputable def accOf (R : Rounding) (inc : ℝ → ℝ) (ex : ℝ) (l : List ℝ) : FAcc := l.foldl (FAcc.push R inc ex) FAcc.start

/-- What a plan adds for the values `l`. -/
noncomputable def contrib (R : Rounding) (ex : ℝ) (l : List ℝ) (a : FAcc) (i : Nat) : Option ℝ :=
  sqDevF R ex (divF R a.sum a.num) (l.getD i 0)

noncomputable def resultF (R : Rounding) (inc : ℝ → ℝ) (p : Plan) (ex : ℝ) (l : List ℝ) : Stats :=
  finishF R (accOf R inc ex l) (planVal R (contrib R ex l (accOf R inc ex l)) p)

theorem planOf_lt {p : Plan} {n i : Nat} (hp : p.Of n) (hi : i ∈ p.iters) : i < n := by
  have := hp.mem_iff.1 hi; simpa using this

theorem basicStats1F_eq (R : Rounding) (p : Plan) (l : List ℝ) (ex : ℝ) (hp : p.Of l.length) :
    basicStats1F R p (some l) l.length ex = .ok (resultF R (· + 1) p ex l) := by
  have hl : (l.length : Int).toNat = l.length := by omega
  unfold basicStats1F
  rw [hl, statLoopF_ok R _ l ex _ _ (by intro i hi; simpa using hi), map_range_getD, Out.ok_bind]
  rw [ompSumF_ok R _ (contrib R ex l (accOf R (· + 1) ex l)) p]
  · rfl
  · intro i hi
    have hi := planOf_lt hp hi
    rw [readAt_some_nat _ i hi, Out.ok_bind]
    unfold contrib
    rw [List.getD_eq_getElem _ _ hi]; rfl

theorem contrib_values (R : Rounding) (ex : ℝ) (l : List ℝ) (a : FAcc) (m : ℝ) (hm : divF R a.sum a.num = some m) (hc : Cond ex l) :
    (List.range l.length).filterMap (contrib R ex l a) = (valid ex l).map (sq R m) := by
  have e : (List.range l.length).filterMap (contrib R ex l a) = l.filterMap (sqDevF R ex (some m)) := by
    have : (fun i => contrib R ex l a i) = (fun i => sqDevF R ex (some m) (l.getD i 0)) := by
      funext i; unfold contrib; rw [hm]
    have h2 := map_range_getD l (0 : ℝ)
    conv_rhs => rw [← h2]
    rw [List.filterMap_map]
    congr 1
  rw [e]
  clear e hm
  induction l with
  | nil => rfl
  | cons v l ih =>
    have hq := hc.eq R (v := v) (by simp)
    by_cases hv : v = ex
    · rw [valid_cons_neg _ hv, ← ih hc.tail, List.filterMap_cons_none]
      unfold sqDevF; rw [if_pos (hq.2 hv)]
    · rw [valid_cons_pos _ hv, List.map_cons, ← ih hc.tail, List.filterMap_cons_some]
      unfold sqDevF; rw [if_neg (fun h => hv (hq.1 h))]; rfl

theorem resultF_near (R : Rounding) (inc : ℝ → ℝ) (p : Plan) (ex : ℝ) (l : List ℝ) (hp : p.Of l.length) (hc : Cond ex l)
    (hinc : inc^[(valid ex l).length] 0 = ((valid ex l).length : ℝ)) :
    NearStats (depth p) (resultF R inc p ex l) (valid ex l) := by
  have hv : ∀ v ∈ valid ex l, IsDouble v := fun v h => hc.dbl v (mem_valid.1 h).1
  have hfold := push_fold_valid R inc ex l hc FAcc.start
  obtain ⟨h1, h2, ⟨h3, h4, h5⟩, ⟨h6, h7, h8⟩⟩ := fold_parts R inc (valid ex l) FAcc.start
  rw [← hfold] at h1 h2 h3 h4 h5 h6 h7 h8
  set a := accOf R inc ex l with ha
  have hae : l.foldl (FAcc.push R inc ex) FAcc.start = a := rfl
  rw [hae] at h1 h2 h3 h4 h5 h6 h7 h8
  have h1 : a.num = ((valid ex l).length : ℝ) := h1.trans hinc
  have h2 : a.sum = accum R (valid ex l) 0 := h2
  refine ⟨?_, ?_, ?_, ?_, ?_⟩
  · change some a.num = _; rw [h1]
  · intro he
    have hz : a.num = 0 := by rw [h1, he]; simp
    constructor
    · change divF R a.sum a.num = none; unfold divF; rw [if_pos hz]
    · change (divF R _ a.num).map R.sqrt = none; unfold divF; rw [if_pos hz]; rfl
  · intro hne
    have hn : a.num ≠ 0 := by
      rw [h1]; have := List.length_pos_iff.2 hne; exact_mod_cast this.ne'
    refine ⟨R.div a.sum a.num, ?_, ?_⟩
    · change divF R a.sum a.num = _; unfold divF; rw [if_neg hn]
    · rw [h1, h2]; exact mean_near R _ hv hne
  · intro hne
    have hn : a.num ≠ 0 := by
      rw [h1]; have := List.length_pos_iff.2 hne; exact_mod_cast this.ne'
    have hm : divF R a.sum a.num = some (R.div a.sum a.num) := by unfold divF; rw [if_neg hn]
    have hvals := contrib_values R ex l a _ hm hc
    have hperm : (p.iters.filterMap (contrib R ex l a)).Perm ((valid ex l).map (sq R (R.div a.sum a.num))) := by
      rw [← hvals]; exact hp.filterMap _
    obtain ⟨s0, s1, s2⟩ := planVal_rel R (contrib R ex l a) p (by
      intro v hvm
      obtain ⟨w, hw, rfl⟩ := List.mem_map.1 (hperm.mem_iff.1 hvm)
      exact ⟨R.mem _, (sq_bounds R (R.mem _) (hv w hw)).1⟩)
    rw [hperm.sum_eq] at s1 s2
    obtain ⟨d0, d1, d2⟩ := dev_near R (valid ex l) hv hne (R.div a.sum a.num) (R.mem _) (depth p) _ s0 s1 s2
    refine ⟨R.div a.sum a.num, _, hm, ?_, d0, d1, d2⟩
    change (divF R _ a.num).map R.sqrt = _
    unfold divF; rw [if_neg hn, h1]; rfl
  · intro hne hfl
    have hmem : ∃ w, w ∈ valid ex l := List.exists_mem_of_ne_nil _ hne
    obtain ⟨w, hw⟩ := hmem
    have hmx : a.mx ∈ valid ex l := by
      rcases h5 with h5 | h5
      · have q1 := h4 w hw
        have q2 := (abs_le.1 (hfl w hw)).1
        have : FAcc.start.mx = -(fltMax : ℝ) := rfl
        have : w = a.mx := by rw [h5] at q1 ⊢; rw [this] at q1 ⊢; linarith
        rw [← this]; exact hw
      · exact h5
    have hmn : a.mn ∈ valid ex l := by
      rcases h8 with h8 | h8
      · have q1 := h7 w hw
        have q2 := (abs_le.1 (hfl w hw)).2
        have : FAcc.start.mn = (fltMax : ℝ) := rfl
        have : w = a.mn := by rw [h8] at q1 ⊢; rw [this] at q1 ⊢; linarith
        rw [← this]; exact hw
      · exact h8
    have hle : a.mn ≤ a.mx := le_trans (h7 w hw) (h4 w hw)
    refine ⟨a.mx, a.mn, R.sub a.mx a.mn, hmx, h4, hmn, h7, rfl, rfl, rfl, ?_⟩
    have := fl_err_sub R (hv _ hmx) (hv _ hmn)
    rw [unit_eq]
    rwa [abs_of_nonneg (sub_nonneg.2 hle)] at this

/-! ## Two dimensions -/

theorem read2F_ok (vals : List (List ℝ)) (i j : Nat) (hi : i < vals.length) (hj : j < (vals[i]).length) :
    read2F (some vals) i j = .ok ((column vals j).getD i 0) := by
  unfold read2F column
  rw [readAt_some_nat _ i hi, Out.ok_bind, readAt_some_nat _ j hj,
    List.getD_eq_getElem _ _ (by simpa using hi), List.getElem_map, List.getD_eq_getElem _ _ hj]

theorem stat2InnerF_ok (R : Rounding) (vals : List (List ℝ)) (ex : ℝ) (i : Nat) (hi : i < vals.length) (L : Nat)
    (hL : (vals[i]).length = L) (js : List Nat) : ∀ (accs : List FAcc) (_ : accs.length = L) (_ : js.Nodup)
    (_ : ∀ j ∈ js, j < L),
    ∃ accs', stat2InnerF R (some vals) ex i js (some accs) = .ok (some accs') ∧ accs'.length = L ∧
      ∀ j (_ : j < L), accs'.getD j FAcc.start =
        if j ∈ js then (accs.getD j FAcc.start).push R (fun x => R.add x 1) ex ((column vals j).getD i 0)
        else accs.getD j FAcc.start := by
  induction js with
  | nil => intro accs h _ _; exact ⟨accs, rfl, h, by simp⟩
  | cons j js ih =>
    intro accs h hnd hlt
    have hj := hlt j (by simp)
    rw [stat2InnerF, read2F_ok vals i j hi (by omega), Out.ok_bind, readAt_some_nat _ j (by omega), Out.ok_bind,
      writeAt_some _ (j : Int) _ (by omega) (by omega), Out.ok_bind]
    obtain ⟨accs', e, hlen, hv⟩ := ih (accs.set j (accs[j].push R (fun x => R.add x 1) ex ((column vals j).getD i 0)))
      (by simpa using h) (List.nodup_cons.1 hnd).2 (fun k hk => hlt k (by simp [hk]))
    refine ⟨accs', e, hlen, ?_⟩
    intro k hk
    rw [hv k hk]
    have hjn := (List.nodup_cons.1 hnd).1
    by_cases hkj : k = j
    · subst hkj
      have hka : k < accs.length := by omega
      have e3 : accs.getD k FAcc.start = accs[k] := List.getD_eq_getElem _ _ hka
      rw [if_neg hjn, if_pos (by simp), e3]
      exact (List.getD_eq_getElem _ _ (by simpa using hka)).trans (List.getElem_set_self _)
    · have : (accs.set j (accs[j].push R (fun x => R.add x 1) ex ((column vals j).getD i 0))).getD k FAcc.start =
          accs.getD k FAcc.start := by
        have hka : k < accs.length := by omega
        rw [show accs.getD k FAcc.start = accs[k] from List.getD_eq_getElem _ _ hka]
        exact (List.getD_eq_getElem _ _ (by simpa using hka)).trans (List.getElem_set_ne (by omega) _)
      rw [this]
      simp [hkj]

theorem stat2LoopF_ok (R : Rounding) (vals : List (List ℝ)) (ex : ℝ) (L : Nat) (hL : ∀ c ∈ vals, c.length = L)
    (is : List Nat) : ∀ (accs : List FAcc) (_ : accs.length = L) (_ : ∀ i ∈ is, i < vals.length),
    ∃ accs', stat2LoopF R (some vals) ex L is (some accs) = .ok (some accs') ∧ accs'.length = L ∧
      ∀ j (_ : j < L), accs'.getD j FAcc.start =
        (is.map (fun i => (column vals j).getD i 0)).foldl (FAcc.push R (fun x => R.add x 1) ex) (accs.getD j FAcc.start) := by
  induction is with
  | nil => intro accs h _; exact ⟨accs, rfl, h, by simp⟩
  | cons i is ih =>
    intro accs h hlt
    have hi := hlt i (by simp)
    obtain ⟨a1, e1, l1, v1⟩ := stat2InnerF_ok R vals ex i hi L (hL _ (List.getElem_mem hi)) (List.range L) accs h
      List.nodup_range (by simp)
    rw [stat2LoopF, e1, Out.ok_bind]
    obtain ⟨a2, e2, l2, v2⟩ := ih a1 l1 (fun k hk => hlt k (by simp [hk]))
    refine ⟨a2, e2, l2, ?_⟩
    intro j hj
    rw [v2 j hj, v1 j hj, if_pos (by simpa using hj)]
    simp only [List.map_cons, List.foldl_cons]

theorem stat2FinishF_ok (R : Rounding) (plan : Nat → Plan) (vals : List (List ℝ)) (ex : ℝ) (L : Nat)
    (hplan : ∀ j, (plan j).Of vals.length) (hL : ∀ c ∈ vals, c.length = L) (accs : List FAcc) (hlen : accs.length = L)
    (ha : ∀ j (_ : j < L), accs.getD j FAcc.start = accOf R (fun x => R.add x 1) ex (column vals j))
    (js : List Nat) (hj : ∀ j ∈ js, j < L) :
    stat2FinishF R plan (some vals) ex (some accs) js =
      .ok (js.map (fun j => resultF R (fun x => R.add x 1) (plan j) ex (column vals j))) := by
  induction js with
  | nil => rfl
  | cons j js ih =>
    have hjl := hj j (by simp)
    have haj : accs[j] = accOf R (fun x => R.add x 1) ex (column vals j) := by
      rw [← ha j hjl]; exact (List.getD_eq_getElem _ _ (by omega)).symm
    rw [stat2FinishF, readAt_some_nat _ j (by omega), Out.ok_bind, haj,
      ompSumF_ok R _ (contrib R ex (column vals j) (accOf R (fun x => R.add x 1) ex (column vals j))) (plan j), Out.ok_bind,
      ih (fun k hk => hj k (by simp [hk])), Out.ok_bind]
    · rfl
    · intro i hi
      have hi := planOf_lt (hplan j) hi
      rw [read2F_ok vals i j hi (by rw [hL _ (List.getElem_mem hi)]; exact hjl), Out.ok_bind]; rfl

theorem basicStats2F_eq (R : Rounding) (plan : Nat → Plan) (vals : List (List ℝ)) (ex : ℝ) (L : Nat)
    (hplan : ∀ j, (plan j).Of vals.length) (hL : ∀ c ∈ vals, c.length = L) :
    basicStats2F R plan (some vals) vals.length L ex =
      .ok ((List.range L).map (fun j => resultF R (fun x => R.add x 1) (plan j) ex (column vals j))) := by
  have h1 : (vals.length : Int).toNat = vals.length := by omega
  have h2 : (L : Int).toNat = L := by omega
  unfold basicStats2F
  rw [h1, h2]
  obtain ⟨a, e, hl, hv⟩ := stat2LoopF_ok R vals ex L hL (List.range vals.length) (List.replicate L FAcc.start)
    (by simp) (by simp)
  rw [e, Out.ok_bind]
  refine stat2FinishF_ok R plan vals ex L hplan hL a hl ?_ _ (by simp)
  intro j hj
  rw [hv j hj]
  have hcl : (column vals j).length = vals.length := by simp [column]
  have h3 : (List.replicate L FAcc.start).getD j FAcc.start = FAcc.start := by
    rw [List.getD_eq_getElem _ _ (by simpa using hj), List.getElem_replicate]
  rw [h3]
  unfold accOf
  congr 1
  rw [← hcl]
  exact map_range_getD _ _

/-! ## Integers -/

/-- Sums of integers below 2^53 are exact under every plan. -/
theorem accum_int (R : Rounding) (l : List ℝ) : ∀ (a : ℤ) (B : ℝ), (∀ v ∈ l, ∃ k : ℤ, v = k) → |(a : ℝ)| ≤ B → B + absSum l ≤ 2 ^ 53 →
    accum R l a = a + l.sum := by
  induction l with
  | nil => intro a B _ _ _; simp [accum]
  | cons v l ih =>
    intro a B hl ha hB
    obtain ⟨k, hk⟩ := hl v (by simp)
    have e1 : absSum (v :: l) = |v| + absSum l := by simp [absSum]
    rw [e1] at hB
    have h0 := absSum_nonneg l
    have hb : |((a + k : ℤ) : ℝ)| ≤ B + |v| := by
      push_cast; rw [← hk]; exact le_trans (abs_add_le _ _) (by linarith)
    have hz : |a + k| ≤ 2 ^ 53 := by
      have : ((|a + k| : ℤ) : ℝ) ≤ ((2 ^ 53 : ℤ) : ℝ) := by rw [Int.cast_abs]; push_cast at hb ⊢; linarith
      exact Int.cast_le.1 this
    have ex : R.add (a : ℝ) v = ((a + k : ℤ) : ℝ) := by
      unfold Rounding.add
      rw [hk, ← Int.cast_add]
      exact fl_exact R (dbl_int _ hz)
    have := ih (a + k) (B + |v|) (fun w hw => hl w (by simp [hw])) hb (by linarith)
    have e2 : accum R (v :: l) (a : ℝ) = accum R l (R.add (a : ℝ) v) := rfl
    rw [e2, ex, this, List.sum_cons, hk]; push_cast; ring

theorem sum_int (l : List ℝ) (h : ∀ v ∈ l, ∃ k : ℤ, v = k) : ∃ k : ℤ, l.sum = k := by
  induction l with
  | nil => exact ⟨0, by simp⟩
  | cons v l ih =>
    obtain ⟨a, ha⟩ := h v (by simp)
    obtain ⟨b, hb⟩ := ih (fun w hw => h w (by simp [hw]))
    exact ⟨a + b, by rw [List.sum_cons, ha, hb]; push_cast; ring⟩

theorem planVal_int (R : Rounding) (g : Nat → Option ℝ) (p : Plan) (h : ∀ v ∈ p.iters.filterMap g, ∃ k : ℤ, v = k)
    (hs : absSum (p.iters.filterMap g) ≤ 2 ^ 53) : planVal R g p = (p.iters.filterMap g).sum := by
  induction p with
  | thread is =>
    have := accum_int R (is.filterMap g) 0 0 h (by simp) (by simpa [Plan.iters] using hs)
    simpa [planVal, Plan.iters] using this
  | join a b iha ihb =>
    simp only [Plan.iters, List.filterMap_append] at h hs ⊢
    rw [absSum_append] at hs
    have n1 := absSum_nonneg (a.iters.filterMap g)
    have n2 := absSum_nonneg (b.iters.filterMap g)
    have e1 := iha (fun v hv => h v (by simp [hv])) (by linarith)
    have e2 := ihb (fun v hv => h v (by simp [hv])) (by linarith)
    have e3 : planVal R g (.join a b) = R.add (planVal R g a) (planVal R g b) := rfl
    rw [e3, e1, e2, List.sum_append]
    obtain ⟨k, hk⟩ := sum_int (a.iters.filterMap g) (fun v hv => h v (by simp [hv]))
    obtain ⟨m, hm⟩ := sum_int (b.iters.filterMap g) (fun v hv => h v (by simp [hv]))
    have b1 := sum_le_absSum (a.iters.filterMap g)
    have b2 := sum_le_absSum (b.iters.filterMap g)
    rw [hk] at b1; rw [hm] at b2
    unfold Rounding.add
    rw [hk, hm, ← Int.cast_add]
    refine fl_exact R (dbl_int _ ?_)
    have : ((|k + m| : ℤ) : ℝ) ≤ ((2 ^ 53 : ℤ) : ℝ) := by
      rw [Int.cast_abs]; push_cast
      have := abs_add_le (k : ℝ) (m : ℝ)
      linarith
    exact Int.cast_le.1 this

end CCGL.Flt
