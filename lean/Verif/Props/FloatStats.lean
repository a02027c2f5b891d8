import Verif.Lemmas.FloatStats4
/-!
# C83: sums and statistics in double arithmetic

`R` is any rounding to nearest, a `Plan` any distribution of the iterations of a parallel loop over threads with any order of
combining the partial results.
-/
namespace CCGL.Flt
open CCGL.Flt.Spec

/-- C83: `Sum` of doubles is the exact sum up to the rounding of as many additions as a value can pass through. -/
theorem C83_sum (R : Rounding) (p : Plan) (data : List ℝ) (hd : ∀ v ∈ data, IsDouble v) (hp : p.Of data.length) :
    ∃ x, sumArrF R p (some data) = .ok x ∧ NearSum (depth p) x data := by
  have hv : (List.range data.length).filterMap (fun i => some (data.getD i 0)) = data := by
    rw [List.filterMap_eq_map' (f := fun i => data.getD i 0)]; exact map_range_getD data 0
  have hperm : (p.iters.filterMap (fun i => some (data.getD i 0))).Perm data := by
    have := hp.filterMap (fun i => some (data.getD i 0)); rwa [hv] at this
  refine ⟨planVal R (fun i => some (data.getD i 0)) p, ?_, ?_⟩
  · unfold sumArrF
    refine ompSumF_ok R _ _ p ?_
    intro i hi
    have hi := planOf_lt hp hi
    rw [readAt_some_nat _ i hi, Out.ok_bind, List.getD_eq_getElem _ _ hi]; rfl
  · have h := planVal_near R (fun i => some (data.getD i 0)) p (fun v h => hd v (hperm.mem_iff.1 h))
    have e : absSum (p.iters.filterMap (fun i => some (data.getD i 0))) = absSum data := by
      unfold absSum; exact (hperm.map _).sum_eq
    rw [hperm.sum_eq, e] at h
    unfold NearSum
    rw [unit_eq]; exact h

/-- C83: integers whose absolute values add up to at most 2^53 are summed exactly, however the loop is split. -/
theorem C83_sum_integers (R : Rounding) (p : Plan) (data : List ℝ) (hd : ∀ v ∈ data, ∃ k : ℤ, v = k) (hs : absSum data ≤ 2 ^ 53)
    (hp : p.Of data.length) : sumArrF R p (some data) = .ok data.sum := by
  have hv : (List.range data.length).filterMap (fun i => some (data.getD i 0)) = data := by
    rw [List.filterMap_eq_map' (f := fun i => data.getD i 0)]; exact map_range_getD data 0
  have hperm : (p.iters.filterMap (fun i => some (data.getD i 0))).Perm data := by
    have := hp.filterMap (fun i => some (data.getD i 0)); rwa [hv] at this
  have h1 : sumArrF R p (some data) = .ok (planVal R (fun i => some (data.getD i 0)) p) := by
    unfold sumArrF
    refine ompSumF_ok R _ _ p ?_
    intro i hi
    have hi := planOf_lt hp hi
    rw [readAt_some_nat _ i hi, Out.ok_bind, List.getD_eq_getElem _ _ hi]; rfl
  rw [h1, planVal_int R _ p (fun v h => hd v (hperm.mem_iff.1 h)) ?_, hperm.sum_eq]
  have e : absSum (p.iters.filterMap (fun i => some (data.getD i 0))) = absSum data := by
    unfold absSum; exact (hperm.map _).sum_eq
  rw [e]; exact hs

/-- C83: the statistics of an array: exact number of values, maximum and minimum; range rounded once; mean and deviation within the
stated bounds. -/
theorem C83_statistics (R : Rounding) (p : Plan) (values : List ℝ) (ex : ℝ) (he : IsDouble ex) (hd : ∀ v ∈ values, IsDouble v)
    (ha : Apart ex values) (hp : p.Of values.length) :
    ∃ st, basicStats1F R p (some values) values.length ex = .ok st ∧ NearStats (depth p) st (valid ex values) :=
  ⟨_, basicStats1F_eq R p values ex hp, resultF_near R _ p ex values hp ⟨he, hd, ha⟩ (by rw [inc_int, zero_add])⟩

/-- C83: the same for every layer of a two-dimensional array (of at most 2^53 cells, since its counter is a `double`). -/
theorem C83_layers (R : Rounding) (plan : Nat → Plan) (vals : List (List ℝ)) (lyrs : Nat) (ex : ℝ) (he : IsDouble ex)
    (hd : ∀ c ∈ vals, c.length = lyrs ∧ ∀ v ∈ c, IsDouble v) (ha : ∀ c ∈ vals, Apart ex c)
    (hp : ∀ j, (plan j).Of vals.length) (hn : vals.length ≤ 2 ^ 53) :
    ∃ l, basicStats2F R plan (some vals) vals.length lyrs ex = .ok l ∧ l.length = lyrs ∧
      ∀ j (h : j < l.length), NearStats (depth (plan j)) l[j] (valid ex (column vals j)) := by
  refine ⟨_, basicStats2F_eq R plan vals ex lyrs hp (fun c hc => (hd c hc).1), by simp, ?_⟩
  intro j h
  simp only [List.getElem_map, List.getElem_range]
  have hj : j < lyrs := by simpa using h
  have hcl : (column vals j).length = vals.length := by simp [column]
  have hmem : ∀ v ∈ column vals j, ∃ c ∈ vals, v ∈ c := by
    intro v hv
    obtain ⟨c, hc, rfl⟩ := List.mem_map.1 hv
    have hl : j < c.length := by rw [(hd c hc).1]; exact hj
    exact ⟨c, hc, by rw [List.getD_eq_getElem _ _ hl]; exact List.getElem_mem hl⟩
  refine resultF_near R _ (plan j) ex _ (by rw [hcl]; exact hp j) ⟨he, ?_, ?_⟩ ?_
  · intro v hv; obtain ⟨c, hc, h⟩ := hmem v hv; exact (hd c hc).2 v h
  · intro v hv; obtain ⟨c, hc, h⟩ := hmem v hv; exact ha c hc v h
  · have hle : (valid ex (column vals j)).length ≤ vals.length := by
      rw [← hcl]; unfold valid; exact List.length_filter_le _ _
    have := inc_dbl R (valid ex (column vals j)).length 0 (by omega)
    simpa using this

/-- C83: only the deviation depends on how the loop is split; the other five results are the same under every plan. -/
theorem C83_schedule (R : Rounding) (p q : Plan) (values : List ℝ) (ex : ℝ) (hp : p.Of values.length) (hq : q.Of values.length) :
    ∃ st st', basicStats1F R p (some values) values.length ex = .ok st ∧ basicStats1F R q (some values) values.length ex = .ok st' ∧
      st.num = st'.num ∧ st.mean = st'.mean ∧ st.mx = st'.mx ∧ st.mn = st'.mn ∧ st.range = st'.range :=
  ⟨_, _, basicStats1F_eq R p values ex hp, basicStats1F_eq R q values ex hq, rfl, rfl, rfl, rfl, rfl⟩

/-- C83: for integers whose absolute values add up to at most 2^53 the mean is the correctly rounded quotient. -/
theorem C83_mean_integers (R : Rounding) (p : Plan) (values : List ℝ) (ex : ℝ) (he : IsDouble ex) (hd : ∀ v ∈ values, IsDouble v)
    (ha : Apart ex values) (hp : p.Of values.length) (hi : ∀ v ∈ valid ex values, ∃ k : ℤ, v = k)
    (hs : absSum (valid ex values) ≤ 2 ^ 53) (hne : valid ex values ≠ []) :
    ∃ st m, basicStats1F R p (some values) values.length ex = .ok st ∧ st.mean = some m ∧ IsDouble m ∧
      (∀ y, IsDouble y → |m - mean (valid ex values)| ≤ |y - mean (valid ex values)|) ∧
      (IsDouble (mean (valid ex values)) → m = mean (valid ex values)) := by
  have hc : Cond ex values := ⟨he, hd, ha⟩
  have hfold := push_fold_valid R (· + 1) ex values hc FAcc.start
  obtain ⟨h1, h2, -⟩ := fold_parts R (· + 1) (valid ex values) FAcc.start
  rw [← hfold] at h1 h2
  have h1 : (accOf R (· + 1) ex values).num = ((valid ex values).length : ℝ) := by
    refine h1.trans ?_; rw [inc_int]; exact zero_add _
  have h2 : (accOf R (· + 1) ex values).sum = (valid ex values).sum := by
    refine h2.trans ?_
    have := accum_int R (valid ex values) 0 0 hi (by simp) (by linarith)
    have e : FAcc.start.sum = (0 : ℝ) := rfl
    rw [e]; simpa using this
  have hn : (accOf R (· + 1) ex values).num ≠ 0 := by
    rw [h1]; have := List.length_pos_iff.2 hne; exact_mod_cast this.ne'
  refine ⟨_, R.fl (mean (valid ex values)), basicStats1F_eq R p values ex hp, ?_, R.mem _, R.near _, fun h => fl_exact R h⟩
  change divF R _ _ = _
  unfold divF
  rw [if_neg hn, h1, h2]
  rfl

/-- C83: a layer whose valid cells all hold the same integer (times their number at most 2^53) has exactly this mean, deviation 0 and
range 0. -/
theorem C83_constant (R : Rounding) (p : Plan) (values : List ℝ) (ex : ℝ) (he : IsDouble ex) (hd : ∀ v ∈ values, IsDouble v)
    (ha : Apart ex values) (hp : p.Of values.length) (k : ℤ) (hk : ∀ v ∈ valid ex values, v = k)
    (hs : ((valid ex values).length : ℝ) * |(k : ℝ)| ≤ 2 ^ 53) (hne : valid ex values ≠ []) :
    ∃ st, basicStats1F R p (some values) values.length ex = .ok st ∧ st.mean = some (k : ℝ) ∧ st.std = some 0 ∧
      (|(k : ℝ)| ≤ (fltMax : ℝ) → st.range = some 0) := by
  have hc : Cond ex values := ⟨he, hd, ha⟩
  have hrep : valid ex values = List.replicate (valid ex values).length (k : ℝ) := List.eq_replicate_of_mem hk
  have hsum : (valid ex values).sum = (valid ex values).length * (k : ℝ) := by
    conv_lhs => rw [hrep]
    simp
  have habs : absSum (valid ex values) = (valid ex values).length * |(k : ℝ)| := by
    unfold absSum
    conv_lhs => rw [hrep]
    simp
  have hlen : (0 : ℝ) < (valid ex values).length := by
    have := List.length_pos_iff.2 hne; exact_mod_cast this
  have hmean : mean (valid ex values) = k := by
    unfold mean; rw [hsum]; field_simp
  obtain ⟨w, hw⟩ := List.exists_mem_of_ne_nil _ hne
  have hkd : IsDouble (k : ℝ) := by rw [← hk w hw]; exact hd w (mem_valid.1 hw).1
  obtain ⟨st, m, e1, e2, -, -, e5⟩ := C83_mean_integers R p values ex he hd ha hp (fun v hv => ⟨k, hk v hv⟩) (by rw [habs]; exact hs) hne
  rw [hmean] at e5
  have hm := e5 hkd
  obtain ⟨st', e1', hns⟩ := C83_statistics R p values ex he hd ha hp
  rw [e1] at e1'
  injection e1' with e1'
  subst e1'
  refine ⟨st, e1, by rw [e2, hm], ?_, ?_⟩
  · have est : st = resultF R (· + 1) p ex values := by
      have := basicStats1F_eq R p values ex hp
      rw [e1] at this; injection this
    have hm2 : divF R (accOf R (· + 1) ex values).sum (accOf R (· + 1) ex values).num = some (k : ℝ) := by
      have : st.mean = divF R (accOf R (· + 1) ex values).sum (accOf R (· + 1) ex values).num := by rw [est]; rfl
      rw [← this, e2, hm]
    have hvals := contrib_values R ex values (accOf R (· + 1) ex values) _ hm2 hc
    have hz : (valid ex values).map (sq R (k : ℝ)) = List.replicate (valid ex values).length 0 := by
      rw [List.eq_replicate_iff]
      refine ⟨by simp, ?_⟩
      intro b hb
      obtain ⟨v, hv, rfl⟩ := List.mem_map.1 hb
      rw [hk v hv]
      unfold sq Rounding.mul Rounding.sub
      rw [sub_self, fl_zero, mul_zero, fl_zero]
    have hperm : (p.iters.filterMap (contrib R ex values (accOf R (· + 1) ex values))).Perm
        (List.replicate (valid ex values).length 0) := by
      rw [← hz, ← hvals]; exact hp.filterMap _
    have hpv : planVal R (contrib R ex values (accOf R (· + 1) ex values)) p = 0 := by
      rw [planVal_int R _ p]
      · rw [hperm.sum_eq]; simp
      · intro v hv
        have := hperm.mem_iff.1 hv
        rw [List.mem_replicate] at this
        exact ⟨0, by rw [this.2]; simp⟩
      · have : absSum (p.iters.filterMap (contrib R ex values (accOf R (· + 1) ex values))) =
            absSum (List.replicate (valid ex values).length 0) := by
          unfold absSum; exact (hperm.map _).sum_eq
        rw [this]; simp [absSum]
    have hnum : (accOf R (· + 1) ex values).num ≠ 0 := by
      intro h0
      unfold divF at hm2
      rw [if_pos h0] at hm2
      cases hm2
    rw [est]
    change (divF R _ _).map R.sqrt = _
    rw [hpv]
    unfold divF
    rw [if_neg hnum]
    unfold Rounding.div Rounding.sqrt
    simp only [Option.map_some, zero_div]
    rw [fl_zero, Real.sqrt_zero, fl_zero]
  · intro hf
    obtain ⟨a, b, r, ha1, -, hb1, -, -, -, hr, hle⟩ := hns.extrema hne (fun v hv => by rw [hk v hv]; exact hf)
    rw [hk a ha1, hk b hb1, sub_self, mul_zero, sub_zero] at hle
    rw [hr, abs_nonpos_iff.1 hle]

/-! ## The sum of doubles depends on the number of threads -/

theorem dbl_four {x : ℝ} (h : IsDouble x) (hx : (2 : ℝ) ^ 54 ≤ x) : ∃ z : ℤ, x = z * 4 := by
  obtain ⟨m, e, hm1, he, rfl⟩ := h
  have he2 : 2 ≤ e := by
    by_contra hc
    have b1 : (m : ℝ) ≤ 2 ^ 53 - 1 := by
      have : m ≤ 2 ^ 53 - 1 := by have := (abs_lt.1 hm1).2; omega
      have : ((m : ℤ) : ℝ) ≤ ((2 ^ 53 - 1 : ℤ) : ℝ) := Int.cast_le.2 this
      push_cast at this; linarith
    have b2 : (2 : ℝ) ^ e ≤ (2 : ℝ) ^ (1 : ℤ) := zpow_le_zpow_right₀ (by norm_num) (by omega)
    have b3 : (m : ℝ) * (2 : ℝ) ^ e ≤ (2 ^ 53 - 1) * (2 : ℝ) ^ (1 : ℤ) :=
      mul_le_mul b1 b2 (pow_pos' e).le (by norm_num)
    norm_num at b3 hx
    linarith
  refine ⟨m * 2 ^ (e - 2).toNat, ?_⟩
  push_cast
  rw [mul_assoc]
  congr 1
  have : (4 : ℝ) = (2 : ℝ) ^ (2 : ℤ) := by norm_num
  rw [this, ← zpow_natCast, ← zpow_add₀ (by norm_num : (2 : ℝ) ≠ 0)]
  congr 1; omega

/-- C83 is as far as one can go: with the same rounding the sum of 2^54, 1, 1, 1 is 2^54 in one thread and 2^54 + 4 if a second thread
adds the ones. -/
theorem C83_false_schedule (R : Rounding) : ∃ (data : List ℝ) (p q : Plan), (∀ v ∈ data, IsDouble v) ∧ p.Of data.length ∧
    q.Of data.length ∧ sumArrF R p (some data) = .ok (2 ^ 54) ∧ sumArrF R q (some data) = .ok (2 ^ 54 + 4) := by
  have d54 : IsDouble ((2 : ℝ) ^ 54) := by have := dbl_pow 54 (by norm_num); exact_mod_cast this
  have d544 : IsDouble ((2 : ℝ) ^ 54 + 4) := ⟨2 ^ 52 + 1, 2, by norm_num, by norm_num, by norm_num⟩
  have dint : ∀ k : ℕ, k ≤ 3 → IsDouble (k : ℝ) := fun k hk => dbl_nat k (by omega)
  have a1 : R.fl ((2 : ℝ) ^ 54 + 1) = 2 ^ 54 := by
    have h := R.near ((2 : ℝ) ^ 54 + 1) _ d54
    rw [show ((2 : ℝ) ^ 54 - (2 ^ 54 + 1)) = -1 by ring, abs_neg, abs_one] at h
    have h := abs_le.1 h
    obtain ⟨z, hz⟩ := dbl_four (R.mem ((2 : ℝ) ^ 54 + 1)) (by linarith)
    rw [hz] at h ⊢
    have z1 : ((2 ^ 52 : ℤ) : ℝ) ≤ z := by push_cast; linarith [h.1]
    have z2 : (z : ℝ) < ((2 ^ 52 + 1 : ℤ) : ℝ) := by push_cast; linarith [h.2]
    have z1' := Int.cast_le.1 z1
    have z2' := Int.cast_lt.1 z2
    have : z = 2 ^ 52 := by omega
    rw [this]; norm_num
  have a3 : R.fl ((2 : ℝ) ^ 54 + 3) = 2 ^ 54 + 4 := by
    have h := R.near ((2 : ℝ) ^ 54 + 3) _ d544
    rw [show ((2 : ℝ) ^ 54 + 4 - (2 ^ 54 + 3)) = 1 by ring, abs_one] at h
    have h := abs_le.1 h
    obtain ⟨z, hz⟩ := dbl_four (R.mem ((2 : ℝ) ^ 54 + 3)) (by linarith)
    rw [hz] at h ⊢
    have z1 : ((2 ^ 52 : ℤ) : ℝ) < z := by push_cast; linarith [h.1]
    have z2 : (z : ℝ) ≤ ((2 ^ 52 + 1 : ℤ) : ℝ) := by push_cast; linarith [h.2]
    have z1' := Int.cast_lt.1 z1
    have z2' := Int.cast_le.1 z2
    have : z = 2 ^ 52 + 1 := by omega
    rw [this]; norm_num
  have f1 : R.fl (1 : ℝ) = 1 := by have := fl_exact R (dint 1 (by omega)); simpa using this
  have f2 : R.fl (2 : ℝ) = 2 := by have := fl_exact R (dint 2 (by omega)); simpa using this
  have f3 : R.fl (3 : ℝ) = 3 := by have := fl_exact R (dint 3 (by omega)); simpa using this
  have f54 : R.fl ((2 : ℝ) ^ 54) = 2 ^ 54 := fl_exact R d54
  refine ⟨[2 ^ 54, 1, 1, 1], .thread [0, 1, 2, 3], .join (.thread [0]) (.thread [1, 2, 3]), ?_, ?_, ?_, ?_, ?_⟩
  · intro v hv
    simp only [List.mem_cons, List.not_mem_nil, or_false] at hv
    have := dint 1 (by omega)
    rcases hv with rfl | rfl | rfl | rfl
    · exact d54
    all_goals simpa using this
  · exact List.Perm.refl _
  · exact List.Perm.refl _
  · have e : sumArrF R (.thread [0, 1, 2, 3]) (some [2 ^ 54, 1, 1, 1]) =
        .ok (R.fl (R.fl (R.fl (R.fl (0 + 2 ^ 54) + 1) + 1) + 1)) := rfl
    rw [e, zero_add, f54, a1, a1, a1]
  · have e : sumArrF R (.join (.thread [0]) (.thread [1, 2, 3])) (some [2 ^ 54, 1, 1, 1]) =
        .ok (R.fl (R.fl (0 + 2 ^ 54) + R.fl (R.fl (R.fl (0 + 1) + 1) + 1))) := rfl
    rw [e, zero_add, zero_add, f54, f1, show (1 : ℝ) + 1 = 2 by norm_num, f2, show (2 : ℝ) + 1 = 3 by norm_num, f3, a3]

/-! ## Examples -/

/-- Roundings exist, so the theorems speak of something. -/
theorem C83_rounding_exists : Nonempty Rounding := ⟨someRounding⟩

/-- An array with NoData -9999 that meets the conditions. -/
example : IsDouble (-9999) ∧ (∀ v ∈ [3, -9999, (5 : ℝ) / 2, 4], IsDouble v) ∧ Apart (-9999) [3, -9999, (5 : ℝ) / 2, 4] ∧
    (Plan.join (.thread [3, 1]) (.thread [0, 2])).Of 4 := by
  have h : ∀ k : ℤ, |k| ≤ 2 ^ 53 → IsDouble (k : ℝ) := dbl_int
  have h0 : IsDouble (-9999) := by have := h (-9999) (by norm_num); simpa using this
  refine ⟨h0, ?_, ?_, ?_⟩
  · intro v hv
    simp only [List.mem_cons, List.not_mem_nil, or_false] at hv
    rcases hv with rfl | rfl | rfl | rfl
    · have := h 3 (by norm_num); simpa using this
    · exact h0
    · exact ⟨5, -1, by norm_num, by norm_num, by norm_num⟩
    · have := h 4 (by norm_num); simpa using this
  · intro v _ _
    right
    rw [abs_neg]
    norm_num
  · unfold Plan.Of; decide +kernel

end CCGL.Flt
