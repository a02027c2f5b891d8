import Verif.Lemmas.Subset
import Verif.Spec.Subset
import Verif.Props.Raster
/-!
# Subsets (C13–C16)
-/
namespace CCGL
open Raster Spec

theorem subsetId_eq (groups : IMap Int) (v : ℚ) : subsetId groups v = groupOf groups v := by
  unfold subsetId groupOf IMap.get
  cases List.find? (fun e => decide (e.1 = truncQ v)) groups <;> rfl

/-- What `BuildSubSet` does on a raster without subsets. -/
theorem build_spec {r : Raster} (hb : Spec.Built r) (groups : IMap Int) :
    ∃ rs' b, buildSubSet ⟨r, []⟩ groups = .ok (rs', b) ∧ Spec.Built rs'.ras ∧
      rs'.ras.hdr.rows = r.hdr.rows ∧ rs'.ras.hdr.cols = r.hdr.cols ∧ rs'.ras.noData = r.noData ∧
      rs'.ras.nLyrs = r.nLyrs ∧ rs'.ras.is2d = r.is2d ∧ rs'.ras.dflt = r.dflt ∧
      (∀ row col lyr v, ValidCell r row col v → rs'.ras.getValue row col lyr = r.getValue row col lyr) ∧
      (∀ row col v, ValidCell rs'.ras row col v → ValidCell r row col v) ∧
      ((b = true ∧ ∃ ls ps, rs'.ras.Compact ls ps ∧ SubsOk rs'.ras ls ps groups rs'.subs) ∨
        (rs'.subs = [] ∧ rs'.ras.Empty)) := by
  rcases hb.inv with ⟨ls, loc, hi⟩ | ⟨hd, hE⟩
  · cases hi with
    | full h =>
      have h' := h.setCalc true
      obtain ⟨r', e, hh, hnd, hny, h2d, hdf, -, hnc, hcase⟩ := h'.calc
      obtain ⟨r'', e', -, -, hval⟩ := h'.calc_value
      rw [e] at e'; injection e' with e'; subst e'
      have hs : r.setCalcPositions = .ok (r', true) := by
        unfold setCalcPositions
        simp only [h.holds.valid, h.pd, h.pi, Bool.not_true, Bool.false_eq_true, if_false, Option.isSome_none, Bool.or_self,
          Bool.and_false]
        unfold calcNoMask
        simp only [if_true, Option.isNone_none, Bool.true_or]
        rw [show ({ r with calcPos := true, posData := none, posIdx := none } : Raster) = { r with calcPos := true } by
          have h1 := h.pd
          have h2 := h.pi
          cases r
          simp only at h1 h2
          subst h1 h2
          rfl]
        rw [e]
        rfl
      have hstep : r.step .setCalcPositions = .ok r' := by
        show (r.setCalcPositions >>= fun x => _) = _
        rw [hs]; rfl
      have hinv : Inv r ls (fullLoc r.hdr) := .full h
      have hlay := h.holds.1
      have gv : ∀ row col lyr, r'.getValue row col lyr = .ok
          (if 0 ≤ row ∧ row < r.hdr.rows ∧ 0 ≤ col ∧ col < r.hdr.cols ∧ 1 ≤ lyr ∧ lyr ≤ r.nLyrs ∧
            floatEqual (cellAt ls (row * r.hdr.cols + col).toNat 0) r.noData = false
          then cellAt ls (row * r.hdr.cols + col).toNat (lyr - 1).toNat else r.noData) := hval
      have ov : ∀ row col lyr, 0 ≤ row ∧ row < r.hdr.rows ∧ 0 ≤ col ∧ col < r.hdr.cols → 1 ≤ lyr ∧ lyr ≤ r.nLyrs →
          r.getValue row col lyr = .ok (cellAt ls (row * r.hdr.cols + col).toNat (lyr - 1).toNat) := by
        intro row col lyr hin hl
        have := hinv.val row col lyr hl
        unfold fullLoc at this
        rw [if_pos hin] at this
        exact this
      have self : floatEqual r.noData r.noData = true := by simp [floatEqual]
      have key : ∀ row col lyr v, ValidCell r row col v → r'.getValue row col lyr = r.getValue row col lyr := by
        rintro row col lyr v ⟨hv, hf⟩
        by_cases hin : 0 ≤ row ∧ row < r.hdr.rows ∧ 0 ≤ col ∧ col < r.hdr.cols
        · rw [ov row col 1 hin ⟨by omega, hlay⟩] at hv
          injection hv with hv
          by_cases hl : 1 ≤ lyr ∧ lyr ≤ r.nLyrs
          · rw [gv, ov row col lyr hin hl, if_pos ⟨hin.1, hin.2.1, hin.2.2.1, hin.2.2.2, hl.1, hl.2, by
              have hv' : cellAt ls (row * r.hdr.cols + col).toNat 0 = v := hv
              rw [hv']; exact hf⟩]
          · rw [gv, getValue_outside r row col lyr (.inr hl), if_neg (by tauto)]
        · rw [getValue_outside r row col 1 (.inl hin)] at hv
          injection hv with hv
          rw [← hv, self] at hf; simp at hf
      have key2 : ∀ row col v, ValidCell r' row col v → ValidCell r row col v := by
        rintro row col v ⟨hv, hf⟩
        rw [gv] at hv
        injection hv with hv
        split_ifs at hv with hc
        · refine ⟨?_, by rw [hnd] at hf; exact hf⟩
          rw [ov row col 1 ⟨hc.1, hc.2.1, hc.2.2.1, hc.2.2.2.1⟩ ⟨by omega, hlay⟩, hv]
        · rw [← hv, hnd, self] at hf; simp at hf
      have hb' : Spec.Built r' := hb.step _ hstep
      have hbuild : buildSubSet ⟨r, []⟩ groups = (buildLoop r' groups (List.range r'.nCells.toNat) [] >>= fun m =>
          m.mapM (fun (e : Int × (Subset × List Int)) => (do
            let s ← finishSubset r' e.2
            return (e.1, s) : Out (Int × Subset))) >>= fun subs => .ok (⟨r', subs⟩, true)) := by
        unfold buildSubSet
        simp only [h.holds.valid, h.pd, Option.isNone_none, Bool.true_or, Bool.not_true, Bool.false_eq_true, if_false, if_true,
          hs, Out.ok_bind]
        simp only [ne_eq, not_true_eq_false, if_false]
        rfl
      have hr1 : r'.hdr.rows = r.hdr.rows := by rw [hh]
      have hc1 : r'.hdr.cols = r.hdr.cols := by rw [hh]
      rcases hcase with ⟨hv, hE⟩ | hC
      · refine ⟨⟨r', []⟩, true, ?_, hb', hr1, hc1, hnd, hny, h2d, hdf, key, key2, .inr ⟨rfl, hE⟩⟩
        rw [hbuild, hE.ncells]; rfl
      · obtain ⟨subs, hsub, hok⟩ := buildMap_spec hC groups
        refine ⟨⟨r', subs⟩, true, ?_, hb', hr1, hc1, hnd, hny, h2d, hdf, key, key2, .inl ⟨rfl, _, _, hC, hok⟩⟩
        rw [hbuild, ← bind_assoc, hsub]; rfl
    | comp h =>
      rename_i ps
      obtain ⟨subs, hsub, hok⟩ := buildMap_spec h groups
      refine ⟨⟨r, subs⟩, true, ?_, hb, rfl, rfl, rfl, rfl, rfl, rfl, fun _ _ _ _ _ => rfl, fun _ _ _ h => h,
        .inl ⟨rfl, _, _, h, hok⟩⟩
      have hbuild : buildSubSet ⟨r, []⟩ groups = (buildLoop r groups (List.range r.nCells.toNat) [] >>= fun m =>
          m.mapM (fun (e : Int × (Subset × List Int)) => (do
            let s ← finishSubset r e.2
            return (e.1, s) : Out (Int × Subset))) >>= fun subs => .ok (⟨r, subs⟩, true)) := by
        unfold buildSubSet
        simp only [h.holds.valid, h.pd, h.pi, Option.isNone_some, Bool.or_self, Bool.not_true, Bool.false_eq_true, if_false,
          Out.ok_bind]
        simp only [ne_eq, not_true_eq_false, if_false]
        rfl
      rw [hbuild, ← bind_assoc, hsub]; rfl
    | empty h h1 =>
      refine ⟨⟨r, []⟩, false, ?_, hb, rfl, rfl, rfl, rfl, rfl, rfl, fun _ _ _ _ _ => rfl, fun _ _ _ h => h, .inr ⟨rfl, h⟩⟩
      unfold buildSubSet
      simp [Raster.validData, h1, h.data1 h1]
  · refine ⟨⟨r, []⟩, false, ?_, hb, rfl, rfl, rfl, rfl, rfl, rfl, fun _ _ _ _ _ => rfl, fun _ _ _ h => h, .inr ⟨rfl, hE⟩⟩
    unfold buildSubSet
    simp [hE.valid2 hd, hE.pd, hE.pi, Raster.setCalcPositions, hE.calcOn]

/-- Valid cells of a compact raster. -/
theorem compact_valid_iff {r : Raster} {ls ps} (h : r.Compact ls ps) (row col : Int) (v : ℚ) :
    ValidCell r row col v ↔ ∃ i, i < ps.length ∧ posAt ps i = (row, col) ∧ cellAt ls i 0 = v ∧
      floatEqual v r.noData = false := by
  have hl := h.holds.1
  have self : floatEqual r.noData r.noData = true := by simp [floatEqual]
  have hit : ∀ i (hi : i < ps.length), ps[i] = (row, col) → r.getValue row col 1 = .ok (cellAt ls i 0) := by
    intro i hi hg
    obtain ⟨-, e⟩ := h.getValue_hit row col 1 i hi hg ⟨by omega, hl⟩
    rw [e]
    have hil : i < ls.length := by rw [h.len]; exact hi
    have : ls.getD i [] = ls[i] := List.getD_eq_getElem _ _ hil
    unfold cellAt
    rw [this]
    rfl
  constructor
  · rintro ⟨hv, hf⟩
    by_cases hin : 0 ≤ row ∧ row < r.hdr.rows ∧ 0 ≤ col ∧ col < r.hdr.cols
    · by_cases hm : (row, col) ∈ ps
      · obtain ⟨i, hi, hg⟩ := List.mem_iff_getElem.1 hm
        rw [hit i hi hg] at hv
        injection hv with hv
        exact ⟨i, hi, by unfold posAt; rw [List.getD_eq_getElem _ _ hi, hg], hv, hf⟩
      · rw [(h.getValue_miss row col 1 hin hm).2] at hv
        injection hv with hv
        rw [← hv, self] at hf; simp at hf
    · rw [getValue_outside r row col 1 (.inl hin)] at hv
      injection hv with hv
      rw [← hv, self] at hf; simp at hf
  · rintro ⟨i, hi, hp, hc, hf⟩
    refine ⟨?_, hf⟩
    unfold posAt at hp
    rw [List.getD_eq_getElem _ _ hi] at hp
    rw [hit i hi hp, hc]

theorem compact_posAt_inj {r : Raster} {ls ps} (h : r.Compact ls ps) {i j : Nat} (hi : i < ps.length)
    (hj : j < ps.length) (e : posAt ps i = posAt ps j) : i = j := by
  unfold posAt at e
  rw [List.getD_eq_getElem _ _ hi, List.getD_eq_getElem _ _ hj] at e
  rw [← h.idxOf i hi, ← h.idxOf j hj, e]

theorem SubOk.in_iff {ps g s} (h : SubOk ps g s) (row col : Int) :
    InSubset s row col ↔ ∃ i ∈ g, posAt ps i = (row, col) := by
  unfold InSubset
  rw [h.lpos]
  constructor
  · rintro ⟨lp, e, hm⟩
    injection e with e; subst e
    obtain ⟨i, hi, e⟩ := List.mem_map.1 hm
    simp only [Prod.mk.injEq] at e
    exact ⟨i, hi, by ext <;> simp <;> omega⟩
  · rintro ⟨i, hi, e⟩
    exact ⟨_, rfl, List.mem_map.2 ⟨i, hi, by rw [e]⟩⟩

theorem selOf_iff {r ls groups k i} : selOf r ls groups k i = true ↔
    floatEqual (cellAt ls i 0) r.noData = false ∧ subsetId groups (cellAt ls i 0) = k := by
  unfold selOf
  rw [subsetId_eq]
  simp

/-- The two cases of a `BuildSubSet` result, as seen by the other theorems. -/
theorem build_cases {r : Raster} (hb : Spec.Built r) {groups : IMap Int} {rs' b}
    (e : buildSubSet ⟨r, []⟩ groups = .ok (rs', b)) :
    (∀ row col v, ValidCell r row col v ↔ ValidCell rs'.ras row col v) ∧
    rs'.ras.hdr.rows = r.hdr.rows ∧ rs'.ras.hdr.cols = r.hdr.cols ∧
    ((∃ ls ps, rs'.ras.Compact ls ps ∧ SubsOk rs'.ras ls ps groups rs'.subs) ∨
        (rs'.subs = [] ∧ rs'.ras.Empty)) := by
  obtain ⟨rs1, b1, e1, hb1, hrw, hcl, hnd, hny, h2, hdf, hv1, hv2, hc⟩ := build_spec hb groups
  rw [e] at e1
  injection e1 with e1
  injection e1 with ea eb
  subst ea eb
  refine ⟨fun row col v => ⟨fun h => ?_, hv2 row col v⟩, hrw, hcl, ?_⟩
  · exact ⟨by rw [hv1 row col 1 v h]; exact h.1, by rw [hnd]; exact h.2⟩
  · rcases hc with ⟨-, ls, ps, hC, hok⟩ | hE
    · exact .inl ⟨ls, ps, hC, hok⟩
    · exact .inr hE

theorem empty_not_valid {r : Raster} (h : r.Empty) {row col v} : ¬ ValidCell r row col v := by
  rintro ⟨hv, hf⟩
  rw [h.getValue] at hv
  injection hv with hv
  rw [← hv] at hf; simp [floatEqual] at hf

/-! ### C13 -/

/-- C13: `BuildSubSet` on a raster without subsets always returns (no undefined behaviour, no exception) and changes no
value, size or NoData value of the raster at its valid cells. -/
theorem C13_total {r : Raster} (hb : Spec.Built r) (groups : IMap Int) :
    ∃ rs' b, buildSubSet ⟨r, []⟩ groups = .ok (rs', b) ∧ Spec.Built rs'.ras ∧
      rs'.ras.hdr.rows = r.hdr.rows ∧ rs'.ras.hdr.cols = r.hdr.cols ∧ rs'.ras.noData = r.noData ∧
      rs'.ras.nLyrs = r.nLyrs ∧
      (∀ row col lyr v, ValidCell r row col v → rs'.ras.getValue row col lyr = r.getValue row col lyr) ∧
      (∀ row col v, ValidCell rs'.ras row col v → ValidCell r row col v) := by
  obtain ⟨rs', b, e, h0, h1, h2, h3, h4, h5, h6, h7, h8, h9⟩ := build_spec hb groups
  exact ⟨rs', b, e, h0, h1, h2, h3, h4, h7, h8⟩

/-- C13: every valid cell is in exactly one subset, the one its value (or the group table) names. -/
theorem C13_partition {r : Raster} (hb : Spec.Built r) (groups : IMap Int) {rs' b}
    (e : buildSubSet ⟨r, []⟩ groups = .ok (rs', b)) (row col : Int) (v : ℚ) (hv : ValidCell r row col v) :
    (∃ s, rs'.subs.get (subsetId groups v) = some s ∧ InSubset s row col) ∧
    ∀ k s, rs'.subs.get k = some s → InSubset s row col → k = subsetId groups v := by
  obtain ⟨hiff, -, -, ⟨ls, ps, hC, hok⟩ | ⟨-, hE⟩⟩ := build_cases hb e
  · have hv' := (hiff row col v).1 hv
    obtain ⟨i, hi, hp, hc, hf⟩ := (compact_valid_iff hC row col v).1 hv'
    have hsel : selOf rs'.ras ls groups (subsetId groups v) i = true := by
      rw [selOf_iff, hc]; exact ⟨hf, rfl⟩
    have hmem : i ∈ (List.range ps.length).filter (selOf rs'.ras ls groups (subsetId groups v)) :=
      List.mem_filter.2 ⟨List.mem_range.2 hi, hsel⟩
    constructor
    · cases hg : rs'.subs.get (subsetId groups v) with
      | none => rw [hok.none _ hg] at hmem; simp at hmem
      | some s =>
        obtain ⟨ho, -⟩ := hok.some _ s hg
        exact ⟨s, rfl, (ho.in_iff row col).2 ⟨i, hmem, hp⟩⟩
    · intro k s hk hin
      obtain ⟨ho, -⟩ := hok.some k s hk
      obtain ⟨j, hj, hp'⟩ := (ho.in_iff row col).1 hin
      obtain ⟨hj1, hj2⟩ := List.mem_filter.1 hj
      have : i = j := compact_posAt_inj hC hi (List.mem_range.1 hj1) (by rw [hp, hp'])
      subst this
      rw [selOf_iff, hc] at hj2
      exact hj2.2.symm
  · exact absurd ((hiff row col v).1 hv) (empty_not_valid hE)

/-- C13: a subset holds valid cells only, with values of its group, and no cell twice. -/
theorem C13_only {r : Raster} (hb : Spec.Built r) (groups : IMap Int) {rs' b}
    (e : buildSubSet ⟨r, []⟩ groups = .ok (rs', b)) (k : Int) (s : Subset) (hk : rs'.subs.get k = some s) :
    (∀ row col, InSubset s row col → ∃ v, ValidCell r row col v ∧ subsetId groups v = k) ∧
    ∃ lp, s.localPos = some lp ∧ lp.Nodup ∧ s.nCells = lp.length ∧ lp ≠ [] := by
  obtain ⟨hiff, -, -, ⟨ls, ps, hC, hok⟩ | ⟨hn, hE⟩⟩ := build_cases hb e
  · obtain ⟨ho, -⟩ := hok.some k s hk
    constructor
    · intro row col hin
      obtain ⟨j, hj, hp⟩ := (ho.in_iff row col).1 hin
      obtain ⟨hj1, hj2⟩ := List.mem_filter.1 hj
      rw [selOf_iff] at hj2
      exact ⟨cellAt ls j 0, (hiff _ _ _).2 ((compact_valid_iff hC row col _).2
        ⟨j, List.mem_range.1 hj1, hp, rfl, hj2.1⟩), hj2.2⟩
    · refine ⟨_, ho.lpos, ?_, by rw [ho.n]; simp, by simpa using ho.ne⟩
      refine (List.nodup_map_iff_inj_on (List.nodup_range.filter _)).2 ?_
      intro i hi j hj hij
      simp only [Prod.mk.injEq] at hij
      exact compact_posAt_inj hC (List.mem_range.1 (List.mem_filter.1 hi).1)
        (List.mem_range.1 (List.mem_filter.1 hj).1) (by ext <;> omega)
  · rw [hn] at hk; simp [IMap.get_nil] at hk

/-- Cells of a list selected by pairwise disjoint tests are counted once. -/
theorem sum_filter_length {α κ : Type} (sel : κ → α → Bool) (hd : ∀ k k' a, sel k a = true → sel k' a = true → k = k')
    (L : List α) : ∀ K : List κ, K.Nodup →
    (K.map (fun k => ((L.filter (sel k)).length : Int))).sum =
      ((L.filter (fun a => K.any (fun k => sel k a))).length : Int)
  | [], _ => by simp
  | k :: K, hn => by
    rw [List.nodup_cons] at hn
    rw [List.map_cons, List.sum_cons, sum_filter_length sel hd L K hn.2, ← Nat.cast_add]
    congr 1
    induction L with
    | nil => rfl
    | cons a L ih =>
      have h1 : ∀ p : α → Bool, ((a :: L).filter p).length = (if p a then 1 else 0) + (L.filter p).length := by
        intro p; by_cases h : p a <;> simp [h]; omega
      rw [h1, h1, h1]
      have h2 : (if sel k a = true then 1 else 0) + (if K.any (fun k => sel k a) = true then 1 else 0) =
          if (k :: K).any (fun k => sel k a) = true then 1 else 0 := by
        rw [List.any_cons]
        by_cases hk : sel k a = true
        · have : K.any (fun k => sel k a) = false := by
            rw [List.any_eq_false]
            intro k' hk' hs
            exact hn.1 (hd k k' a hk hs ▸ hk')
          simp [hk, this]
        · simp [hk]
      omega

/-- C13: the subsets' cell numbers add up to the number of valid cells of the grid. -/
theorem C13_count {r : Raster} (hb : Spec.Built r) (groups : IMap Int) {rs' b}
    (e : buildSubSet ⟨r, []⟩ groups = .ok (rs', b)) :
    (rs'.subs.map (fun e => e.2.nCells)).sum =
      (((gridCells r.hdr.rows r.hdr.cols).filter (fun rc => match r.getValue rc.1 rc.2 1 with
        | .ok v => !floatEqual v r.noData
        | _ => false)).length : Int) := by
  have hvd : ∀ rc : Int × Int, (match r.getValue rc.1 rc.2 1 with
        | .ok v => !floatEqual v r.noData
        | _ => false) = true ↔ ∃ v, ValidCell r rc.1 rc.2 v := by
    intro rc
    unfold ValidCell
    cases r.getValue rc.1 rc.2 1 with
    | ok v => simp
    | ub => simp
    | exn => simp
  obtain ⟨hiff, hrw, hcl, ⟨ls, ps, hC, hok⟩ | ⟨hn, hE⟩⟩ := build_cases hb e
  · have hs1 : rs'.subs.map (fun e => e.2.nCells) = (rs'.subs.map (·.1)).map (fun k =>
        (((List.range ps.length).filter (selOf rs'.ras ls groups k)).length : Int)) := by
      rw [List.map_map]
      apply List.map_congr_left
      intro x hx
      have hg := (IMap.mem_iff_get rs'.subs hok.sorted x.1 x.2).1 hx
      exact (hok.some _ _ hg).1.n
    have hnd : (rs'.subs.map (·.1)).Nodup := hok.sorted.imp (fun h => by omega)
    rw [hs1, sum_filter_length _ (by
      intro k k' a h1 h2
      rw [selOf_iff] at h1 h2
      rw [← h1.2, ← h2.2]) _ _ hnd]
    congr 1
    have hperm : (((List.range ps.length).filter (fun a => (rs'.subs.map (·.1)).any (fun k =>
        selOf rs'.ras ls groups k a))).map (posAt ps)).Perm
        ((gridCells r.hdr.rows r.hdr.cols).filter (fun rc => match r.getValue rc.1 rc.2 1 with
        | .ok v => !floatEqual v r.noData
        | _ => false)) := by
      rw [List.perm_ext_iff_of_nodup]
      · intro rc
        rw [List.mem_filter, hvd, List.mem_map]
        constructor
        · rintro ⟨i, hi, rfl⟩
          obtain ⟨hi1, hi2⟩ := List.mem_filter.1 hi
          obtain ⟨k, -, hk⟩ := List.any_eq_true.1 hi2
          rw [selOf_iff] at hk
          have hip := List.mem_range.1 hi1
          obtain ⟨-, c1, c2, c3, c4, -⟩ := compact_pos hC i hip
          refine ⟨(mem_gridCells _ _ _).2 ?_, cellAt ls i 0, (hiff _ _ _).2 ((compact_valid_iff hC _ _ _).2
            ⟨i, hip, rfl, rfl, hk.1⟩)⟩
          rw [hrw] at c2; rw [hcl] at c4
          exact ⟨c1, c2, c3, c4⟩
        · rintro ⟨-, v, hv⟩
          obtain ⟨i, hi, hp, hc, hf⟩ := (compact_valid_iff hC _ _ _).1 ((hiff _ _ _).1 hv)
          refine ⟨i, List.mem_filter.2 ⟨List.mem_range.2 hi, List.any_eq_true.2 ⟨subsetId groups v, ?_, ?_⟩⟩, hp⟩
          · cases hg : rs'.subs.get (subsetId groups v) with
            | none =>
              have := hok.none _ hg
              have hm : i ∈ (List.range ps.length).filter (selOf rs'.ras ls groups (subsetId groups v)) :=
                List.mem_filter.2 ⟨List.mem_range.2 hi, by rw [selOf_iff, hc]; exact ⟨hf, rfl⟩⟩
              rw [this] at hm; simp at hm
            | some s => exact List.mem_map.2 ⟨_, IMap.get_mem hg, rfl⟩
          · rw [selOf_iff, hc]; exact ⟨hf, rfl⟩
      · refine (List.nodup_map_iff_inj_on (List.nodup_range.filter _)).2 ?_
        intro i hi j hj hij
        exact compact_posAt_inj hC (List.mem_range.1 (List.mem_filter.1 hi).1)
          (List.mem_range.1 (List.mem_filter.1 hj).1) hij
      · exact (gridCells_nodup _ _).filter _
    rw [← hperm.length_eq, List.length_map]
  · rw [hn]
    simp only [List.map_nil, List.sum_nil]
    symm
    rw [List.filter_eq_nil_iff.2]
    · rfl
    · intro rc _ h
      obtain ⟨v, hv⟩ := (hvd rc).1 h
      exact empty_not_valid hE ((hiff _ _ _).1 hv)

/-! ### C14 -/

/-- C14: the rectangle of a subset is the smallest one containing its cells. -/
theorem C14_box {r : Raster} (hb : Spec.Built r) (groups : IMap Int) {rs' b}
    (e : buildSubSet ⟨r, []⟩ groups = .ok (rs', b)) (k : Int) (s : Subset) (hk : rs'.subs.get k = some s) :
    (∀ row col, InSubset s row col → s.srow ≤ row ∧ row ≤ s.erow ∧ s.scol ≤ col ∧ col ≤ s.ecol) ∧
    (∀ r0 r1 c0 c1, (∀ row col, InSubset s row col → r0 ≤ row ∧ row ≤ r1 ∧ c0 ≤ col ∧ col ≤ c1) →
      r0 ≤ s.srow ∧ s.erow ≤ r1 ∧ c0 ≤ s.scol ∧ s.ecol ≤ c1) ∧
    0 ≤ s.srow ∧ s.erow < r.hdr.rows ∧ 0 ≤ s.scol ∧ s.ecol < r.hdr.cols := by
  obtain ⟨hiff, hrw, hcl, ⟨ls, ps, hC, hok⟩ | ⟨hn, hE⟩⟩ := build_cases hb e
  · obtain ⟨ho, -⟩ := hok.some k s hk
    obtain ⟨t0, ⟨i1, m1, q1⟩, ⟨i2, m2, q2⟩, ⟨i3, m3, q3⟩, ⟨i4, m4, q4⟩⟩ := ho.tight
    have hin : ∀ i, i ∈ (List.range ps.length).filter (selOf rs'.ras ls groups k) →
        InSubset s (posAt ps i).1 (posAt ps i).2 := fun i hi => (ho.in_iff _ _).2 ⟨i, hi, rfl⟩
    have hlt : ∀ i, i ∈ (List.range ps.length).filter (selOf rs'.ras ls groups k) → i < ps.length :=
      fun i hi => List.mem_range.1 (List.mem_filter.1 hi).1
    refine ⟨?_, ?_, ?_⟩
    · intro row col h
      obtain ⟨i, hi, hp⟩ := (ho.in_iff row col).1 h
      have := t0 i hi
      rw [hp] at this; exact this
    · intro r0 r1 c0 c1 h
      have a1 := h _ _ (hin i1 m1)
      have a2 := h _ _ (hin i2 m2)
      have a3 := h _ _ (hin i3 m3)
      have a4 := h _ _ (hin i4 m4)
      refine ⟨?_, ?_, ?_, ?_⟩ <;> omega
    · obtain ⟨-, a1, -⟩ := compact_pos hC i1 (hlt i1 m1)
      obtain ⟨-, -, a2, -⟩ := compact_pos hC i2 (hlt i2 m2)
      obtain ⟨-, -, -, a3, -⟩ := compact_pos hC i3 (hlt i3 m3)
      obtain ⟨-, -, -, -, a4, -⟩ := compact_pos hC i4 (hlt i4 m4)
      refine ⟨?_, ?_, ?_, ?_⟩ <;> omega
  · rw [hn] at hk; simp [IMap.get_nil] at hk

/-- C14: the entries of cell number `j` of a subset: its local row and column lie in the rectangle, its local index is
the row-major index of these, and its global index is the raster's own index of the cell. -/
theorem C14_local {r : Raster} (hb : Spec.Built r) (groups : IMap Int) {rs' b}
    (e : buildSubSet ⟨r, []⟩ groups = .ok (rs', b)) (k : Int) (s : Subset) (hk : rs'.subs.get k = some s)
    (j : Nat) (hj : (j : Int) < s.nCells) :
    ∃ lr lc g, readAt s.localPos j = .ok (lr, lc) ∧ readAt s.localIdx j = .ok (lr * (s.ecol - s.scol + 1) + lc) ∧
      readAt s.glob j = .ok g ∧
      0 ≤ lr ∧ lr < s.erow - s.srow + 1 ∧ 0 ≤ lc ∧ lc < s.ecol - s.scol + 1 ∧
      0 ≤ lr * (s.ecol - s.scol + 1) + lc ∧
      lr * (s.ecol - s.scol + 1) + lc < (s.erow - s.srow + 1) * (s.ecol - s.scol + 1) ∧
      0 ≤ g ∧ g < rs'.ras.nCells ∧
      rs'.ras.getPosition (s.srow + lr) (s.scol + lc) = .ok g := by
  obtain ⟨hiff, hrw, hcl, ⟨ls, ps, hC, hok⟩ | ⟨hn, hE⟩⟩ := build_cases hb e
  · obtain ⟨ho, -⟩ := hok.some k s hk
    generalize hg : (List.range ps.length).filter (selOf rs'.ras ls groups k) = g at ho
    have hjl : j < g.length := by have := ho.n; omega
    have hmem : g[j] ∈ g := List.getElem_mem hjl
    have hlt : g[j] < ps.length := by
      have : ∀ x ∈ g, x < ps.length := by
        intro x hx; rw [← hg] at hx; exact List.mem_range.1 (List.mem_filter.1 hx).1
      exact this _ hmem
    have ht := ho.tight.1 g[j] hmem
    refine ⟨(posAt ps g[j]).1 - s.srow, (posAt ps g[j]).2 - s.scol, (g[j] : Int), ?_, ?_, ?_, ?_⟩
    · rw [ho.lpos, readAt_some_nat _ j (by simpa using hjl)]; simp
    · rw [ho.lidx, readAt_some_nat _ j (by simpa using hjl)]; simp
    · rw [ho.glob, readAt_some_nat _ j (by simpa using hjl)]; simp
    · have h1 : 0 ≤ (posAt ps g[j]).1 - s.srow := by omega
      have h2 : (posAt ps g[j]).1 - s.srow < s.erow - s.srow + 1 := by omega
      have h3 : 0 ≤ (posAt ps g[j]).2 - s.scol := by omega
      have h4 : (posAt ps g[j]).2 - s.scol < s.ecol - s.scol + 1 := by omega
      have h5 := idx_range h1 h2 h3 h4
      refine ⟨h1, h2, h3, h4, h5.1, h5.2, by omega, by rw [hC.ncells]; omega, ?_⟩
      have hp : ps[g[j]] = (s.srow + ((posAt ps g[j]).1 - s.srow), s.scol + ((posAt ps g[j]).2 - s.scol)) := by
        have : posAt ps g[j] = ps[g[j]] := by unfold posAt; rw [List.getD_eq_getElem _ _ hlt]
        rw [this]
        ext
        · simp only; omega
        · simp only; omega
      exact (hC.getValue_hit _ _ 1 g[j] hlt hp ⟨by omega, hC.holds.1⟩).1
  · rw [hn] at hk; simp [IMap.get_nil] at hk

/-- C14: distinct cells of a subset have distinct local and distinct global indexes. -/
theorem C14_distinct {r : Raster} (hb : Spec.Built r) (groups : IMap Int) {rs' b}
    (e : buildSubSet ⟨r, []⟩ groups = .ok (rs', b)) (k : Int) (s : Subset) (hk : rs'.subs.get k = some s) :
    ∃ li gl, s.localIdx = some li ∧ s.glob = some gl ∧ li.Nodup ∧ gl.Nodup ∧ s.nCells = li.length ∧
      s.nCells = gl.length := by
  obtain ⟨hiff, hrw, hcl, ⟨ls, ps, hC, hok⟩ | ⟨hn, hE⟩⟩ := build_cases hb e
  · obtain ⟨ho, -⟩ := hok.some k s hk
    have hlt : ∀ i, i ∈ (List.range ps.length).filter (selOf rs'.ras ls groups k) → i < ps.length :=
      fun i hi => List.mem_range.1 (List.mem_filter.1 hi).1
    refine ⟨_, _, ho.lidx, ho.glob, ?_, ?_, by rw [ho.n]; simp, by rw [ho.n]; simp⟩
    · refine (List.nodup_map_iff_inj_on (List.nodup_range.filter _)).2 ?_
      intro i hi j hj hij
      have hti := ho.tight.1 i hi
      have htj := ho.tight.1 j hj
      have := idx_inj (by omega) (by omega) (by omega) (by omega) hij
      exact compact_posAt_inj hC (hlt i hi) (hlt j hj) (by ext <;> omega)
    · refine (List.nodup_map_iff_inj_on (List.nodup_range.filter _)).2 ?_
      intro i _ j _ hij
      simpa using hij
  · rw [hn] at hk; simp [IMap.get_nil] at hk

/-! ### C16 -/

theorem writeCell_posIdx {r r' : Raster} {i l v} (e : r.writeCell i l v = .ok r') : r'.posIdx = r.posIdx := by
  unfold writeCell at e
  split at e
  · obtain ⟨a, _, e⟩ := Out.bind_ok e
    obtain ⟨b, _, e⟩ := Out.bind_ok e
    split at e
    · obtain ⟨d, _, e⟩ := Out.bind_ok e
      simp at e; subst e; rfl
    · simp at e
  · obtain ⟨d, _, e⟩ := Out.bind_ok e
    simp at e; subst e; rfl

theorem passCells_posIdx {f} (il : List (Int × Int)) : ∀ {r r' : Raster}, passCells f r il = .ok r' →
    r'.posIdx = r.posIdx := by
  induction il with
  | nil => intro r r' e; simp [passCells] at e; rw [e]
  | cons p il ih =>
    intro r r' e
    unfold passCells at e
    obtain ⟨a, _, e⟩ := Out.bind_ok e
    obtain ⟨b, _, e⟩ := Out.bind_ok e
    obtain ⟨c, hc, e⟩ := Out.bind_ok e
    rw [ih e]
    split at hc
    · simp at hc; rw [hc]
    · exact writeCell_posIdx hc

theorem compact_step_posIdx {r r' : Raster} {ls ps} (h : r.Compact ls ps) {op : Op} (e : r.step op = .ok r') :
    r'.posIdx = r.posIdx := by
  cases op with
  | setValue row col v lyr =>
    change r.setValue row col v lyr = .ok r' at e
    unfold Raster.setValue at e
    split at e
    · simp at e; rw [e]
    · obtain ⟨a, _, e⟩ := Out.bind_ok e
      split at e
      · simp at e; rw [e]
      · exact writeCell_posIdx e
  | setCalcPositions =>
    obtain ⟨⟨a, b⟩, h1, e⟩ := Out.bind_ok e
    simp at e; subst e
    unfold Raster.setCalcPositions at h1
    simp [h.calcOn, h.pd, h.holds.valid] at h1
    rw [h1.1]
  | getPositionIdx =>
    obtain ⟨⟨a, b, c⟩, h1, e⟩ := Out.bind_ok e
    simp at e; subst e
    unfold Raster.getPositionIdx at h1
    simp [h.pi] at h1
    rw [h1.1]
  | getPositionData =>
    obtain ⟨⟨a, b, c⟩, h1, e⟩ := Out.bind_ok e
    simp at e; subst e
    unfold Raster.getPositionData at h1
    simp [h.pd] at h1
    rw [h1.1]
  | replaceNoData v =>
    obtain ⟨a, h1, e⟩ := Out.bind_ok e
    simp at e; subst e
    have := passCells_posIdx _ h1
    exact this
  | reclassify m => exact passCells_posIdx _ e
  | getValue row col lyr => obtain ⟨a, h1, e⟩ := Out.bind_ok e; simp at e; rw [e]
  | getValueByIndex i lyr => obtain ⟨a, h1, e⟩ := Out.bind_ok e; simp at e; rw [e]
  | getPosition row col => obtain ⟨a, h1, e⟩ := Out.bind_ok e; simp at e; rw [e]
  | isNoData row col lyr => obtain ⟨a, h1, e⟩ := Out.bind_ok e; simp at e; rw [e]

theorem built_compact {r : Raster} (hb : Spec.Built r) (hp : r.posIdx.isSome = true) : ∃ ls ps, r.Compact ls ps := by
  rcases hb.inv with ⟨ls, loc, hi⟩ | ⟨-, hE⟩
  · cases hi with
    | full h => rw [h.pi] at hp; simp at hp
    | comp h => exact ⟨_, _, h⟩
    | empty h h1 => rw [h.pi] at hp; simp at hp
  · rw [hE.pi] at hp; simp at hp

theorem build_noop {rs : RasterS} {ls ps} (h : rs.ras.Compact ls ps) (hs : rs.subs ≠ []) (g : IMap Int) :
    buildSubSet rs g = .ok (rs, true) := by
  unfold buildSubSet
  simp [h.holds.valid, h.pd, h.pi, hs]

theorem sreach_inv {rs : RasterS} (h : SReach rs) :
    Spec.Built rs.ras ∧ (rs.subs ≠ [] → ∃ ls ps, rs.ras.Compact ls ps) := by
  have fresh : ∀ {r : Raster} {rs' b} (g : IMap Int), Spec.Built r → buildSubSet ⟨r, []⟩ g = .ok (rs', b) →
      Spec.Built rs'.ras ∧ (rs'.subs ≠ [] → ∃ ls ps, rs'.ras.Compact ls ps) := by
    intro r rs' b g hb e
    obtain ⟨rs1, b1, e1, h0, -, -, -, -, -, -, -, -, hc⟩ := build_spec hb g
    rw [e] at e1
    injection e1 with e1
    injection e1 with ea eb
    subst ea
    refine ⟨h0, fun hne => ?_⟩
    rcases hc with ⟨-, ls, ps, hC, -⟩ | ⟨hn, -⟩
    · exact ⟨ls, ps, hC⟩
    · exact absurd hn hne
  induction h with
  | init r hb => exact ⟨hb, fun h => absurd rfl h⟩
  | raster op _ e ih =>
    refine ⟨ih.1.step op e, fun hne => ?_⟩
    obtain ⟨ls, ps, hC⟩ := ih.2 hne
    apply built_compact (ih.1.step op e)
    rw [compact_step_posIdx hC e, hC.pi]; rfl
  | @build rs rs' b g _ e ih =>
    obtain ⟨r, subs⟩ := rs
    by_cases hs : subs = []
    · subst hs; exact fresh g ih.1 e
    · obtain ⟨ls, ps, hC⟩ := ih.2 hs
      rw [build_noop hC hs] at e
      injection e with e
      injection e with ea eb
      subst ea; exact ih
  | rebuild g _ e ih => exact fresh g ih.1 e
  | release _ ih => exact ⟨ih.1, fun h => absurd rfl h⟩

/-- C16: whatever happened before, `BuildSubSet` on a raster that has subsets changes nothing and returns true. -/
theorem C16_idempotent {rs : RasterS} (h : SReach rs) (hs : rs.subs ≠ []) (g : IMap Int) :
    buildSubSet rs g = .ok (rs, true) := by
  obtain ⟨ls, ps, hC⟩ := (sreach_inv h).2 hs
  exact build_noop hC hs g

/-- C16: building and rebuilding never fail with undefined behaviour, whatever happened before, and rebuilt subsets
partition the cells valid at the time of the call. -/
theorem C16_rebuild {rs : RasterS} (h : SReach rs) (g : IMap Int) :
    ∃ rs' b, rebuildSubSet rs g = .ok (rs', b) ∧
      ∀ row col v, ValidCell rs.ras row col v →
        (∃ s, rs'.subs.get (subsetId g v) = some s ∧ InSubset s row col) ∧
        ∀ k s, rs'.subs.get k = some s → InSubset s row col → k = subsetId g v := by
  have hb := (sreach_inv h).1
  obtain ⟨rs', b, e, -⟩ := build_spec hb g
  exact ⟨rs', b, e, fun row col v hv => C13_partition hb g e row col v hv⟩

/-- The raster and the subsets every `BuildSubSet` on a fresh raster and on its result gives. -/
theorem build_fix {r : Raster} (hb : Spec.Built r) : ∃ r' : Raster, ∃ B : IMap Int → IMap Subset,
    (∀ g, ∃ b, buildSubSet ⟨r, []⟩ g = .ok (⟨r', B g⟩, b)) ∧
    (∀ g, ∃ b, buildSubSet ⟨r', []⟩ g = .ok (⟨r', B g⟩, b)) ∧
    (∀ g g', B g ≠ [] → ∃ b, buildSubSet ⟨r', B g⟩ g' = .ok (⟨r', B g⟩, b)) ∧
    (∀ g g', B g = [] → B g' = []) := by
  have compact : ∀ {r' : Raster} {ls ps}, r'.Compact ls ps → ∃ B : IMap Int → IMap Subset,
      (∀ g, (buildLoop r' g (List.range r'.nCells.toNat) [] >>= fun m =>
        m.mapM (fun (e : Int × (Subset × List Int)) => (do
            let s ← finishSubset r' e.2
            return (e.1, s) : Out (Int × Subset)))) = .ok (B g)) ∧
      (∀ g, buildSubSet ⟨r', []⟩ g = .ok (⟨r', B g⟩, true)) ∧
      (∀ g g', B g ≠ [] → ∃ b, buildSubSet ⟨r', B g⟩ g' = .ok (⟨r', B g⟩, b)) ∧
      (∀ g g', B g = [] → B g' = []) := by
    intro r' ls ps h
    choose B hB hok using fun g => buildMap_spec h g
    refine ⟨B, hB, ?_, ?_, ?_⟩
    · intro g
      have hbuild : buildSubSet ⟨r', []⟩ g = (buildLoop r' g (List.range r'.nCells.toNat) [] >>= fun m =>
          m.mapM (fun (e : Int × (Subset × List Int)) => (do
            let s ← finishSubset r' e.2
            return (e.1, s) : Out (Int × Subset))) >>= fun subs => .ok (⟨r', subs⟩, true)) := by
        unfold buildSubSet
        simp only [h.holds.valid, h.pd, h.pi, Option.isNone_some, Bool.or_self, Bool.not_true, Bool.false_eq_true, if_false,
          Out.ok_bind]
        simp only [ne_eq, not_true_eq_false, if_false]
        rfl
      rw [hbuild, ← bind_assoc, hB g]; rfl
    · intro g g' hne
      exact ⟨true, build_noop (rs := ⟨r', B g⟩) h hne g'⟩
    · intro g g' hnil
      by_contra hne
      obtain ⟨x, hx⟩ := List.exists_mem_of_ne_nil _ hne
      have hg := (IMap.mem_iff_get (B g') (hok g').sorted x.1 x.2).1 hx
      obtain ⟨ho, -⟩ := (hok g').some _ _ hg
      obtain ⟨i, hi⟩ := List.exists_mem_of_ne_nil _ ho.ne
      obtain ⟨hi1, hi2⟩ := List.mem_filter.1 hi
      rw [selOf_iff] at hi2
      have hn := (hok g).none (subsetId g (cellAt ls i 0)) (by rw [hnil]; rfl)
      have : i ∈ (List.range ps.length).filter (selOf r' ls g (subsetId g (cellAt ls i 0))) :=
        List.mem_filter.2 ⟨hi1, by rw [selOf_iff]; exact ⟨hi2.1, rfl⟩⟩
      rw [hn] at this; simp at this
  have emp : ∀ {r' : Raster}, r'.Empty → ∀ g, buildSubSet ⟨r', []⟩ g = .ok (⟨r', []⟩, false) := by
    intro r' h g
    unfold buildSubSet
    cases hd : r'.is2d with
    | false => simp [Raster.validData, hd, h.data1 hd]
    | true => simp [h.valid2 hd, h.pd, h.pi, Raster.setCalcPositions, h.calcOn]
  rcases hb.inv with ⟨ls, loc, hi⟩ | ⟨hd, hE⟩
  · cases hi with
    | full h =>
      -- all builds start with the same position calculation
      obtain ⟨r', hs, hcase⟩ : ∃ r', r.setCalcPositions = .ok (r', true) ∧ (r'.Empty ∨ ∃ ls ps, r'.Compact ls ps) := by
        have h' := h.setCalc true
        obtain ⟨r', e, -, -, -, -, -, -, -, hcase⟩ := h'.calc
        refine ⟨r', ?_, ?_⟩
        · unfold setCalcPositions
          simp only [h.holds.valid, h.pd, h.pi, Bool.not_true, Bool.false_eq_true, if_false, Option.isSome_none, Bool.or_self,
            Bool.and_false]
          unfold calcNoMask
          simp only [if_true, Option.isNone_none, Bool.true_or]
          rw [show ({ r with calcPos := true, posData := none, posIdx := none } : Raster) = { r with calcPos := true } by
            have h1 := h.pd
            have h2 := h.pi
            cases r
            simp only at h1 h2
            subst h1 h2
            rfl]
          rw [e]
          rfl
        · rcases hcase with ⟨-, hE⟩ | hC
          · exact .inl hE
          · exact .inr ⟨_, _, hC⟩
      have hbuild : ∀ g, buildSubSet ⟨r, []⟩ g = (buildLoop r' g (List.range r'.nCells.toNat) [] >>= fun m =>
          m.mapM (fun (e : Int × (Subset × List Int)) => (do
            let s ← finishSubset r' e.2
            return (e.1, s) : Out (Int × Subset))) >>= fun subs => .ok (⟨r', subs⟩, true)) := by
        intro g
        unfold buildSubSet
        simp only [h.holds.valid, h.pd, Option.isNone_none, Bool.true_or, Bool.not_true, Bool.false_eq_true, if_false, if_true,
          hs, Out.ok_bind]
        simp only [ne_eq, not_true_eq_false, if_false]
        rfl
      rcases hcase with hE | ⟨ls', ps', hC⟩
      · refine ⟨r', fun _ => [], fun g => ⟨true, ?_⟩, fun g => ⟨false, emp hE g⟩, fun g g' h => absurd rfl h,
          fun _ _ _ => rfl⟩
        rw [hbuild, hE.ncells]; rfl
      · obtain ⟨B, h1, h2, h3, h4⟩ := compact hC
        refine ⟨r', B, fun g => ⟨true, ?_⟩, fun g => ⟨true, h2 g⟩, h3, h4⟩
        rw [hbuild, ← bind_assoc, h1 g]; rfl
    | comp h =>
      obtain ⟨B, h1, h2, h3, h4⟩ := compact h
      exact ⟨r, B, fun g => ⟨true, h2 g⟩, fun g => ⟨true, h2 g⟩, h3, h4⟩
    | empty h h1 =>
      exact ⟨r, fun _ => [], fun g => ⟨false, emp h g⟩, fun g => ⟨false, emp h g⟩, fun g g' h => absurd rfl h,
        fun _ _ _ => rfl⟩
  · exact ⟨r, fun _ => [], fun g => ⟨false, emp hE g⟩, fun g => ⟨false, emp hE g⟩, fun g g' h => absurd rfl h,
      fun _ _ _ => rfl⟩

/-- C16: after any history of build, rebuild and release calls the subsets are exactly those that `BuildSubSet` with
the table in force makes on the raster without subsets (and none if no table is in force). -/
theorem C16_history {r : Raster} (hb : Spec.Built r) (ops : List SubOp) :
    ∃ rs', runSub ⟨r, []⟩ ops = .ok rs' ∧
      match tableAfter none ops with
      | none => rs'.subs = []
      | some g => ∃ rs1 b1, buildSubSet ⟨r, []⟩ g = .ok (rs1, b1) ∧ rs'.subs = rs1.subs := by
  obtain ⟨r', B, h1, h2, h3, h4⟩ := build_fix hb
  have key : ∀ (ops : List SubOp) (t : Option (List (Int × Int))) (rs : RasterS),
      ((t = none ∧ (rs = ⟨r, []⟩ ∨ rs = ⟨r', []⟩)) ∨ ∃ g, t = some g ∧ rs = ⟨r', B g⟩) →
      ∃ rs', runSub rs ops = .ok rs' ∧
        match tableAfter t ops with
        | none => rs'.subs = []
        | some g => rs'.subs = B g := by
    intro ops
    induction ops with
    | nil =>
      rintro t rs (⟨rfl, rfl | rfl⟩ | ⟨g, rfl, rfl⟩)
      · exact ⟨_, rfl, rfl⟩
      · exact ⟨_, rfl, rfl⟩
      · exact ⟨_, rfl, rfl⟩
    | cons op ops ih =>
      intro t rs hst
      have hrun : ∀ rs1, op.run rs = .ok rs1 → runSub rs (op :: ops) = runSub rs1 ops := by
        intro rs1 h
        show (op.run rs >>= fun rs' => runSub rs' ops) = _
        rw [h]; rfl
      have hfresh : ∀ g, rs.ras = r ∨ rs.ras = r' → ∃ b, buildSubSet ⟨rs.ras, []⟩ g = .ok (⟨r', B g⟩, b) := by
        rintro g (h | h)
        · rw [h]; exact h1 g
        · rw [h]; exact h2 g
      have hras : rs.ras = r ∨ rs.ras = r' := by
        rcases hst with ⟨-, rfl | rfl⟩ | ⟨g, -, rfl⟩
        · exact .inl rfl
        · exact .inr rfl
        · exact .inr rfl
      cases op with
      | build g =>
        rcases hst with ⟨rfl, hrs⟩ | ⟨g0, rfl, rfl⟩
        · have hse : rs = ⟨rs.ras, []⟩ := by rcases hrs with rfl | rfl <;> rfl
          obtain ⟨b, hb'⟩ := hfresh g hras
          rw [← hse] at hb'
          obtain ⟨rs', e, he⟩ := ih (some g) ⟨r', B g⟩ (.inr ⟨g, rfl, rfl⟩)
          refine ⟨rs', ?_, he⟩
          rw [hrun ⟨r', B g⟩ (by show (buildSubSet rs g >>= fun x => _) = _; rw [hb']; rfl)]
          exact e
        · obtain ⟨b, hb'⟩ : ∃ b, buildSubSet ⟨r', B g0⟩ g = .ok (⟨r', B g0⟩, b) := by
            by_cases hn : B g0 = []
            · obtain ⟨b, hb'⟩ := h2 g
              rw [h4 g0 g hn] at hb'
              exact ⟨b, by rw [hn]; exact hb'⟩
            · exact h3 g0 g hn
          obtain ⟨rs', e, he⟩ := ih (some g0) ⟨r', B g0⟩ (.inr ⟨g0, rfl, rfl⟩)
          refine ⟨rs', ?_, he⟩
          rw [hrun ⟨r', B g0⟩ (by show (buildSubSet _ g >>= fun x => _) = _; rw [hb']; rfl)]
          exact e
      | rebuild g =>
        obtain ⟨b, hb'⟩ := hfresh g hras
        obtain ⟨rs', e, he⟩ := ih (some g) ⟨r', B g⟩ (.inr ⟨g, rfl, rfl⟩)
        refine ⟨rs', ?_, by cases t <;> exact he⟩
        rw [hrun ⟨r', B g⟩ (by
          show (buildSubSet ⟨rs.ras, []⟩ g >>= fun x => _) = _
          rw [hb']; rfl)]
        exact e
      | release =>
        obtain ⟨rs', e, he⟩ := ih none ⟨rs.ras, []⟩ (.inl ⟨rfl, by rcases hras with h | h <;> rw [h] <;> simp⟩)
        refine ⟨rs', ?_, by cases t <;> exact he⟩
        rw [hrun ⟨rs.ras, []⟩ rfl]
        exact e
  obtain ⟨rs', e, he⟩ := key ops none ⟨r, []⟩ (.inl ⟨rfl, .inl rfl⟩)
  refine ⟨rs', e, ?_⟩
  cases ht : tableAfter none ops with
  | none => rw [ht] at he; exact he
  | some g =>
    rw [ht] at he
    obtain ⟨b, hb'⟩ := h1 g
    exact ⟨_, b, hb', he⟩

end CCGL
