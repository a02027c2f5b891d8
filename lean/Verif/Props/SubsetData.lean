import Verif.Lemmas.SubsetData
/-!
# Decomposing rasters into subsets and combining them (C15)
-/
namespace CCGL
open Raster Spec

/-- Everything about a `BuildSubSet` result that is needed here. -/
theorem build_cases2 {r : Raster} (hb : Spec.Built r) {groups : IMap Int} {rs' b}
    (e : buildSubSet ⟨r, []⟩ groups = .ok (rs', b)) :
    rs'.ras.hdr.rows = r.hdr.rows ∧ rs'.ras.hdr.cols = r.hdr.cols ∧ rs'.ras.noData = r.noData ∧
    rs'.ras.nLyrs = r.nLyrs ∧ rs'.ras.is2d = r.is2d ∧ rs'.ras.dflt = r.dflt ∧
    (∀ row col lyr v, ValidCell r row col v → rs'.ras.getValue row col lyr = r.getValue row col lyr) ∧
    ((∃ ls ps, rs'.ras.Compact ls ps ∧ SubsOk rs'.ras ls ps groups rs'.subs) ∨ rs'.subs = []) := by
  obtain ⟨rs1, b1, e1, hb1, hrw, hcl, hnd, hny, h2, hdf, hv1, hv2, hc⟩ := build_spec hb groups
  rw [e] at e1
  injection e1 with e1
  injection e1 with ea eb
  subst ea
  refine ⟨hrw, hcl, hnd, hny, h2, hdf, hv1, ?_⟩
  rcases hc with ⟨-, ls, ps, hC, hok⟩ | hE
  · exact .inl ⟨ls, ps, hC, hok⟩
  · exact .inr hE.1

theorem groupCells_sorted (r ls ps groups k) : (groupCells r ls ps groups k).Pairwise (· < ·) :=
  List.pairwise_lt_range.filter _

/-- The value of a stored cell. -/
theorem compact_cell {r : Raster} {ls ps} (h : r.Compact ls ps) (i : Nat) (hi : i < ps.length) (l : Int) (h0 : 0 ≤ l)
    (h1 : l < r.nLyrs) : r.getValue (posAt ps i).1 (posAt ps i).2 (l + 1) = .ok (cellAt ls i l.toNat) := by
  have hp : posAt ps i = ps[i] := List.getD_eq_getElem _ _ hi
  have := (h.getValue_hit (posAt ps i).1 (posAt ps i).2 (l + 1) i hi (by rw [hp]) ⟨by omega, by omega⟩).2
  rw [this]
  unfold cellAt
  have hil : i < ls.length := by rw [h.len]; exact hi
  rw [show ls.getD i [] = ls[i] from List.getD_eq_getElem _ _ hil]
  congr 2; omega

theorem parts_of {r ls ps groups subs} (h : SubsOk r ls ps groups subs) : Parts r ls ps groups subs :=
  ⟨h.sorted, h.none, fun k s hk => (h.some k s hk).1⟩

theorem group_valid {r : Raster} {ls ps groups k i} (hC : r.Compact ls ps) (h : i ∈ groupCells r ls ps groups k) :
    ValidCell r (posAt ps i).1 (posAt ps i).2 (cellAt ls i 0) :=
  (compact_valid_iff hC _ _ _).2 ⟨i, groupCells_lt h, rfl, rfl, (selOf_iff.1 (List.mem_filter.1 h).2).1⟩

/-- C15, decomposition with NoData cells included: the array of a subset is its rectangle in row-major order with the
original values at the subset's cells and NoData elsewhere. The raster must not be a two-dimensional raster with a single
layer (see `C15_false_onelayer`). -/
theorem C15_decompose_full {r : Raster} (hb : Spec.Built r) (groups : IMap Int) {rs' b}
    (e : buildSubSet ⟨r, []⟩ groups = .ok (rs', b)) (h2 : r.is2d = true → 1 < r.nLyrs) (k : Int) (s : Subset)
    (hk : rs'.subs.get k = some s) (dv : ℚ) :
    ∃ d, prepareSubsetData rs'.ras k s true true [] dv =
        .ok (some (some d, (s.erow - s.srow + 1) * (s.ecol - s.scol + 1) * r.nLyrs, r.nLyrs)) ∧
      (d.length : Int) = (s.erow - s.srow + 1) * (s.ecol - s.scol + 1) * r.nLyrs ∧
      ∀ row col l : Int, s.srow ≤ row → row ≤ s.erow → s.scol ≤ col → col ≤ s.ecol → 0 ≤ l → l < r.nLyrs →
        (InSubset s row col → readAt (some d) (((row - s.srow) * (s.ecol - s.scol + 1) + (col - s.scol)) * r.nLyrs + l) =
          r.getValue row col (l + 1)) ∧
        (¬ InSubset s row col → readAt (some d) (((row - s.srow) * (s.ecol - s.scol + 1) + (col - s.scol)) * r.nLyrs + l) =
          .ok r.noData) := by
  obtain ⟨hrw, hcl, hnd, hny, h2d, -, hv, ⟨ls, ps, hC, hok⟩ | hn⟩ := build_cases2 hb e
  · obtain ⟨hiff, -⟩ := build_cases hb e
    obtain ⟨ho, -⟩ := hok.some k s hk
    obtain ⟨d, e1, e2, e3, e4⟩ := decomp_core hC (by rw [h2d, hny]; exact h2) ho (fun i hi => groupCells_lt hi)
      (groupCells_sorted rs'.ras ls ps groups k) k true dv
    simp only [if_true, hny] at e1 e2 e3 e4
    refine ⟨d, e1, e2, ?_⟩
    intro row col l r0 r1 c0 c1 l0 l1
    constructor
    · intro hin
      obtain ⟨i, hi, hp⟩ := (ho.in_iff row col).1 hin
      obtain ⟨j, hj, hij⟩ := List.mem_iff_getElem.1 hi
      have := e3 j hj l l0 l1
      rw [hij] at this
      have hpos : localOf ps s i = (row - s.srow) * (s.ecol - s.scol + 1) + (col - s.scol) := by
        unfold localOf; rw [hp]
      rw [hpos] at this
      rw [this]
      have hcv := compact_cell hC i (groupCells_lt hi) l l0 (by rw [hny]; exact l1)
      have hval := group_valid hC hi
      rw [hp] at hcv hval
      rw [← hv row col (l + 1) _ ((hiff _ _ _).2 hval), hcv]
    · intro hnot
      have hr := idx_range (rows := s.erow - s.srow + 1) (cols := s.ecol - s.scol + 1) (i := row - s.srow) (j := col - s.scol)
        (by omega) (by omega) (by omega) (by omega)
      rw [e4 _ l hr.1 hr.2 l0 l1, hnd]
      intro j hj heq
      apply hnot
      have hm : ((List.range ps.length).filter (selOf rs'.ras ls groups k))[j] ∈ groupCells rs'.ras ls ps groups k :=
        List.getElem_mem hj
      have ht := ho.tight.1 _ hm
      unfold localOf at heq
      have := idx_inj (by omega) (by omega) (by omega) (by omega) heq
      exact (ho.in_iff row col).2 ⟨_, hm, by ext <;> omega⟩
  · rw [hn] at hk; simp [IMap.get_nil] at hk

/-- C15, decomposition without NoData cells: the values of the subset's cells in the order of the subset. -/
theorem C15_decompose_valid {r : Raster} (hb : Spec.Built r) (groups : IMap Int) {rs' b}
    (e : buildSubSet ⟨r, []⟩ groups = .ok (rs', b)) (h2 : r.is2d = true → 1 < r.nLyrs) (k : Int) (s : Subset)
    (hk : rs'.subs.get k = some s) (dv : ℚ) :
    ∃ d, prepareSubsetData rs'.ras k s true false [] dv = .ok (some (some d, s.nCells * r.nLyrs, r.nLyrs)) ∧
      (d.length : Int) = s.nCells * r.nLyrs ∧
      ∀ (j : Nat) (l lr lc : Int), readAt s.localPos j = .ok (lr, lc) → 0 ≤ l → l < r.nLyrs →
        readAt (some d) (j * r.nLyrs + l) = r.getValue (s.srow + lr) (s.scol + lc) (l + 1) := by
  obtain ⟨hrw, hcl, hnd, hny, h2d, -, hv, ⟨ls, ps, hC, hok⟩ | hn⟩ := build_cases2 hb e
  · obtain ⟨hiff, -⟩ := build_cases hb e
    obtain ⟨ho, -⟩ := hok.some k s hk
    obtain ⟨d, e1, e2, e3, e4⟩ := decomp_core hC (by rw [h2d, hny]; exact h2) ho (fun i hi => groupCells_lt hi)
      (groupCells_sorted rs'.ras ls ps groups k) k false dv
    simp only [Bool.false_eq_true, if_false, hny] at e1 e2 e3 e4
    refine ⟨d, e1, e2, ?_⟩
    intro j l lr lc hj l0 l1
    rw [ho.lpos] at hj
    by_cases hjl : j < (groupCells rs'.ras ls ps groups k).length
    · rw [readAt_some_nat _ j (by simpa [groupCells] using hjl)] at hj
      injection hj with hj
      simp only [List.getElem_map, Prod.mk.injEq] at hj
      have hm : ((List.range ps.length).filter (selOf rs'.ras ls groups k))[j] ∈ groupCells rs'.ras ls ps groups k :=
        List.getElem_mem hjl
      rw [e3 j hjl l l0 l1]
      have hcv := compact_cell hC _ (groupCells_lt hm) l l0 (by rw [hny]; exact l1)
      have hval := group_valid hC hm
      rw [← hj.1, ← hj.2]
      rw [show ∀ a b : Int, a + (b - a) = b by intros; omega, show ∀ a b : Int, a + (b - a) = b by intros; omega]
      exact ((hv _ _ (l + 1) _ ((hiff _ _ _).2 hval)).symm.trans hcv).symm
    · rw [readAt_oob _ _ (.inr (by rw [List.length_map]; unfold groupCells at hjl; omega))] at hj
      simp at hj
  · rw [hn] at hk; simp [IMap.get_nil] at hk

/-- A two-dimensional raster with one layer cannot be decomposed: the code looks for its values in the one-dimensional
array. -/
theorem C15_false_onelayer (r : Raster) (k : Int) (s : Subset) (j gl : Int) (rest : List Int)
    (h1 : r.raster1 = none) (hl : r.nLyrs = 1) (hg : s.glob = some (gl :: rest)) (hi : s.localIdx = some (j :: rest))
    (hn : 0 < s.nCells) (inc : Bool) (dv : ℚ) :
    prepareSubsetData r k s true inc [] dv = .ok none := by
  unfold prepareSubsetData
  simp only [reclsLyrs, List.foldl_nil, if_true, show ¬ ((-1 : Int) > 0) by omega, if_false, hl, show ¬ ((1 : Int) < 0) by omega]
  have hgrid : ∃ t, gridCells s.nCells 1 = (0, 0) :: t := by
    unfold gridCells
    obtain ⟨n, hn'⟩ : ∃ n, s.nCells.toNat = n + 1 := ⟨s.nCells.toNat - 1, by omega⟩
    rw [hn', List.range_succ_eq_map]
    simp
  obtain ⟨t, ht⟩ := hgrid
  rw [ht]
  have : ∀ (f : Int × Int → Out (Option (Int × ℚ))) (t : List (Int × Int)), f (0, 0) = .ok none →
      collectItems f ((0, 0) :: t) = .ok none := by
    intro f t hf
    show (f (0, 0) >>= fun x => _) = _
    rw [hf]; rfl
  rw [this _ t (by
    simp [hi, readAt, subValue, hg, h1])]
  rfl

/-- C15, combination: the values set in the usable subsets appear at the subsets' cells of the full grid; cells of unusable
subsets get the default value (NoData if the default is NoData), all other cells NoData. `subs'` is the subset map after any
changes of data, layer numbers and usable flags. -/
theorem C15_combine {r : Raster} (hb : Spec.Built r) (groups : IMap Int) {rs' b}
    (e : buildSubSet ⟨r, []⟩ groups = .ok (rs', b)) (subs' : IMap Subset)
    (hkeys : subs'.map (·.1) = rs'.subs.map (·.1))
    (hsame : ∀ k s s', rs'.subs.get k = some s → subs'.get k = some s' → SameCells s s')
    (lyrs : Int) (hl : 1 ≤ lyrs)
    (hu : ∀ k s, subs'.get k = some s → s.usable = true → s.nLyrs = lyrs ∧
      ∀ j l : Int, 0 ≤ j → j < s.nCells → 0 ≤ l → l < lyrs → ∃ v, subsetCell s lyrs j l = .ok v)
    (hex : ∃ k s, subs'.get k = some s ∧ s.usable = true) (dv : ℚ) :
    ∃ d, prepareComb ⟨rs'.ras, subs'⟩ false true [] dv = .ok (some (some d, r.hdr.rows * r.hdr.cols * lyrs, lyrs)) ∧
      (d.length : Int) = r.hdr.rows * r.hdr.cols * lyrs ∧
      (∀ k s (j : Nat) (l lr lc : Int), subs'.get k = some s → readAt s.localPos j = .ok (lr, lc) → 0 ≤ l → l < lyrs →
        readAt (some d) (((s.srow + lr) * r.hdr.cols + (s.scol + lc)) * lyrs + l) =
          if s.usable then subsetCell s lyrs j l
          else .ok (if floatEqual r.noData (fillValue r dv) then r.noData else fillValue r dv)) ∧
      (∀ row col l : Int, 0 ≤ row → row < r.hdr.rows → 0 ≤ col → col < r.hdr.cols → 0 ≤ l → l < lyrs →
        (∀ k s, subs'.get k = some s → ¬ InSubset s row col) →
        readAt (some d) ((row * r.hdr.cols + col) * lyrs + l) = .ok r.noData) := by
  obtain ⟨hrw, hcl, hnd, hny, h2d, hdf, hv, ⟨ls, ps, hC, hok⟩ | hn⟩ := build_cases2 hb e
  · have hgetn : ∀ k, subs'.get k = none ↔ rs'.subs.get k = none := by
      have gen : ∀ (m : IMap Subset) k, m.get k = none ↔ k ∉ m.map (·.1) := by
        intro m k
        unfold IMap.get
        rw [Option.map_eq_none_iff, List.find?_eq_none, List.mem_map]
        constructor
        · rintro h ⟨x, hx, rfl⟩; exact h x hx (by simp)
        · intro h x hx hxe; exact h ⟨x, hx, by simpa using hxe⟩
      intro k; rw [gen, gen, hkeys]
    have hP : Parts rs'.ras ls ps groups subs' := by
      refine ⟨by rw [hkeys]; exact hok.sorted, fun k hk => hok.none k ((hgetn k).1 hk), fun k s hk => ?_⟩
      cases hg : rs'.subs.get k with
      | none => rw [(hgetn k).2 hg] at hk; simp at hk
      | some s0 => exact (hok.some k s0 hg).1.same (hsame k s0 s hg hk)
    let D : Int → Int → Int → ℚ := fun k j l => match subs'.get k with
      | some s => (match subsetCell s lyrs j l with | .ok v => v | _ => 0)
      | none => 0
    have hD : ∀ k s (j l : Int), subs'.get k = some s → s.usable = true → 0 ≤ j → j < s.nCells → 0 ≤ l → l < lyrs →
        subsetCell s lyrs j l = .ok (D k j l) := by
      intro k s j l hk hus h0 h1 h2 h3
      obtain ⟨v, hv⟩ := (hu k s hk hus).2 j l h0 h1 h2 h3
      simp only [D, hk, hv]
    obtain ⟨d, e1, e2, e3, e4⟩ := comb_core hC hP lyrs hl D (fun k s hk hus => ⟨(hu k s hk hus).1,
      fun j l h0 h1 h2 h3 => hD k s j l hk hus h0 h1 h2 h3⟩) hex true dv
    have hdef : defaultOf rs'.ras dv = fillValue r dv := by unfold defaultOf fillValue; rw [hdf]; rfl
    simp only [if_true, hrw, hcl, hnd, hdef] at e1 e2 e3 e4
    refine ⟨d, e1, e2, ?_, ?_⟩
    · intro k s j l lr lc hk hj h0 h1
      have ho := hP.some k s hk
      rw [ho.lpos] at hj
      by_cases hjl : j < (groupCells rs'.ras ls ps groups k).length
      · rw [readAt_some_nat _ j (by simpa [groupCells] using hjl)] at hj
        injection hj with hj
        simp only [List.getElem_map, Prod.mk.injEq] at hj
        have hx := e3 k s j l hk hjl h0 h1
        unfold outIdx at hx
        simp only [if_true, hcl] at hx
        have q1 : s.srow + lr = (posAt ps (groupCells rs'.ras ls ps groups k)[j]).1 := by
          rw [← hj.1]; simp only [groupCells]; omega
        have q2 : s.scol + lc = (posAt ps (groupCells rs'.ras ls ps groups k)[j]).2 := by
          rw [← hj.2]; simp only [groupCells]; omega
        rw [q1, q2, hx]
        cases hus : s.usable with
        | true =>
          simp only [if_true]
          rw [hD k s j l hk hus (by omega) (by rw [ho.n]; unfold groupCells at hjl; omega) h0 h1]
        | false => simp
      · rw [readAt_oob _ _ (.inr (by rw [List.length_map]; unfold groupCells at hjl; omega))] at hj
        simp at hj
    · intro row col l r0 r1 c0 c1 l0 l1 hnot
      have hr := idx_range r0 r1 c0 c1
      apply e4 _ l hr.1 hr.2 l0 l1
      intro k i hi heq
      unfold outIdx at heq
      simp only [if_true, hcl] at heq
      obtain ⟨-, -, -, p3, p4, -⟩ := compact_pos hC i (groupCells_lt hi)
      rw [hcl] at p4
      have := idx_inj p3 p4 c0 c1 heq
      cases hk : subs'.get k with
      | none =>
        have := hP.none k hk
        unfold groupCells at hi
        rw [this] at hi; simp at hi
      | some s => exact hnot k s hk (((hP.some k s hk).in_iff row col).2 ⟨i, hi, by ext <;> omega⟩)
  · obtain ⟨k, s, hk, -⟩ := hex
    rw [hn] at hkeys
    simp only [List.map_nil, List.map_eq_nil_iff] at hkeys
    rw [hkeys] at hk; simp [IMap.get_nil] at hk

theorem storeAll_spec {r : Raster} (hb : Spec.Built r) (groups : IMap Int) {rs' b}
    (e : buildSubSet ⟨r, []⟩ groups = .ok (rs', b)) (h2 : r.is2d = true → 1 < r.nLyrs) (inc : Bool) (dv : ℚ) :
    ∃ subs', storeAll rs' inc dv = .ok ⟨rs'.ras, subs'⟩ ∧ subs'.map (·.1) = rs'.subs.map (·.1) ∧
      ∀ k s, rs'.subs.get k = some s → ∃ s', subs'.get k = some s' ∧ SameCells s s' ∧ s'.usable = true ∧ s'.nLyrs = r.nLyrs ∧
        ∀ (j : Nat) (l lr lc : Int), readAt s.localPos j = .ok (lr, lc) → 0 ≤ l → l < r.nLyrs →
          subsetCell s' r.nLyrs j l = r.getValue (s.srow + lr) (s.scol + lc) (l + 1) := by
  obtain ⟨hrw, hcl, hnd, hny, h2d, hdf, hv, ⟨ls, ps, hC, hok⟩ | hn⟩ := build_cases2 hb e
  · obtain ⟨hiff, -⟩ := build_cases hb e
    have hone : ∀ k s, rs'.subs.get k = some s → ∃ s', (do
        let x ← prepareSubsetData rs'.ras k s true inc [] dv
        (match x with
          | none => .ok (k, s)
          | some y => do
            let z ← s.readDb (Int.tdiv y.2.1 y.2.2) y.2.2 y.1
            return (k, z.1) : Out (Int × Subset))) = .ok (k, s') ∧ SameCells s s' ∧ s'.usable = true ∧ s'.nLyrs = r.nLyrs ∧
        ∀ (j : Nat) (l lr lc : Int), readAt s.localPos j = .ok (lr, lc) → 0 ≤ l → l < r.nLyrs →
          subsetCell s' r.nLyrs j l = r.getValue (s.srow + lr) (s.scol + lc) (l + 1) := by
      intro k s hk
      obtain ⟨ho, hfr⟩ := hok.some k s hk
      obtain ⟨d, e1, e2, e3, e4⟩ := decomp_core hC (by rw [h2d, hny]; exact h2) ho (fun i hi => groupCells_lt hi)
        (groupCells_sorted rs'.ras ls ps groups k) k inc dv
      have hL := hC.holds.1
      obtain ⟨s', f1, f2, f3, f4, f5⟩ := load_core hC ho (fun i hi => groupCells_lt hi)
        (groupCells_sorted rs'.ras ls ps groups k) hfr inc rs'.ras.nLyrs hL d e2
        (fun j l => cellAt ls ((groupCells rs'.ras ls ps groups k).getD j 0) l.toNat) (by
          intro j hj l h0 h1
          rw [e3 j hj l h0 h1]
          rw [show (groupCells rs'.ras ls ps groups k).getD j 0 = (groupCells rs'.ras ls ps groups k)[j] from
            List.getD_eq_getElem _ _ hj]
          rfl)
      rw [hny] at f4 f5
      refine ⟨s', ?_, f2, f3, f4, ?_⟩
      · rw [e1, Out.ok_bind]
        simp only
        rw [Int.mul_tdiv_cancel _ (by omega : rs'.ras.nLyrs ≠ 0), f1]
        rfl
      · intro j l lr lc hj h0 h1
        rw [ho.lpos] at hj
        by_cases hjl : j < (groupCells rs'.ras ls ps groups k).length
        · rw [readAt_some_nat _ j (by simpa [groupCells] using hjl)] at hj
          injection hj with hj
          simp only [List.getElem_map, Prod.mk.injEq] at hj
          have hm : (groupCells rs'.ras ls ps groups k)[j] ∈ groupCells rs'.ras ls ps groups k := List.getElem_mem hjl
          have hcv := compact_cell hC _ (groupCells_lt hm) l h0 (by rw [hny]; exact h1)
          have hval := group_valid hC hm
          rw [f5 j l hjl h0 h1]
          rw [show (groupCells rs'.ras ls ps groups k).getD j 0 = (groupCells rs'.ras ls ps groups k)[j] from
            List.getD_eq_getElem _ _ hjl]
          have q1 : s.srow + lr = (posAt ps (groupCells rs'.ras ls ps groups k)[j]).1 := by
            rw [← hj.1]; simp only [groupCells]; omega
          have q2 : s.scol + lc = (posAt ps (groupCells rs'.ras ls ps groups k)[j]).2 := by
            rw [← hj.2]; simp only [groupCells]; omega
          rw [q1, q2, ← hv _ _ (l + 1) _ ((hiff _ _ _).2 hval), hcv]
        · rw [readAt_oob _ _ (.inr (by rw [List.length_map]; unfold groupCells at hjl; omega))] at hj
          simp at hj
    let F : Int → Subset → Subset := fun k s => match (do
        let x ← prepareSubsetData rs'.ras k s true inc [] dv
        (match x with
          | none => .ok (k, s)
          | some y => do
            let z ← s.readDb (Int.tdiv y.2.1 y.2.2) y.2.2 y.1
            return (k, z.1) : Out (Int × Subset))) with
      | .ok x => x.2
      | _ => s
    refine ⟨rs'.subs.map (fun x => (x.1, F x.1 x.2)), ?_, ?_, ?_⟩
    · unfold storeAll
      rw [mapM_ok _ (fun x => (x.1, F x.1 x.2)) rs'.subs]
      · rfl
      · intro x hx
        obtain ⟨s', h1, -⟩ := hone x.1 x.2 ((IMap.mem_iff_get _ hok.sorted _ _).1 hx)
        simp only [F, h1]
        exact h1
    · rw [List.map_map]; rfl
    · intro k s hk
      obtain ⟨s', h1, h2, h3, h4, h5⟩ := hone k s hk
      refine ⟨F k s, by rw [IMap.get_mapVal, hk]; rfl, ?_⟩
      have : F k s = s' := by simp only [F, h1]
      rw [this]; exact ⟨h2, h3, h4, h5⟩
  · refine ⟨[], ?_, by rw [hn], ?_⟩
    · unfold storeAll; rw [hn]; rfl
    · intro k s hk; rw [hn] at hk; simp [IMap.get_nil] at hk

/-- Combining subsets that hold the values of the raster. -/
theorem combine_loaded {r : Raster} (hb : Spec.Built r) (groups : IMap Int) {rs' b}
    (e : buildSubSet ⟨r, []⟩ groups = .ok (rs', b)) (hne : rs'.subs ≠ []) (subs' : IMap Subset)
    (s2 : subs'.map (·.1) = rs'.subs.map (·.1))
    (s3 : ∀ k s, rs'.subs.get k = some s → ∃ s', subs'.get k = some s' ∧ SameCells s s' ∧ s'.usable = true ∧ s'.nLyrs = r.nLyrs ∧
        ∀ (j : Nat) (l lr lc : Int), readAt s.localPos j = .ok (lr, lc) → 0 ≤ l → l < r.nLyrs →
          subsetCell s' r.nLyrs j l = r.getValue (s.srow + lr) (s.scol + lc) (l + 1)) (dv' : ℚ) :
    ∃ d, prepareComb ⟨rs'.ras, subs'⟩ false true [] dv' = .ok (some (some d, r.hdr.rows * r.hdr.cols * r.nLyrs, r.nLyrs)) ∧
      (d.length : Int) = r.hdr.rows * r.hdr.cols * r.nLyrs ∧
      ∀ row col l : Int, 0 ≤ row → row < r.hdr.rows → 0 ≤ col → col < r.hdr.cols → 0 ≤ l → l < r.nLyrs →
        ((∃ v, ValidCell r row col v) →
          readAt (some d) ((row * r.hdr.cols + col) * r.nLyrs + l) = r.getValue row col (l + 1)) ∧
        ((¬ ∃ v, ValidCell r row col v) →
          readAt (some d) ((row * r.hdr.cols + col) * r.nLyrs + l) = .ok r.noData) := by
  have hlen : ∀ k s s', rs'.subs.get k = some s → subs'.get k = some s' → SameCells s s' ∧ s'.usable = true ∧ s'.nLyrs = r.nLyrs ∧
        ∀ (j : Nat) (l lr lc : Int), readAt s.localPos j = .ok (lr, lc) → 0 ≤ l → l < r.nLyrs →
          subsetCell s' r.nLyrs j l = r.getValue (s.srow + lr) (s.scol + lc) (l + 1) := by
    intro k s s' h h'
    obtain ⟨s'', h1, h2⟩ := s3 k s h
    rw [h'] at h1; injection h1 with h1; subst h1; exact h2
  have hback : ∀ k s', subs'.get k = some s' → ∃ s, rs'.subs.get k = some s := by
    intro k s' h
    have hm : k ∈ rs'.subs.map (·.1) := by rw [← s2]; exact List.mem_map.2 ⟨_, IMap.get_mem h, rfl⟩
    cases hg : rs'.subs.get k with
    | some s => exact ⟨s, rfl⟩
    | none =>
      obtain ⟨x, hx, rfl⟩ := List.mem_map.1 hm
      unfold IMap.get at hg
      rw [Option.map_eq_none_iff, List.find?_eq_none] at hg
      exact absurd (hg x hx) (by simp)
  have hL : 1 ≤ r.nLyrs := by
    rcases hb.inv with ⟨ls, loc, hi⟩ | ⟨-, hE⟩
    · exact hi.lyrs
    · exact hE.lyrs
  have hvals : ∀ k s, rs'.subs.get k = some s → ∀ j : Nat, (j : Int) < s.nCells → ∃ lr lc, readAt s.localPos j = .ok (lr, lc) ∧
      InSubset s (s.srow + lr) (s.scol + lc) := by
    intro k s hk j hj
    obtain ⟨lr, lc, g, h1, -⟩ := C14_local hb groups e k s hk j hj
    refine ⟨lr, lc, h1, ?_⟩
    unfold InSubset
    obtain ⟨lp, h3, -, h4, -⟩ := (C13_only hb groups e k s hk).2
    rw [h3] at h1
    refine ⟨lp, h3, ?_⟩
    have hjl : j < lp.length := by omega
    rw [readAt_some_nat _ j hjl] at h1
    injection h1 with h1
    rw [show s.srow + lr - s.srow = lr by omega, show s.scol + lc - s.scol = lc by omega, ← h1]
    exact List.getElem_mem hjl
  have hgv : ∀ row col lyr, ∃ v, r.getValue row col lyr = .ok v := by
    intro row col lyr
    rcases hb.inv with ⟨ls, loc, hi⟩ | ⟨-, hE⟩
    · exact hi.getValue_ok row col lyr
    · exact ⟨_, hE.getValue row col lyr⟩
  obtain ⟨d, e1, e2, e3, e4⟩ := C15_combine hb groups e subs' s2 (fun k s s' h h' => (hlen k s s' h h').1) r.nLyrs hL (by
      intro k s' hk _
      obtain ⟨s, hs⟩ := hback k s' hk
      obtain ⟨h1, h2, h3, h4⟩ := hlen k s s' hs hk
      refine ⟨h3, ?_⟩
      intro j l j0 j1 l0 l1
      rw [h1.1] at j1
      obtain ⟨lr, lc, hp, -⟩ := hvals k s hs j.toNat (by omega)
      have := h4 j.toNat l lr lc hp l0 l1
      rw [show ((j.toNat : Nat) : Int) = j by omega] at this
      rw [this]
      exact hgv _ _ _) (by
      obtain ⟨x, hx⟩ := List.exists_mem_of_ne_nil _ hne
      have : ∃ s, rs'.subs.get x.1 = some s := by
        cases hg : rs'.subs.get x.1 with
        | some s => exact ⟨s, rfl⟩
        | none =>
          unfold IMap.get at hg
          rw [Option.map_eq_none_iff, List.find?_eq_none] at hg
          exact absurd (hg x hx) (by simp)
      obtain ⟨s, hs⟩ := this
      obtain ⟨s', h1, h2, h3, -⟩ := s3 _ s hs
      exact ⟨_, s', h1, h3⟩) dv'
  refine ⟨d, e1, e2, ?_⟩
  intro row col l r0 r1 c0 c1 l0 l1
  constructor
  · rintro ⟨v, hv⟩
    obtain ⟨⟨s, hs, hin⟩, -⟩ := C13_partition hb groups e row col v hv
    obtain ⟨s', h1, h2, h3, h4, h5⟩ := s3 _ s hs
    obtain ⟨lp, h6, hm⟩ := hin
    obtain ⟨j, hj, hje⟩ := List.mem_iff_getElem.1 hm
    have hr : readAt s.localPos j = .ok (row - s.srow, col - s.scol) := by
      rw [h6, readAt_some_nat _ j hj, hje]
    have hr' : readAt s'.localPos j = .ok (row - s.srow, col - s.scol) := by
      rw [h2.2.2.2.2.2.2.1]; exact hr
    have hx := e3 _ s' j l _ _ h1 hr' l0 l1
    rw [h3, if_pos rfl, h5 j l _ _ hr l0 l1, h2.2.1, h2.2.2.2.1] at hx
    rw [show s.srow + (row - s.srow) = row by omega, show s.scol + (col - s.scol) = col by omega] at hx
    exact hx
  · intro hno
    apply e4 row col l r0 r1 c0 c1 l0 l1
    intro k s' hk hin
    obtain ⟨s, hs⟩ := hback k s' hk
    obtain ⟨h1, -⟩ := hlen k s s' hs hk
    have : InSubset s row col := by
      obtain ⟨lp, h6, hm⟩ := hin
      exact ⟨lp, by rw [← h1.2.2.2.2.2.2.1]; exact h6, by rw [h1.2.1, h1.2.2.2.1] at hm; exact hm⟩
    obtain ⟨v, hv, -⟩ := (C13_only hb groups e k s hs).1 row col this
    exact hno ⟨v, hv⟩

/-- C15: storing every subset's values (in either format) and combining the subsets read back gives the original values at
all valid cells and NoData elsewhere, for all layers. -/
theorem C15_roundtrip_partial {r : Raster} (hb : Spec.Built r) (groups : IMap Int) {rs' b}
    (e : buildSubSet ⟨r, []⟩ groups = .ok (rs', b)) (h2 : r.is2d = true → 1 < r.nLyrs)
    (hne : rs'.subs ≠ []) (inc : Bool) (dv dv' : ℚ) :
    ∃ rs2 d, storeAll rs' inc dv = .ok rs2 ∧
      prepareComb rs2 false true [] dv' = .ok (some (some d, r.hdr.rows * r.hdr.cols * r.nLyrs, r.nLyrs)) ∧
      (d.length : Int) = r.hdr.rows * r.hdr.cols * r.nLyrs ∧
      ∀ row col l : Int, 0 ≤ row → row < r.hdr.rows → 0 ≤ col → col < r.hdr.cols → 0 ≤ l → l < r.nLyrs →
        ((∃ v, ValidCell r row col v) →
          readAt (some d) ((row * r.hdr.cols + col) * r.nLyrs + l) = r.getValue row col (l + 1)) ∧
        ((¬ ∃ v, ValidCell r row col v) →
          readAt (some d) ((row * r.hdr.cols + col) * r.nLyrs + l) = .ok r.noData) := by
  obtain ⟨subs', s1, s2, s3⟩ := storeAll_spec hb groups e h2 inc dv
  obtain ⟨d, h⟩ := combine_loaded hb groups e hne subs' s2 s3 dv'
  exact ⟨_, d, s1, h⟩

/-! #### the combine mode of mask_rasterio -/

theorem setData_fit {s : Subset} {l : List ℚ} (hn : (l.length : Int) = s.nCells) (hpos : 0 < s.nCells)
    (hd : ∀ old, s.data = some old → (old.length : Int) = s.nCells) :
    s.setData s.nCells (some l) = .ok ({ s with nLyrs := 1, usable := true, data := some l }, true) := by
  unfold Subset.setData
  have ht : l.take s.nCells.toNat = l := List.take_of_length_le (by omega)
  simp only [ne_eq, not_true_eq_false, if_false]
  rw [if_neg (by omega)]
  cases ho : s.data with
  | some old =>
    have := hd old ho
    simp only
    rw [if_neg (by omega), ht, List.drop_of_length_le (by omega), List.append_nil]
  | none =>
    simp only
    rw [ht]
    unfold alloc1
    rw [if_neg (by omega)]
    rfl

theorem lastFile_snoc (files : List (Int × (Int × Ptr ℚ))) (f : Int × (Int × Ptr ℚ)) (k n : Int) :
    lastFile (files ++ [f]) k n = if f.1 = k ∧ f.2.1 = n then (match f.2.2 with
      | some l => some l
      | none => lastFile files k n) else lastFile files k n := by
  unfold lastFile
  rw [List.foldl_append]
  rfl

/-- C15, the combine mode: whatever files are given, loading never fails; a subset becomes usable exactly if a file with as
many (valid) values as the subset has cells was given for it, and then holds the values of the last such file. A file with a
different number of values is ignored. -/
theorem C15_com {r : Raster} (hb : Spec.Built r) (groups : IMap Int) {rs' b}
    (e : buildSubSet ⟨r, []⟩ groups = .ok (rs', b)) (files : List (Int × (Int × Ptr ℚ)))
    (hf : ∀ f ∈ files, ∀ l, f.2.2 = some l → (l.length : Int) = f.2.1) :
    ∃ subs', comLoad rs'.subs files = .ok subs' ∧ subs'.map (·.1) = rs'.subs.map (·.1) ∧
      ∀ k s s', rs'.subs.get k = some s → subs'.get k = some s' → SameCells s s' ∧
        match lastFile files k s.nCells with
        | some l => s'.usable = true ∧ s'.nLyrs = 1 ∧ s'.data = some l
        | none => s'.usable = false := by
  have hfresh : ∀ k s, rs'.subs.get k = some s → s.data = none ∧ 0 < s.nCells := by
    intro k s hk
    obtain ⟨-, -, -, -, -, -, -, ⟨ls, ps, hC, hok⟩ | hn⟩ := build_cases2 hb e
    · obtain ⟨ho, hfr⟩ := hok.some k s hk
      have := List.length_pos_of_ne_nil ho.ne
      exact ⟨hfr.2.2.1, by rw [ho.n]; omega⟩
    · rw [hn] at hk; simp [IMap.get_nil] at hk
  have setKeys : ∀ (m : IMap Subset) (k : Int) (s s' : Subset), m.get k = some s → (m.map (·.1)).Pairwise (· < ·) →
      (m.set k s').map (·.1) = m.map (·.1) := by
    intro m k s s'
    induction m with
    | nil => intro h; simp [IMap.get_nil] at h
    | cons x m ih =>
      intro hg hs
      simp only [List.map_cons, List.pairwise_cons] at hs
      have hset : IMap.set (x :: m) k s' = if k < x.1 then (k, s') :: x :: m else if k = x.1 then (k, s') :: m
        else x :: IMap.set m k s' := rfl
      rw [IMap.get_cons] at hg
      by_cases hk : x.1 = k
      · rw [hset, if_neg (by omega), if_pos hk.symm, List.map_cons, List.map_cons, hk]
      · rw [if_neg hk] at hg
        have := hs.1 k (List.mem_map.2 ⟨_, IMap.get_mem hg, rfl⟩)
        rw [hset, if_neg (by omega), if_neg (Ne.symm hk), List.map_cons, List.map_cons, ih hg hs.2]
  have hsorted : (rs'.subs.map (·.1)).Pairwise (· < ·) := by
    obtain ⟨-, -, -, -, -, -, -, ⟨ls, ps, hC, hok⟩ | hn⟩ := build_cases2 hb e
    · exact hok.sorted
    · rw [hn]; simp
  -- invariant over the processed files
  have key : ∀ (todo done : List (Int × (Int × Ptr ℚ))) (m : IMap Subset),
      (∀ f ∈ todo, ∀ l, f.2.2 = some l → (l.length : Int) = f.2.1) →
      m.map (·.1) = rs'.subs.map (·.1) →
      (∀ k s s', rs'.subs.get k = some s → m.get k = some s' → SameCells s s' ∧
        (∀ old, s'.data = some old → (old.length : Int) = s.nCells) ∧
        match lastFile done k s.nCells with
        | some l => s'.usable = true ∧ s'.nLyrs = 1 ∧ s'.data = some l
        | none => s'.usable = false) →
      ∃ subs', todo.foldlM comFile m = .ok subs' ∧ subs'.map (·.1) = rs'.subs.map (·.1) ∧
        ∀ k s s', rs'.subs.get k = some s → subs'.get k = some s' → SameCells s s' ∧
          match lastFile (done ++ todo) k s.nCells with
          | some l => s'.usable = true ∧ s'.nLyrs = 1 ∧ s'.data = some l
          | none => s'.usable = false := by
    intro todo
    induction todo with
    | nil =>
      intro done m _ hk hm
      refine ⟨m, rfl, hk, fun k s s' h1 h2 => ?_⟩
      obtain ⟨a, -, c⟩ := hm k s s' h1 h2
      rw [List.append_nil]; exact ⟨a, c⟩
    | cons f todo ih =>
      intro done m hft hk hm
      have hfl := hft f List.mem_cons_self
      have hrest : ∀ f' ∈ todo, ∀ l, f'.2.2 = some l → (l.length : Int) = f'.2.1 := fun f' h => hft f' (List.mem_cons_of_mem _ h)
      have happ : done ++ f :: todo = (done ++ [f]) ++ todo := by simp
      rw [List.foldlM_cons, happ]
      -- one file
      have hone : ∃ m', comFile m f = .ok m' ∧ m'.map (·.1) = rs'.subs.map (·.1) ∧
          ∀ k s s', rs'.subs.get k = some s → m'.get k = some s' → SameCells s s' ∧
            (∀ old, s'.data = some old → (old.length : Int) = s.nCells) ∧
            match lastFile (done ++ [f]) k s.nCells with
            | some l => s'.usable = true ∧ s'.nLyrs = 1 ∧ s'.data = some l
            | none => s'.usable = false := by
        unfold comFile
        cases hg : m.get f.1 with
        | none =>
          refine ⟨m, rfl, hk, fun k s s' h1 h2 => ?_⟩
          have hne : f.1 ≠ k := by rintro rfl; rw [hg] at h2; simp at h2
          rw [lastFile_snoc, if_neg (fun h => hne h.1)]
          exact hm k s s' h1 h2
        | some s0 =>
          -- the subset exists before
          have hs0 : ∃ sb, rs'.subs.get f.1 = some sb := by
            have hmm : f.1 ∈ rs'.subs.map (·.1) := by rw [← hk]; exact List.mem_map.2 ⟨_, IMap.get_mem hg, rfl⟩
            cases hgb : rs'.subs.get f.1 with
            | some sb => exact ⟨sb, rfl⟩
            | none =>
              obtain ⟨x, hx, hxe⟩ := List.mem_map.1 hmm
              unfold IMap.get at hgb
              rw [Option.map_eq_none_iff, List.find?_eq_none] at hgb
              exact absurd (hgb x hx) (by simp [hxe])
          obtain ⟨sb, hsb⟩ := hs0
          obtain ⟨sc, hold, hlast⟩ := hm f.1 sb s0 hsb hg
          obtain ⟨-, hpos⟩ := hfresh f.1 sb hsb
          have hms : (m.map (·.1)).Pairwise (· < ·) := by rw [hk]; exact hsorted
          -- the subset after the call
          have hset : ∃ s1 bb, s0.setData f.2.1 f.2.2 = .ok (s1, bb) ∧ SameCells sb s1 ∧
              (∀ old, s1.data = some old → (old.length : Int) = sb.nCells) ∧
              match lastFile (done ++ [f]) f.1 sb.nCells with
              | some l => s1.usable = true ∧ s1.nLyrs = 1 ∧ s1.data = some l
              | none => s1.usable = false := by
            rw [lastFile_snoc]
            by_cases hn : f.2.1 = s0.nCells
            · have hn' : f.2.1 = sb.nCells := by rw [hn, sc.1]
              rw [if_pos ⟨rfl, hn'⟩]
              cases hp : f.2.2 with
              | none =>
                refine ⟨s0, false, ?_, sc, hold, hlast⟩
                unfold Subset.setData
                simp [hn]
              | some l =>
                have hll := hfl l hp
                have hn0 := sc.1
                have hfit := setData_fit (s := s0) (l := l) (by omega) (by omega) (by
                  intro old ho; rw [hold old ho, sc.1])
                refine ⟨{ s0 with nLyrs := 1, usable := true, data := some l }, true, by rw [hn]; exact hfit, sc, ?_, rfl, rfl, rfl⟩
                intro old ho
                simp only [Option.some.injEq] at ho
                rw [← ho]; omega
            · rw [if_neg (fun h => hn (by rw [h.2, sc.1]))]
              refine ⟨s0, false, ?_, sc, hold, hlast⟩
              unfold Subset.setData
              rw [if_pos hn]
          obtain ⟨s1, bb, hs1, hsc, hso, hsl⟩ := hset
          refine ⟨m.set f.1 s1, by simp only [hs1, Out.ok_bind, Out.pure_eq], ?_, ?_⟩
          · rw [setKeys m f.1 s0 s1 hg hms, hk]
          · intro k s s' h1 h2
            rw [IMap.get_set] at h2
            by_cases hkf : k = f.1
            · subst hkf
              rw [if_pos rfl] at h2
              injection h2 with h2
              rw [hsb] at h1
              injection h1 with h1
              subst h1 h2
              exact ⟨hsc, hso, hsl⟩
            · rw [if_neg hkf] at h2
              rw [lastFile_snoc, if_neg (fun h => hkf h.1.symm)]
              exact hm k s s' h1 h2
      obtain ⟨m', e1, e2, e3⟩ := hone
      rw [e1, Out.ok_bind]
      exact ih (done ++ [f]) m' hrest e2 e3
  have := key files [] (rs'.subs.map (fun x => (x.1, { x.2 with usable := false }))) hf (by rw [List.map_map]; rfl) (by
    intro k s s' h1 h2
    have hgm := IMap.get_mapVal rs'.subs (fun _ (s : Subset) => ({ s with usable := false } : Subset)) k
    rw [h1] at hgm
    have h2 := hgm.symm.trans h2
    simp only [Option.map_some, Option.some.injEq] at h2
    subst h2
    refine ⟨⟨rfl, rfl, rfl, rfl, rfl, rfl, rfl, rfl⟩, ?_, rfl⟩
    intro old ho
    have hn := (hfresh k s h1).1
    simp only [hn] at ho
    simp at ho)
  simpa [comLoad] using this

/-- C15, the combine mode as a whole: the full-size output holds, at the cells of each subset with a fitting file, the
values of its last fitting file; cells of other subsets get the default value (NoData if that is NoData), and all other
cells NoData. -/
theorem C15_com_combine {r : Raster} (hb : Spec.Built r) (groups : IMap Int) {rs' b}
    (e : buildSubSet ⟨r, []⟩ groups = .ok (rs', b)) (files : List (Int × (Int × Ptr ℚ)))
    (hf : ∀ f ∈ files, ∀ l, f.2.2 = some l → (l.length : Int) = f.2.1)
    (hex : ∃ k s, rs'.subs.get k = some s ∧ lastFile files k s.nCells ≠ none) (dv : ℚ) :
    ∃ subs' d, comLoad rs'.subs files = .ok subs' ∧
      prepareComb ⟨rs'.ras, subs'⟩ false true [] dv = .ok (some (some d, r.hdr.rows * r.hdr.cols, 1)) ∧
      (∀ k s (j : Nat) (lr lc : Int), rs'.subs.get k = some s → readAt s.localPos j = .ok (lr, lc) →
        readAt (some d) ((s.srow + lr) * r.hdr.cols + (s.scol + lc)) = match lastFile files k s.nCells with
          | some l => readAt (some l) j
          | none => .ok (if floatEqual r.noData (fillValue r dv) then r.noData else fillValue r dv)) ∧
      (∀ row col : Int, 0 ≤ row → row < r.hdr.rows → 0 ≤ col → col < r.hdr.cols →
        (¬ ∃ v, ValidCell r row col v) → readAt (some d) (row * r.hdr.cols + col) = .ok r.noData) := by
  obtain ⟨subs', h1, h2, h3⟩ := C15_com hb groups e files hf
  have hgetn : ∀ k, subs'.get k = none ↔ rs'.subs.get k = none := by
    have gen : ∀ (m : IMap Subset) k, m.get k = none ↔ k ∉ m.map (·.1) := by
      intro m k
      unfold IMap.get
      rw [Option.map_eq_none_iff, List.find?_eq_none, List.mem_map]
      constructor
      · rintro h ⟨x, hx, rfl⟩; exact h x hx (by simp)
      · intro h x hx hxe; exact h ⟨x, hx, by simpa using hxe⟩
    intro k; rw [gen, gen, h2]
  have hfwd : ∀ k s, rs'.subs.get k = some s → ∃ s', subs'.get k = some s' := by
    intro k s hk
    cases hg : subs'.get k with
    | some s' => exact ⟨s', rfl⟩
    | none => rw [(hgetn k).1 hg] at hk; simp at hk
  have hback : ∀ k s', subs'.get k = some s' → ∃ s, rs'.subs.get k = some s := by
    intro k s hk
    cases hg : rs'.subs.get k with
    | some s' => exact ⟨s', rfl⟩
    | none => rw [(hgetn k).2 hg] at hk; simp at hk
  have hlf : ∀ (fs : List (Int × (Int × Ptr ℚ))), (∀ f ∈ fs, ∀ l, f.2.2 = some l → (l.length : Int) = f.2.1) → ∀ k n l,
      lastFile fs k n = some l → (l.length : Int) = n := by
    intro fs
    induction fs using List.reverseRecOn with
    | nil => intro _ k n l h; simp [lastFile] at h
    | append_singleton fs f ih =>
      intro hfs k n l h
      rw [lastFile_snoc] at h
      have ih' := ih (fun x hx => hfs x (List.mem_append_left _ hx)) k n l
      split_ifs at h with hc
      · cases hp : f.2.2 with
        | none => rw [hp] at h; exact ih' h
        | some l' =>
          rw [hp] at h
          injection h with h
          have := hfs f (by simp) l' hp
          rw [← h]; omega
      · exact ih' h
  obtain ⟨d, e1, e2, e3, e4⟩ := C15_combine hb groups e subs' h2 (fun k s s' a b => (h3 k s s' a b).1) 1 le_rfl (by
      intro k s' hk hus
      obtain ⟨s, hs⟩ := hback k s' hk
      obtain ⟨a, c⟩ := h3 k s s' hs hk
      cases hl : lastFile files k s.nCells with
      | none => rw [hl] at c; simp only at c; rw [c] at hus; simp at hus
      | some l =>
        rw [hl] at c
        simp only at c
        refine ⟨c.2.1, ?_⟩
        intro j _ j0 j1 _ _
        have := hlf files hf k s.nCells l hl
        refine ⟨l[j.toNat]'(by rw [a.1] at j1; omega), ?_⟩
        unfold subsetCell
        rw [if_pos rfl, c.2.2]
        exact readAt_some_int _ _ j0 (by rw [a.1] at j1; omega)) (by
      obtain ⟨k, s, hk, hne⟩ := hex
      obtain ⟨s', hs'⟩ := hfwd k s hk
      obtain ⟨a, c⟩ := h3 k s s' hk hs'
      cases hl : lastFile files k s.nCells with
      | none => exact absurd hl hne
      | some l => rw [hl] at c; exact ⟨k, s', hs', c.1⟩) dv
  simp only [Int.mul_one] at e1 e3 e4
  refine ⟨subs', d, h1, e1, ?_, ?_⟩
  · intro k s j lr lc hk hj
    obtain ⟨s', hs'⟩ := hfwd k s hk
    obtain ⟨a, c⟩ := h3 k s s' hk hs'
    have hx := e3 k s' j 0 lr lc hs' (by rw [a.2.2.2.2.2.2.1]; exact hj) le_rfl (by omega)
    rw [a.2.1, a.2.2.2.1, Int.add_zero] at hx
    rw [hx]
    cases hl : lastFile files k s.nCells with
    | none => rw [hl] at c; simp only at c; simp [c]
    | some l =>
      rw [hl] at c
      simp only at c
      rw [c.1, if_pos rfl]
      unfold subsetCell
      rw [if_pos rfl, c.2.2]
  · intro row col r0 r1 c0 c1 hno
    have hx := e4 row col 0 r0 r1 c0 c1 le_rfl (by omega) (by
      intro k s' hk hin
      obtain ⟨s, hs⟩ := hback k s' hk
      obtain ⟨a, -⟩ := h3 k s s' hs hk
      obtain ⟨lp, h6, hm⟩ := hin
      have : InSubset s row col :=
        ⟨lp, by rw [← a.2.2.2.2.2.2.1]; exact h6, by rw [a.2.1, a.2.2.2.1] at hm; exact hm⟩
      obtain ⟨v, hv, -⟩ := (C13_only hb groups e k s hs).1 row col this
      exact hno ⟨v, hv⟩)
    rw [Int.add_zero] at hx
    exact hx

/-! #### concrete cases -/

/-- A mask of two rows and three columns; the cell (1, 0) is NoData. -/
def exMask : Raster := ofArray1 (some [1, 1, 2, -9999, 2, 3]) 3 2 (-9999) 1 0 0

/-- The subsets of `exMask` with value 3 mapped to group 1. -/
def exSubs : RasterS × Bool := match buildSubSet ⟨exMask, []⟩ [(3, 1)] with
  | .ok x => x
  | _ => (⟨exMask, []⟩, false)

theorem exMask_built : Spec.Built exMask := .grid1 [1, 1, 2, -9999, 2, 3] 2 3 (-9999) 1 0 0 (by decide)

theorem exSubs_eq : buildSubSet ⟨exMask, []⟩ [(3, 1)] = .ok (exSubs.1, exSubs.2) := by decide +kernel

example : exSubs.1.subs.map (fun e => (e.1, e.2.nCells, e.2.localIdx)) =
    [(1, 3, some [0, 1, 5]), (2, 2, some [1, 2])] := by decide +kernel

example : exSubs.1.subs.map (fun e => [e.2.srow, e.2.erow, e.2.scol, e.2.ecol]) = [[0, 1, 0, 2], [0, 1, 1, 2]] := by
  decide +kernel

/-- The hypotheses of C13 are met: (1, 2) is a valid cell of value 3, in group 1. -/
example : ValidCell exMask 1 2 3 ∧ subsetId [(3, 1)] 3 = 1 :=
  ⟨⟨by decide +kernel, by decide +kernel⟩, by decide +kernel⟩

/-- C15 on the example: the round trip restores the grid. -/
example : (do
    let rs2 ← storeAll exSubs.1 true 0
    prepareComb rs2 false true [] 0 : Out _) = .ok (some (some [1, 1, 2, -9999, 2, 3], 6, 1)) := by decide +kernel

/-- The combine mode with a file for subset 2 and one with too few values for subset 1: the latter is dropped. -/
example : (do
    let subs ← comLoad exSubs.1.subs [(1, (2, some [10, 11])), (2, (2, some [20, 21]))]
    prepareComb ⟨exSubs.1.ras, subs⟩ false true [] NODATA : Out _) =
      .ok (some (some [-9999, -9999, 20, -9999, 21, -9999], 6, 1)) := by decide +kernel

/-- A two-dimensional raster with a single layer. -/
def exOne : Raster := ofArray2 (some [[1], [2]]) 2 1 1 (-9999) 1 0 0

/-- C15 is false for a two-dimensional raster with one layer: nothing is decomposed. -/
theorem C15_false_onelayer_reached : Spec.Built exOne ∧
    (do
      let x ← buildSubSet ⟨exOne, []⟩ []
      match x.1.subs with
      | e :: _ => prepareSubsetData x.1.ras e.1 e.2 true true [] 0
      | [] => .ub : Out _) = .ok none :=
  ⟨.grid2 [[1], [2]] 1 2 1 (-9999) 1 0 0 (by decide) (by decide) (by decide), by decide +kernel⟩

/-- C16's hypothesis is met: a history of building, writing a cell and releasing. -/
example : ∃ rs, SReach rs ∧ rs.subs ≠ [] := ⟨exSubs.1, .build [(3, 1)] (.init _ exMask_built) exSubs_eq, by decide +kernel⟩

example : tableAfter none [.build [(3, 1)], .build [], .release, .rebuild [(2, 1)]] = some [(2, 1)] := by rfl

end CCGL
