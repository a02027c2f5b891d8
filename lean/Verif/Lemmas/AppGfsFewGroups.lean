import Verif.Lemmas.AppGfsFewDec
import Verif.Lemmas.AppGfsGroups
/-!
# Lemmas about jobs that store groups of cells in GridFS without NoData cells
-/
namespace CCGL
namespace App
open Fs Disk Main Raster Gfs Disk.Spec App.Spec

theorem cellByCell_shift (ps : List (Int × Int)) (m r0 c0 : Int) (u : Nat → Int → Int → ℚ) :
    cellByCell (ps.map (fun a => (a.1 - r0, a.2 - c0))) m (fun l row col => u l (row + r0) (col + c0)) = cellByCell ps m u := by
  unfold cellByCell
  rw [List.flatMap_map]
  congr 1
  funext a
  dsimp only
  rw [Int.sub_add_cancel, Int.sub_add_cancel]

/-- The values of one group, cell by cell. -/
theorem cut_few {rs : RasterS} {ls ps G} (h : Cut rs ls ps G) {V : View} {j : Job} {fill : ℚ} {m : Int}
    (H : Ready rs V.hdr V.val V.grp j.default.toQ fill) (hl : rs.ras.nLyrs = 1)
    (htab : j.recls = true → CCGL.Spec.TableOf (numTable j) m ∧ ((numTable j).map (·.1)).Nodup) (hone : j.recls = false → m = 1) {k : Int} {s : Subset}
    (hk : rs.subs.get k = some s) :
    prepareSubsetData rs.ras k s true false (useTable j) (useDflt j) =
      .ok (some (some (cellByCell ((G k).map (posAt ps)) m (cellOut j V.val fill)), ((G k).length : Int) * m, m)) := by
  have hP := h.part
  have hC := h.comp
  have ho := hP.some k s hk
  have hgrp : ∀ i ∈ G k, V.grp k (posAt ps i).1 (posAt ps i).2 := fun i hi =>
    (H.grp k _ _).2 ⟨s, hk, (ho.in_iff _ _).2 ⟨i, hi, rfl⟩⟩
  have hval : ∀ i ∈ G k, cellAt ls i 0 = V.val (posAt ps i).1 (posAt ps i).2 := by
    intro i hi
    have hv := h.value hi (row := (posAt ps i).1) (col := (posAt ps i).2) rfl (l := 0) le_rfl (fun q => by rw [H.flat] at q; cases q)
    rw [H.flat] at hv
    simp only [Bool.false_eq_true, if_false] at hv
    have h2 := H.val k _ _ (hgrp i hi)
    rw [hv] at h2
    injection h2 with h2
  cases hr : j.recls with
  | true =>
    obtain ⟨t1, t2⟩ := htab hr
    have hm := t1.2.1
    have ht := table_ok t1
    have hdef : defaultOf rs.ras j.default.toQ = CCGL.Spec.fillValue rs.ras j.default.toQ := rfl
    obtain ⟨F, e1, e2, e3, -⟩ := decomp_gen hC ho (fun i hi => hP.lt hi) (h.asc k) k true false (tableOf j.table) m m hm (reclsLyrs_table ht) (by simp; omega)
      j.default.toQ
      (fun n l => CCGL.Spec.tableValue (tableOf j.table) (truncQ (cellAt ls ((G k).getD n 0) (if rs.ras.is2d then l.toNat else 0))) l
        (CCGL.Spec.fillValue rs.ras j.default.toQ)) (by
      intro n l hn h3 h4
      have hgl : readAt s.glob n = .ok ((G k)[n] : Int) := by
        rw [ho.glob, readAt_some_nat _ _ (by simpa using hn)]
        simp
      unfold subValue
      rw [hgl, Out.ok_bind, if_pos ht.1, hdef, recls_origin hC _ (hP.lt (List.getElem_mem hn)) l h3
        (by intro h; rw [H.flat] at h; cases h) h.one, Out.ok_bind, List.getD_eq_getElem _ _ hn]
      rfl)
    simp only [Bool.false_eq_true, if_false] at e1 e2 e3
    rw [ho.n] at e1 e2
    have hF : F = cellByCell ((G k).map (posAt ps)) m (cellOut j V.val fill) := by
      refine eq_cellByCell hm (by rw [List.length_map]; exact e2) ?_
      intro i l hi hlm
      rw [List.length_map] at hi
      rw [e3 i hi l (by omega) hlm, List.getD_eq_getElem _ _ hi, H.flat, if_neg (by simp), hval _ (List.getElem_mem hi), H.fill, table_value t2]
      unfold cellOut
      rw [hr, if_pos rfl, List.getElem_map]
    unfold useTable useDflt
    rw [hr, if_pos rfl, if_pos rfl, e1, hF]
  | false =>
    have := hone hr
    subst this
    obtain ⟨F, e1, e2, e3, -⟩ := decomp_core hC (fun q => by rw [H.flat] at q; cases q) ho (fun i hi => hP.lt hi) (h.asc k) k false NODATA
    simp only [Bool.false_eq_true, if_false] at e1 e2 e3
    rw [hl] at e1 e2 e3
    rw [ho.n] at e1 e2
    have hF : F = cellByCell ((G k).map (posAt ps)) 1 (cellOut j V.val fill) := by
      refine eq_cellByCell le_rfl (by rw [List.length_map]; exact e2) ?_
      intro i l hi hlm
      rw [List.length_map] at hi
      have hl0 : l = 0 := by omega
      subst hl0
      rw [Nat.cast_zero, e3 i hi 0 le_rfl (by omega), Int.toNat_zero, hval _ (List.getElem_mem hi)]
      unfold cellOut
      rw [hr, if_neg (by simp), List.getElem_map]
    unfold useTable useDflt
    rw [hr, if_neg (by simp), if_neg (by simp), e1, hF]

/-- What is written for a group. -/
theorem few_payload {rs : RasterS} {V : View} {j : Job} {fill : ℚ} {m : Int} (H : Ready rs V.hdr V.val V.grp j.default.toQ fill) (hl : rs.ras.nLyrs = 1)
    (htab : j.recls = true → CCGL.Spec.TableOf (numTable j) m ∧ ((numTable j).map (·.1)).Nodup) (hone : j.recls = false → m = 1) {k : Int} {s : Subset}
    (hk : rs.subs.get k = some s) : 1 ≤ m ∧ s.usable = true ∧ IsBox (V.grp k) s.srow s.erow s.scol s.ecol ∧
    ∃ qs, qs ≠ [] ∧ InOrder (boxHeader V.hdr s.srow s.erow s.scol s.ecol) (fun row col => V.grp k (row + s.srow) (col + s.scol)) qs ∧
      Gfs.subPayload .double rs.ras k s true false (useTable j) (useDflt j) = .ok (some ({ boxHeader V.hdr s.srow s.erow s.scol s.ecol with
        layers := m, cellsnum := qs.length }, some (cellByCell qs m (fun l row col => cellOut j V.val fill l (row + s.srow) (col + s.scol))),
        ((cellByCell qs m (fun l row col => cellOut j V.val fill l (row + s.srow) (col + s.scol))).length : Int))) := by
  have hne : rs.subs ≠ [] := fun h => by rw [h, IMap.get_nil] at hk; cases hk
  obtain ⟨ls, ps, G, hc⟩ := H.cut hne
  have ho := hc.part.some k s hk
  have hg := H.grid
  unfold Header.grid at hg
  injection hg with g1 g2 g3 g4 g5
  have hm : 1 ≤ m := by
    cases hr : j.recls with
    | true => exact (htab hr).1.2.1
    | false => rw [hone hr]
  have hbox := cut_box hc hk
  have hcells := H.cells hk
  have hmem : ∀ row col, (row, col) ∈ (G k).map (posAt ps) ↔ V.grp k row col := by
    intro row col
    rw [H.grp, List.mem_map]
    constructor
    · rintro ⟨i, hi, e⟩
      exact ⟨s, hk, (ho.in_iff row col).2 ⟨i, hi, e⟩⟩
    · rintro ⟨s', a, b⟩
      rw [hk] at a
      injection a with a
      subst a
      exact (ho.in_iff row col).1 b
  have hin : ∀ row col, V.grp k row col → s.srow ≤ row ∧ row ≤ s.erow ∧ s.scol ≤ col ∧ col ≤ s.ecol := by
    intro row col h
    obtain ⟨i, hi, e⟩ := List.mem_map.1 ((hmem row col).2 h)
    have := ho.tight.1 i hi
    rw [e] at this
    exact this
  have hsort : ((G k).map (posAt ps)).Pairwise Before :=
    group_sorted (C := rs.ras.hdr.cols) (fun a ha => (hc.comp.inside a ha).2.2) hc.comp.sorted (fun i hi => hc.part.lt hi) (hc.asc k)
  refine ⟨hm, hc.use k s hk, by rw [hcells]; exact hbox, ((G k).map (posAt ps)).map (fun a => (a.1 - s.srow, a.2 - s.scol)), ?_, ⟨?_, ?_⟩, ?_⟩
  · intro h
    rw [List.map_eq_nil_iff, List.map_eq_nil_iff] at h
    exact ho.ne h
  · rw [List.map_map, List.pairwise_map]
    refine hsort.imp_of_mem ?_
    rintro ⟨a1, a2⟩ ⟨b1, b2⟩ ha hb hab
    have qa := hin _ _ ((hmem a1 a2).1 ha)
    have qb := hin _ _ ((hmem b1 b2).1 hb)
    show (a1 - s.srow) * (s.ecol - s.scol + 1) + (a2 - s.scol) < (b1 - s.srow) * (s.ecol - s.scol + 1) + (b2 - s.scol)
    rcases hab with h | ⟨h, h'⟩
    · dsimp only at h
      have : (a1 - s.srow + 1) * (s.ecol - s.scol + 1) ≤ (b1 - s.srow) * (s.ecol - s.scol + 1) :=
        Int.mul_le_mul_of_nonneg_right (by omega) (by omega)
      rw [Int.add_mul, one_mul] at this
      omega
    · dsimp only at h h'
      rw [h]
      omega
  · intro row col
    rw [List.mem_map]
    constructor
    · rintro ⟨⟨a1, a2⟩, ha, e⟩
      simp only [Prod.mk.injEq] at e
      have q := (hmem a1 a2).1 ha
      have q2 := hin _ _ q
      refine ⟨⟨?_, ?_, ?_, ?_⟩, ?_⟩
      · omega
      · show row < s.erow - s.srow + 1; omega
      · omega
      · show col < s.ecol - s.scol + 1; omega
      · dsimp only
        have h1 : row + s.srow = a1 := by omega
        have h2 : col + s.scol = a2 := by omega
        rw [h1, h2]
        exact q
    · rintro ⟨-, h⟩
      exact ⟨(row + s.srow, col + s.scol), (hmem _ _).2 h, by simp⟩
  · rw [cellByCell_shift, cellByCell_length _ (by omega : 0 ≤ m)]
    simp only [List.length_map]
    unfold Gfs.subPayload
    rw [cut_few hc H hl htab hone hk, Out.ok_bind]
    dsimp only
    rw [if_neg (by omega), Int.mul_tdiv_cancel _ (by omega), Out.pure_eq]
    congr 3
    unfold Subset.getHeader boxHeader
    have ha : Gtiff.asDbl .double rs.ras.noData = rs.ras.noData := rfl
    dsimp only
    rw [ha, g1, g3, g4, g5, H.nd]
    congr 1
    · ring
    · push_cast; ring

/-- The file found under the key holds the cells. -/
theorem holds_some_file {rnd : ℚ → ℚ} (hrnd : ∀ v, CCGL.Spec.Representable .float v → rnd v = v) {st' : Store} {name : Str} {ty : RDT} {own : Opts} {h : Header}
    {m : Int} {w : Nat → Int → Int → ℚ} {S : Int → Int → Prop} {qs : List (Int × Int)} (hord : InOrder h S qs) (hne : qs ≠ []) (ht : ty ≠ .unknown)
    (hk : CCGL.Spec.GoodKey ⟨name, outOpts .double own (fewOpts ty) false⟩)
    (hh : CCGL.Spec.StorableHeader { h with layers := m, cellsnum := h.rows * h.cols })
    (hsH : CCGL.Spec.StorableHeader { h with layers := m, cellsnum := qs.length }) {info : BDoc} (hf : ∀ x ∈ cellByCell qs m w, Fits ty x)
    (hhdr : CCGL.Spec.HeaderIs (info.foldl readElem (initialHeader, initialStr)).1 { h with layers := m, cellsnum := qs.length })
    (hopts : ∀ k v, (k, v) ∈ outOpts .double own (fewOpts ty) false → ∃ out, (info.foldl readElem (initialHeader, initialStr)).2 k = some out ∧
      CCGL.Spec.SameMeaning v out ∧ ((∀ x, ¬ CCGL.Spec.NumText v x) → out = v))
    (hfiles : CCGL.Spec.filesOf st' ⟨name, fewOpts ty⟩ = [File.mk name info ((cellByCell qs m w).flatMap (encode ty))]) :
    HoldsSome rnd st' name (fewOpts ty) h m w S := by
  have hm : 1 ≤ m := by
    have := hh.layers.1
    dsimp only at this
    omega
  refine ⟨hh, ?_, ?_⟩
  · obtain ⟨⟨row, col⟩, hrc⟩ := List.exists_mem_of_ne_nil _ hne
    exact ⟨row, col, (hord.2 row col).1 hrc⟩
  · intro ok1 ok2 h1 h2
    obtain ⟨hm', sm, q1, q2, q3⟩ := read_file (rnd := rnd) hrnd (T := .double) (O := ty) (T' := .double) (cells := cellByCell qs m w) hsH (few_type_mem own ht)
      (C25_roundtrip ty) (fun x hx => ⟨(hf x hx).1, (hf x hx).2, (hf x hx).1⟩) (cellByCell_length qs (by omega) w) hhdr hopts (R := ⟨name, fewOpts ty⟩)
      (some_key ht hk) rfl hfiles h1 h2
    obtain ⟨out, o1, -, o3⟩ := q3 kIncNodata "FALSE".toList (few_inc_mem own ty)
    have o3 := o3 not_number_FALSE
    subst o3
    exact ⟨qs, hm', sm, q1, q2, o1, hord⟩

/-- The header of a file with fewer cells can be stored too. -/
theorem few_header {h : Header} {m : Int} {S : Int → Int → Prop} {qs : List (Int × Int)} (hord : InOrder h S qs) (hne : qs ≠ [])
    (hh : CCGL.Spec.StorableHeader { h with layers := m, cellsnum := h.rows * h.cols }) :
    CCGL.Spec.StorableHeader { h with layers := m, cellsnum := qs.length } := by
  have hm : 1 ≤ m := by
    have := hh.layers.1
    dsimp only at this
    omega
  have hpos : 0 < qs.length := List.length_pos_of_ne_nil hne
  have hle := inOrder_le hord hh.rows.1 hh.cols.1
  refine ⟨hh.rows, hh.cols, hh.layers, ⟨by (show 0 < (qs.length : Int); omega), lt_of_le_of_lt hle hh.cellsnum.2⟩, ?_,
    hh.cellsize, hh.xll, hh.yll⟩
  have := hh.count
  dsimp only at this ⊢
  have := Int.mul_le_mul_of_nonneg_right hle (by omega : 0 ≤ m)
  omega

theorem few_file_key {st : Store} {mode : IOMode} {j : Job} {jd : JobDb} {V : View} {fill : ℚ} {m : Int} (O : FewOut st mode j jd V fill m) (k : Int) :
    CCGL.Spec.GoodKey ⟨CCGL.Spec.subsetFile k j.out, outOpts .double jd.own (fewOpts j.type) false⟩ := by
  rw [← subFile_eq]
  exact good_subFile O.key k

/-- The groups are stored. -/
theorem store_groups_few {rnd : ℚ → ℚ} (hrnd : ∀ v, CCGL.Spec.Representable .float v → rnd v = v) {st : Store} {mode : IOMode} {j : Job} {jd : JobDb} {V : View}
    {fill : ℚ} {m : Int} {rs : RasterS} (H : Ready rs V.hdr V.val V.grp j.default.toQ fill) (hl : rs.ras.nLyrs = 1) (O : FewOut st mode j jd V fill m)
    (hin : ∀ k row col, V.grp k row col → V.hdr.grid.CellInside row col) (hmode : WantsSingle mode) :
    ∃ st' o b, outputSubsets rnd .double jd.rms jd.atts st rs jd.own jd.core j.out (jobOpts false j.type) false true false (useTable j) (useDflt j) = .ok (o, st', b) ∧
      (∀ R : CCGL.Spec.Key, (∀ k, Present V.grp k → R.name ≠ CCGL.Spec.subsetFile k j.out) → CCGL.Spec.filesOf st' R = CCGL.Spec.filesOf st R) ∧
      ∀ k, Present V.grp k → FewSingle rnd st' (CCGL.Spec.subsetFile k j.out) (fewOpts j.type) V.hdr m (cellOut j V.val fill) (V.grp k) ∧
        ∀ f ∈ st', CCGL.Spec.Has f ⟨CCGL.Spec.subsetFile k j.out, fewOpts j.type⟩ →
          CCGL.Spec.Has f ⟨CCGL.Spec.subsetFile k j.out, outOpts .double jd.own (fewOpts j.type) false⟩ := by
  by_cases hne : rs.subs = []
  · have hno : ∀ k, ¬ Present V.grp k := by
      intro k hk
      obtain ⟨s, hs⟩ := (H.present k).1 hk
      rw [hne, IMap.get_nil] at hs
      cases hs
    cases hvd : rs.ras.validData with
    | false =>
      refine ⟨st, jd.own, false, ?_, fun _ _ => rfl, fun k hk => absurd hk (hno k)⟩
      unfold outputSubsets
      rw [hvd]
      rfl
    | true =>
      refine ⟨st, jd.own, false, ?_, fun _ _ => rfl, fun k hk => absurd hk (hno k)⟩
      unfold outputSubsets
      rw [hvd, if_neg (by simp), if_pos hne]
  · obtain ⟨ls, ps, G, hc⟩ := H.cut hne
    have hsorted := hc.part.sorted
    have hget : ∀ x ∈ rs.subs, rs.subs.get x.1 = some x.2 := fun x hx => (IMap.mem_iff_get _ hsorted _ _).1 hx
    have hvalid : rs.ras.validData = true := Holds.valid hc.comp.holds
    have hwt := few_kept jd.own O.type.1
    have pay : ∀ k s, rs.subs.get k = some s → s.usable = true ∧ IsBox (V.grp k) s.srow s.erow s.scol s.ecol ∧
        ∃ qs, qs ≠ [] ∧ InOrder (boxHeader V.hdr s.srow s.erow s.scol s.ecol) (fun row col => V.grp k (row + s.srow) (col + s.scol)) qs ∧
        Gfs.subPayload .double rs.ras k s true false (useTable j) (useDflt j) = .ok (some ({ boxHeader V.hdr s.srow s.erow s.scol s.ecol with
          layers := m, cellsnum := qs.length }, some (cellByCell qs m (fun l row col => cellOut j V.val fill l (row + s.srow) (col + s.scol))),
          ((cellByCell qs m (fun l row col => cellOut j V.val fill l (row + s.srow) (col + s.scol))).length : Int))) ∧
        CCGL.Spec.StorableHeader { boxHeader V.hdr s.srow s.erow s.scol s.ecol with layers := m, cellsnum := (s.erow - s.srow + 1) * (s.ecol - s.scol + 1) } ∧
        CCGL.Spec.StorableHeader { boxHeader V.hdr s.srow s.erow s.scol s.ecol with layers := m, cellsnum := qs.length } ∧
        (∀ x ∈ cellByCell qs m (fun l row col => cellOut j V.val fill l (row + s.srow) (col + s.scol)), Fits j.type x) := by
      intro k s hk
      obtain ⟨hm, hu, hbox, qs, e1, e2, e3⟩ := few_payload H hl O.table O.one hk
      have hst := O.single hmode k ((H.present k).2 ⟨s, hk⟩) _ _ _ _ hbox
      refine ⟨hu, hbox, qs, e1, e2, e3, hst, few_header e2 e1 hst, ?_⟩
      intro x hx
      obtain ⟨⟨row, col⟩, hrc, l, hlm, rfl⟩ := mem_cellByCell hx
      have hg : V.grp k (row + s.srow) (col + s.scol) := ((e2.2 row col).1 hrc).2
      unfold cellOut
      cases hr : j.recls with
      | true => exact O.vals hr _ _
      | false => exact O.cells hr _ _ (hin _ _ _ hg)
    obtain ⟨st', fl, l1, l2, l3⟩ := loop_true (rnd := rnd) (T := .double) (O := j.type) (rms := jd.rms) (atts := jd.atts) (r := rs.ras) (recls := useTable j) (dv := useDflt j) (inc := false)
      (name := j.out) (o := outOpts .double jd.own (fewOpts j.type) false) (ty := rdtToString j.type.code) hrnd (good_subFile O.key) hwt
      (few_type_mem jd.own O.type.1) (C25_roundtrip j.type) (.inr O.type) O.rms O.atts rs.subs 0 st hsorted (fun x hx => by
        obtain ⟨q1, -, qs, -, -, q2, -, q3, q4⟩ := pay _ _ (hget x hx)
        exact ⟨q1, _, _, q2, q3, q4⟩)
    refine ⟨st', outOpts .double jd.own (fewOpts j.type) false, true, ?_, ?_, ?_⟩
    · unfold outputSubsets
      dsimp only
      rw [hvalid, if_neg (by simp), if_neg hne, if_neg (by simp), if_neg O.name, jobOpts_false, subOpts_few jd.own O.type.1, l1, Out.ok_bind]
      rfl
    · intro R hR
      exact l2 R (fun x hx => by rw [subFile_eq]; exact hR _ ((H.present _).2 ⟨_, hget x hx⟩))
    · intro k hk
      have hk0 := hk
      obtain ⟨s, hk⟩ := (H.present k).1 hk
      obtain ⟨n, hn, hn'⟩ := List.getElem_of_mem ((IMap.mem_iff_get _ hsorted _ _).2 hk)
      obtain ⟨q1, q5, qs, qne, qord, q2, qh, q3, q4⟩ := pay k s hk
      have hold := O.old (CCGL.Spec.subsetFile k j.out) (.inl ⟨hmode, k, hk0, rfl⟩)
      have hnm : ∀ o : Opts, (⟨CCGL.Spec.subsetFile k j.out, o⟩ : CCGL.Spec.Key).name = subFile rs.subs[n].1 j.out := fun o => by rw [hn', subFile_eq]
      obtain ⟨t1, -, -⟩ := l3 n hn ⟨CCGL.Spec.subsetFile k j.out, fewOpts j.type⟩ (hnm _) (few_sub jd.own O.type.1) hold
      obtain ⟨t2, -, -⟩ := l3 n hn ⟨CCGL.Spec.subsetFile k j.out, outOpts .double jd.own (fewOpts j.type) false⟩ (hnm _) (fun _ _ h => h) (fun _ _ h => h)
      have hwr : ∀ i, i ≤ n → CCGL.Spec.Written jd.atts (0 + i) := fun i _ => O.done.2 _
      obtain ⟨info, u1, u2, u3⟩ := t1 hwr _ _ (by rw [hn']; exact q2)
      obtain ⟨info2, -, -, u6⟩ := t2 hwr _ _ (by rw [hn']; exact q2)
      refine ⟨⟨s.srow, s.erow, s.scol, s.ecol, q5, ?_⟩, ?_⟩
      · exact holds_some_file hrnd (own := jd.own) qord qne O.type.1 (few_file_key O k) qh q3 q4 u1 u2 u3
      · intro f hf hh
        have h1 : f ∈ CCGL.Spec.filesOf st' ⟨CCGL.Spec.subsetFile k j.out, fewOpts j.type⟩ := mem_filesOf.2 ⟨hf, hh⟩
        generalize (cellByCell qs m (fun l row col => cellOut j V.val fill l (row + s.srow) (col + s.scol))).flatMap (encode j.type) = bytes at u3 u6
        have h2 : File.mk (CCGL.Spec.subsetFile k j.out) info2 bytes ∈
            CCGL.Spec.filesOf st' ⟨CCGL.Spec.subsetFile k j.out, outOpts .double jd.own (fewOpts j.type) false⟩ := by
          rw [u6]; exact List.mem_singleton.2 rfl
        obtain ⟨h3, h4⟩ := mem_filesOf.1 h2
        have h5 : File.mk (CCGL.Spec.subsetFile k j.out) info2 bytes ∈
            CCGL.Spec.filesOf st' ⟨CCGL.Spec.subsetFile k j.out, fewOpts j.type⟩ :=
          mem_filesOf.2 ⟨h3, h4.1, fun a b hab => h4.2 a b (few_sub jd.own O.type.1 a b hab)⟩
        rw [u3] at h1 h5
        rw [List.mem_singleton.1 h1, ← List.mem_singleton.1 h5]
        exact h4

/-- The cells of all groups, cell by cell. -/
theorem cut_comb_few {rs : RasterS} {ls ps G} (h : Cut rs ls ps G) (hne : rs.subs ≠ []) {V : View} {j : Job} {fill : ℚ} {m : Int}
    (H : Ready rs V.hdr V.val V.grp j.default.toQ fill) (hre : j.recls = true)
    (t1 : CCGL.Spec.TableOf (numTable j) m) (t2 : ((numTable j).map (·.1)).Nodup) :
    ∃ w : Nat → Int → Int → ℚ, prepareComb rs true false (tableOf j.table) j.default.toQ =
        .ok (some (some (cellByCell ps m w), (ps.length : Int) * m, m)) ∧
      ∀ row col (l : Nat), (row, col) ∈ ps → (l : Int) < m → ((∃ k, V.grp k row col) → w l row col = cellOut j V.val fill l row col) ∧
        ((¬ ∃ k, V.grp k row col) → w l row col = V.hdr.noData) := by
  classical
  have hP := h.part
  have hC := h.comp
  have ht := table_ok t1
  have hmem : ∀ k s, (k, s) ∈ rs.subs ↔ rs.subs.get k = some s := fun k s => IMap.mem_iff_get rs.subs hP.sorted k s
  obtain ⟨n, hall⟩ := h.lyrs
  have hm := ht.2.1
  obtain ⟨lsub, hls, -⟩ : ∃ lsub, subsetLyrs rs.subs false = some lsub ∧ True := by
    obtain ⟨x, h1, -, -⟩ := subsetLyrs_recls n rs.subs (-1) (fun e he _ => hall e.1 e.2 ((hmem _ _).1 he)) (.inl rfl)
    exact ⟨x, h1, trivial⟩
  have hdef : defaultOf rs.ras j.default.toQ = CCGL.Spec.fillValue rs.ras j.default.toQ := rfl
  obtain ⟨F, e1, e2, e3, e4⟩ := comb_any hC hP m hm true (tableOf j.table) m lsub (reclsLyrs_table ht)
    (by rw [decide_eq_false ht.1]; exact hls) (by simp; omega) hne j.default.toQ
    (fun k _ i l => CCGL.Spec.tableValue (tableOf j.table) (truncQ (cellAt ls ((G k).getD i.toNat 0) (if rs.ras.is2d then l.toNat else 0))) l
      (CCGL.Spec.fillValue rs.ras j.default.toQ)) (by
      intro k s ud i l hk _ h0 h1 h3 h4
      have ho := hP.some k s hk
      have hjl : i.toNat < (G k).length := by have := ho.n; omega
      have hgl : readAt s.glob i = .ok ((G k)[i.toNat] : Int) := by
        rw [ho.glob, readAt_some_int _ _ h0 (by rw [List.length_map]; omega)]
        simp
      unfold combValue
      rw [hgl, Out.ok_bind, if_pos ht.1, hdef, recls_origin hC _ (hP.lt (List.getElem_mem hjl)) l h3
        (by intro h; rw [H.flat] at h; cases h) h.one, Out.ok_bind, List.getD_eq_getElem _ _ hjl]
      rfl) false
  simp only [Bool.false_eq_true, if_false, hC.ncells] at e1 e2 e3 e4
  let w : Nat → Int → Int → ℚ := fun l row col => if ∃ k, V.grp k row col then cellOut j V.val fill l row col else V.hdr.noData
  have hix : ∀ i, outIdx rs.ras ps false i = i := fun i => by unfold outIdx; rw [if_neg (by simp)]
  have hnd : ps.Nodup := by
    have hsrt := hC.sorted
    rw [List.pairwise_map] at hsrt
    exact hsrt.imp (by rintro x y hxy rfl; omega)
  have hF : F = cellByCell ps m w := by
    refine eq_cellByCell hm e2 ?_
    intro i l hi hlm
    have hpi : posAt ps i = ps[i] := by unfold posAt; rw [List.getD_eq_getElem _ _ hi]
    by_cases hg : ∃ k, V.grp k ps[i].1 ps[i].2
    · obtain ⟨k, hk⟩ := hg
      obtain ⟨s, hs, hin⟩ := (H.grp k _ _).1 hk
      obtain ⟨i', hi', hp⟩ := ((hP.some k s hs).in_iff _ _).1 hin
      have hii : i' = i := by
        have hlt := hP.lt hi'
        have : ps[i'] = ps[i] := by
          have : posAt ps i' = ps[i'] := by unfold posAt; rw [List.getD_eq_getElem _ _ hlt]
          rw [← this, hp]
        exact (List.Nodup.getElem_inj_iff hnd).1 this
      subst hii
      obtain ⟨n', hn', e⟩ := List.getElem_of_mem hi'
      have t := e3 k s n' l hs hn' (by omega) hlm
      rw [h.use k s hs, if_pos rfl, e, hix] at t
      rw [t]
      congr 1
      have hw : w l ps[i'].1 ps[i'].2 = cellOut j V.val fill l ps[i'].1 ps[i'].2 := if_pos ⟨k, hk⟩
      rw [hw]
      have hv := h.value hi' hp (l := 0) le_rfl (fun q => by rw [H.flat] at q; cases q)
      rw [H.flat] at hv
      simp only [Bool.false_eq_true, if_false] at hv
      rw [H.val k _ _ hk] at hv
      injection hv with hv
      rw [Int.toNat_natCast, List.getD_eq_getElem _ _ hn', e, H.flat, if_neg (by simp), ← hv, H.fill, table_value t2]
      unfold cellOut
      rw [hre, if_pos rfl]
    · have t := e4 i l (by omega) (by omega) (by omega) hlm (by
        intro k i' hi' he
        rw [hix] at he
        have he : i' = i := by omega
        subst he
        apply hg
        cases hk : rs.subs.get k with
        | none => rw [hP.none k hk] at hi'; cases hi'
        | some s => exact ⟨k, (H.grp k _ _).2 ⟨s, hk, ((hP.some k s hk).in_iff _ _).2 ⟨i', hi', by rw [hpi]⟩⟩⟩)
      rw [t, H.nd]
      congr 1
      show _ = w l ps[i].1 ps[i].2
      simp only [w]
      rw [if_neg hg]
  refine ⟨w, by rw [e1, hF], ?_⟩
  intro row col l _ _
  simp only [w]
  exact ⟨fun h => if_pos h, fun h => if_neg h⟩

/-- The reclassified groups are stored together. -/
theorem store_comb_few {rnd : ℚ → ℚ} (hrnd : ∀ v, CCGL.Spec.Representable .float v → rnd v = v) {st0 st : Store} {mode : IOMode} {j : Job} {jd : JobDb} {V : View}
    {fill : ℚ} {m : Int} {rs : RasterS} {C : Int → Int → Prop} (H : Ready rs V.hdr V.val V.grp j.default.toQ fill) (O : FewOut st0 mode j jd V fill m) (hre : j.recls = true)
    (hmode : WantsAll mode) (hany : ∃ k, Present V.grp k)
    (hcells : ∃ ps, rs.ras.posData = some ps ∧ ∀ row col, (row, col) ∈ ps ↔ V.hdr.grid.CellInside row col ∧ C row col)
    (hold : ∀ f ∈ st, CCGL.Spec.Has f ⟨storedName j.out, fewOpts j.type⟩ → CCGL.Spec.Has f ⟨storedName j.out, outOpts .double jd.own (fewOpts j.type) false⟩) :
    ∃ st' o b, outputSubsets rnd .double (fun _ => jd.rm) (fun _ => jd.att) st rs jd.own jd.core j.out (jobOpts false j.type) false true true (tableOf j.table)
        j.default.toQ = .ok (o, st', b) ∧
      (∀ R : CCGL.Spec.Key, R.name ≠ storedName j.out → CCGL.Spec.filesOf st' R = CCGL.Spec.filesOf st R) ∧
      FewWhole rnd st' (storedName j.out) (fewOpts j.type) V.hdr m (cellOut j V.val fill) V.grp C := by
  have hne := H.any.1 hany
  obtain ⟨ls, ps, G, hc⟩ := H.cut hne
  obtain ⟨t1, t2⟩ := O.table hre
  have hm := t1.2.1
  have hg := H.grid
  unfold Header.grid at hg
  injection hg with g1 g2 g3 g4 g5
  obtain ⟨ps', hp1, hp2⟩ := hcells
  rw [hc.comp.pd] at hp1
  injection hp1 with hp1
  subst hp1
  obtain ⟨w, e1, e2⟩ := cut_comb_few hc hne H hre t1 t2
  have hord : InOrder V.hdr C ps := ⟨by have := hc.comp.sorted; rwa [g2] at this, hp2⟩
  obtain ⟨st', ok, n, w1, w2, w3, w4, -⟩ := store_some (rnd := rnd) (st := st) (own := jd.own) (w := w) hrnd hord hc.comp.ne O.type
    (by rw [stored_zero]; exact few_file_key O 0) (O.whole hmode) (by
      intro row col l hin hC hlm
      obtain ⟨u1, u2⟩ := e2 row col l ((hp2 row col).2 ⟨hin, hC⟩) hlm
      by_cases hg : ∃ k, V.grp k row col
      · rw [u1 hg]
        unfold cellOut
        rw [hre, if_pos rfl]
        exact O.vals hre _ _
      · rw [u2 hg]; exact O.nodata) O.rm O.att hold
  refine ⟨st', outOpts .double jd.own (fewOpts j.type) false, ok, ?_, w3, w, w4 (w2.2 O.done.1), ?_⟩
  · unfold outputSubsets
    dsimp only
    rw [if_neg (by rw [show rs.ras.validData = true from Holds.valid hc.comp.holds]; simp), if_neg hne, if_pos rfl, if_neg O.name, e1, Out.ok_bind]
    dsimp only
    have hH : ({ rs.ras.hdr with layers := m, cellsnum := Int.tdiv ((ps.length : Int) * m) m } : Header) = { V.hdr with layers := m, cellsnum := ps.length } := by
      rw [Int.mul_tdiv_cancel _ (by omega)]
      dsimp only
      rw [g1, g2, g3, g4, g5, H.hnd]
    rw [if_neg (by omega), hH, jobOpts_false, subOpts_few jd.own O.type.1]
    have : "0_".toList ++ j.out = storedName j.out := rfl
    rw [this, w1]
    rfl
  · intro row col l hin hC hlm
    exact e2 row col l ((hp2 row col).2 ⟨hin, hC⟩) hlm

end App
end CCGL
