import Verif.Lemmas.AppGfsReclsL
import Verif.Lemmas.AppGfsFewWrite
import Verif.Spec.AppGfsFewReclsL
/-!
# Lemmas about reclassifying jobs with several input files that store files without NoData cells in GridFS
-/
namespace CCGL
namespace App
open Fs Disk Main Raster Gfs Disk.Spec App.Spec

/-- The values of one group, cell by cell. -/
theorem cut_fewL {rs : RasterS} {ls ps G} (h : Cut rs ls ps G) {N : Nat → Int → Int → ℚ → Prop} {V : View} {j : Job} {fill : ℚ} {m : Int}
    (H : ReadyL rs V.hdr N V.grp m j.default.toQ fill)
    (htab : CCGL.Spec.TableOf (numTable j) m ∧ ((numTable j).map (·.1)).Nodup) {k : Int} {s : Subset}
    (hk : rs.subs.get k = some s) :
    prepareSubsetData rs.ras k s true false (tableOf j.table) j.default.toQ =
      .ok (some (some (cellByCell ((G k).map (posAt ps)) m (lookOut j rs fill)), ((G k).length : Int) * m, m)) := by
  have hP := h.part
  have hC := h.comp
  have ho := hP.some k s hk
  obtain ⟨t1, t2⟩ := htab
  have hm := t1.2.1
  have ht := table_ok t1
  have hdef : defaultOf rs.ras j.default.toQ = CCGL.Spec.fillValue rs.ras j.default.toQ := rfl
  obtain ⟨F, e1, e2, e3, -⟩ := decomp_gen hC ho (fun i hi => hP.lt hi) (h.asc k) k true false (tableOf j.table) m m hm (reclsLyrs_table ht) (by simp; omega)
    j.default.toQ
    (fun n l => CCGL.Spec.tableValue (tableOf j.table) (truncQ (cellAt ls ((G k).getD n 0) (if rs.ras.is2d then l.toNat else 0))) l
      (CCGL.Spec.fillValue rs.ras j.default.toQ)) (by
    intro n l hn h3 h4
    have hgl : readAt s.glob n = .ok ((G k)[n] : Int) := by
      rw [ho.glob, readAt_some_nat _ _ (by simpa using hn)]
      simp
    unfold subValue
    rw [hgl, Out.ok_bind, if_pos ht.1, hdef, recls_origin hC _ (hP.lt (List.getElem_mem hn)) l h3
      (by intro h; have := H.lay h; omega) h.one, Out.ok_bind, List.getD_eq_getElem _ _ hn]
    rfl)
  simp only [Bool.false_eq_true, if_false] at e1 e2 e3
  rw [ho.n] at e1 e2
  have hF : F = cellByCell ((G k).map (posAt ps)) m (lookOut j rs fill) := by
    refine eq_cellByCell hm (by rw [List.length_map]; exact e2) ?_
    intro i l hi hlm
    rw [List.length_map] at hi
    have hv := h.value (List.getElem_mem hi) (row := (posAt ps (G k)[i]).1) (col := (posAt ps (G k)[i]).2) rfl (l := l) (by omega)
      (fun q => by have := H.lay q; omega)
    rw [e3 i hi l (by omega) hlm, List.getD_eq_getElem _ _ hi, ← layerNum_eq hv, H.fill, table_value t2]
    unfold lookOut
    rw [List.getElem_map]
  rw [e1, hF]

/-- What is written for a group. -/
theorem few_payloadL {rs : RasterS} {N : Nat → Int → Int → ℚ → Prop} {V : View} {j : Job} {fill : ℚ} {m : Int} (H : ReadyL rs V.hdr N V.grp m j.default.toQ fill)
    (htab : CCGL.Spec.TableOf (numTable j) m ∧ ((numTable j).map (·.1)).Nodup) {k : Int} {s : Subset}
    (hk : rs.subs.get k = some s) : 1 ≤ m ∧ s.usable = true ∧ IsBox (V.grp k) s.srow s.erow s.scol s.ecol ∧
    ∃ qs, qs ≠ [] ∧ InOrder (boxHeader V.hdr s.srow s.erow s.scol s.ecol) (fun row col => V.grp k (row + s.srow) (col + s.scol)) qs ∧
      Gfs.subPayload .double rs.ras k s true false (tableOf j.table) j.default.toQ = .ok (some ({ boxHeader V.hdr s.srow s.erow s.scol s.ecol with
        layers := m, cellsnum := qs.length }, some (cellByCell qs m (fun l row col => lookOut j rs fill l (row + s.srow) (col + s.scol))),
        ((cellByCell qs m (fun l row col => lookOut j rs fill l (row + s.srow) (col + s.scol))).length : Int))) := by
  have hne : rs.subs ≠ [] := fun h => by rw [h, IMap.get_nil] at hk; cases hk
  obtain ⟨ls, ps, G, hc⟩ := H.cut hne
  have ho := hc.part.some k s hk
  have hg := H.grid
  unfold Header.grid at hg
  injection hg with g1 g2 g3 g4 g5
  have hm : 1 ≤ m := htab.1.2.1
  have hbox := cut_box hc hk
  have hcells := H.cells hk
  have hmem : ∀ row col, (row, col) ∈ (G k).map (posAt ps) ↔ V.grp k row col := by
    intro row col
    rw [H.grp, List.mem_map]
    constructor
    · rintro ⟨i, hi, e⟩
      exact ⟨s, hk, (ho.in_iff row col).2 ⟨i, hi, e⟩⟩
    · rintro ⟨s', a, b⟩
      rw [hk] at a
      injection a with a
      subst a
      exact (ho.in_iff row col).1 b
  have hin : ∀ row col, V.grp k row col → s.srow ≤ row ∧ row ≤ s.erow ∧ s.scol ≤ col ∧ col ≤ s.ecol := by
    intro row col h
    obtain ⟨i, hi, e⟩ := List.mem_map.1 ((hmem row col).2 h)
    have := ho.tight.1 i hi
    rw [e] at this
    exact this
  have hsort : ((G k).map (posAt ps)).Pairwise Before :=
    group_sorted (C := rs.ras.hdr.cols) (fun a ha => (hc.comp.inside a ha).2.2) hc.comp.sorted (fun i hi => hc.part.lt hi) (hc.asc k)
  refine ⟨hm, hc.use k s hk, by rw [hcells]; exact hbox, ((G k).map (posAt ps)).map (fun a => (a.1 - s.srow, a.2 - s.scol)), ?_, ⟨?_, ?_⟩, ?_⟩
  · intro h
    rw [List.map_eq_nil_iff, List.map_eq_nil_iff] at h
    exact ho.ne h
  · rw [List.map_map, List.pairwise_map]
    refine hsort.imp_of_mem ?_
    rintro ⟨a1, a2⟩ ⟨b1, b2⟩ ha hb hab
    have qa := hin _ _ ((hmem a1 a2).1 ha)
    have qb := hin _ _ ((hmem b1 b2).1 hb)
    show (a1 - s.srow) * (s.ecol - s.scol + 1) + (a2 - s.scol) < (b1 - s.srow) * (s.ecol - s.scol + 1) + (b2 - s.scol)
    rcases hab with h | ⟨h, h'⟩
    · dsimp only at h
      have : (a1 - s.srow + 1) * (s.ecol - s.scol + 1) ≤ (b1 - s.srow) * (s.ecol - s.scol + 1) :=
        Int.mul_le_mul_of_nonneg_right (by omega) (by omega)
      rw [Int.add_mul, one_mul] at this
      omega
    · dsimp only at h h'
      rw [h]
      omega
  · intro row col
    rw [List.mem_map]
    constructor
    · rintro ⟨⟨a1, a2⟩, ha, e⟩
      simp only [Prod.mk.injEq] at e
      have q := (hmem a1 a2).1 ha
      have q2 := hin _ _ q
      refine ⟨⟨?_, ?_, ?_, ?_⟩, ?_⟩
      · omega
      · show row < s.erow - s.srow + 1; omega
      · omega
      · show col < s.ecol - s.scol + 1; omega
      · dsimp only
        have h1 : row + s.srow = a1 := by omega
        have h2 : col + s.scol = a2 := by omega
        rw [h1, h2]
        exact q
    · rintro ⟨-, h⟩
      exact ⟨(row + s.srow, col + s.scol), (hmem _ _).2 h, by simp⟩
  · rw [cellByCell_shift, cellByCell_length _ (by omega : 0 ≤ m)]
    simp only [List.length_map]
    unfold Gfs.subPayload
    rw [cut_fewL hc H htab hk, Out.ok_bind]
    dsimp only
    rw [if_neg (by omega), Int.mul_tdiv_cancel _ (by omega), Out.pure_eq]
    congr 3
    unfold Subset.getHeader boxHeader
    have ha : Gtiff.asDbl .double rs.ras.noData = rs.ras.noData := rfl
    dsimp only
    rw [ha, g1, g3, g4, g5, H.nd]
    congr 1
    · ring
    · push_cast; ring

/-- The groups are stored. -/
theorem store_groups_fewL {rnd : ℚ → ℚ} (hrnd : ∀ v, CCGL.Spec.Representable .float v → rnd v = v) {st : Store} {mode : IOMode} {j : Job} {jd : JobDb} {V : View}
    {fill : ℚ} {m : Int} {rs : RasterS} {N : Nat → Int → Int → ℚ → Prop} (H : ReadyL rs V.hdr N V.grp m j.default.toQ fill) (hre : j.recls = true) (O : FewOut st mode j jd V fill m) (hmode : WantsSingle mode) :
    ∃ st' o b, outputSubsets rnd .double jd.rms jd.atts st rs jd.own jd.core j.out (jobOpts false j.type) false true false (tableOf j.table) j.default.toQ = .ok (o, st', b) ∧
      (∀ R : CCGL.Spec.Key, (∀ k, Present V.grp k → R.name ≠ CCGL.Spec.subsetFile k j.out) → CCGL.Spec.filesOf st' R = CCGL.Spec.filesOf st R) ∧
      ∀ k, Present V.grp k → FewSingle rnd st' (CCGL.Spec.subsetFile k j.out) (fewOpts j.type) V.hdr m (lookOut j rs fill) (V.grp k) ∧
        ∀ f ∈ st', CCGL.Spec.Has f ⟨CCGL.Spec.subsetFile k j.out, fewOpts j.type⟩ →
          CCGL.Spec.Has f ⟨CCGL.Spec.subsetFile k j.out, outOpts .double jd.own (fewOpts j.type) false⟩ := by
  by_cases hne : rs.subs = []
  · have hno : ∀ k, ¬ Present V.grp k := by
      intro k hk
      obtain ⟨s, hs⟩ := (H.present k).1 hk
      rw [hne, IMap.get_nil] at hs
      cases hs
    cases hvd : rs.ras.validData with
    | false =>
      refine ⟨st, jd.own, false, ?_, fun _ _ => rfl, fun k hk => absurd hk (hno k)⟩
      unfold outputSubsets
      rw [hvd]
      rfl
    | true =>
      refine ⟨st, jd.own, false, ?_, fun _ _ => rfl, fun k hk => absurd hk (hno k)⟩
      unfold outputSubsets
      rw [hvd, if_neg (by simp), if_pos hne]
  · obtain ⟨ls, ps, G, hc⟩ := H.cut hne
    have hsorted := hc.part.sorted
    have hget : ∀ x ∈ rs.subs, rs.subs.get x.1 = some x.2 := fun x hx => (IMap.mem_iff_get _ hsorted _ _).1 hx
    have hvalid : rs.ras.validData = true := Holds.valid hc.comp.holds
    have hwt := few_kept jd.own O.type.1
    have pay : ∀ k s, rs.subs.get k = some s → s.usable = true ∧ IsBox (V.grp k) s.srow s.erow s.scol s.ecol ∧
        ∃ qs, qs ≠ [] ∧ InOrder (boxHeader V.hdr s.srow s.erow s.scol s.ecol) (fun row col => V.grp k (row + s.srow) (col + s.scol)) qs ∧
        Gfs.subPayload .double rs.ras k s true false (tableOf j.table) j.default.toQ = .ok (some ({ boxHeader V.hdr s.srow s.erow s.scol s.ecol with
          layers := m, cellsnum := qs.length }, some (cellByCell qs m (fun l row col => lookOut j rs fill l (row + s.srow) (col + s.scol))),
          ((cellByCell qs m (fun l row col => lookOut j rs fill l (row + s.srow) (col + s.scol))).length : Int))) ∧
        CCGL.Spec.StorableHeader { boxHeader V.hdr s.srow s.erow s.scol s.ecol with layers := m, cellsnum := (s.erow - s.srow + 1) * (s.ecol - s.scol + 1) } ∧
        CCGL.Spec.StorableHeader { boxHeader V.hdr s.srow s.erow s.scol s.ecol with layers := m, cellsnum := qs.length } ∧
        (∀ x ∈ cellByCell qs m (fun l row col => lookOut j rs fill l (row + s.srow) (col + s.scol)), Fits j.type x) := by
      intro k s hk
      obtain ⟨hm, hu, hbox, qs, e1, e2, e3⟩ := few_payloadL H (O.table hre) hk
      have hst := O.single hmode k ((H.present k).2 ⟨s, hk⟩) _ _ _ _ hbox
      refine ⟨hu, hbox, qs, e1, e2, e3, hst, few_header e2 e1 hst, ?_⟩
      intro x hx
      obtain ⟨⟨row, col⟩, hrc, l, hlm, rfl⟩ := mem_cellByCell hx
      exact O.vals hre _ _
    obtain ⟨st', fl, l1, l2, l3⟩ := loop_true (rnd := rnd) (T := .double) (O := j.type) (rms := jd.rms) (atts := jd.atts) (r := rs.ras) (recls := tableOf j.table) (dv := j.default.toQ) (inc := false)
      (name := j.out) (o := outOpts .double jd.own (fewOpts j.type) false) (ty := rdtToString j.type.code) hrnd (good_subFile O.key) hwt
      (few_type_mem jd.own O.type.1) (C25_roundtrip j.type) (.inr O.type) O.rms O.atts rs.subs 0 st hsorted (fun x hx => by
        obtain ⟨q1, -, qs, -, -, q2, -, q3, q4⟩ := pay _ _ (hget x hx)
        exact ⟨q1, _, _, q2, q3, q4⟩)
    refine ⟨st', outOpts .double jd.own (fewOpts j.type) false, true, ?_, ?_, ?_⟩
    · unfold outputSubsets
      dsimp only
      rw [hvalid, if_neg (by simp), if_neg hne, if_neg (by simp), if_neg O.name, jobOpts_false, subOpts_few jd.own O.type.1, l1, Out.ok_bind]
      rfl
    · intro R hR
      exact l2 R (fun x hx => by rw [subFile_eq]; exact hR _ ((H.present _).2 ⟨_, hget x hx⟩))
    · intro k hk
      have hk0 := hk
      obtain ⟨s, hk⟩ := (H.present k).1 hk
      obtain ⟨n, hn, hn'⟩ := List.getElem_of_mem ((IMap.mem_iff_get _ hsorted _ _).2 hk)
      obtain ⟨q1, q5, qs, qne, qord, q2, qh, q3, q4⟩ := pay k s hk
      have hold := O.old (CCGL.Spec.subsetFile k j.out) (.inl ⟨hmode, k, hk0, rfl⟩)
      have hnm : ∀ o : Opts, (⟨CCGL.Spec.subsetFile k j.out, o⟩ : CCGL.Spec.Key).name = subFile rs.subs[n].1 j.out := fun o => by rw [hn', subFile_eq]
      obtain ⟨t1, -, -⟩ := l3 n hn ⟨CCGL.Spec.subsetFile k j.out, fewOpts j.type⟩ (hnm _) (few_sub jd.own O.type.1) hold
      obtain ⟨t2, -, -⟩ := l3 n hn ⟨CCGL.Spec.subsetFile k j.out, outOpts .double jd.own (fewOpts j.type) false⟩ (hnm _) (fun _ _ h => h) (fun _ _ h => h)
      have hwr : ∀ i, i ≤ n → CCGL.Spec.Written jd.atts (0 + i) := fun i _ => O.done.2 _
      obtain ⟨info, u1, u2, u3⟩ := t1 hwr _ _ (by rw [hn']; exact q2)
      obtain ⟨info2, -, -, u6⟩ := t2 hwr _ _ (by rw [hn']; exact q2)
      refine ⟨⟨s.srow, s.erow, s.scol, s.ecol, q5, ?_⟩, ?_⟩
      · exact holds_some_file hrnd (own := jd.own) qord qne O.type.1 (few_file_key O k) qh q3 q4 u1 u2 u3
      · intro f hf hh
        have h1 : f ∈ CCGL.Spec.filesOf st' ⟨CCGL.Spec.subsetFile k j.out, fewOpts j.type⟩ := mem_filesOf.2 ⟨hf, hh⟩
        generalize (cellByCell qs m (fun l row col => lookOut j rs fill l (row + s.srow) (col + s.scol))).flatMap (encode j.type) = bytes at u3 u6
        have h2 : File.mk (CCGL.Spec.subsetFile k j.out) info2 bytes ∈
            CCGL.Spec.filesOf st' ⟨CCGL.Spec.subsetFile k j.out, outOpts .double jd.own (fewOpts j.type) false⟩ := by
          rw [u6]; exact List.mem_singleton.2 rfl
        obtain ⟨h3, h4⟩ := mem_filesOf.1 h2
        have h5 : File.mk (CCGL.Spec.subsetFile k j.out) info2 bytes ∈
            CCGL.Spec.filesOf st' ⟨CCGL.Spec.subsetFile k j.out, fewOpts j.type⟩ :=
          mem_filesOf.2 ⟨h3, h4.1, fun a b hab => h4.2 a b (few_sub jd.own O.type.1 a b hab)⟩
        rw [u3] at h1 h5
        rw [List.mem_singleton.1 h1, ← List.mem_singleton.1 h5]
        exact h4

/-- The cells of all groups, cell by cell. -/
theorem cut_comb_fewL {rs : RasterS} {ls ps G} (h : Cut rs ls ps G) (hne : rs.subs ≠ []) {N : Nat → Int → Int → ℚ → Prop} {V : View} {j : Job} {fill : ℚ} {m : Int}
    (H : ReadyL rs V.hdr N V.grp m j.default.toQ fill)
    (t1 : CCGL.Spec.TableOf (numTable j) m) (t2 : ((numTable j).map (·.1)).Nodup) :
    ∃ w : Nat → Int → Int → ℚ, prepareComb rs true false (tableOf j.table) j.default.toQ =
        .ok (some (some (cellByCell ps m w), (ps.length : Int) * m, m)) ∧
      ∀ row col (l : Nat), (row, col) ∈ ps → (l : Int) < m → ((∃ k, V.grp k row col) → w l row col = lookOut j rs fill l row col) ∧
        ((¬ ∃ k, V.grp k row col) → w l row col = V.hdr.noData) := by
  classical
  have hP := h.part
  have hC := h.comp
  have ht := table_ok t1
  have hmem : ∀ k s, (k, s) ∈ rs.subs ↔ rs.subs.get k = some s := fun k s => IMap.mem_iff_get rs.subs hP.sorted k s
  obtain ⟨n, hall⟩ := h.lyrs
  have hm := ht.2.1
  obtain ⟨lsub, hls, -⟩ : ∃ lsub, subsetLyrs rs.subs false = some lsub ∧ True := by
    obtain ⟨x, h1, -, -⟩ := subsetLyrs_recls n rs.subs (-1) (fun e he _ => hall e.1 e.2 ((hmem _ _).1 he)) (.inl rfl)
    exact ⟨x, h1, trivial⟩
  have hdef : defaultOf rs.ras j.default.toQ = CCGL.Spec.fillValue rs.ras j.default.toQ := rfl
  obtain ⟨F, e1, e2, e3, e4⟩ := comb_any hC hP m hm true (tableOf j.table) m lsub (reclsLyrs_table ht)
    (by rw [decide_eq_false ht.1]; exact hls) (by simp; omega) hne j.default.toQ
    (fun k _ i l => CCGL.Spec.tableValue (tableOf j.table) (truncQ (cellAt ls ((G k).getD i.toNat 0) (if rs.ras.is2d then l.toNat else 0))) l
      (CCGL.Spec.fillValue rs.ras j.default.toQ)) (by
      intro k s ud i l hk _ h0 h1 h3 h4
      have ho := hP.some k s hk
      have hjl : i.toNat < (G k).length := by have := ho.n; omega
      have hgl : readAt s.glob i = .ok ((G k)[i.toNat] : Int) := by
        rw [ho.glob, readAt_some_int _ _ h0 (by rw [List.length_map]; omega)]
        simp
      unfold combValue
      rw [hgl, Out.ok_bind, if_pos ht.1, hdef, recls_origin hC _ (hP.lt (List.getElem_mem hjl)) l h3
        (by intro h; have := H.lay h; omega) h.one, Out.ok_bind, List.getD_eq_getElem _ _ hjl]
      rfl) false
  simp only [Bool.false_eq_true, if_false, hC.ncells] at e1 e2 e3 e4
  let w : Nat → Int → Int → ℚ := fun l row col => if ∃ k, V.grp k row col then lookOut j rs fill l row col else V.hdr.noData
  have hix : ∀ i, outIdx rs.ras ps false i = i := fun i => by unfold outIdx; rw [if_neg (by simp)]
  have hnd : ps.Nodup := by
    have hsrt := hC.sorted
    rw [List.pairwise_map] at hsrt
    exact hsrt.imp (by rintro x y hxy rfl; omega)
  have hF : F = cellByCell ps m w := by
    refine eq_cellByCell hm e2 ?_
    intro i l hi hlm
    have hpi : posAt ps i = ps[i] := by unfold posAt; rw [List.getD_eq_getElem _ _ hi]
    by_cases hg : ∃ k, V.grp k ps[i].1 ps[i].2
    · obtain ⟨k, hk⟩ := hg
      obtain ⟨s, hs, hin⟩ := (H.grp k _ _).1 hk
      obtain ⟨i', hi', hp⟩ := ((hP.some k s hs).in_iff _ _).1 hin
      have hii : i' = i := by
        have hlt := hP.lt hi'
        have : ps[i'] = ps[i] := by
          have : posAt ps i' = ps[i'] := by unfold posAt; rw [List.getD_eq_getElem _ _ hlt]
          rw [← this, hp]
        exact (List.Nodup.getElem_inj_iff hnd).1 this
      subst hii
      obtain ⟨n', hn', e⟩ := List.getElem_of_mem hi'
      have t := e3 k s n' l hs hn' (by omega) hlm
      rw [h.use k s hs, if_pos rfl, e, hix] at t
      rw [t]
      congr 1
      have hw : w l ps[i'].1 ps[i'].2 = lookOut j rs fill l ps[i'].1 ps[i'].2 := if_pos ⟨k, hk⟩
      rw [hw]
      have hv := h.value hi' hp (l := l) (by omega) (fun q => by have := H.lay q; omega)
      rw [Int.toNat_natCast, List.getD_eq_getElem _ _ hn', e]
      rw [← layerNum_eq hv, H.fill, table_value t2]
      rfl
    · have t := e4 i l (by omega) (by omega) (by omega) hlm (by
        intro k i' hi' he
        rw [hix] at he
        have he : i' = i := by omega
        subst he
        apply hg
        cases hk : rs.subs.get k with
        | none => rw [hP.none k hk] at hi'; cases hi'
        | some s => exact ⟨k, (H.grp k _ _).2 ⟨s, hk, ((hP.some k s hk).in_iff _ _).2 ⟨i', hi', by rw [hpi]⟩⟩⟩)
      rw [t, H.nd]
      congr 1
      show _ = w l ps[i].1 ps[i].2
      simp only [w]
      rw [if_neg hg]
  refine ⟨w, by rw [e1, hF], ?_⟩
  intro row col l _ _
  simp only [w]
  exact ⟨fun h => if_pos h, fun h => if_neg h⟩

/-- The reclassified groups are stored together. -/
theorem store_comb_fewL {rnd : ℚ → ℚ} (hrnd : ∀ v, CCGL.Spec.Representable .float v → rnd v = v) {st0 st : Store} {mode : IOMode} {j : Job} {jd : JobDb} {V : View}
    {fill : ℚ} {m : Int} {rs : RasterS} {N : Nat → Int → Int → ℚ → Prop} {C : Int → Int → Prop} (H : ReadyL rs V.hdr N V.grp m j.default.toQ fill) (O : FewOut st0 mode j jd V fill m) (hre : j.recls = true)
    (hmode : WantsAll mode) (hany : ∃ k, Present V.grp k)
    (hcells : ∃ ps, rs.ras.posData = some ps ∧ ∀ row col, (row, col) ∈ ps ↔ V.hdr.grid.CellInside row col ∧ C row col)
    (hold : ∀ f ∈ st, CCGL.Spec.Has f ⟨storedName j.out, fewOpts j.type⟩ → CCGL.Spec.Has f ⟨storedName j.out, outOpts .double jd.own (fewOpts j.type) false⟩) :
    ∃ st' o b, outputSubsets rnd .double (fun _ => jd.rm) (fun _ => jd.att) st rs jd.own jd.core j.out (jobOpts false j.type) false true true (tableOf j.table)
        j.default.toQ = .ok (o, st', b) ∧
      (∀ R : CCGL.Spec.Key, R.name ≠ storedName j.out → CCGL.Spec.filesOf st' R = CCGL.Spec.filesOf st R) ∧
      FewWhole rnd st' (storedName j.out) (fewOpts j.type) V.hdr m (lookOut j rs fill) V.grp C := by
  have hne := H.any.1 hany
  obtain ⟨ls, ps, G, hc⟩ := H.cut hne
  obtain ⟨t1, t2⟩ := O.table hre
  have hm := t1.2.1
  have hg := H.grid
  unfold Header.grid at hg
  injection hg with g1 g2 g3 g4 g5
  obtain ⟨ps', hp1, hp2⟩ := hcells
  rw [hc.comp.pd] at hp1
  injection hp1 with hp1
  subst hp1
  obtain ⟨w, e1, e2⟩ := cut_comb_fewL hc hne H t1 t2
  have hord : InOrder V.hdr C ps := ⟨by have := hc.comp.sorted; rwa [g2] at this, hp2⟩
  obtain ⟨st', ok, n, w1, w2, w3, w4, -⟩ := store_some (rnd := rnd) (st := st) (own := jd.own) (w := w) hrnd hord hc.comp.ne O.type
    (by rw [stored_zero]; exact few_file_key O 0) (O.whole hmode) (by
      intro row col l hin hC hlm
      obtain ⟨u1, u2⟩ := e2 row col l ((hp2 row col).2 ⟨hin, hC⟩) hlm
      by_cases hg : ∃ k, V.grp k row col
      · rw [u1 hg]
        exact O.vals hre _ _
      · rw [u2 hg]; exact O.nodata) O.rm O.att hold
  refine ⟨st', outOpts .double jd.own (fewOpts j.type) false, ok, ?_, w3, w, w4 (w2.2 O.done.1), ?_⟩
  · unfold outputSubsets
    dsimp only
    rw [if_neg (by rw [show rs.ras.validData = true from Holds.valid hc.comp.holds]; simp), if_neg hne, if_pos rfl, if_neg O.name, e1, Out.ok_bind]
    dsimp only
    have hH : ({ rs.ras.hdr with layers := m, cellsnum := Int.tdiv ((ps.length : Int) * m) m } : Header) = { V.hdr with layers := m, cellsnum := ps.length } := by
      rw [Int.mul_tdiv_cancel _ (by omega)]
      dsimp only
      rw [g1, g2, g3, g4, g5, H.hnd]
    rw [if_neg (by omega), hH, jobOpts_false, subOpts_few jd.own O.type.1]
    have : "0_".toList ++ j.out = storedName j.out := rfl
    rw [this, w1]
    rfl
  · intro row col l hin hC hlm
    exact e2 row col l ((hp2 row col).2 ⟨hin, hC⟩) hlm

/-- What holds after the files of the groups (if any) have been stored. -/
theorem step_groups_fewL {rnd : ℚ → ℚ} (hrnd : ∀ v, CCGL.Spec.Representable .float v → rnd v = v) {st : Store} {mode : IOMode} {j : Job} {jd : JobDb} {V : View}
    {fill : ℚ} {m : Int} {rs : RasterS} {N : Nat → Int → Int → ℚ → Prop} (H : ReadyL rs V.hdr N V.grp m j.default.toQ fill) (hre : j.recls = true) (O : FewOut st mode j jd V fill m) :
    ∃ s1, (if outSubset mode then do
        let w ← outputSubsets rnd .double jd.rms jd.atts st rs jd.own jd.core j.out (jobOpts false j.type) false true false (tableOf j.table) j.default.toQ
        return w.2.1
      else return st : Out Store) = .ok s1 ∧
      (∀ R : CCGL.Spec.Key, (∀ k, WantsSingle mode → Present V.grp k → R.name ≠ CCGL.Spec.subsetFile k j.out) → CCGL.Spec.filesOf s1 R = CCGL.Spec.filesOf st R) ∧
      (WantsSingle mode → ∀ k, Present V.grp k → FewSingle rnd s1 (CCGL.Spec.subsetFile k j.out) (fewOpts j.type) V.hdr m (lookOut j rs fill) (V.grp k)) ∧
      (WantsAll mode → (j.recls = true → ∃ k, Present V.grp k) → ∀ f ∈ s1, CCGL.Spec.Has f ⟨storedName j.out, fewOpts j.type⟩ →
        CCGL.Spec.Has f ⟨storedName j.out, outOpts .double jd.own (fewOpts j.type) false⟩) := by
  by_cases hm : WantsSingle mode
  · rw [if_pos ((outSubset_iff mode).2 hm)]
    obtain ⟨s1, o, b, e, h1, h2⟩ := store_groups_fewL hrnd H hre O hm
    refine ⟨s1, by rw [e]; rfl, fun R hR => h1 R (fun k hk => hR k hm hk), fun _ k hk => (h2 k hk).1, ?_⟩
    intro ha hany f hf hh
    by_cases h0 : Present V.grp 0
    · have := (h2 0 h0).2 f hf
      rw [← stored_zero] at this
      exact this hh
    · have hsame : ∀ o : Opts, CCGL.Spec.filesOf s1 ⟨storedName j.out, o⟩ = CCGL.Spec.filesOf st ⟨storedName j.out, o⟩ := by
        intro o
        apply h1
        intro k hk he
        have he : storedName j.out = CCGL.Spec.subsetFile k j.out := he
        rw [stored_zero, ← subFile_eq, ← subFile_eq] at he
        rw [← subFile_inj he] at hk
        exact h0 hk
      have h3 : f ∈ CCGL.Spec.filesOf s1 ⟨storedName j.out, fewOpts j.type⟩ := mem_filesOf.2 ⟨hf, hh⟩
      rw [hsame] at h3
      obtain ⟨h4, h5⟩ := mem_filesOf.1 h3
      exact O.old _ (.inr ⟨ha, hany, rfl⟩) f h4 h5
  · rw [if_neg (fun h => hm ((outSubset_iff mode).1 h))]
    exact ⟨st, rfl, fun _ _ => rfl, fun h => absurd h hm, fun ha hany => O.old _ (.inr ⟨ha, hany, rfl⟩)⟩

/-- A reclassification job stores its outputs. -/
theorem write_recls_fewL {sys : Sys} (hrnd : ∀ v, CCGL.Spec.Representable .float v → sys.rnd v = v) {st : Store} {mode : IOMode} {j : Job} {jd : JobDb} {V : View}
    {fill : ℚ} {m : Int} {rs : RasterS} {N : Nat → Int → Int → ℚ → Prop} {noMask : Bool} {C : Int → Int → Prop} (hre : j.recls = true) (H : ReadyL rs V.hdr N V.grp m j.default.toQ fill)
    (O : FewOut st mode j jd V fill m)
    (hcells : WantsAll mode → (∃ k, Present V.grp k) → ∃ ps, rs.ras.posData = some ps ∧ ∀ row col, (row, col) ∈ ps ↔ V.hdr.grid.CellInside row col ∧ C row col) :
    ∃ st', writeJobDb sys.rnd false mode jd j noMask rs st = .ok st' ∧ OthersStay st st' mode j V.grp ∧ DbLayersFew sys.rnd st' mode j V N fill m C := by
  obtain ⟨s1, e1, f1, d1, o1⟩ := step_groups_fewL hrnd H hre O
  have hu : ∀ k row col (l : Nat), V.grp k row col → (l : Int) < m →
      ∃ x, N l row col x ∧ lookOut j rs fill l row col = CCGL.Spec.tableValue (numTable j) (truncQ x) l fill := by
    intro k row col l hk hlm
    obtain ⟨x, hx⟩ := H.reads (O.table hre).1 hk l hlm
    exact ⟨x, H.val k row col l x hk hlm hx, by unfold lookOut; rw [layerNum_eq hx]⟩
  have hw : writeJobDb sys.rnd false mode jd j noMask rs st = (do
      if outAll mode then do
        let w ← outputSubsets sys.rnd .double (fun _ => jd.rm) (fun _ => jd.att) s1 rs jd.own jd.core j.out (jobOpts false j.type) false true true
          (tableOf j.table) j.default.toQ
        return w.2.1
      else return s1 : Out Store) := by
    unfold writeJobDb
    dsimp only
    rw [hre, if_pos rfl, e1]
    rfl
  rw [hw]
  by_cases hm : WantsAll mode
  · rw [if_pos ((outAll_iff mode).2 hm)]
    by_cases hp : ∃ k, Present V.grp k
    · obtain ⟨s2, o, b, e2, f2, d2⟩ := store_comb_fewL hrnd H O hre hm hp (hcells hm hp) (o1 hm (fun _ => hp))
      refine ⟨s2, by rw [e2]; rfl, ?_, lookOut j rs fill, hu, ?_, fun _ _ => d2⟩
      · intro R hR
        rw [f2 R (hR _ (.inr ⟨hm, fun _ => hp, rfl⟩)), f1 R (fun k hs hk => hR _ (.inl ⟨hs, k, hk, rfl⟩))]
      · intro hs k hk h0
        refine fewSingle_congr (few_file_key O k).name (f2 _ ?_) (d1 hs k hk)
        intro he
        have he : CCGL.Spec.subsetFile k j.out = storedName j.out := he
        rw [stored_zero, ← subFile_eq, ← subFile_eq] at he
        exact h0 hm (subFile_inj he)
    · have hs : rs.subs = [] := by
        by_contra hne
        exact hp (H.any.2 hne)
      refine ⟨s1, ?_, ?_, lookOut j rs fill, hu, fun h k hk => absurd ⟨k, hk⟩ hp, fun _ h => absurd h hp⟩
      · unfold outputSubsets
        cases hvd : rs.ras.validData with
        | false => rfl
        | true =>
          rw [if_neg (by simp), if_pos hs]
          rfl
      · intro R hR
        exact f1 R (fun k hs hk => hR _ (.inl ⟨hs, k, hk, rfl⟩))
  · rw [if_neg (fun h => hm ((outAll_iff mode).1 h))]
    refine ⟨s1, rfl, fun R hR => f1 R (fun k hs hk => hR _ (.inl ⟨hs, k, hk, rfl⟩)), lookOut j rs fill, hu, fun h k hk _ => d1 h k hk, fun h => absurd h hm⟩

end App
end CCGL
