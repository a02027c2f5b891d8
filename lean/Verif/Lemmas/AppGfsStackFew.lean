import Verif.Lemmas.AppGfsStack
import Verif.Lemmas.AppGfsFewReclsL
import Verif.Lemmas.AppGfsLayersFew
import Verif.Spec.AppGfsStackFew
/-!
# Lemmas about jobs with several input files, no table and output to GridFS without NoData cells
-/
namespace CCGL
namespace App
open Fs Disk Main Raster Gfs Disk.Spec App.Spec

/-- The values of one group in all layers, cell by cell. -/
theorem cut_stackF {rs : RasterS} {ls ps G} (h : Cut rs ls ps G) (h2 : rs.ras.is2d = true) {n : Nat} (hl : rs.ras.nLyrs = n) (hn : 1 < n) (dv : ℚ) {k : Int} {s : Subset}
    (hk : rs.subs.get k = some s) :
    prepareSubsetData rs.ras k s true false [] dv =
      .ok (some (some (cellByCell ((G k).map (posAt ps)) n (layerNum rs)), ((G k).length : Int) * n, n)) := by
  have hP := h.part
  have hC := h.comp
  have ho := hP.some k s hk
  obtain ⟨F, e1, e2, e3, -⟩ := decomp_core hC (fun _ => by rw [hl]; exact_mod_cast hn) ho (fun i hi => hP.lt hi) (h.asc k) k false dv
  simp only [Bool.false_eq_true, if_false] at e1 e2 e3
  rw [hl] at e1 e2 e3
  rw [ho.n] at e1 e2
  have hF : F = cellByCell ((G k).map (posAt ps)) n (layerNum rs) := by
    refine eq_cellByCell (by omega) (by rw [List.length_map]; exact e2) ?_
    intro i l hi hlm
    rw [List.length_map] at hi
    have hv := h.value (List.getElem_mem hi) (row := (posAt ps (G k)[i]).1) (col := (posAt ps (G k)[i]).2) rfl (l := l) (by omega)
      (fun _ => by rw [hl]; exact hlm)
    rw [e3 i hi l (by omega) hlm, List.getElem_map]
    rw [h2] at hv
    simp only [if_true] at hv
    rw [layerNum_eq (by rw [h2]; exact hv)]
  rw [e1, hF]

/-- What is written for a group. -/
theorem few_payloadS {rs : RasterS} {N : Nat → Int → Int → ℚ → Prop} {V : View} {j : Job} {fill : ℚ} {m : Int} (H : ReadyL rs V.hdr N V.grp m j.default.toQ fill)
    (h2 : rs.ras.is2d = true) {n : Nat} (hmn : m = n) (hl : rs.ras.nLyrs = n) (hn : 1 < n) {k : Int} {s : Subset}
    (hk : rs.subs.get k = some s) : 1 ≤ m ∧ s.usable = true ∧ IsBox (V.grp k) s.srow s.erow s.scol s.ecol ∧
    ∃ qs, qs ≠ [] ∧ InOrder (boxHeader V.hdr s.srow s.erow s.scol s.ecol) (fun row col => V.grp k (row + s.srow) (col + s.scol)) qs ∧
      Gfs.subPayload .double rs.ras k s true false [] NODATA = .ok (some ({ boxHeader V.hdr s.srow s.erow s.scol s.ecol with
        layers := m, cellsnum := qs.length }, some (cellByCell qs m (fun l row col => layerNum rs l (row + s.srow) (col + s.scol))),
        ((cellByCell qs m (fun l row col => layerNum rs l (row + s.srow) (col + s.scol))).length : Int))) := by
  have hne : rs.subs ≠ [] := fun h => by rw [h, IMap.get_nil] at hk; cases hk
  obtain ⟨ls, ps, G, hc⟩ := H.cut hne
  have ho := hc.part.some k s hk
  have hg := H.grid
  unfold Header.grid at hg
  injection hg with g1 g2 g3 g4 g5
  have hm : 1 ≤ m := by omega
  have hbox := cut_box hc hk
  have hcells := H.cells hk
  have hmem : ∀ row col, (row, col) ∈ (G k).map (posAt ps) ↔ V.grp k row col := by
    intro row col
    rw [H.grp, List.mem_map]
    constructor
    · rintro ⟨i, hi, e⟩
      exact ⟨s, hk, (ho.in_iff row col).2 ⟨i, hi, e⟩⟩
    · rintro ⟨s', a, b⟩
      rw [hk] at a
      injection a with a
      subst a
      exact (ho.in_iff row col).1 b
  have hin : ∀ row col, V.grp k row col → s.srow ≤ row ∧ row ≤ s.erow ∧ s.scol ≤ col ∧ col ≤ s.ecol := by
    intro row col h
    obtain ⟨i, hi, e⟩ := List.mem_map.1 ((hmem row col).2 h)
    have := ho.tight.1 i hi
    rw [e] at this
    exact this
  have hsort : ((G k).map (posAt ps)).Pairwise Before :=
    group_sorted (C := rs.ras.hdr.cols) (fun a ha => (hc.comp.inside a ha).2.2) hc.comp.sorted (fun i hi => hc.part.lt hi) (hc.asc k)
  refine ⟨hm, hc.use k s hk, by rw [hcells]; exact hbox, ((G k).map (posAt ps)).map (fun a => (a.1 - s.srow, a.2 - s.scol)), ?_, ⟨?_, ?_⟩, ?_⟩
  · intro h
    rw [List.map_eq_nil_iff, List.map_eq_nil_iff] at h
    exact ho.ne h
  · rw [List.map_map, List.pairwise_map]
    refine hsort.imp_of_mem ?_
    rintro ⟨a1, a2⟩ ⟨b1, b2⟩ ha hb hab
    have qa := hin _ _ ((hmem a1 a2).1 ha)
    have qb := hin _ _ ((hmem b1 b2).1 hb)
    show (a1 - s.srow) * (s.ecol - s.scol + 1) + (a2 - s.scol) < (b1 - s.srow) * (s.ecol - s.scol + 1) + (b2 - s.scol)
    rcases hab with h | ⟨h, h'⟩
    · dsimp only at h
      have : (a1 - s.srow + 1) * (s.ecol - s.scol + 1) ≤ (b1 - s.srow) * (s.ecol - s.scol + 1) :=
        Int.mul_le_mul_of_nonneg_right (by omega) (by omega)
      rw [Int.add_mul, one_mul] at this
      omega
    · dsimp only at h h'
      rw [h]
      omega
  · intro row col
    rw [List.mem_map]
    constructor
    · rintro ⟨⟨a1, a2⟩, ha, e⟩
      simp only [Prod.mk.injEq] at e
      have q := (hmem a1 a2).1 ha
      have q2 := hin _ _ q
      refine ⟨⟨?_, ?_, ?_, ?_⟩, ?_⟩
      · omega
      · show row < s.erow - s.srow + 1; omega
      · omega
      · show col < s.ecol - s.scol + 1; omega
      · dsimp only
        have h1 : row + s.srow = a1 := by omega
        have h2 : col + s.scol = a2 := by omega
        rw [h1, h2]
        exact q
    · rintro ⟨-, h⟩
      exact ⟨(row + s.srow, col + s.scol), (hmem _ _).2 h, by simp⟩
  · rw [cellByCell_shift, cellByCell_length _ (by omega : 0 ≤ m)]
    simp only [List.length_map]
    unfold Gfs.subPayload
    rw [cut_stackF hc h2 hl hn NODATA hk, ← hmn, Out.ok_bind]
    dsimp only
    rw [if_neg (by omega), Int.mul_tdiv_cancel _ (by omega), Out.pure_eq]
    congr 3
    unfold Subset.getHeader boxHeader
    have ha : Gtiff.asDbl .double rs.ras.noData = rs.ras.noData := rfl
    dsimp only
    rw [ha, g1, g3, g4, g5, H.nd]
    congr 1
    · ring
    · push_cast; ring

theorem few_file_keyS {st : Store} {mode : IOMode} {j : Job} {jd : JobDb} {V : View} {N : Nat → Int → Int → ℚ → Prop} {n : Nat} (O : StackFewOut st mode j jd V N n) (k : Int) :
    CCGL.Spec.GoodKey ⟨CCGL.Spec.subsetFile k j.out, outOpts .double jd.own (fewOpts j.type) false⟩ := by
  rw [← subFile_eq]
  exact good_subFile O.key k

/-- The groups are stored. -/
theorem store_groups_fewS {rnd : ℚ → ℚ} (hrnd : ∀ v, CCGL.Spec.Representable .float v → rnd v = v) {st : Store} {mode : IOMode} {j : Job} {jd : JobDb} {V : View}
    {fill : ℚ} {m : Int} {rs : RasterS} {N : Nat → Int → Int → ℚ → Prop} (H : ReadyL rs V.hdr N V.grp m j.default.toQ fill) (h2 : rs.ras.is2d = true) {n : Nat} (hmn : m = n) (hl : rs.ras.nLyrs = n) (hn : 1 < n)
    (hin : ∀ k row col, V.grp k row col → V.hdr.grid.CellInside row col) (hN : ∀ k row col (l : Nat), V.grp k row col → l < n → N l row col (layerNum rs l row col)) (O : StackFewOut st mode j jd V N n) (hmode : WantsSingle mode) :
    ∃ st' o b, outputSubsets rnd .double jd.rms jd.atts st rs jd.own jd.core j.out (jobOpts false j.type) false true false [] NODATA = .ok (o, st', b) ∧
      (∀ R : CCGL.Spec.Key, (∀ k, Present V.grp k → R.name ≠ CCGL.Spec.subsetFile k j.out) → CCGL.Spec.filesOf st' R = CCGL.Spec.filesOf st R) ∧
      ∀ k, Present V.grp k → FewSingle rnd st' (CCGL.Spec.subsetFile k j.out) (fewOpts j.type) V.hdr m (layerNum rs) (V.grp k) ∧
        ∀ f ∈ st', CCGL.Spec.Has f ⟨CCGL.Spec.subsetFile k j.out, fewOpts j.type⟩ →
          CCGL.Spec.Has f ⟨CCGL.Spec.subsetFile k j.out, outOpts .double jd.own (fewOpts j.type) false⟩ := by
  by_cases hne : rs.subs = []
  · have hno : ∀ k, ¬ Present V.grp k := by
      intro k hk
      obtain ⟨s, hs⟩ := (H.present k).1 hk
      rw [hne, IMap.get_nil] at hs
      cases hs
    cases hvd : rs.ras.validData with
    | false =>
      refine ⟨st, jd.own, false, ?_, fun _ _ => rfl, fun k hk => absurd hk (hno k)⟩
      unfold outputSubsets
      rw [hvd]
      rfl
    | true =>
      refine ⟨st, jd.own, false, ?_, fun _ _ => rfl, fun k hk => absurd hk (hno k)⟩
      unfold outputSubsets
      rw [hvd, if_neg (by simp), if_pos hne]
  · obtain ⟨ls, ps, G, hc⟩ := H.cut hne
    have hsorted := hc.part.sorted
    have hget : ∀ x ∈ rs.subs, rs.subs.get x.1 = some x.2 := fun x hx => (IMap.mem_iff_get _ hsorted _ _).1 hx
    have hvalid : rs.ras.validData = true := Holds.valid hc.comp.holds
    have hwt := few_kept jd.own O.type.1
    have pay : ∀ k s, rs.subs.get k = some s → s.usable = true ∧ IsBox (V.grp k) s.srow s.erow s.scol s.ecol ∧
        ∃ qs, qs ≠ [] ∧ InOrder (boxHeader V.hdr s.srow s.erow s.scol s.ecol) (fun row col => V.grp k (row + s.srow) (col + s.scol)) qs ∧
        Gfs.subPayload .double rs.ras k s true false [] NODATA = .ok (some ({ boxHeader V.hdr s.srow s.erow s.scol s.ecol with
          layers := m, cellsnum := qs.length }, some (cellByCell qs m (fun l row col => layerNum rs l (row + s.srow) (col + s.scol))),
          ((cellByCell qs m (fun l row col => layerNum rs l (row + s.srow) (col + s.scol))).length : Int))) ∧
        CCGL.Spec.StorableHeader { boxHeader V.hdr s.srow s.erow s.scol s.ecol with layers := m, cellsnum := (s.erow - s.srow + 1) * (s.ecol - s.scol + 1) } ∧
        CCGL.Spec.StorableHeader { boxHeader V.hdr s.srow s.erow s.scol s.ecol with layers := m, cellsnum := qs.length } ∧
        (∀ x ∈ cellByCell qs m (fun l row col => layerNum rs l (row + s.srow) (col + s.scol)), Fits j.type x) := by
      intro k s hk
      obtain ⟨hm, hu, hbox, qs, e1, e2, e3⟩ := few_payloadS H h2 hmn hl hn hk
      have hst := hmn ▸ O.single hmode k ((H.present k).2 ⟨s, hk⟩) _ _ _ _ hbox
      refine ⟨hu, hbox, qs, e1, e2, e3, hst, few_header e2 e1 hst, ?_⟩
      intro x hx
      obtain ⟨⟨row, col⟩, hrc, l, hlm, rfl⟩ := mem_cellByCell hx
      have hg : V.grp k (row + s.srow) (col + s.scol) := ((e2.2 row col).1 hrc).2
      exact O.cells _ _ (hin _ _ _ hg) l (by omega) _ (hN _ _ _ l hg (by omega))
    obtain ⟨st', fl, l1, l2, l3⟩ := loop_true (rnd := rnd) (T := .double) (O := j.type) (rms := jd.rms) (atts := jd.atts) (r := rs.ras) (recls := []) (dv := NODATA) (inc := false)
      (name := j.out) (o := outOpts .double jd.own (fewOpts j.type) false) (ty := rdtToString j.type.code) hrnd (good_subFile O.key) hwt
      (few_type_mem jd.own O.type.1) (C25_roundtrip j.type) (.inr O.type) O.rms O.atts rs.subs 0 st hsorted (fun x hx => by
        obtain ⟨q1, -, qs, -, -, q2, -, q3, q4⟩ := pay _ _ (hget x hx)
        exact ⟨q1, _, _, q2, q3, q4⟩)
    refine ⟨st', outOpts .double jd.own (fewOpts j.type) false, true, ?_, ?_, ?_⟩
    · unfold outputSubsets
      dsimp only
      rw [hvalid, if_neg (by simp), if_neg hne, if_neg (by simp), if_neg O.name, jobOpts_false, subOpts_few jd.own O.type.1, l1, Out.ok_bind]
      rfl
    · intro R hR
      exact l2 R (fun x hx => by rw [subFile_eq]; exact hR _ ((H.present _).2 ⟨_, hget x hx⟩))
    · intro k hk
      have hk0 := hk
      obtain ⟨s, hk⟩ := (H.present k).1 hk
      obtain ⟨n, hn, hn'⟩ := List.getElem_of_mem ((IMap.mem_iff_get _ hsorted _ _).2 hk)
      obtain ⟨q1, q5, qs, qne, qord, q2, qh, q3, q4⟩ := pay k s hk
      have hold := O.old (CCGL.Spec.subsetFile k j.out) (.inl ⟨hmode, k, hk0, rfl⟩)
      have hnm : ∀ o : Opts, (⟨CCGL.Spec.subsetFile k j.out, o⟩ : CCGL.Spec.Key).name = subFile rs.subs[n].1 j.out := fun o => by rw [hn', subFile_eq]
      obtain ⟨t1, -, -⟩ := l3 n hn ⟨CCGL.Spec.subsetFile k j.out, fewOpts j.type⟩ (hnm _) (few_sub jd.own O.type.1) hold
      obtain ⟨t2, -, -⟩ := l3 n hn ⟨CCGL.Spec.subsetFile k j.out, outOpts .double jd.own (fewOpts j.type) false⟩ (hnm _) (fun _ _ h => h) (fun _ _ h => h)
      have hwr : ∀ i, i ≤ n → CCGL.Spec.Written jd.atts (0 + i) := fun i _ => O.done.2 _
      obtain ⟨info, u1, u2, u3⟩ := t1 hwr _ _ (by rw [hn']; exact q2)
      obtain ⟨info2, -, -, u6⟩ := t2 hwr _ _ (by rw [hn']; exact q2)
      refine ⟨⟨s.srow, s.erow, s.scol, s.ecol, q5, ?_⟩, ?_⟩
      · exact holds_some_file hrnd (own := jd.own) qord qne O.type.1 (few_file_keyS O k) qh q3 q4 u1 u2 u3
      · intro f hf hh
        have h1 : f ∈ CCGL.Spec.filesOf st' ⟨CCGL.Spec.subsetFile k j.out, fewOpts j.type⟩ := mem_filesOf.2 ⟨hf, hh⟩
        generalize (cellByCell qs m (fun l row col => layerNum rs l (row + s.srow) (col + s.scol))).flatMap (encode j.type) = bytes at u3 u6
        have h2 : File.mk (CCGL.Spec.subsetFile k j.out) info2 bytes ∈
            CCGL.Spec.filesOf st' ⟨CCGL.Spec.subsetFile k j.out, outOpts .double jd.own (fewOpts j.type) false⟩ := by
          rw [u6]; exact List.mem_singleton.2 rfl
        obtain ⟨h3, h4⟩ := mem_filesOf.1 h2
        have h5 : File.mk (CCGL.Spec.subsetFile k j.out) info2 bytes ∈
            CCGL.Spec.filesOf st' ⟨CCGL.Spec.subsetFile k j.out, fewOpts j.type⟩ :=
          mem_filesOf.2 ⟨h3, h4.1, fun a b hab => h4.2 a b (few_sub jd.own O.type.1 a b hab)⟩
        rw [u3] at h1 h5
        rw [List.mem_singleton.1 h1, ← List.mem_singleton.1 h5]
        exact h4

/-- What holds after the files of the groups (if any) have been stored. -/
theorem step_groups_fewS {rnd : ℚ → ℚ} (hrnd : ∀ v, CCGL.Spec.Representable .float v → rnd v = v) {st : Store} {mode : IOMode} {j : Job} {jd : JobDb} {V : View}
    {fill : ℚ} {m : Int} {rs : RasterS} {N : Nat → Int → Int → ℚ → Prop} (H : ReadyL rs V.hdr N V.grp m j.default.toQ fill) (h2 : rs.ras.is2d = true) {n : Nat} (hmn : m = n) (hl : rs.ras.nLyrs = n) (hn : 1 < n)
    (hin : ∀ k row col, V.grp k row col → V.hdr.grid.CellInside row col) (hN : ∀ k row col (l : Nat), V.grp k row col → l < n → N l row col (layerNum rs l row col)) (O : StackFewOut st mode j jd V N n) :
    ∃ s1, (if outSubset mode then do
        let w ← outputSubsets rnd .double jd.rms jd.atts st rs jd.own jd.core j.out (jobOpts false j.type) false true false [] NODATA
        return w.2.1
      else return st : Out Store) = .ok s1 ∧
      (∀ R : CCGL.Spec.Key, (∀ k, WantsSingle mode → Present V.grp k → R.name ≠ CCGL.Spec.subsetFile k j.out) → CCGL.Spec.filesOf s1 R = CCGL.Spec.filesOf st R) ∧
      (WantsSingle mode → ∀ k, Present V.grp k → FewSingle rnd s1 (CCGL.Spec.subsetFile k j.out) (fewOpts j.type) V.hdr m (layerNum rs) (V.grp k)) ∧
      (WantsAll mode → (j.recls = true → ∃ k, Present V.grp k) → ∀ f ∈ s1, CCGL.Spec.Has f ⟨storedName j.out, fewOpts j.type⟩ →
        CCGL.Spec.Has f ⟨storedName j.out, outOpts .double jd.own (fewOpts j.type) false⟩) := by
  by_cases hm : WantsSingle mode
  · rw [if_pos ((outSubset_iff mode).2 hm)]
    obtain ⟨s1, o, b, e, h1, h2⟩ := store_groups_fewS hrnd H h2 hmn hl hn hin hN O hm
    refine ⟨s1, by rw [e]; rfl, fun R hR => h1 R (fun k hk => hR k hm hk), fun _ k hk => (h2 k hk).1, ?_⟩
    intro ha hany f hf hh
    by_cases h0 : Present V.grp 0
    · have := (h2 0 h0).2 f hf
      rw [← stored_zero] at this
      exact this hh
    · have hsame : ∀ o : Opts, CCGL.Spec.filesOf s1 ⟨storedName j.out, o⟩ = CCGL.Spec.filesOf st ⟨storedName j.out, o⟩ := by
        intro o
        apply h1
        intro k hk he
        have he : storedName j.out = CCGL.Spec.subsetFile k j.out := he
        rw [stored_zero, ← subFile_eq, ← subFile_eq] at he
        rw [← subFile_inj he] at hk
        exact h0 hk
      have h3 : f ∈ CCGL.Spec.filesOf s1 ⟨storedName j.out, fewOpts j.type⟩ := mem_filesOf.2 ⟨hf, hh⟩
      rw [hsame] at h3
      obtain ⟨h4, h5⟩ := mem_filesOf.1 h3
      exact O.old _ (.inr ⟨ha, hany, rfl⟩) f h4 h5
  · rw [if_neg (fun h => hm ((outSubset_iff mode).1 h))]
    exact ⟨st, rfl, fun _ _ => rfl, fun h => absurd h hm, fun ha hany => O.old _ (.inr ⟨ha, hany, rfl⟩)⟩

/-- A job that stores the groups of a raster with several layers as they are. -/
theorem write_stack_few {sys : Sys} (hrnd : ∀ v, CCGL.Spec.Representable .float v → sys.rnd v = v) {st : Store} {mode : IOMode} {j : Job} {jd : JobDb} {V : View}
    {fill : ℚ} {rs y : RasterS} {noMask : Bool} {N : Nat → Int → Int → ℚ → Prop} {n : Nat} (hre : j.recls = false) (hs : WantsSingle mode)
    (hy : (if noMask then do
            let b ← buildSubSet rs []
            return b.1
          else return rs : Out RasterS) = .ok y)
    (H : ReadyL y V.hdr N V.grp n j.default.toQ fill) (h2 : y.ras.is2d = true) (hl : y.ras.nLyrs = n) (hn : 1 < n) {C : Int → Int → Prop} (O : StackFewOut st mode j jd V N n)
    (hin : ∀ k row col, V.grp k row col → V.hdr.grid.CellInside row col) (hb : CCGL.Spec.Built y.ras) (hc : WantsAll mode → 0 < y.ras.nCells)
    (hcells : WantsAll mode → ∃ ps, y.ras.posData = some ps ∧ ∀ row col, V.hdr.grid.CellInside row col → ((row, col) ∈ ps ↔ C row col))
    (hN : ∀ row col, V.hdr.grid.CellInside row col → ∀ l : Nat, l < n → N l row col (layerNum y l row col)) :
    ∃ st', writeJobDb sys.rnd false mode jd j noMask rs st = .ok st' ∧ OthersStay st st' mode j V.grp ∧ DbStackFew sys.rnd st' mode j V N n C := by
  obtain ⟨s1, e1, f1, d1, o1⟩ := step_groups_fewS hrnd H h2 rfl hl hn hin (fun k row col l hk hln => hN row col (hin k row col hk) l hln) O
  rw [if_pos ((outSubset_iff mode).2 hs)] at e1
  obtain ⟨x, ex, e1⟩ := Out.bind_ok e1
  simp only [Out.pure_eq, Out.ok.injEq] at e1
  have hwr : writeJobDb sys.rnd false mode jd j noMask rs st = (do
      if outAll mode then do
        let w ← outputToMongo sys.rnd .double jd.rm jd.att s1 y.ras jd.own jd.core ("0_".toList ++ j.out) (jobOpts false j.type) false
        return w.2.2.1
      else return s1 : Out Store) := by
    unfold writeJobDb
    dsimp only
    rw [hre, if_neg (by simp), if_pos ((outSubset_iff mode).2 hs), hy, Out.ok_bind, ex, Out.ok_bind, Out.pure_eq, Out.ok_bind, e1]
  rw [hwr]
  by_cases hm : WantsAll mode
  · rw [if_pos ((outAll_iff mode).2 hm)]
    have hB : BucketLayersFew s1 j jd V.hdr n :=
      ⟨by rw [stored_zero]; exact few_file_keyS O 0, O.whole hm, O.type, O.rm, O.att, o1 hm (fun h => by rw [hre] at h; cases h)⟩
    obtain ⟨ps, hp1, hp2⟩ := hcells hm
    have hval : ∀ row col, V.hdr.grid.CellInside row col → ∀ l : Nat, l < n → y.ras.getValue row col ((l : Int) + 1) = .ok (layerNum y l row col) := by
      intro row col hrc l hln
      obtain ⟨v, hv⟩ := value_total hb row col ((l : Int) + 1)
      have : layerNum y l row col = v := layerNum_eq (by rw [h2]; exact hv)
      rw [hv, this]
    obtain ⟨s2, ok, e2, ok2, f2, d2, -⟩ := store_fewL hrnd hb hl H.grid H.hnd (few_storedL hb (hc hm) hl H.grid hval hp1 hp2) hB
      (fun row col hrc l hln => O.cells row col hrc l hln _ (hN row col hrc l hln))
    have hok := ok2.2 O.done.1
    refine ⟨s2, ?_, ?_, layerNum y, hN, ?_, fun _ => d2 hok⟩
    · have : "0_".toList ++ j.out = storedName j.out := rfl
      rw [this, e2]
      rfl
    · intro R hR
      rw [f2 R (hR _ (.inr ⟨hm, fun h => by (rw [hre] at h; cases h), rfl⟩)), f1 R (fun k hs hk => hR _ (.inl ⟨hs, k, hk, rfl⟩))]
    · intro _ k hk h0
      refine fewSingle_congr (few_file_keyS O k).name (f2 _ ?_) (d1 hs k hk)
      intro he
      have he : CCGL.Spec.subsetFile k j.out = storedName j.out := he
      rw [stored_zero, ← subFile_eq, ← subFile_eq] at he
      exact h0 hm (subFile_inj he)
  · rw [if_neg (fun h => hm ((outAll_iff mode).1 h))]
    refine ⟨s1, rfl, fun R hR => f1 R (fun k hs hk => hR _ (.inl ⟨hs, k, hk, rfl⟩)), layerNum y, hN, fun h k hk _ => d1 h k hk, fun h => absurd h hm⟩

end App
end CCGL
