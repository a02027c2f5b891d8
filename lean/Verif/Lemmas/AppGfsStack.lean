import Verif.Lemmas.AppGfsReclsL
import Verif.Props.AppGfsLayers
import Verif.Spec.AppGfsStack
/-!
# Lemmas about jobs with several input files, no table and output to GridFS
-/
namespace CCGL
namespace App
open Fs Disk Main Raster Gfs Disk.Spec App.Spec

/-- The cells of a group on its rectangle, all layers, without table. -/
theorem cut_stack {rs : RasterS} {ls ps G} (h : Cut rs ls ps G) (h2 : rs.ras.is2d = true) {n : Nat} (hl : rs.ras.nLyrs = n) (hn : 1 < n) (dv : ℚ) {k : Int} {s : Subset}
    (hk : rs.subs.get k = some s) :
    ∃ F, prepareSubsetData rs.ras k s true true [] dv = .ok (some (some F, (s.erow - s.srow + 1) * (s.ecol - s.scol + 1) * n, n)) ∧
      (F.length : Int) = (s.erow - s.srow + 1) * (s.ecol - s.scol + 1) * n ∧
      ∀ row col (l : Nat), s.srow ≤ row → row ≤ s.erow → s.scol ≤ col → col ≤ s.ecol → (l : Int) < n →
      (CCGL.Spec.InSubset s row col → ∃ w, rs.ras.getValue row col (if rs.ras.is2d then (l : Int) + 1 else 1) = .ok w ∧
        readAt (some F) (((row - s.srow) * (s.ecol - s.scol + 1) + (col - s.scol)) * n + l) = .ok w) ∧
      (¬ CCGL.Spec.InSubset s row col →
        readAt (some F) (((row - s.srow) * (s.ecol - s.scol + 1) + (col - s.scol)) * n + l) = .ok rs.ras.noData) := by
  have hP := h.part
  have ho := hP.some k s hk
  obtain ⟨F, e1, e2, e3, e4⟩ := decomp_core h.comp (fun _ => by rw [hl]; exact_mod_cast hn) ho (fun i hi => hP.lt hi) (h.asc k) k true dv
  simp only [if_true] at e1 e2 e3 e4
  rw [hl] at e1 e2 e3 e4
  refine ⟨F, e1, e2, ?_⟩
  intro row col l r0 r1 c0 c1 hln
  constructor
  · intro hin
    obtain ⟨i, hi, hp⟩ := (ho.in_iff row col).1 hin
    have hv := h.value hi hp (l := (l : Int)) (by omega) (fun _ => by rw [hl]; exact hln)
    rw [h2] at hv ⊢
    simp only [if_true] at hv ⊢
    refine ⟨_, hv, ?_⟩
    obtain ⟨j, hj, hij⟩ := List.mem_iff_getElem.1 hi
    have t := e3 j hj l (by omega) hln
    rw [hij] at t
    have hx : localOf ps s i = (row - s.srow) * (s.ecol - s.scol + 1) + (col - s.scol) := by
      unfold localOf
      rw [hp]
    rw [hx] at t
    exact t
  · intro hnot
    have hr := idx_range (rows := s.erow - s.srow + 1) (cols := s.ecol - s.scol + 1) (i := row - s.srow) (j := col - s.scol)
      (by omega) (by omega) (by omega) (by omega)
    exact e4 _ l hr.1 hr.2 (by omega) hln (fun j hj => sub_outside ho c0 c1 hnot j hj)

theorem group_payloadS {rs : RasterS} {N : Nat → Int → Int → ℚ → Prop} {V : View} {j : Job} {fill : ℚ} {m : Int} (H : ReadyL rs V.hdr N V.grp m j.default.toQ fill)
    (h2 : rs.ras.is2d = true) {n : Nat} (hmn : m = n) (hl : rs.ras.nLyrs = n) (hn : 1 < n) {k : Int} {s : Subset}
    (hk : rs.subs.get k = some s) : 1 ≤ m ∧ s.usable = true ∧ IsBox (V.grp k) s.srow s.erow s.scol s.ecol ∧
    ∃ F w, Gfs.subPayload .double rs.ras k s true true [] NODATA = .ok (some ({ boxHeader V.hdr s.srow s.erow s.scol s.ecol with
        layers := m, cellsnum := (s.erow - s.srow + 1) * (s.ecol - s.scol + 1) }, some F, (F.length : Int))) ∧
      AllCells (boxHeader V.hdr s.srow s.erow s.scol s.ecol) m w F ∧
      ∀ row col (l : Nat), s.srow ≤ row → row ≤ s.erow → s.scol ≤ col → col ≤ s.ecol → (l : Int) < m →
        (V.grp k row col → w l (row - s.srow) (col - s.scol) = layerNum rs l row col) ∧
        (¬ V.grp k row col → w l (row - s.srow) (col - s.scol) = V.hdr.noData) := by
  have hne : rs.subs ≠ [] := fun h => by rw [h, IMap.get_nil] at hk; cases hk
  obtain ⟨ls, ps, G, hc⟩ := H.cut hne
  have hg := H.grid
  unfold Header.grid at hg
  injection hg with g1 g2 g3 g4 g5
  have hm : 1 ≤ m := by omega
  have hbox := cut_box hc hk
  have hcells := H.cells hk
  have key : ∃ F, prepareSubsetData rs.ras k s true true [] NODATA =
        .ok (some (some F, (s.erow - s.srow + 1) * (s.ecol - s.scol + 1) * m, m)) ∧
      (F.length : Int) = (s.erow - s.srow + 1) * (s.ecol - s.scol + 1) * m ∧
      ∀ row col (l : Nat), s.srow ≤ row → row ≤ s.erow → s.scol ≤ col → col ≤ s.ecol → (l : Int) < m →
        (CCGL.Spec.InSubset s row col → readAt (some F) (((row - s.srow) * (s.ecol - s.scol + 1) + (col - s.scol)) * m + l) =
          .ok (layerNum rs l row col)) ∧
        (¬ CCGL.Spec.InSubset s row col → readAt (some F) (((row - s.srow) * (s.ecol - s.scol + 1) + (col - s.scol)) * m + l) = .ok V.hdr.noData) := by
    obtain ⟨F, e1, e2, e3⟩ := cut_stack hc h2 hl hn NODATA hk
    rw [← hmn] at e1 e2 e3
    refine ⟨F, e1, e2, ?_⟩
    intro row col l a1 a2 a3 a4 a5
    obtain ⟨u1, u2⟩ := e3 row col l a1 a2 a3 a4 a5
    constructor
    · intro hin
      obtain ⟨x, x1, x2⟩ := u1 hin
      rw [x2, layerNum_eq x1]
    · intro hin
      rw [u2 hin, H.nd]
  obtain ⟨F, e1, e2, e3⟩ := key
  have hw : AllCells (boxHeader V.hdr s.srow s.erow s.scol s.ecol) m
      (fun l row col => F.getD ((row * (s.ecol - s.scol + 1) + col) * m + l).toNat 0) F := by
    refine ⟨e2, ?_⟩
    rintro row col l ⟨a1, a2, a3, a4⟩ a5
    have a2 : row < s.erow - s.srow + 1 := a2
    have a4 : col < s.ecol - s.scol + 1 := a4
    obtain ⟨u1, u2⟩ := e3 (row + s.srow) (col + s.scol) l (by omega) (by omega) (by omega) (by omega) a5
    have hpos : 0 ≤ (row * (s.ecol - s.scol + 1) + col) * m + (l : Int) := by
      have : 0 ≤ row * (s.ecol - s.scol + 1) := Int.mul_nonneg a1 (by omega)
      have : 0 ≤ (row * (s.ecol - s.scol + 1) + col) * m := Int.mul_nonneg (by omega) (by omega)
      omega
    rw [Int.add_sub_cancel, Int.add_sub_cancel] at u1 u2
    have : ∃ x, F[((row * (s.ecol - s.scol + 1) + col) * m + (l : Int)).toNat]? = some x := by
      by_cases hin : CCGL.Spec.InSubset s (row + s.srow) (col + s.scol)
      · exact ⟨_, get_of_read hpos (u1 hin)⟩
      · exact ⟨_, get_of_read hpos (u2 hin)⟩
    obtain ⟨x, hx⟩ := this
    show F[((row * (s.ecol - s.scol + 1) + col) * m + (l : Int)).toNat]? = _
    rw [List.getD_eq_getElem?_getD, hx]
    rfl
  refine ⟨hm, hc.use k s hk, by rw [hcells]; exact hbox, F, _, ?_, hw, ?_⟩
  · unfold Gfs.subPayload
    rw [e1, Out.ok_bind]
    dsimp only
    rw [if_neg (by omega), Int.mul_tdiv_cancel _ (by omega), e2, Out.pure_eq]
    congr 3
    unfold Subset.getHeader boxHeader
    have ha : Gtiff.asDbl .double rs.ras.noData = rs.ras.noData := rfl
    dsimp only
    rw [ha, g1, g3, g4, g5, H.nd]
    congr 1
    · ring
    · push_cast; ring
  · intro row col l a1 a2 a3 a4 a5
    obtain ⟨u1, u2⟩ := e3 row col l a1 a2 a3 a4 a5
    have hpos : 0 ≤ ((row - s.srow) * (s.ecol - s.scol + 1) + (col - s.scol)) * m + (l : Int) := by
      have : 0 ≤ (row - s.srow) * (s.ecol - s.scol + 1) := Int.mul_nonneg (by omega) (by omega)
      have : 0 ≤ ((row - s.srow) * (s.ecol - s.scol + 1) + (col - s.scol)) * m := Int.mul_nonneg (by omega) (by omega)
      omega
    rw [hcells]
    constructor
    · intro hin
      rw [List.getD_eq_getElem?_getD, get_of_read hpos (u1 hin)]; rfl
    · intro hin
      rw [List.getD_eq_getElem?_getD, get_of_read hpos (u2 hin)]; rfl

theorem subFile_keyS {st : Store} {mode : IOMode} {j : Job} {jd : JobDb} {V : View} {N : Nat → Int → Int → ℚ → Prop} {n : Nat} (O : StackOut st mode j jd V N n) (k : Int) :
    CCGL.Spec.GoodKey ⟨CCGL.Spec.subsetFile k j.out, outOpts .double jd.own (wholeOpts j.type) true⟩ := by
  rw [← subFile_eq]
  exact good_subFile O.key k

theorem store_groupsS {rnd : ℚ → ℚ} (hrnd : ∀ v, CCGL.Spec.Representable .float v → rnd v = v) {st : Store} {mode : IOMode} {j : Job} {jd : JobDb} {V : View}
    {fill : ℚ} {m : Int} {rs : RasterS} {N : Nat → Int → Int → ℚ → Prop} (H : ReadyL rs V.hdr N V.grp m j.default.toQ fill) (h2 : rs.ras.is2d = true) {n : Nat} (hmn : m = n) (hl : rs.ras.nLyrs = n) (hn : 1 < n)
    (hin : ∀ k row col, V.grp k row col → V.hdr.grid.CellInside row col) (hN : ∀ k row col (l : Nat), V.grp k row col → l < n → N l row col (layerNum rs l row col)) (O : StackOut st mode j jd V N n) (hmode : WantsSingle mode) :
    ∃ st' o b, outputSubsets rnd .double jd.rms jd.atts st rs jd.own jd.core j.out (jobOpts true j.type) true true false [] NODATA = .ok (o, st', b) ∧
      (∀ R : CCGL.Spec.Key, (∀ k, Present V.grp k → R.name ≠ CCGL.Spec.subsetFile k j.out) → CCGL.Spec.filesOf st' R = CCGL.Spec.filesOf st R) ∧
      ∀ k, Present V.grp k → DbSingle rnd st' (CCGL.Spec.subsetFile k j.out) (wholeOpts j.type) V.hdr m (layerNum rs) (V.grp k) ∧
        ∀ f ∈ st', CCGL.Spec.Has f ⟨CCGL.Spec.subsetFile k j.out, wholeOpts j.type⟩ →
          CCGL.Spec.Has f ⟨CCGL.Spec.subsetFile k j.out, outOpts .double jd.own (wholeOpts j.type) true⟩ := by
  by_cases hne : rs.subs = []
  · have hno : ∀ k, ¬ Present V.grp k := by
      intro k hk
      obtain ⟨s, hs⟩ := (H.present k).1 hk
      rw [hne, IMap.get_nil] at hs
      cases hs
    cases hvd : rs.ras.validData with
    | false =>
      refine ⟨st, jd.own, false, ?_, fun _ _ => rfl, fun k hk => absurd hk (hno k)⟩
      unfold outputSubsets
      rw [hvd]
      rfl
    | true =>
      refine ⟨st, jd.own, false, ?_, fun _ _ => rfl, fun k hk => absurd hk (hno k)⟩
      unfold outputSubsets
      rw [hvd, if_neg (by simp), if_pos hne]
  · obtain ⟨ls, ps, G, hc⟩ := H.cut hne
    have hsorted := hc.part.sorted
    have hget : ∀ x ∈ rs.subs, rs.subs.get x.1 = some x.2 := fun x hx => (IMap.mem_iff_get _ hsorted _ _).1 hx
    have hvalid : rs.ras.validData = true := Holds.valid hc.comp.holds
    have hwt := type_kept jd.own O.type.1
    have pay : ∀ k s, rs.subs.get k = some s → s.usable = true ∧ ∃ F w, Gfs.subPayload .double rs.ras k s true true [] NODATA =
          .ok (some ({ boxHeader V.hdr s.srow s.erow s.scol s.ecol with layers := m, cellsnum := (s.erow - s.srow + 1) * (s.ecol - s.scol + 1) }, some F, (F.length : Int))) ∧
        CCGL.Spec.StorableHeader { boxHeader V.hdr s.srow s.erow s.scol s.ecol with layers := m, cellsnum := (s.erow - s.srow + 1) * (s.ecol - s.scol + 1) } ∧
        (∀ x ∈ F, Fits j.type x) ∧ IsBox (V.grp k) s.srow s.erow s.scol s.ecol ∧ AllCells (boxHeader V.hdr s.srow s.erow s.scol s.ecol) m w F ∧
        ∀ row col (l : Nat), s.srow ≤ row → row ≤ s.erow → s.scol ≤ col → col ≤ s.ecol → (l : Int) < m →
          (V.grp k row col → w l (row - s.srow) (col - s.scol) = layerNum rs l row col) ∧
          (¬ V.grp k row col → w l (row - s.srow) (col - s.scol) = V.hdr.noData) := by
      intro k s hk
      obtain ⟨hm, hu, hbox, F, w, e1, e2, e3⟩ := group_payloadS H h2 hmn hl hn hk
      have hst := hmn ▸ O.single hmode k ((H.present k).2 ⟨s, hk⟩) _ _ _ _ hbox
      refine ⟨hu, F, w, e1, hst, ?_, hbox, e2, e3⟩
      refine e2.fits hst.cols.1 hm ?_
      rintro row col l ⟨a1, a2, a3, a4⟩ a5
      have a2 : row < s.erow - s.srow + 1 := a2
      have a4 : col < s.ecol - s.scol + 1 := a4
      obtain ⟨u1, u2⟩ := e3 (row + s.srow) (col + s.scol) l (by omega) (by omega) (by omega) (by omega) a5
      rw [Int.add_sub_cancel, Int.add_sub_cancel] at u1 u2
      by_cases hg : V.grp k (row + s.srow) (col + s.scol)
      · rw [u1 hg]
        exact O.cells _ _ (hin _ _ _ hg) l (by omega) _ (hN _ _ _ l hg (by omega))
      · rw [u2 hg]; exact O.nodata
    obtain ⟨st', fl, l1, l2, l3⟩ := loop_true (rnd := rnd) (T := .double) (O := j.type) (rms := jd.rms) (atts := jd.atts) (r := rs.ras) (recls := []) (dv := NODATA) (inc := true)
      (name := j.out) (o := outOpts .double jd.own (wholeOpts j.type) true) (ty := rdtToString j.type.code) hrnd (good_subFile O.key) hwt
      (type_mem jd.own O.type.1) (C25_roundtrip j.type) (.inr O.type) O.rms O.atts rs.subs 0 st hsorted (fun x hx => by
        obtain ⟨q1, F, w, q2, q3, q4, -⟩ := pay _ _ (hget x hx)
        exact ⟨q1, _, F, q2, q3, q4⟩)
    refine ⟨st', outOpts .double jd.own (wholeOpts j.type) true, true, ?_, ?_, ?_⟩
    · unfold outputSubsets
      dsimp only
      rw [hvalid, if_neg (by simp), if_neg hne, if_neg (by simp), if_neg O.name, jobOpts_true, subOpts_eq jd.own O.type.1, l1, Out.ok_bind]
      rfl
    · intro R hR
      exact l2 R (fun x hx => by rw [subFile_eq]; exact hR _ ((H.present _).2 ⟨_, hget x hx⟩))
    · intro k hk
      have hk0 := hk
      obtain ⟨s, hk⟩ := (H.present k).1 hk
      obtain ⟨n, hn, hn'⟩ := List.getElem_of_mem ((IMap.mem_iff_get _ hsorted _ _).2 hk)
      obtain ⟨q1, F, w, q2, q3, q4, q5, q6, q7⟩ := pay k s hk
      have hold := O.old (CCGL.Spec.subsetFile k j.out) (.inl ⟨hmode, k, hk0, rfl⟩)
      have hnm : ∀ o : Opts, (⟨CCGL.Spec.subsetFile k j.out, o⟩ : CCGL.Spec.Key).name = subFile rs.subs[n].1 j.out := fun o => by rw [hn', subFile_eq]
      obtain ⟨t1, -, -⟩ := l3 n hn ⟨CCGL.Spec.subsetFile k j.out, wholeOpts j.type⟩ (hnm _) (opts_sub jd.own O.type.1) hold
      obtain ⟨t2, -, -⟩ := l3 n hn ⟨CCGL.Spec.subsetFile k j.out, outOpts .double jd.own (wholeOpts j.type) true⟩ (hnm _) (fun _ _ h => h) (fun _ _ h => h)
      have hwr : ∀ i, i ≤ n → CCGL.Spec.Written jd.atts (0 + i) := fun i _ => O.done.2 _
      obtain ⟨info, u1, u2, u3⟩ := t1 hwr _ F (by rw [hn']; exact q2)
      obtain ⟨info2, -, -, u6⟩ := t2 hwr _ F (by rw [hn']; exact q2)
      refine ⟨⟨s.srow, s.erow, s.scol, s.ecol, q5, w, ?_, q7⟩, ?_⟩
      · exact holds_file hrnd (own := jd.own) q6 O.type.1 (subFile_keyS O k).name q3 q4 u1 u2 u3
      · intro f hf hh
        have h1 : f ∈ CCGL.Spec.filesOf st' ⟨CCGL.Spec.subsetFile k j.out, wholeOpts j.type⟩ := mem_filesOf.2 ⟨hf, hh⟩
        have h2 : File.mk (CCGL.Spec.subsetFile k j.out) info2 (F.flatMap (encode j.type)) ∈
            CCGL.Spec.filesOf st' ⟨CCGL.Spec.subsetFile k j.out, outOpts .double jd.own (wholeOpts j.type) true⟩ := by
          rw [u6]; exact List.mem_singleton.2 rfl
        obtain ⟨h3, h4⟩ := mem_filesOf.1 h2
        have h5 : File.mk (CCGL.Spec.subsetFile k j.out) info2 (F.flatMap (encode j.type)) ∈
            CCGL.Spec.filesOf st' ⟨CCGL.Spec.subsetFile k j.out, wholeOpts j.type⟩ :=
          mem_filesOf.2 ⟨h3, h4.1, fun a b hab => h4.2 a b (opts_sub jd.own O.type.1 a b hab)⟩
        rw [u3] at h1 h5
        rw [List.mem_singleton.1 h1, ← List.mem_singleton.1 h5]
        exact h4

theorem step_groupsS {rnd : ℚ → ℚ} (hrnd : ∀ v, CCGL.Spec.Representable .float v → rnd v = v) {st : Store} {mode : IOMode} {j : Job} {jd : JobDb} {V : View}
    {fill : ℚ} {m : Int} {rs : RasterS} {N : Nat → Int → Int → ℚ → Prop} (H : ReadyL rs V.hdr N V.grp m j.default.toQ fill) (h2 : rs.ras.is2d = true) {n : Nat} (hmn : m = n) (hl : rs.ras.nLyrs = n) (hn : 1 < n)
    (hin : ∀ k row col, V.grp k row col → V.hdr.grid.CellInside row col) (hN : ∀ k row col (l : Nat), V.grp k row col → l < n → N l row col (layerNum rs l row col)) (O : StackOut st mode j jd V N n) :
    ∃ s1, (if outSubset mode then do
        let w ← outputSubsets rnd .double jd.rms jd.atts st rs jd.own jd.core j.out (jobOpts true j.type) true true false [] NODATA
        return w.2.1
      else return st : Out Store) = .ok s1 ∧
      (∀ R : CCGL.Spec.Key, (∀ k, WantsSingle mode → Present V.grp k → R.name ≠ CCGL.Spec.subsetFile k j.out) → CCGL.Spec.filesOf s1 R = CCGL.Spec.filesOf st R) ∧
      (WantsSingle mode → ∀ k, Present V.grp k → DbSingle rnd s1 (CCGL.Spec.subsetFile k j.out) (wholeOpts j.type) V.hdr m (layerNum rs) (V.grp k)) ∧
      (WantsAll mode → (j.recls = true → ∃ k, Present V.grp k) → ∀ f ∈ s1, CCGL.Spec.Has f ⟨storedName j.out, wholeOpts j.type⟩ →
        CCGL.Spec.Has f ⟨storedName j.out, outOpts .double jd.own (wholeOpts j.type) true⟩) := by
  by_cases hm : WantsSingle mode
  · rw [if_pos ((outSubset_iff mode).2 hm)]
    obtain ⟨s1, o, b, e, h1, h2⟩ := store_groupsS hrnd H h2 hmn hl hn hin hN O hm
    refine ⟨s1, by rw [e]; rfl, fun R hR => h1 R (fun k hk => hR k hm hk), fun _ k hk => (h2 k hk).1, ?_⟩
    intro ha hany f hf hh
    by_cases h0 : Present V.grp 0
    · have := (h2 0 h0).2 f hf
      rw [← stored_zero] at this
      exact this hh
    · have hsame : ∀ o : Opts, CCGL.Spec.filesOf s1 ⟨storedName j.out, o⟩ = CCGL.Spec.filesOf st ⟨storedName j.out, o⟩ := by
        intro o
        apply h1
        intro k hk he
        have he : storedName j.out = CCGL.Spec.subsetFile k j.out := he
        rw [stored_zero, ← subFile_eq, ← subFile_eq] at he
        rw [← subFile_inj he] at hk
        exact h0 hk
      have h3 : f ∈ CCGL.Spec.filesOf s1 ⟨storedName j.out, wholeOpts j.type⟩ := mem_filesOf.2 ⟨hf, hh⟩
      rw [hsame] at h3
      obtain ⟨h4, h5⟩ := mem_filesOf.1 h3
      exact O.old _ (.inr ⟨ha, hany, rfl⟩) f h4 h5
  · rw [if_neg (fun h => hm ((outSubset_iff mode).1 h))]
    exact ⟨st, rfl, fun _ _ => rfl, fun h => absurd h hm, fun ha hany => O.old _ (.inr ⟨ha, hany, rfl⟩)⟩

/-- A job that stores the groups of a raster with several layers as they are. -/
theorem write_stack_db {sys : Sys} (hrnd : ∀ v, CCGL.Spec.Representable .float v → sys.rnd v = v) {st : Store} {mode : IOMode} {j : Job} {jd : JobDb} {V : View}
    {fill : ℚ} {rs y : RasterS} {noMask : Bool} {N : Nat → Int → Int → ℚ → Prop} {n : Nat} (hre : j.recls = false) (hs : WantsSingle mode)
    (hy : (if noMask then do
            let b ← buildSubSet rs []
            return b.1
          else return rs : Out RasterS) = .ok y)
    (H : ReadyL y V.hdr N V.grp n j.default.toQ fill) (h2 : y.ras.is2d = true) (hl : y.ras.nLyrs = n) (hn : 1 < n) (O : StackOut st mode j jd V N n)
    (hin : ∀ k row col, V.grp k row col → V.hdr.grid.CellInside row col) (hb : CCGL.Spec.Built y.ras) (hc : WantsAll mode → 0 < y.ras.nCells)
    (hN : ∀ row col, V.hdr.grid.CellInside row col → ∀ l : Nat, l < n → N l row col (layerNum y l row col)) :
    ∃ st', writeJobDb sys.rnd true mode jd j noMask rs st = .ok st' ∧ OthersStay st st' mode j V.grp ∧ DbStack sys.rnd st' mode j V N n := by
  obtain ⟨s1, e1, f1, d1, o1⟩ := step_groupsS hrnd H h2 rfl hl hn hin (fun k row col l hk hln => hN row col (hin k row col hk) l hln) O
  rw [if_pos ((outSubset_iff mode).2 hs)] at e1
  obtain ⟨x, ex, e1⟩ := Out.bind_ok e1
  simp only [Out.pure_eq, Out.ok.injEq] at e1
  have hwr : writeJobDb sys.rnd true mode jd j noMask rs st = (do
      if outAll mode then do
        let w ← outputToMongo sys.rnd .double jd.rm jd.att s1 y.ras jd.own jd.core ("0_".toList ++ j.out) (jobOpts true j.type) true
        return w.2.2.1
      else return s1 : Out Store) := by
    unfold writeJobDb
    dsimp only
    rw [hre, if_neg (by simp), if_pos ((outSubset_iff mode).2 hs), hy, Out.ok_bind, ex, Out.ok_bind, Out.pure_eq, Out.ok_bind, e1]
  rw [hwr]
  by_cases hm : WantsAll mode
  · rw [if_pos ((outAll_iff mode).2 hm)]
    have hB : BucketLayers s1 j jd V.hdr n :=
      ⟨by rw [stored_zero]; exact subFile_keyS O 0, O.whole hm, O.type, O.rm, O.att, o1 hm (fun h => by rw [hre] at h; cases h)⟩
    obtain ⟨s2, ok, e2, ok2, f2, d2, -⟩ := store_stack hrnd hb (hc hm) (by omega) hl H.grid H.hnd (w := layerNum y) (by
      intro row col hrc l hln
      obtain ⟨v, hv⟩ := value_total hb row col ((l : Int) + 1)
      have : layerNum y l row col = v := layerNum_eq (by rw [h2]; exact hv)
      rw [hv, this]) hB (fun row col hrc l hln => O.cells row col hrc l hln _ (hN row col hrc l hln))
    have hok := ok2.2 O.done.1
    refine ⟨s2, ?_, ?_, layerNum y, hN, ?_, fun _ => d2 hok⟩
    · have : "0_".toList ++ j.out = storedName j.out := rfl
      rw [this, e2]
      rfl
    · intro R hR
      rw [f2 R (hR _ (.inr ⟨hm, fun h => by (rw [hre] at h; cases h), rfl⟩)), f1 R (fun k hs hk => hR _ (.inl ⟨hs, k, hk, rfl⟩))]
    · intro _ k hk h0
      refine single_congr (subFile_keyS O k).name (f2 _ ?_) (d1 hs k hk)
      intro he
      have he : CCGL.Spec.subsetFile k j.out = storedName j.out := he
      rw [stored_zero, ← subFile_eq, ← subFile_eq] at he
      exact h0 hm (subFile_inj he)
  · rw [if_neg (fun h => hm ((outAll_iff mode).1 h))]
    refine ⟨s1, rfl, fun R hR => f1 R (fun k hs hk => hR _ (.inl ⟨hs, k, hk, rfl⟩)), layerNum y, hN, fun h k hk _ => d1 h k hk, fun h => absurd h hm⟩

end App
end CCGL
