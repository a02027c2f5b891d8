import Verif.Lemmas.AppGfsDec
import Verif.Lemmas.AppReclsL
import Verif.Spec.AppGfsReclsL
/-!
# Lemmas about reclassifying jobs with several input files and output to GridFS
-/
namespace CCGL
namespace App
open Fs Disk Main Raster Gfs Disk.Spec App.Spec

/-- The number looked up for a cell in layer `l`, and what the table gives for it. -/
noncomputable def layerNum (rs : RasterS) (l : Nat) (row col : Int) : ℚ :=
  match rs.ras.getValue row col (if rs.ras.is2d then (l : Int) + 1 else 1) with
  | .ok x => x
  | _ => 0
noncomputable def lookOut (j : Job) (rs : RasterS) (fill : ℚ) (l : Nat) (row col : Int) : ℚ :=
  CCGL.Spec.tableValue (numTable j) (truncQ (layerNum rs l row col)) l fill

theorem layerNum_eq {rs : RasterS} {l : Nat} {row col : Int} {x : ℚ} (h : rs.ras.getValue row col (if rs.ras.is2d then (l : Int) + 1 else 1) = .ok x) :
    layerNum rs l row col = x := by
  unfold layerNum
  rw [h]

theorem group_payloadL {rs : RasterS} {N : Nat → Int → Int → ℚ → Prop} {V : View} {j : Job} {fill : ℚ} {m : Int} (H : ReadyL rs V.hdr N V.grp m j.default.toQ fill)
    (htab : CCGL.Spec.TableOf (numTable j) m ∧ ((numTable j).map (·.1)).Nodup) {k : Int} {s : Subset}
    (hk : rs.subs.get k = some s) : 1 ≤ m ∧ s.usable = true ∧ IsBox (V.grp k) s.srow s.erow s.scol s.ecol ∧
    ∃ F w, Gfs.subPayload .double rs.ras k s true true (tableOf j.table) (j.default.toQ) = .ok (some ({ boxHeader V.hdr s.srow s.erow s.scol s.ecol with
        layers := m, cellsnum := (s.erow - s.srow + 1) * (s.ecol - s.scol + 1) }, some F, (F.length : Int))) ∧
      AllCells (boxHeader V.hdr s.srow s.erow s.scol s.ecol) m w F ∧
      ∀ row col (l : Nat), s.srow ≤ row → row ≤ s.erow → s.scol ≤ col → col ≤ s.ecol → (l : Int) < m →
        (V.grp k row col → w l (row - s.srow) (col - s.scol) = lookOut j rs fill l row col) ∧
        (¬ V.grp k row col → w l (row - s.srow) (col - s.scol) = V.hdr.noData) := by
  have hne : rs.subs ≠ [] := fun h => by rw [h, IMap.get_nil] at hk; cases hk
  obtain ⟨ls, ps, G, hc⟩ := H.cut hne
  have hg := H.grid
  unfold Header.grid at hg
  injection hg with g1 g2 g3 g4 g5
  have hm : 1 ≤ m := htab.1.2.1
  have hbox := cut_box hc hk
  have hcells := H.cells hk
  have key : ∃ F, prepareSubsetData rs.ras k s true true (tableOf j.table) (j.default.toQ) =
        .ok (some (some F, (s.erow - s.srow + 1) * (s.ecol - s.scol + 1) * m, m)) ∧
      (F.length : Int) = (s.erow - s.srow + 1) * (s.ecol - s.scol + 1) * m ∧
      ∀ row col (l : Nat), s.srow ≤ row → row ≤ s.erow → s.scol ≤ col → col ≤ s.ecol → (l : Int) < m →
        (CCGL.Spec.InSubset s row col → readAt (some F) (((row - s.srow) * (s.ecol - s.scol + 1) + (col - s.scol)) * m + l) =
          .ok (lookOut j rs fill l row col)) ∧
        (¬ CCGL.Spec.InSubset s row col → readAt (some F) (((row - s.srow) * (s.ecol - s.scol + 1) + (col - s.scol)) * m + l) = .ok V.hdr.noData) := by
    obtain ⟨t1, t2⟩ := htab
    obtain ⟨F, e1, e2, e3⟩ := hc.decomp (table_ok t1) H.lay j.default.toQ hk
    refine ⟨F, e1, e2, ?_⟩
    intro row col l a1 a2 a3 a4 a5
    obtain ⟨u1, u2⟩ := e3 row col l a1 a2 a3 a4 (by omega) a5
    constructor
    · intro hin
      obtain ⟨x, x1, x2⟩ := u1 hin
      rw [x2, H.fill, table_value t2]
      unfold lookOut
      rw [layerNum_eq x1]
    · intro hin
      rw [u2 hin, H.nd]
  obtain ⟨F, e1, e2, e3⟩ := key
  have hw : AllCells (boxHeader V.hdr s.srow s.erow s.scol s.ecol) m
      (fun l row col => F.getD ((row * (s.ecol - s.scol + 1) + col) * m + l).toNat 0) F := by
    refine ⟨e2, ?_⟩
    rintro row col l ⟨a1, a2, a3, a4⟩ a5
    have a2 : row < s.erow - s.srow + 1 := a2
    have a4 : col < s.ecol - s.scol + 1 := a4
    obtain ⟨u1, u2⟩ := e3 (row + s.srow) (col + s.scol) l (by omega) (by omega) (by omega) (by omega) a5
    have hpos : 0 ≤ (row * (s.ecol - s.scol + 1) + col) * m + (l : Int) := by
      have : 0 ≤ row * (s.ecol - s.scol + 1) := Int.mul_nonneg a1 (by omega)
      have : 0 ≤ (row * (s.ecol - s.scol + 1) + col) * m := Int.mul_nonneg (by omega) (by omega)
      omega
    rw [Int.add_sub_cancel, Int.add_sub_cancel] at u1 u2
    have : ∃ x, F[((row * (s.ecol - s.scol + 1) + col) * m + (l : Int)).toNat]? = some x := by
      by_cases hin : CCGL.Spec.InSubset s (row + s.srow) (col + s.scol)
      · exact ⟨_, get_of_read hpos (u1 hin)⟩
      · exact ⟨_, get_of_read hpos (u2 hin)⟩
    obtain ⟨x, hx⟩ := this
    show F[((row * (s.ecol - s.scol + 1) + col) * m + (l : Int)).toNat]? = _
    rw [List.getD_eq_getElem?_getD, hx]
    rfl
  refine ⟨hm, hc.use k s hk, by rw [hcells]; exact hbox, F, _, ?_, hw, ?_⟩
  · unfold Gfs.subPayload
    rw [e1, Out.ok_bind]
    dsimp only
    rw [if_neg (by omega), Int.mul_tdiv_cancel _ (by omega), e2, Out.pure_eq]
    congr 3
    unfold Subset.getHeader boxHeader
    have ha : Gtiff.asDbl .double rs.ras.noData = rs.ras.noData := rfl
    dsimp only
    rw [ha, g1, g3, g4, g5, H.nd]
    congr 1
    · ring
    · push_cast; ring
  · intro row col l a1 a2 a3 a4 a5
    obtain ⟨u1, u2⟩ := e3 row col l a1 a2 a3 a4 a5
    have hpos : 0 ≤ ((row - s.srow) * (s.ecol - s.scol + 1) + (col - s.scol)) * m + (l : Int) := by
      have : 0 ≤ (row - s.srow) * (s.ecol - s.scol + 1) := Int.mul_nonneg (by omega) (by omega)
      have : 0 ≤ ((row - s.srow) * (s.ecol - s.scol + 1) + (col - s.scol)) * m := Int.mul_nonneg (by omega) (by omega)
      omega
    rw [hcells]
    constructor
    · intro hin
      rw [List.getD_eq_getElem?_getD, get_of_read hpos (u1 hin)]; rfl
    · intro hin
      rw [List.getD_eq_getElem?_getD, get_of_read hpos (u2 hin)]; rfl

theorem store_groupsL {rnd : ℚ → ℚ} (hrnd : ∀ v, CCGL.Spec.Representable .float v → rnd v = v) {st : Store} {mode : IOMode} {j : Job} {jd : JobDb} {V : View}
    {fill : ℚ} {m : Int} {rs : RasterS} {N : Nat → Int → Int → ℚ → Prop} (H : ReadyL rs V.hdr N V.grp m j.default.toQ fill) (hre : j.recls = true) (O : DbOut st mode j jd V fill m) (hmode : WantsSingle mode) :
    ∃ st' o b, outputSubsets rnd .double jd.rms jd.atts st rs jd.own jd.core j.out (jobOpts true j.type) true true false (tableOf j.table) (j.default.toQ) = .ok (o, st', b) ∧
      (∀ R : CCGL.Spec.Key, (∀ k, Present V.grp k → R.name ≠ CCGL.Spec.subsetFile k j.out) → CCGL.Spec.filesOf st' R = CCGL.Spec.filesOf st R) ∧
      ∀ k, Present V.grp k → DbSingle rnd st' (CCGL.Spec.subsetFile k j.out) (wholeOpts j.type) V.hdr m (lookOut j rs fill) (V.grp k) ∧
        ∀ f ∈ st', CCGL.Spec.Has f ⟨CCGL.Spec.subsetFile k j.out, wholeOpts j.type⟩ →
          CCGL.Spec.Has f ⟨CCGL.Spec.subsetFile k j.out, outOpts .double jd.own (wholeOpts j.type) true⟩ := by
  by_cases hne : rs.subs = []
  · have hno : ∀ k, ¬ Present V.grp k := by
      intro k hk
      obtain ⟨s, hs⟩ := (H.present k).1 hk
      rw [hne, IMap.get_nil] at hs
      cases hs
    cases hvd : rs.ras.validData with
    | false =>
      refine ⟨st, jd.own, false, ?_, fun _ _ => rfl, fun k hk => absurd hk (hno k)⟩
      unfold outputSubsets
      rw [hvd]
      rfl
    | true =>
      refine ⟨st, jd.own, false, ?_, fun _ _ => rfl, fun k hk => absurd hk (hno k)⟩
      unfold outputSubsets
      rw [hvd, if_neg (by simp), if_pos hne]
  · obtain ⟨ls, ps, G, hc⟩ := H.cut hne
    have hsorted := hc.part.sorted
    have hget : ∀ x ∈ rs.subs, rs.subs.get x.1 = some x.2 := fun x hx => (IMap.mem_iff_get _ hsorted _ _).1 hx
    have hvalid : rs.ras.validData = true := Holds.valid hc.comp.holds
    have hwt := type_kept jd.own O.type.1
    have pay : ∀ k s, rs.subs.get k = some s → s.usable = true ∧ ∃ F w, Gfs.subPayload .double rs.ras k s true true (tableOf j.table) (j.default.toQ) =
          .ok (some ({ boxHeader V.hdr s.srow s.erow s.scol s.ecol with layers := m, cellsnum := (s.erow - s.srow + 1) * (s.ecol - s.scol + 1) }, some F, (F.length : Int))) ∧
        CCGL.Spec.StorableHeader { boxHeader V.hdr s.srow s.erow s.scol s.ecol with layers := m, cellsnum := (s.erow - s.srow + 1) * (s.ecol - s.scol + 1) } ∧
        (∀ x ∈ F, Fits j.type x) ∧ IsBox (V.grp k) s.srow s.erow s.scol s.ecol ∧ AllCells (boxHeader V.hdr s.srow s.erow s.scol s.ecol) m w F ∧
        ∀ row col (l : Nat), s.srow ≤ row → row ≤ s.erow → s.scol ≤ col → col ≤ s.ecol → (l : Int) < m →
          (V.grp k row col → w l (row - s.srow) (col - s.scol) = lookOut j rs fill l row col) ∧
          (¬ V.grp k row col → w l (row - s.srow) (col - s.scol) = V.hdr.noData) := by
      intro k s hk
      obtain ⟨hm, hu, hbox, F, w, e1, e2, e3⟩ := group_payloadL H (O.table hre) hk
      have hst := O.single hmode k ((H.present k).2 ⟨s, hk⟩) _ _ _ _ hbox
      refine ⟨hu, F, w, e1, hst, ?_, hbox, e2, e3⟩
      refine e2.fits hst.cols.1 hm ?_
      rintro row col l ⟨a1, a2, a3, a4⟩ a5
      have a2 : row < s.erow - s.srow + 1 := a2
      have a4 : col < s.ecol - s.scol + 1 := a4
      obtain ⟨u1, u2⟩ := e3 (row + s.srow) (col + s.scol) l (by omega) (by omega) (by omega) (by omega) a5
      rw [Int.add_sub_cancel, Int.add_sub_cancel] at u1 u2
      by_cases hg : V.grp k (row + s.srow) (col + s.scol)
      · rw [u1 hg]
        exact O.vals hre _ _
      · rw [u2 hg]; exact O.nodata
    obtain ⟨st', fl, l1, l2, l3⟩ := loop_true (rnd := rnd) (T := .double) (O := j.type) (rms := jd.rms) (atts := jd.atts) (r := rs.ras) (recls := tableOf j.table) (dv := j.default.toQ) (inc := true)
      (name := j.out) (o := outOpts .double jd.own (wholeOpts j.type) true) (ty := rdtToString j.type.code) hrnd (good_subFile O.key) hwt
      (type_mem jd.own O.type.1) (C25_roundtrip j.type) (.inr O.type) O.rms O.atts rs.subs 0 st hsorted (fun x hx => by
        obtain ⟨q1, F, w, q2, q3, q4, -⟩ := pay _ _ (hget x hx)
        exact ⟨q1, _, F, q2, q3, q4⟩)
    refine ⟨st', outOpts .double jd.own (wholeOpts j.type) true, true, ?_, ?_, ?_⟩
    · unfold outputSubsets
      dsimp only
      rw [hvalid, if_neg (by simp), if_neg hne, if_neg (by simp), if_neg O.name, jobOpts_true, subOpts_eq jd.own O.type.1, l1, Out.ok_bind]
      rfl
    · intro R hR
      exact l2 R (fun x hx => by rw [subFile_eq]; exact hR _ ((H.present _).2 ⟨_, hget x hx⟩))
    · intro k hk
      have hk0 := hk
      obtain ⟨s, hk⟩ := (H.present k).1 hk
      obtain ⟨n, hn, hn'⟩ := List.getElem_of_mem ((IMap.mem_iff_get _ hsorted _ _).2 hk)
      obtain ⟨q1, F, w, q2, q3, q4, q5, q6, q7⟩ := pay k s hk
      have hold := O.old (CCGL.Spec.subsetFile k j.out) (.inl ⟨hmode, k, hk0, rfl⟩)
      have hnm : ∀ o : Opts, (⟨CCGL.Spec.subsetFile k j.out, o⟩ : CCGL.Spec.Key).name = subFile rs.subs[n].1 j.out := fun o => by rw [hn', subFile_eq]
      obtain ⟨t1, -, -⟩ := l3 n hn ⟨CCGL.Spec.subsetFile k j.out, wholeOpts j.type⟩ (hnm _) (opts_sub jd.own O.type.1) hold
      obtain ⟨t2, -, -⟩ := l3 n hn ⟨CCGL.Spec.subsetFile k j.out, outOpts .double jd.own (wholeOpts j.type) true⟩ (hnm _) (fun _ _ h => h) (fun _ _ h => h)
      have hwr : ∀ i, i ≤ n → CCGL.Spec.Written jd.atts (0 + i) := fun i _ => O.done.2 _
      obtain ⟨info, u1, u2, u3⟩ := t1 hwr _ F (by rw [hn']; exact q2)
      obtain ⟨info2, -, -, u6⟩ := t2 hwr _ F (by rw [hn']; exact q2)
      refine ⟨⟨s.srow, s.erow, s.scol, s.ecol, q5, w, ?_, q7⟩, ?_⟩
      · exact holds_file hrnd (own := jd.own) q6 O.type.1 (subFile_key O k).name q3 q4 u1 u2 u3
      · intro f hf hh
        have h1 : f ∈ CCGL.Spec.filesOf st' ⟨CCGL.Spec.subsetFile k j.out, wholeOpts j.type⟩ := mem_filesOf.2 ⟨hf, hh⟩
        have h2 : File.mk (CCGL.Spec.subsetFile k j.out) info2 (F.flatMap (encode j.type)) ∈
            CCGL.Spec.filesOf st' ⟨CCGL.Spec.subsetFile k j.out, outOpts .double jd.own (wholeOpts j.type) true⟩ := by
          rw [u6]; exact List.mem_singleton.2 rfl
        obtain ⟨h3, h4⟩ := mem_filesOf.1 h2
        have h5 : File.mk (CCGL.Spec.subsetFile k j.out) info2 (F.flatMap (encode j.type)) ∈
            CCGL.Spec.filesOf st' ⟨CCGL.Spec.subsetFile k j.out, wholeOpts j.type⟩ :=
          mem_filesOf.2 ⟨h3, h4.1, fun a b hab => h4.2 a b (opts_sub jd.own O.type.1 a b hab)⟩
        rw [u3] at h1 h5
        rw [List.mem_singleton.1 h1, ← List.mem_singleton.1 h5]
        exact h4

theorem store_combL {rnd : ℚ → ℚ} (hrnd : ∀ v, CCGL.Spec.Representable .float v → rnd v = v) {st0 st : Store} {mode : IOMode} {j : Job} {jd : JobDb} {V : View}
    {fill : ℚ} {m : Int} {rs : RasterS} {N : Nat → Int → Int → ℚ → Prop} (H : ReadyL rs V.hdr N V.grp m j.default.toQ fill) (O : DbOut st0 mode j jd V fill m) (hre : j.recls = true)
    (hmode : WantsAll mode) (hany : ∃ k, Present V.grp k)
    (hold : ∀ f ∈ st, CCGL.Spec.Has f ⟨storedName j.out, wholeOpts j.type⟩ → CCGL.Spec.Has f ⟨storedName j.out, outOpts .double jd.own (wholeOpts j.type) true⟩) :
    ∃ st' o b, outputSubsets rnd .double (fun _ => jd.rm) (fun _ => jd.att) st rs jd.own jd.core j.out (jobOpts true j.type) true true true (tableOf j.table)
        j.default.toQ = .ok (o, st', b) ∧
      (∀ R : CCGL.Spec.Key, R.name ≠ storedName j.out → CCGL.Spec.filesOf st' R = CCGL.Spec.filesOf st R) ∧
      DbWhole rnd st' (storedName j.out) (wholeOpts j.type) V.hdr m (lookOut j rs fill) V.grp := by
  have hne := H.any.1 hany
  obtain ⟨ls, ps, G, hc⟩ := H.cut hne
  obtain ⟨t1, t2⟩ := O.table hre
  have hm := t1.2.1
  have hg := H.grid
  unfold Header.grid at hg
  injection hg with g1 g2 g3 g4 g5
  obtain ⟨F, e1, e2, e3⟩ := hc.comb hne (table_ok t1) (H.lay) j.default.toQ
  have hst := O.whole hmode
  rw [g1, g2] at e2
  have e3 : ∀ row col (l : Nat), V.hdr.grid.CellInside row col → (l : Int) < m →
      ((∃ k, V.grp k row col) → F[((row * V.hdr.cols + col) * m + l).toNat]? = some (lookOut j rs fill l row col)) ∧
      ((¬ ∃ k, V.grp k row col) → F[((row * V.hdr.cols + col) * m + l).toNat]? = some V.hdr.noData) := by
    rintro row col l ⟨a1, a2, a3, a4⟩ a5
    obtain ⟨u1, u2⟩ := e3 row col l a1 (by rw [g1]; exact a2) a3 (by rw [g2]; exact a4) (by omega) a5
    rw [g2] at u1 u2
    have hC : 0 ≤ V.hdr.cols := hst.cols.1
    have hpos : 0 ≤ (row * V.hdr.cols + col) * m + (l : Int) := by
      have : 0 ≤ row * V.hdr.cols := Int.mul_nonneg a1 hC
      have : 0 ≤ (row * V.hdr.cols + col) * m := Int.mul_nonneg (by omega) (by omega)
      omega
    constructor
    · rintro ⟨k, hk⟩
      obtain ⟨s, a, b⟩ := (H.grp k row col).1 hk
      obtain ⟨x, x1, x2⟩ := u1 k s a b
      rw [get_of_read hpos x2, H.fill, table_value t2]
      unfold lookOut
      rw [layerNum_eq x1]
    · intro hno
      rw [get_of_read hpos (u2 (fun k s a b => hno ⟨k, (H.grp k row col).2 ⟨s, a, b⟩⟩)), H.nd]
  have hw : AllCells V.hdr m (fun l row col => F.getD ((row * V.hdr.cols + col) * m + l).toNat 0) F := by
    refine ⟨e2, ?_⟩
    intro row col l hin hlm
    obtain ⟨u1, u2⟩ := e3 row col l hin hlm
    have : ∃ x, F[((row * V.hdr.cols + col) * m + (l : Int)).toNat]? = some x := by
      by_cases hin : ∃ k, V.grp k row col
      · exact ⟨_, u1 hin⟩
      · exact ⟨_, u2 hin⟩
    obtain ⟨x, hx⟩ := this
    show F[((row * V.hdr.cols + col) * m + (l : Int)).toNat]? = _
    rw [List.getD_eq_getElem?_getD, hx]
    rfl
  have hfit : ∀ x ∈ F, Fits j.type x := by
    refine hw.fits hst.cols.1 hm ?_
    intro row col l hin hlm
    obtain ⟨u1, u2⟩ := e3 row col l hin hlm
    rw [List.getD_eq_getElem?_getD]
    by_cases hg : ∃ k, V.grp k row col
    · rw [u1 hg]
      exact O.vals hre _ _
    · rw [u2 hg]; exact O.nodata
  obtain ⟨st', n, w1, w2, w3⟩ := store_layers (own := jd.own) hrnd hw O.type (by rw [stored_zero]; exact subFile_key O 0) hst hfit O.rm O.att O.done.1 hold
  refine ⟨st', outOpts .double jd.own (wholeOpts j.type) true, true, ?_, w2, _, w3, ?_⟩
  · unfold outputSubsets
    dsimp only
    rw [if_neg (by rw [show rs.ras.validData = true from Holds.valid hc.comp.holds]; simp), if_neg hne, if_pos rfl, if_neg O.name, e1, Out.ok_bind]
    dsimp only
    have hH : ({ rs.ras.hdr with layers := m, cellsnum := Int.tdiv (rs.ras.hdr.rows * rs.ras.hdr.cols * m) m } : Header) =
        { V.hdr with layers := m, cellsnum := V.hdr.rows * V.hdr.cols } := by
      rw [Int.mul_tdiv_cancel _ (by omega)]
      dsimp only
      rw [g1, g2, g3, g4, g5, H.hnd]
    rw [if_neg (by omega), hH, jobOpts_true, subOpts_eq jd.own O.type.1]
    rw [show rs.ras.hdr.rows * rs.ras.hdr.cols * m = (F.length : Int) by rw [g1, g2]; exact e2.symm]
    have : "0_".toList ++ j.out = storedName j.out := rfl
    rw [this, w1]
    rfl
  · intro row col l hin hlm
    obtain ⟨u1, u2⟩ := e3 row col l hin hlm
    rw [List.getD_eq_getElem?_getD]
    exact ⟨fun h => by rw [u1 h]; rfl, fun h => by rw [u2 h]; rfl⟩

theorem step_groupsL {rnd : ℚ → ℚ} (hrnd : ∀ v, CCGL.Spec.Representable .float v → rnd v = v) {st : Store} {mode : IOMode} {j : Job} {jd : JobDb} {V : View}
    {fill : ℚ} {m : Int} {rs : RasterS} {N : Nat → Int → Int → ℚ → Prop} (H : ReadyL rs V.hdr N V.grp m j.default.toQ fill) (hre : j.recls = true) (O : DbOut st mode j jd V fill m) :
    ∃ s1, (if outSubset mode then do
        let w ← outputSubsets rnd .double jd.rms jd.atts st rs jd.own jd.core j.out (jobOpts true j.type) true true false (tableOf j.table) (j.default.toQ)
        return w.2.1
      else return st : Out Store) = .ok s1 ∧
      (∀ R : CCGL.Spec.Key, (∀ k, WantsSingle mode → Present V.grp k → R.name ≠ CCGL.Spec.subsetFile k j.out) → CCGL.Spec.filesOf s1 R = CCGL.Spec.filesOf st R) ∧
      (WantsSingle mode → ∀ k, Present V.grp k → DbSingle rnd s1 (CCGL.Spec.subsetFile k j.out) (wholeOpts j.type) V.hdr m (lookOut j rs fill) (V.grp k)) ∧
      (WantsAll mode → (j.recls = true → ∃ k, Present V.grp k) → ∀ f ∈ s1, CCGL.Spec.Has f ⟨storedName j.out, wholeOpts j.type⟩ →
        CCGL.Spec.Has f ⟨storedName j.out, outOpts .double jd.own (wholeOpts j.type) true⟩) := by
  by_cases hm : WantsSingle mode
  · rw [if_pos ((outSubset_iff mode).2 hm)]
    obtain ⟨s1, o, b, e, h1, h2⟩ := store_groupsL hrnd H hre O hm
    refine ⟨s1, by rw [e]; rfl, fun R hR => h1 R (fun k hk => hR k hm hk), fun _ k hk => (h2 k hk).1, ?_⟩
    intro ha hany f hf hh
    by_cases h0 : Present V.grp 0
    · have := (h2 0 h0).2 f hf
      rw [← stored_zero] at this
      exact this hh
    · have hsame : ∀ o : Opts, CCGL.Spec.filesOf s1 ⟨storedName j.out, o⟩ = CCGL.Spec.filesOf st ⟨storedName j.out, o⟩ := by
        intro o
        apply h1
        intro k hk he
        have he : storedName j.out = CCGL.Spec.subsetFile k j.out := he
        rw [stored_zero, ← subFile_eq, ← subFile_eq] at he
        rw [← subFile_inj he] at hk
        exact h0 hk
      have h3 : f ∈ CCGL.Spec.filesOf s1 ⟨storedName j.out, wholeOpts j.type⟩ := mem_filesOf.2 ⟨hf, hh⟩
      rw [hsame] at h3
      obtain ⟨h4, h5⟩ := mem_filesOf.1 h3
      exact O.old _ (.inr ⟨ha, hany, rfl⟩) f h4 h5
  · rw [if_neg (fun h => hm ((outSubset_iff mode).1 h))]
    exact ⟨st, rfl, fun _ _ => rfl, fun h => absurd h hm, fun ha hany => O.old _ (.inr ⟨ha, hany, rfl⟩)⟩

/-- The cells of groups can be read in the layers that the table looks at. -/
theorem ReadyL.reads {rs h N g m dv fill} {j : Job} (H : ReadyL rs h N g m dv fill) (htab : CCGL.Spec.TableOf (numTable j) m) {k row col : Int} (hk : g k row col) (l : Nat) (hl : (l : Int) < m) :
    ∃ x, rs.ras.getValue row col (if rs.ras.is2d then (l : Int) + 1 else 1) = .ok x := by
  obtain ⟨s, a, b⟩ := (H.grp k row col).1 hk
  have hne : rs.subs ≠ [] := fun h => by rw [h, IMap.get_nil] at a; cases a
  obtain ⟨ls, ps, G, hc⟩ := H.cut hne
  obtain ⟨F, -, -, e3⟩ := hc.decomp (table_ok htab) H.lay dv a
  obtain ⟨b1, b2, b3, b4⟩ := (cut_box hc a).inside row col b
  obtain ⟨x, x1, -⟩ := (e3 row col l b1 b2 b3 b4 (by omega) hl).1 b
  exact ⟨x, x1⟩

theorem write_reclsL_db {sys : Sys} (hrnd : ∀ v, CCGL.Spec.Representable .float v → sys.rnd v = v) {st : Store} {mode : IOMode} {j : Job} {jd : JobDb} {V : View}
    {fill : ℚ} {m : Int} {rs : RasterS} {N : Nat → Int → Int → ℚ → Prop} {noMask : Bool} (hre : j.recls = true) (H : ReadyL rs V.hdr N V.grp m j.default.toQ fill)
    (O : DbOut st mode j jd V fill m) :
    ∃ st', writeJobDb sys.rnd true mode jd j noMask rs st = .ok st' ∧ OthersStay st st' mode j V.grp ∧ DbLayers sys.rnd st' mode j V N fill m := by
  obtain ⟨s1, e1, f1, d1, o1⟩ := step_groupsL hrnd H hre O
  have hu : ∀ k row col (l : Nat), V.grp k row col → (l : Int) < m →
      ∃ x, N l row col x ∧ lookOut j rs fill l row col = CCGL.Spec.tableValue (numTable j) (truncQ x) l fill := by
    intro k row col l hk hlm
    obtain ⟨x, hx⟩ := H.reads (O.table hre).1 hk l hlm
    exact ⟨x, H.val k row col l x hk hlm hx, by unfold lookOut; rw [layerNum_eq hx]⟩
  have hw : writeJobDb sys.rnd true mode jd j noMask rs st = (do
      if outAll mode then do
        let w ← outputSubsets sys.rnd .double (fun _ => jd.rm) (fun _ => jd.att) s1 rs jd.own jd.core j.out (jobOpts true j.type) true true true
          (tableOf j.table) j.default.toQ
        return w.2.1
      else return s1 : Out Store) := by
    unfold writeJobDb
    dsimp only
    rw [hre, if_pos rfl, e1]
    rfl
  rw [hw]
  by_cases hm : WantsAll mode
  · rw [if_pos ((outAll_iff mode).2 hm)]
    by_cases hp : ∃ k, Present V.grp k
    · obtain ⟨s2, o, b, e2, f2, d2⟩ := store_combL hrnd H O hre hm hp (o1 hm (fun _ => hp))
      refine ⟨s2, by rw [e2]; rfl, ?_, lookOut j rs fill, hu, ?_, fun _ _ => d2⟩
      · intro R hR
        rw [f2 R (hR _ (.inr ⟨hm, fun _ => hp, rfl⟩)), f1 R (fun k hs hk => hR _ (.inl ⟨hs, k, hk, rfl⟩))]
      · intro hs k hk h0
        refine single_congr (subFile_key O k).name (f2 _ ?_) (d1 hs k hk)
        intro he
        have he : CCGL.Spec.subsetFile k j.out = storedName j.out := he
        rw [stored_zero, ← subFile_eq, ← subFile_eq] at he
        exact h0 hm (subFile_inj he)
    · have hs : rs.subs = [] := by
        by_contra hne
        exact hp (H.any.2 hne)
      refine ⟨s1, ?_, ?_, lookOut j rs fill, hu, fun h k hk => absurd ⟨k, hk⟩ hp, fun _ h => absurd h hp⟩
      · unfold outputSubsets
        cases hvd : rs.ras.validData with
        | false => rfl
        | true =>
          rw [if_neg (by simp), if_pos hs]
          rfl
      · intro R hR
        exact f1 R (fun k hs hk => hR _ (.inl ⟨hs, k, hk, rfl⟩))
  · rw [if_neg (fun h => hm ((outAll_iff mode).1 h))]
    refine ⟨s1, rfl, fun R hR => f1 R (fun k hs hk => hR _ (.inl ⟨hs, k, hk, rfl⟩)), lookOut j rs fill, hu, fun h k hk _ => d1 h k hk, fun h => absurd h hm⟩

end App
end CCGL
