import Verif.Props.AppGfsFewRead
import Verif.Props.AppGfsJobs
/-!
# Several jobs without NoData cells (C87)
-/
namespace CCGL
namespace App
open Fs Disk Main Raster Gfs Disk.Spec App.Spec

theorem maskFinish_mask {old m : Raster} {ps : List (Int × Int)} {a : MaskAcc} {res : MaskRes} (e : maskFinish old m ps a = .ok res) :
    res.mask = m := by
  unfold maskFinish at e
  dsimp only at e
  generalize maskFlags (decide (a.maxRow - a.minRow + 1 = m.hdr.rows) && decide (a.maxCol - a.minCol + 1 = m.hdr.cols))
    a.ras.useMaskExt a.ras.calcPos (decide (a.matched = (ps.length : Int))) = fl at e
  by_cases q1 : (decide (a.maxRow - a.minRow + 1 = m.hdr.rows) && decide (a.maxCol - a.minCol + 1 = m.hdr.cols) &&
      decide (a.masked ≠ (ps.length : Int))) = true
  · rw [if_pos q1] at e; simp at e
  rw [if_neg q1] at e
  by_cases q2 : ((a.ras.posData.isSome || a.ras.posIdx.isSome) && !a.ras.storePos) = true
  · rw [if_pos q2] at e; simp at e
  rw [if_neg q2] at e
  by_cases q3 : (!a.ras.validData) = true
  · rw [if_pos q3] at e; simp at e
  rw [if_neg q3] at e
  by_cases h1 : fl.recalcPos = true
  · rw [if_pos h1] at e
    injection e with e
    subst e
    rfl
  rw [if_neg h1] at e
  by_cases h2 : fl.storeFull = true
  · rw [if_pos h2] at e
    generalize (if fl.updRowCol = true then ({ m.hdr with
        noData := a.ras.noData, layers := a.ras.nLyrs, rows := a.maxRow - a.minRow + 1, cols := a.maxCol - a.minCol + 1,
        xll := m.hdr.xll + a.minCol * m.hdr.cellsize,
        yll := m.hdr.yll + ((m.hdr.rows - a.maxRow - 1 : Int) : ℚ) * m.hdr.cellsize, cellsize := m.hdr.cellsize } : Header)
      else { m.hdr with noData := a.ras.noData, layers := a.ras.nLyrs }) = H at e
    by_cases h3 : old.hdr.rows * old.hdr.cols = H.cols * H.rows
    · rw [if_pos h3] at e
      injection e with e
      subst e
      rfl
    · rw [if_neg h3] at e
      obtain ⟨d, _, e⟩ := Out.bind_ok e
      obtain ⟨l, _, e⟩ := Out.bind_ok e
      injection e with e
      subst e
      rfl
  · rw [if_neg h2] at e
    injection e with e
    subst e
    rfl

/-- The mask after a masking is the mask with its positions. -/
theorem maskRaster_mask {r mask : Raster} {res : MaskRes} (e : maskRaster r mask = .ok res) : ∃ n pd, mask.maskPositions = .ok (res.mask, n, pd) := by
  unfold maskRaster at e
  obtain ⟨⟨m, n, pd⟩, e0, e⟩ := Out.bind_ok e
  dsimp only at e
  split at e
  · cases e
  obtain ⟨ps, _, e⟩ := Out.bind_ok e
  obtain ⟨a, ea, e⟩ := Out.bind_ok e
  refine ⟨n, pd, ?_⟩
  rw [e0]
  split at e
  · injection e with e
    subst e
    rfl
  · rw [maskFinish_mask e]

/-- A mask that has been used is still the mask. -/
theorem Spec.FullMask.used {m m2 : Raster} {hM : Header} {vM : Int → Int → ℚ} (h : FullMask m hM vM) (hne : ∃ row col, HasValue hM vM row col)
    {n : Int} {pd : Ptr (Int × Int)} (e : m.maskPositions = .ok (m2, n, pd)) : FullMask m2 hM vM := by
  obtain ⟨m', ls, ps, c1, c2, -, -, -, -, c7⟩ := h.positions hne
  obtain ⟨row, col, q⟩ := hne
  obtain ⟨m1, ls1, ps1, d1, d2, d3, -⟩ := clean_positions h.built h.clean ⟨row, col, by rw [h.grid]; exact q.1, (h.valid q.1).2 q⟩
  rw [c2] at d2
  simp only [Out.ok.injEq, Prod.mk.injEq] at d2
  obtain ⟨d2, -, -⟩ := d2
  subst d2
  have : m2 = m' := by
    rcases d3 with ⟨-, ⟨c, b2⟩, -, -⟩ | b1
    · unfold maskPositions at e
      by_cases hc : m.calcPos = true
      · rw [hc] at e
        simp only [Bool.not_true, Bool.false_eq_true, if_false, Out.ok_bind, c2, Out.ok.injEq, Prod.mk.injEq] at e
        exact e.1.symm
      · have hc' : m.calcPos = false := by simpa using hc
        rw [hc'] at e
        simp only [Bool.not_false, if_true, b2, Out.ok_bind, Out.pure_eq] at e
        unfold getPositionData at e
        simp only [c1.pd, Option.isSome_some, if_true, Out.ok.injEq, Prod.mk.injEq] at e
        exact e.1.symm
    · rw [← b1, c1.positions] at e
      simp only [Out.ok.injEq, Prod.mk.injEq] at e
      exact e.1.symm
  rw [this]
  exact c7

/-- As `file_input_masked`, with the mask as a whole. -/
theorem file_input_full {sys : Sys} {d : Disk} {st : Store} {j : Job} {jd : JobDb} {s : Str} {hM hR : Header} {vM vR : Int → Int → ℚ} {m : Raster} {inc : Bool}
    (hm : FullMask m hM vM) (h1 : j.inFmt = .sfile) (h2 : j.inputs = [s]) (h3 : RasterFile d s hR vR)
    (hg : CCGL.Spec.CommonGrid hR hM) (hov : Overlaps hM vM hR) (mode : IOMode) :
    ∃ r m' w, layerJobDb sys inc mode (d, st, some ⟨m, []⟩) (j, jd) =
        finishJobDb sys inc mode (d, st, some ⟨m, []⟩) (j, jd) (some ⟨r, []⟩, some ⟨m', []⟩) ∧
      FullMask m' hM vM ∧ Shows r { hM with noData := hR.noData } w ∧ r.posData.isNone = false ∧
      (∀ row col, hM.grid.CellInside row col → (CCGL.Spec.Stored r row col ↔ HasValue hM vM row col)) ∧
      (∀ row col, hM.grid.CellInside row col → MaskedCell hM vM hR vR j.default.toQ row col (w row col)) := by
  obtain ⟨x, res, hex, e1, e2, hcode, hm', hb, hnc, h2d, hly, hgr, hnd, hpd, hst, hval⟩ := file_masked_stored hm.isMask h3 hg hov j.default.toQ
  have key2 : ∀ rc : Int × Int, ∃ w, hM.grid.CellInside rc.1 rc.2 → res.ras.getValue rc.1 rc.2 1 = .ok w ∧
      MaskedCell hM vM hR vR j.default.toQ rc.1 rc.2 w := by
    intro rc
    by_cases hin : hM.grid.CellInside rc.1 rc.2
    · obtain ⟨w, hw⟩ := hval rc.1 rc.2 hin
      exact ⟨w, fun _ => hw⟩
    · exact ⟨0, fun h => absurd h hin⟩
  choose w hw using key2
  have hne : ∃ row col, HasValue hM vM row col := by
    obtain ⟨row, col, i, j, q, -⟩ := hov
    exact ⟨row, col, q⟩
  obtain ⟨n, pd, emp⟩ := maskRaster_mask e2
  refine ⟨res.ras, res.mask, fun row col => w (row, col), ?_, hm.used hne emp,
    ⟨hb, hnc, h2d, hly, hgr, hnd, fun row col hin => (hw (row, col) hin).1⟩, hpd, hst, fun row col hin => (hw (row, col) hin).2⟩
  unfold layerJobDb
  have hfe : filesExist d.fs j.inputs = true := by rw [h2]; unfold filesExist; simp [hex]
  dsimp only
  rw [if_pos ⟨h1, hfe⟩]
  have hi : initFiles d j.inputs false (some ⟨m, []⟩) true j.default.toQ = .ok (some ⟨res.ras, []⟩, some ⟨res.mask, []⟩) := by
    unfold initFiles
    rw [hfe, h2]
    simp only [Bool.not_true, Bool.false_eq_true, if_false]
    unfold initFile
    rw [hex]
    simp only [Bool.not_true, Bool.false_eq_true, if_false]
    rw [e1]
    simp only [Out.ok_bind]
    unfold maskRasterS
    rw [e2]
    simp only [Out.ok_bind, or_true, if_true, Out.pure_eq, hcode]
    rfl
  rw [hi, Out.ok_bind]

/-- A job without NoData cells that can be carried out: its input is a raster file, or a file in the bucket with the cells of the mask. -/
inductive Spec.FewJob (sys : Sys) (d : Disk) (st : Store) (hM : Header) (vM : Int → Int → ℚ) (jj : Job × JobDb) (s : Source) : Prop
  | file (f : Str) : jj.1.inFmt = .sfile → jj.1.inputs = [f] → RasterFile d f s.hdr s.val → CCGL.Spec.CommonGrid s.hdr hM → Overlaps hM vM s.hdr →
      BucketFew st jj.1 jj.2 { hM with noData := renamedNd jj.1.update s.hdr.noData jj.1.nodata.toQ } →
      FitsAll jj.1.type s.hdr s.val jj.1.default.toQ jj.1.update jj.1.nodata.toQ → FewJob sys d st hM vM jj s
  | bucket : FewInput sys st jj.1 jj.2 s.hdr s.val hM vM → (∀ n ∈ jj.1.inputs, Char.ofNat 0 ∉ n) →
      BucketFew st jj.1 jj.2 { s.hdr with noData := renamedNd jj.1.update s.hdr.noData jj.1.nodata.toQ } →
      FitsAll jj.1.type s.hdr s.val jj.1.default.toQ jj.1.update jj.1.nodata.toQ → FewJob sys d st hM vM jj s

/-- Header and cells of the result before NoData is renamed: for a raster file the masked raster, for a file in the bucket the stored cells. -/
def Spec.FewResult (hM : Header) (vM : Int → Int → ℚ) (j : Job) (s : Source) (h : Header) (w : Int → Int → ℚ) : Prop :=
  (j.inFmt = .sfile ∧ h = { hM with noData := s.hdr.noData } ∧
    ∀ row col, hM.grid.CellInside row col → MaskedCell hM vM s.hdr s.val j.default.toQ row col (w row col)) ∨
  (j.inFmt = .gfs ∧ h = s.hdr ∧ FewCells s.hdr s.val hM vM w)

/-- The result is in the bucket, without NoData cells. -/
def Spec.InBucketFew (sys : Sys) (st : Store) (jj : Job × JobDb) (h : Header) (v : Int → Int → ℚ) (S : Int → Int → Prop) : Prop :=
  ((∃ i, i < 4 ∧ (jj.2.att i).reported = true) → HoldsCells sys.rnd st (storedName jj.1.out) (fewOpts jj.1.type) h v S) ∧
  ((∀ i, i < 4 → (jj.2.att i).reported = false) → CCGL.Spec.filesOf st ⟨storedName jj.1.out, fewOpts jj.1.type⟩ = [])

theorem holdsCells_congr {rnd : ℚ → ℚ} {st st' : Store} {name : Str} {ty : RDT} {h : Header} {v : Int → Int → ℚ} {S : Int → Int → Prop} (hn : Char.ofNat 0 ∉ name)
    (he : CCGL.Spec.filesOf st' ⟨name, fewOpts ty⟩ = CCGL.Spec.filesOf st ⟨name, fewOpts ty⟩) (H : HoldsCells rnd st name (fewOpts ty) h v S) :
    HoldsCells rnd st' name (fewOpts ty) h v S := by
  refine ⟨H.header, H.nonempty, ?_⟩
  intro ok1 ok2 h1 h2
  have := readGridfs_congr (rnd := rnd) (T := .double) (ok1 := ok1) (ok2 := ok2) (rd := true) (h := initialHeader) (s := initialStr)
    (jobOpts_good false ty hn) he
  dsimp only at this
  rw [jobOpts_false] at this
  rw [this]
  exact H.reads ok1 ok2 h1 h2

theorem bucketFew_same {st st' : Store} {j : Job} {jd : JobDb} {h : Header} {name : Str}
    (he : ∀ R : CCGL.Spec.Key, R.name ≠ name → CCGL.Spec.filesOf st' R = CCGL.Spec.filesOf st R) (hne : storedName j.out ≠ name)
    (H : BucketFew st j jd h) : BucketFew st' j jd h := by
  refine ⟨H.key, H.header, H.type, H.rm, H.att, ?_⟩
  intro f hf hh
  have : f ∈ CCGL.Spec.filesOf st' ⟨storedName j.out, fewOpts j.type⟩ := mem_filesOf.2 ⟨hf, hh⟩
  rw [he _ hne] at this
  exact H.old f (mem_filesOf.1 this).1 hh

theorem fewJob_same {sys : Sys} {d : Disk} {st st' : Store} {hM : Header} {vM : Int → Int → ℚ} {a b : Job × JobDb} {s : Source}
    (he : ∀ R : CCGL.Spec.Key, R.name ≠ storedName a.1.out → CCGL.Spec.filesOf st' R = CCGL.Spec.filesOf st R) (hw : WritesApart a b)
    (H : FewJob sys d st hM vM b s) : FewJob sys d st' hM vM b s := by
  cases H with
  | file f h1 h2 h3 h4 h5 h6 h7 => exact .file f h1 h2 h3 h4 h5 (bucketFew_same he hw.1.symm h6) h7
  | bucket h1 h2 h3 h4 =>
    refine .bucket ⟨h1.fmt, ?_, h1.ok1, h1.ok2, h1.rd, h1.rows, h1.cols, h1.gap⟩ h2 (bucketFew_same he hw.1.symm h3) h4
    obtain ⟨name, more, e1, e2⟩ := h1.ex
    refine ⟨name, more, e1, holdsCells_congr (h2 name (by rw [e1]; simp)) (he _ ?_) e2⟩
    intro e
    exact hw.2 h1.fmt (by rw [e1, ← e]; simp)

/-- One job. -/
theorem few_job {sys : Sys} (hrnd : ∀ v, CCGL.Spec.Representable .float v → sys.rnd v = v) {d : Disk} {st : Store} {m : Raster} {hM : Header}
    {vM : Int → Int → ℚ} (hm : FullMask m hM vM) {jj : Job × JobDb} {s : Source} (hf : jj.1.outFmt = .gfs ∧ jj.1.recls = false)
    (H : FewJob sys d st hM vM jj s) :
    ∃ (st' : Store) (m' : Raster) (h : Header) (w : Int → Int → ℚ), layerJobDb sys false .mask (d, st, some ⟨m, []⟩) jj = .ok (d, st', some ⟨m', []⟩) ∧
      FullMask m' hM vM ∧ FewResult hM vM jj.1 s h w ∧ StoredFew sys st st' jj.1 jj.2 { h with noData := renamedNd jj.1.update s.hdr.noData jj.1.nodata.toQ }
        (fun row col => renamed jj.1.update s.hdr.noData jj.1.nodata.toQ (w row col)) (HasValue hM vM) := by
  obtain ⟨j, jd⟩ := jj
  dsimp only at hf
  cases H with
  | file f h1 h2 h3 h4 h5 h6 h7 =>
    dsimp only at h1 h2 h6 h7
    obtain ⟨r, m', w, e, k1, k2, k3, k4, k5⟩ := file_input_full (sys := sys) (st := st) (jd := jd) (inc := false) hm h1 h2 h3 h4 h5 .mask
    obtain ⟨ps, hps⟩ : ∃ ps, r.posData = some ps := by
      cases hp : r.posData with
      | none => rw [hp] at k3; cases k3
      | some ps => exact ⟨ps, rfl⟩
    obtain ⟨st', ok, e1, e2, e3, e4, e5⟩ := finish_few (sys := sys) hrnd (d := d) (st := st) (mask := some ⟨m, []⟩) (mask' := some ⟨m', []⟩)
      (j := j) (jd := jd) (S := HasValue hM vM) k2 hf.1 hf.2 (fun r' p1 hs' => by
        obtain ⟨ps', hfs⟩ := few_stored (S := HasValue hM vM) hs' (by rw [p1, hps]; rfl) (fun row col hin => by
          have q1 := stored_iff hs' (by rw [p1, hps]) hin
          have q2 := stored_iff k2 hps (row := row) (col := col) hin
          rw [q1, ← q2]
          exact k4 row col hin)
        exact ⟨r', ps', hfs⟩) h6 (fun row col hin => by
        have := fits_masked h7 (k5 row col hin)
        exact this)
    refine ⟨st', m', { hM with noData := s.hdr.noData }, w, by rw [e, e1], k1, .inl ⟨h1, rfl, k5⟩, e3, fun h => e4 (e2.2 h), fun h => e5 ?_⟩
    cases ok
    · rfl
    · obtain ⟨i, hi, a⟩ := e2.1 rfl
      rw [h i hi] at a; cases a
  | bucket h1 h2 h3 h4 =>
    dsimp only at h1 h3 h4
    classical
    let w : Int → Int → ℚ := fun row col => if HasValue hM vM row col then s.val row col else s.hdr.noData
    have hw : FewCells s.hdr s.val hM vM w := fun row col _ => ⟨fun q => if_pos q, fun q => if_neg q⟩
    obtain ⟨st', m', e, k1, k2⟩ := C87_few_store sys hrnd (d := d) hm h1 hw hf.1 hf.2 h3 (by
      intro row col hin
      unfold renamed
      split
      · next hu => exact h4.new hu.1
      · by_cases q : HasValue hM vM row col
        · rw [show w row col = _ from if_pos q]; exact h4.cells row col hin
        · rw [show w row col = _ from if_neg q]; exact h4.nodata)
    exact ⟨st', m', s.hdr, w, e, k1, .inr ⟨h1.fmt, rfl, hw⟩, k2⟩

/-- C87, INCLUDE_NODATA FALSE: all jobs of the mode MASK with a mask and output to the bucket, in their order. -/
theorem C87_few_jobs (sys : Sys) (hrnd : ∀ v, CCGL.Spec.Representable .float v → sys.rnd v = v) {d : Disk} {hM : Header} {vM : Int → Int → ℚ}
    {st : Store} {m : Raster} (hm : FullMask m hM vM) {js : List (Job × JobDb)} {ss : List Source} (hA : js.Pairwise WritesApart)
    (hj : List.Forall₂ (fun jj s => (jj.1.outFmt = .gfs ∧ jj.1.recls = false) ∧ FewJob sys d st hM vM jj s) js ss) :
    ∃ st', runJobsDb sys false .mask (some ⟨m, []⟩) d st js = .ok (0, d, st') ∧
      (∀ R : CCGL.Spec.Key, (∀ jj ∈ js, R.name ≠ storedName jj.1.out) → CCGL.Spec.filesOf st' R = CCGL.Spec.filesOf st R) ∧
      List.Forall₂ (fun jj s => ∃ (h : Header) (w : Int → Int → ℚ), FewResult hM vM jj.1 s h w ∧
        InBucketFew sys st' jj { h with noData := renamedNd jj.1.update s.hdr.noData jj.1.nodata.toQ }
          (fun row col => renamed jj.1.update s.hdr.noData jj.1.nodata.toQ (w row col)) (HasValue hM vM)) js ss := by
  have key : ∀ (js : List (Job × JobDb)) (ss : List Source) (st : Store) (m : Raster), FullMask m hM vM → js.Pairwise WritesApart →
      List.Forall₂ (fun jj s => (jj.1.outFmt = .gfs ∧ jj.1.recls = false) ∧ FewJob sys d st hM vM jj s) js ss →
      ∃ st' m', js.foldlM (layerJobDb sys false .mask) (d, st, some ⟨m, []⟩) = .ok (d, st', m') ∧
      (∀ R : CCGL.Spec.Key, (∀ jj ∈ js, R.name ≠ storedName jj.1.out) → CCGL.Spec.filesOf st' R = CCGL.Spec.filesOf st R) ∧
      List.Forall₂ (fun jj s => ∃ (h : Header) (w : Int → Int → ℚ), FewResult hM vM jj.1 s h w ∧
        InBucketFew sys st' jj { h with noData := renamedNd jj.1.update s.hdr.noData jj.1.nodata.toQ }
          (fun row col => renamed jj.1.update s.hdr.noData jj.1.nodata.toQ (w row col)) (HasValue hM vM)) js ss := by
    intro js
    induction js with
    | nil =>
      intro ss st m _ _ hF
      cases hF
      exact ⟨st, _, rfl, fun _ _ => rfl, .nil⟩
    | cons jj js ih =>
      intro ss st m hm hA hF
      cases hF with
      | @cons _ s _ ss hj hF =>
      obtain ⟨hA1, hA2⟩ := List.pairwise_cons.1 hA
      have hkey : Char.ofNat 0 ∉ storedName jj.1.out := by
        cases hj.2 with
        | file _ _ _ _ _ _ h6 _ => exact h6.key.name
        | bucket _ _ h6 _ => exact h6.key.name
      obtain ⟨st1, m1, h, w, e1, hm1, hg1, k1, k2, k3⟩ := few_job hrnd hm hj.1 hj.2
      have hF1 : List.Forall₂ (fun jj s => (jj.1.outFmt = .gfs ∧ jj.1.recls = false) ∧ FewJob sys d st1 hM vM jj s) js ss := by
        clear ih e1 hj hm1 hg1 k2 k3 hA hA2
        induction hF with
        | nil => exact .nil
        | @cons b t js' ss' hb hF' ih' =>
          exact .cons ⟨hb.1, fewJob_same k1 (hA1 b List.mem_cons_self) hb.2⟩ (ih' (fun b hb => hA1 b (List.mem_cons_of_mem _ hb)))
      obtain ⟨st2, m2, e2, k4, k5⟩ := ih ss st1 m1 hm1 hA2 hF1
      have hk : CCGL.Spec.filesOf st2 ⟨storedName jj.1.out, fewOpts jj.1.type⟩ = CCGL.Spec.filesOf st1 ⟨storedName jj.1.out, fewOpts jj.1.type⟩ :=
        k4 _ (fun b hb => (hA1 b hb).1)
      refine ⟨st2, m2, by rw [List.foldlM_cons, e1]; exact e2, ?_, .cons ⟨h, w, hg1, ?_, ?_⟩ k5⟩
      · intro R hR
        rw [k4 R (fun b hb => hR b (List.mem_cons_of_mem _ hb)), k1 R (hR jj List.mem_cons_self)]
      · intro q
        exact holdsCells_congr hkey hk (k2 q)
      · intro q
        rw [hk]; exact k3 q
  obtain ⟨st', m', e, k1, k2⟩ := key js ss st m hm hA hj
  refine ⟨st', ?_, k1, k2⟩
  unfold runJobsDb
  rw [if_neg (by decide), if_neg (by decide), e]
  rfl

end App
end CCGL
