import Verif.Props.AppRecls
/-!
# Runs of `mask_rasterio` in the modes MASK, DEC and MASKDEC, with and without reclassification (C78)
-/
namespace CCGL
namespace App
open Fs Disk Main Raster Disk.Spec App.Spec

/-- Combining the data of subsets without data writes nothing. -/
theorem no_data_lyrs : ∀ (subs : IMap Subset), Bare subs → subs ≠ [] → ∀ acc, subs.foldl (subsetLyrsStep true) acc = none := by
  have hnone : ∀ (subs : IMap Subset), subs.foldl (subsetLyrsStep true) none = none := by
    intro subs
    induction subs with
    | nil => rfl
    | cons e l ih => rw [List.foldl_cons]; exact ih
  intro subs hb hne acc
  cases subs with
  | nil => exact absurd rfl hne
  | cons e l =>
    obtain ⟨h1, h2, h3⟩ := hb e List.mem_cons_self
    rw [List.foldl_cons]
    have : subsetLyrsStep true acc e = none := by
      unfold subsetLyrsStep
      cases acc with
      | none => rfl
      | some n => simp [h1, h2, h3]
    rw [this]
    exact hnone l

theorem combined_nothing {env : Env} {fmt : Disk.Fmt} {d : Disk} {rs : RasterS} (h : Bare rs.subs) (name : Str) :
    outputToFile env fmt d rs name false = .ok (rs, false, d) := by
  unfold outputToFile
  split
  · rfl
  · dsimp only
    split
    · rfl
    · rw [if_pos (by rfl)]
      have : outputSubsetToFile env fmt d rs false true name [] NODATA = .ok (false, d) := by
        unfold outputSubsetToFile
        split
        · rfl
        · by_cases hs : rs.subs = []
          · rw [if_pos hs]
          · rw [if_neg hs, if_pos rfl]
            have : prepareComb rs false true [] NODATA = .ok none := by
              unfold prepareComb
              rw [if_neg hs]
              have e1 : reclsLyrs ([] : IMap (List ℚ)) = some (-1) := rfl
              rw [e1]
              dsimp only
              have e2 : subsetLyrs rs.subs (decide (([] : IMap (List ℚ)) = [])) = none := no_data_lyrs _ h hs _
              rw [e2]
            rw [this]
            rfl
      rw [this]
      rfl

/-- A job without reclassification, given the steps before writing. -/
theorem whole_job (sys : Sys) {d : Disk} {mode : IOMode} {j : Job} {pl : RPlan} {V : View} {mk mk' : Option RasterS} {r r' : Raster} {subs : IMap Subset}
    (hw : Fs.Spec.WF d.fs) (hre : j.recls = false) (H : JobOk sys d mode V j pl) (hfe : filesExist d.fs j.inputs = true)
    (hi : initFiles d j.inputs false mk true j.default.toQ = .ok (some ⟨r, subs⟩, mk'))
    (e3 : (if j.update then r.replaceNoData j.nodata.toQ else .ok r : Out Raster) = .ok r') (hbare : Bare subs)
    (hb : CCGL.Spec.Built r') (hn : 0 < r'.nCells) (h1 : r'.is2d = false) (hl : r'.nLyrs = 1) (hg : r'.hdr.grid = V.hdr.grid) (hnd : r'.noData = V.hdr.noData)
    (hv : ∀ row col, V.hdr.grid.CellInside row col → r'.getValue row col 1 = .ok (V.val row col)) :
    ∃ d', layerJob sys mode (d, mk) j = .ok (d', mk') ∧ Rewritten d d' (JobTargets mode V j pl) ∧ JobDone d' mode V j pl := by
  have hhn : r'.hdr.noData = V.hdr.noData := by rw [hb.hdrOk.nd, hnd]
  have hwr : ∃ d', writeJob sys mode j ⟨r', subs⟩ d = .ok d' ∧ Rewritten d d' (JobTargets mode V j pl) ∧ JobDone d' mode V j pl := by
    have hs1 : (if outSubset mode then do
        let w ← outputToFile sys.env (sys.fmt j.type) d ⟨r', subs⟩ j.out false
        return (w.1, w.2.2)
      else return (⟨r', subs⟩, d) : Out (RasterS × Disk)) = .ok (⟨r', subs⟩, d) := by
      split
      · rw [combined_nothing hbare]
        rfl
      · rfl
    by_cases hm : WantsAll mode
    · obtain ⟨w1, w2, w3, w4, w5⟩ := H.whole hre hm
      have hch : CarriesHeader pl.suf r'.hdr := by
        have hg' := hg
        unfold Header.grid at hg'
        injection hg' with g1 g2 g3 g4 g5
        unfold CarriesHeader at w3 ⊢
        rw [g1, g2, g3, g4, g5, hhn]
        exact w3
      obtain ⟨d', v, o1, o2, o3, o4⟩ := write_whole hb hn h1 hl subs w2 hch (by
        intro row col x hin hx
        rw [hg] at hin
        rw [hv row col hin] at hx
        injection hx with hx
        rw [← hx]
        exact w5 row col hin) (by rw [hnd]; exact w4)
      refine ⟨d', ?_, ?_, ⟨(fun h => by rw [hre] at h; cases h), fun _ _ => ?_⟩⟩
      · unfold writeJob
        rw [if_neg (by rw [H.fmts.2]; simp), hre]
        simp only [Bool.false_eq_true, if_false]
        rw [hs1]
        simp only [Out.ok_bind]
        rw [if_pos ((outAll_iff mode).2 hm), w1, o1]
        rfl
      · have : JobTargets mode V j pl = (fun q => q = pl.dir ++ [pl.core ++ '.' :: pl.suf]) := by
          funext q
          apply propext
          constructor
          · rintro (⟨h, -⟩ | ⟨-, -, h⟩)
            · rw [hre] at h; cases h
            · exact h
          · intro h
            exact .inr ⟨hre, hm, h⟩
        rw [this]
        exact o2
      · rw [w1]
        refine ReadsAs.change o3 hg.symm hhn.symm ?_
        intro row col hin
        have a := o4 row col hin
        rw [hg] at hin
        rw [hv row col hin] at a
        injection a
    · refine ⟨d, ?_, rewritten_refl hw ?_, ⟨(fun h => by rw [hre] at h; cases h), fun _ h => absurd h hm⟩⟩
      · unfold writeJob
        rw [if_neg (by rw [H.fmts.2]; simp), hre]
        simp only [Bool.false_eq_true, if_false]
        rw [hs1]
        simp only [Out.ok_bind]
        rw [if_neg (fun h => hm ((outAll_iff mode).1 h))]
        rfl
      · rintro q (⟨h, -⟩ | ⟨-, h, -⟩)
        · rw [hre] at h; cases h
        · exact hm h
  obtain ⟨d', e, o1, o2⟩ := hwr
  refine ⟨d', ?_, o1, o2⟩
  unfold layerJob
  rw [if_pos ⟨H.fmts.1, hfe⟩]
  dsimp only
  rw [hi]
  simp only [Out.ok_bind]
  rw [e3]
  simp only [Out.ok_bind, hre, Bool.false_eq_true, if_false, Out.pure_eq]
  rw [e]
  rfl

theorem recls_targets {mode : IOMode} {V : View} {j : Job} {pl : RPlan} (hre : j.recls = true) :
    JobTargets mode V j pl = Targets mode V.grp pl.dir pl.core pl.suf pl.m := by
  funext q
  apply propext
  constructor
  · rintro (⟨-, h⟩ | ⟨h, -⟩)
    · exact h
    · rw [hre] at h; cases h
  · exact fun h => .inl ⟨hre, h⟩

/-- C78: one job without mask, in any mode. -/
theorem C78_job_plain (sys : Sys) {d : Disk} {mode : IOMode} {j : Job} {pl : RPlan} (hw : Fs.Spec.WF d.fs) (H : JobOk sys d mode (plainView j pl) j pl) :
    ∃ d', layerJob sys mode (d, none) j = .ok (d', none) ∧ Rewritten d d' (JobTargets mode (plainView j pl) j pl) ∧ JobDone d' mode (plainView j pl) j pl := by
  obtain ⟨s, hs, -, Hf⟩ := H.input
  cases hre : j.recls with
  | true =>
    obtain ⟨d', e, o1, o2⟩ := C78_plain_job sys H.fmts.1 hs Hf H.fmts.2 hre (H.recls hre)
    exact ⟨d', e, by rw [recls_targets hre]; exact o1, fun _ => o2, fun h => by rw [hre] at h; cases h⟩
  | false =>
    obtain ⟨M, eM, hb, -, hgM, hnM, hvM, h2M, hlM, hcM⟩ := mask_file Hf j.default.toQ
    obtain ⟨hex, -⟩ := file_decode Hf
    obtain ⟨r', e3, hb', hnc', h2d', hly', hhdr, hnd', hval'⟩ := rename_step hb j.update j.nodata.toQ
    have hfe : filesExist d.fs j.inputs = true := by rw [hs]; exact filesExist_one hex
    refine whole_job sys hw hre H hfe (r := M) (subs := []) ?_ e3 (fun _ h => by cases h) hb' (by rw [hnc']; exact hcM) (by rw [h2d', h2M]) (by rw [hly', hlM])
      (by rw [hhdr]; exact hgM) (by rw [hnd', hnM]; rfl) ?_
    · unfold initFiles
      rw [hfe, hs]
      simp only [Bool.not_true, Bool.false_eq_true, if_false]
      unfold initFile
      dsimp only
      rw [eM]
      rfl
    · intro row col hij
      obtain ⟨y, y1, y2⟩ := hval' row col 1
      rw [hvM row col hij] at y1
      cases y1
      rw [y2, hnM]
      rfl

/-- C78: one job of the mode MASK with a mask. -/
theorem C78_job_mask (sys : Sys) {d : Disk} {m : Raster} {hM : Header} {vM : Int → Int → ℚ} (hm : IsMask m hM vM) {j : Job} {pl : RPlan}
    (hw : Fs.Spec.WF d.fs) (hg : CCGL.Spec.CommonGrid pl.hdr hM) (hov : Overlaps hM vM pl.hdr) (H : JobOk sys d .mask (maskView hM vM j pl) j pl) :
    ∃ d' m', layerJob sys .mask (d, some ⟨m, []⟩) j = .ok (d', some ⟨m', []⟩) ∧ IsMask m' hM vM ∧
      Rewritten d d' (JobTargets .mask (maskView hM vM j pl) j pl) ∧ JobDone d' .mask (maskView hM vM j pl) j pl := by
  obtain ⟨s, hs, -, Hf⟩ := H.input
  cases hre : j.recls with
  | true =>
    obtain ⟨d', m', e, hm', o1, o2⟩ := C78_mask_job sys hm H.fmts.1 hs Hf hg hov H.fmts.2 hre (H.recls hre)
    exact ⟨d', m', e, hm', by rw [recls_targets hre]; exact o1, fun _ => o2, fun h => by rw [hre] at h; cases h⟩
  | false =>
    obtain ⟨x, res, hex, e1, e2, hcode, hm', hb, hnc, h2d, hly, hgr, hnd, hval⟩ := file_masked hm Hf hg hov j.default.toQ
    obtain ⟨r', e3, hb', hnc', h2d', hly', hhdr, hnd', hval'⟩ := rename_step hb j.update j.nodata.toQ
    have hfe : filesExist d.fs j.inputs = true := by rw [hs]; exact filesExist_one hex
    have hi : initFiles d j.inputs false (some ⟨m, []⟩) true j.default.toQ = .ok (some ⟨res.ras, []⟩, some ⟨res.mask, []⟩) := by
      unfold initFiles
      rw [hfe, hs]
      simp only [Bool.not_true, Bool.false_eq_true, if_false]
      unfold initFile
      rw [hex]
      simp only [Bool.not_true, Bool.false_eq_true, if_false]
      rw [e1]
      simp only [Out.ok_bind]
      unfold maskRasterS
      rw [e2]
      simp only [Out.ok_bind, or_true, if_true, Out.pure_eq, hcode]
      rfl
    obtain ⟨d', o1, o2, o3⟩ := whole_job sys hw hre H hfe hi e3 (fun _ h => by cases h) hb' (by rw [hnc']; exact hnc) (by rw [h2d', h2d]) (by rw [hly', hly])
      (by rw [hhdr]; exact hgr) (by rw [hnd', hnd]; rfl) (by
        intro row col hij
        obtain ⟨w, w1, w2⟩ := hval row col hij
        obtain ⟨y, y1, y2⟩ := hval' row col 1
        rw [w1] at y1
        cases y1
        rw [y2, hnd, masked_eq w2]
        rfl)
    exact ⟨d', res.mask, o1, hm', o2, o3⟩

/-- C78: one job of the modes DEC and MASKDEC with a mask, whose subsets have been built. -/
theorem C78_job_groups (sys : Sys) {d : Disk} {m : RasterS} {hM : Header} {vM : Int → Int → ℚ} (hm : CutMask m hM vM) {mode : IOMode} {j : Job} {pl : RPlan}
    (hw : Fs.Spec.WF d.fs) (hg : CCGL.Spec.CommonGrid pl.hdr hM) (hco : CCGL.Spec.CoordsPresent hM) (hov : Overlaps hM vM pl.hdr)
    (H : JobOk sys d mode (groupsView hM vM j pl) j pl) :
    ∃ d', layerJob sys mode (d, some m) j = .ok (d', some m) ∧ Rewritten d d' (JobTargets mode (groupsView hM vM j pl) j pl) ∧
      JobDone d' mode (groupsView hM vM j pl) j pl := by
  obtain ⟨s, hs, -, Hf⟩ := H.input
  cases hre : j.recls with
  | true =>
    obtain ⟨d', e, o1, o2⟩ := C78_groups_job sys hm H.fmts.1 hs Hf hg hco hov H.fmts.2 hre (H.recls hre)
    exact ⟨d', e, by rw [recls_targets hre]; exact o1, fun _ => o2, fun h => by rw [hre] at h; cases h⟩
  | false =>
    obtain ⟨x, res, subs', hex, ex, em, hcode, hmk, hb, hnc, h2d, hly, hdf, hgr, hnd, hval, hbare, hcut, hgrp⟩ := file_masked_groups hm Hf hg hco hov j.default.toQ
    obtain ⟨r', e3, hb', hnc', h2d', hly', hhdr, hnd', hval'⟩ := rename_step hb j.update j.nodata.toQ
    have hfe : filesExist d.fs j.inputs = true := by rw [hs]; exact filesExist_one hex
    have hi : initFiles d j.inputs false (some m) true j.default.toQ = .ok (some ⟨res.ras, subs'⟩, some m) := by
      unfold initFiles
      rw [hfe, hs]
      simp only [Bool.not_true, Bool.false_eq_true, if_false]
      unfold initFile
      rw [hex]
      simp only [Bool.not_true, Bool.false_eq_true, if_false]
      rw [ex]
      simp only [Out.ok_bind]
      rw [em]
      simp only [Out.ok_bind, Out.pure_eq, hcode, hmk]
      rfl
    refine whole_job sys hw hre H hfe hi e3 hbare hb' (by rw [hnc']; exact hnc) (by rw [h2d', h2d]) (by rw [hly', hly])
      (by rw [hhdr]; exact hgr) (by rw [hnd', hnd]; rfl) ?_
    intro row col hij
    obtain ⟨y, y1, y2⟩ := hval' row col 1
    rw [hval row col hij] at y1
    cases y1
    rw [y2, hnd]
    rfl

/-! ### all jobs -/

theorem jobTargets_nodir {sys : Sys} {d : Disk} {mode : IOMode} {V : View} {j : Job} {pl : RPlan} (H : JobOk sys d mode V j pl) {q : Path}
    (hq : JobTargets mode V j pl q) : d.fs.kindOf q ≠ some .dir := by
  rcases hq with ⟨hre, h⟩ | ⟨hre, hm, rfl⟩
  · exact targets_nodir (H.recls hre) h
  · exact (H.whole hre hm).2.1.write.nodir

theorem outName_kept {env : Env} {fmt : Disk.Fmt} {d d' : Disk} {new : Path → Prop} (hr : Rewritten d d' new)
    (hd : ∀ q, new q → d.fs.kindOf q ≠ some .dir) {p : Path} {dt core suf : Str} (h : OutName env fmt d p dt core suf) :
    OutName env fmt d' p dt core suf := ⟨nameIn_same hr hd h.name, writable_same hr h.write, h.suf⟩

theorem jobOk_same {sys : Sys} {d d' : Disk} {mode : IOMode} {V : View} {j : Job} {pl : RPlan} {new : Path → Prop} (hw : Fs.Spec.WF d.fs)
    (hr : Rewritten d d' new) (hd : ∀ q, new q → d.fs.kindOf q ≠ some .dir) (hi : ¬ new pl.inp) (H : JobOk sys d mode V j pl) :
    JobOk sys d' mode V j pl := by
  obtain ⟨s, hs, hp, Hf⟩ := H.input
  refine ⟨H.fmts, ⟨s, hs, resolve_same hr hd hp hi, rasterFile_same hw hr hd hp hi Hf⟩, fun hre => canWrite_same hr hd (H.recls hre), fun hre hm => ?_⟩
  obtain ⟨w1, w2, w3⟩ := H.whole hre hm
  exact ⟨w1, outName_kept hr hd w2, w3⟩

theorem jobDone_same {sys : Sys} {d d1 d' : Disk} {mode : IOMode} {V : View} {j : Job} {pl : RPlan} {new : Path → Prop} (H : JobOk sys d mode V j pl)
    (hr1 : Rewritten d d1 (JobTargets mode V j pl)) (hr : Rewritten d1 d' new) (hd : ∀ q, new q → d1.fs.kindOf q ≠ some .dir)
    (hn : ∀ q, JobTargets mode V j pl q → ¬ new q) (D : JobDone d1 mode V j pl) : JobDone d' mode V j pl := by
  have hd0 : ∀ q, JobTargets mode V j pl q → d.fs.kindOf q ≠ some .dir := fun q hq => jobTargets_nodir H hq
  constructor
  · intro hre
    have hN := nameIn_same hr1 hd0 (H.recls hre).name
    obtain ⟨a, b⟩ := D.recls hre
    refine ⟨fun hm hex => combined_same hN hr hd ?_ (a hm hex), fun hm k hk h0 => single_same hN hr hd ?_ (b hm k hk h0)⟩
    · intro l hl
      have ht : JobTargets mode V j pl (outPath pl.dir pl.core pl.suf pl.m 0 l) := .inl ⟨hre, .inr ⟨hm, hex, l, hl, rfl⟩⟩
      exact ⟨hr1.file _ ht, hn _ ht⟩
    · intro l hl
      have ht : JobTargets mode V j pl (outPath pl.dir pl.core pl.suf pl.m k l) := .inl ⟨hre, .inl ⟨hm, k, l, hk, hl, rfl⟩⟩
      exact ⟨hr1.file _ ht, hn _ ht⟩
  · intro hre hm
    obtain ⟨w1, w2, -⟩ := H.whole hre hm
    have hN := nameIn_same hr1 hd0 w2.name
    have ht : JobTargets mode V j pl (pl.dir ++ [pl.core ++ '.' :: pl.suf]) := .inr ⟨hre, hm, rfl⟩
    have h := D.whole hre hm
    rw [w1] at h ⊢
    exact reads_same hN.wf hr hd (resolve_out hN (hr1.file _ ht)) (hn _ ht) h

/-- All jobs, given what one job does. -/
theorem batch_all {sys : Sys} {mode : IOMode} {V : Job → RPlan → View} {I : Option RasterS → Prop} {ok : Job → RPlan → Prop}
    (step : ∀ d m j pl, Fs.Spec.WF d.fs → I m → ok j pl → JobOk sys d mode (V j pl) j pl → ∃ d' m', layerJob sys mode (d, m) j = .ok (d', m') ∧ I m' ∧
      Rewritten d d' (JobTargets mode (V j pl) j pl) ∧ JobDone d' mode (V j pl) j pl) :
    ∀ (xs : List (Job × RPlan)) (d : Disk) (m : Option RasterS), Fs.Spec.WF d.fs → I m →
      (∀ x ∈ xs, ok x.1 x.2 ∧ JobOk sys d mode (V x.1 x.2) x.1 x.2) → ApartJobs mode V xs →
      ∃ d' m', (xs.map (·.1)).foldlM (layerJob sys mode) (d, m) = .ok (d', m') ∧ I m' ∧
        Rewritten d d' (fun q => ∃ x ∈ xs, JobTargets mode (V x.1 x.2) x.1 x.2 q) ∧ ∀ x ∈ xs, JobDone d' mode (V x.1 x.2) x.1 x.2 := by
  intro xs
  induction xs with
  | nil =>
    intro d m hw hI _ _
    exact ⟨d, m, rfl, hI, rewritten_refl hw (by rintro q ⟨x, h, -⟩; cases h), by intro x h; cases h⟩
  | cons x xs ih =>
    intro d m hw hI hx hA
    obtain ⟨hA1, hA2⟩ := List.pairwise_cons.1 hA
    obtain ⟨hok, H⟩ := hx x List.mem_cons_self
    obtain ⟨d1, m1, e1, hI1, hr1, hd1⟩ := step d m x.1 x.2 hw hI hok H
    have hd0 : ∀ q, JobTargets mode (V x.1 x.2) x.1 x.2 q → d.fs.kindOf q ≠ some .dir := fun q hq => jobTargets_nodir H hq
    have hx1 : ∀ y ∈ xs, ok y.1 y.2 ∧ JobOk sys d1 mode (V y.1 y.2) y.1 y.2 := by
      intro y hy
      obtain ⟨a, b⟩ := hx y (List.mem_cons_of_mem _ hy)
      exact ⟨a, jobOk_same hw hr1 hd0 (fun h => (hA1 y hy _ h).1 rfl) b⟩
    obtain ⟨d2, m2, e2, hI2, hr2, hd2⟩ := ih d1 m1 hr1.wf hI1 hx1 hA2
    have hnew : ∀ q, (∃ y ∈ xs, JobTargets mode (V y.1 y.2) y.1 y.2 q) → d1.fs.kindOf q ≠ some .dir := by
      rintro q ⟨y, hy, hq⟩
      exact jobTargets_nodir (hx1 y hy).2 hq
    refine ⟨d2, m2, ?_, hI2, rewritten_trans hr1 hr2 ?_, ?_⟩
    · rw [List.map_cons, List.foldlM_cons, e1]
      exact e2
    · intro q
      simp only [List.mem_cons, exists_eq_or_imp]
    · intro y hy
      rcases List.mem_cons.1 hy with rfl | hy
      · refine jobDone_same H hr1 hr2 hnew ?_ hd1
        rintro q hq ⟨z, hz, hq'⟩
        exact (hA1 z hz q hq).2 hq'
      · exact hd2 y hy

/-- The modes that work on the input layers. -/
def Layers (mode : IOMode) : Prop := mode = .mask ∨ mode = .dec ∨ mode = .maskdec

theorem runJobs_layers {sys : Sys} {mode : IOMode} (h : Layers mode) {mask : Option RasterS} {d : Disk} {js : List Job} {d' m'}
    (e : js.foldlM (layerJob sys mode) (d, mask) = .ok (d', m')) : runJobs sys mode mask d js = .ok (0, d') := by
  unfold runJobs
  have h1 : mode ≠ .com := by rintro rfl; rcases h with h | h | h <;> cases h
  have h2 : mode ≠ .unknown := by rintro rfl; rcases h with h | h | h <;> cases h
  rw [if_neg h1, if_neg h2, e]
  rfl

/-- C78: a run without a mask: all jobs, in their order. -/
theorem C78_plain_run (sys : Sys) {w : World} {d : Disk} {args : List Str} {c : Cfg} {xs : List (Job × RPlan)} (hw : Fs.Spec.WF d.fs)
    (hc : configure w args = .ok (.go c)) (hjs : jobs c = .ok (xs.map (·.1))) (hmode : Layers c.mode) (hmask : c.maskPath = [])
    (hA : ApartJobs c.mode plainView xs) (hj : ∀ x ∈ xs, JobOk sys d c.mode (plainView x.1 x.2) x.1 x.2) :
    ∃ d', run sys w d args = .ok (0, d') ∧ Rewritten d d' (fun q => ∃ x ∈ xs, JobTargets c.mode (plainView x.1 x.2) x.1 x.2 q) ∧
      ∀ x ∈ xs, JobDone d' c.mode (plainView x.1 x.2) x.1 x.2 := by
  obtain ⟨d', m', e, -, h1, h2⟩ := batch_all (sys := sys) (mode := c.mode) (V := plainView) (I := fun m => m = none) (ok := fun _ _ => True)
    (by
      rintro d _ j pl hw rfl - H
      obtain ⟨d', e, o1, o2⟩ := C78_job_plain sys hw H
      exact ⟨d', none, e, rfl, o1, o2⟩) xs d none hw rfl (fun x hx => ⟨trivial, hj x hx⟩) hA
  refine ⟨d', ?_, h1, h2⟩
  unfold run
  rw [hc]
  simp only [Out.ok_bind]
  rw [hjs]
  simp only [Out.ok_bind]
  have hl : loadMask d c = .ok (.go none) := by
    unfold loadMask
    rw [if_pos hmask]
  rw [hl]
  simp only [Out.ok_bind]
  have hp : prepareMask c.mode none = .ok none := rfl
  rw [hp]
  simp only [Out.ok_bind]
  exact runJobs_layers hmode e

theorem loadMask_file {d : Disk} {c : Cfg} {hM vM} (hf : c.maskFmt = .sfile) (hmask : RasterFile d c.maskPath hM vM) {M : Raster}
    (eM : readFromFile d c.maskPath false NODATA = .ok (some M)) : loadMask d c = .ok (.go (some ⟨M, []⟩)) := by
  obtain ⟨hex, -⟩ := file_decode hmask
  have hne : c.maskPath ≠ [] := by
    intro h
    rw [h] at hex
    cases hex
  unfold loadMask
  rw [if_neg hne, if_pos ⟨hf, hex⟩]
  unfold initFile
  dsimp only
  rw [eM]
  rfl

/-- C78: a run in the mode MASK with a mask file. -/
theorem C78_mask_run (sys : Sys) {w : World} {d : Disk} {args : List Str} {c : Cfg} {xs : List (Job × RPlan)} (hw : Fs.Spec.WF d.fs)
    (hc : configure w args = .ok (.go c)) (hjs : jobs c = .ok (xs.map (·.1))) (hmode : c.mode = .mask)
    {hM : Header} {vM : Int → Int → ℚ} (hf : c.maskFmt = .sfile) (hmask : RasterFile d c.maskPath hM vM)
    (hA : ApartJobs .mask (maskView hM vM) xs)
    (hj : ∀ x ∈ xs, (CCGL.Spec.CommonGrid x.2.hdr hM ∧ Overlaps hM vM x.2.hdr) ∧ JobOk sys d .mask (maskView hM vM x.1 x.2) x.1 x.2) :
    ∃ d', run sys w d args = .ok (0, d') ∧ Rewritten d d' (fun q => ∃ x ∈ xs, JobTargets .mask (maskView hM vM x.1 x.2) x.1 x.2 q) ∧
      ∀ x ∈ xs, JobDone d' .mask (maskView hM vM x.1 x.2) x.1 x.2 := by
  obtain ⟨M, eM, hm⟩ := mask_loaded hmask
  obtain ⟨d', m', e, -, h1, h2⟩ := batch_all (sys := sys) (mode := .mask) (V := maskView hM vM) (I := fun x => ∃ m, x = some ⟨m, []⟩ ∧ IsMask m hM vM)
    (ok := fun _ pl => CCGL.Spec.CommonGrid pl.hdr hM ∧ Overlaps hM vM pl.hdr)
    (by
      rintro d _ j pl hw ⟨m, rfl, hm⟩ ⟨hg, hov⟩ H
      obtain ⟨d', m', e, hm', o1, o2⟩ := C78_job_mask sys hm hw hg hov H
      exact ⟨d', _, e, ⟨m', rfl, hm'⟩, o1, o2⟩) xs d (some ⟨M, []⟩) hw ⟨M, rfl, hm⟩ hj hA
  refine ⟨d', ?_, h1, h2⟩
  unfold run
  rw [hc]
  simp only [Out.ok_bind]
  rw [hjs]
  simp only [Out.ok_bind]
  rw [loadMask_file hf hmask eM]
  simp only [Out.ok_bind]
  have hp : prepareMask c.mode (some ⟨M, []⟩) = .ok (some ⟨M, []⟩) := by
    unfold prepareMask
    rw [hmode]
    rfl
  rw [hp]
  simp only [Out.ok_bind]
  rw [hmode]
  exact runJobs_layers (.inl rfl) e

/-- C78: a run in the modes DEC and MASKDEC with a mask file. -/
theorem C78_groups_run (sys : Sys) {w : World} {d : Disk} {args : List Str} {c : Cfg} {xs : List (Job × RPlan)} (hw : Fs.Spec.WF d.fs)
    (hc : configure w args = .ok (.go c)) (hjs : jobs c = .ok (xs.map (·.1))) (hmode : c.mode = .dec ∨ c.mode = .maskdec)
    {hM : Header} {vM : Int → Int → ℚ} (hf : c.maskFmt = .sfile) (hmask : RasterFile d c.maskPath hM vM) (hco : CCGL.Spec.CoordsPresent hM)
    (hv : ∃ row col, HasValue hM vM row col)
    (hA : ApartJobs c.mode (groupsView hM vM) xs)
    (hj : ∀ x ∈ xs, (CCGL.Spec.CommonGrid x.2.hdr hM ∧ Overlaps hM vM x.2.hdr) ∧ JobOk sys d c.mode (groupsView hM vM x.1 x.2) x.1 x.2) :
    ∃ d', run sys w d args = .ok (0, d') ∧ Rewritten d d' (fun q => ∃ x ∈ xs, JobTargets c.mode (groupsView hM vM x.1 x.2) x.1 x.2 q) ∧
      ∀ x ∈ xs, JobDone d' c.mode (groupsView hM vM x.1 x.2) x.1 x.2 := by
  obtain ⟨M, eM, hb, hcl, hg, hn, hval, h2, hl, hnc⟩ := mask_file hmask NODATA
  obtain ⟨m, b, eb, hm⟩ := cutMask_of hb hcl hg hn hval h2 hv
  obtain ⟨d', m', e, -, h1, h2⟩ := batch_all (sys := sys) (mode := c.mode) (V := groupsView hM vM) (I := fun x => x = some m)
    (ok := fun _ pl => CCGL.Spec.CommonGrid pl.hdr hM ∧ Overlaps hM vM pl.hdr)
    (by
      rintro d _ j pl hw rfl ⟨hg, hov⟩ H
      obtain ⟨d', e, o1, o2⟩ := C78_job_groups sys hm hw hg hco hov H
      exact ⟨d', _, e, rfl, o1, o2⟩) xs d (some m) hw rfl hj hA
  refine ⟨d', ?_, h1, h2⟩
  unfold run
  rw [hc]
  simp only [Out.ok_bind]
  rw [hjs]
  simp only [Out.ok_bind]
  rw [loadMask_file hf hmask eM]
  simp only [Out.ok_bind]
  have hp : prepareMask c.mode (some ⟨M, []⟩) = .ok (some m) := by
    unfold prepareMask
    dsimp only
    rw [if_neg (by rcases hmode with h | h <;> rw [h] <;> simp), eb]
    rfl
  rw [hp]
  simp only [Out.ok_bind]
  exact runJobs_layers (hmode.elim (fun h => .inr (.inl h)) (fun h => .inr (.inr h))) e

end App
end CCGL

namespace CCGL
namespace App
open Fs Disk Main Raster Disk.Spec App.Spec

/-- C78: a job of the mode DEC without reclassification writes nothing at all (here with a mask; without one the same follows from
`C78_job_plain`). -/
theorem C78_dec_nothing (sys : Sys) {d : Disk} {m : RasterS} {hM : Header} {vM : Int → Int → ℚ} (hm : CutMask m hM vM) {j : Job} {pl : RPlan}
    (hw : Fs.Spec.WF d.fs) (hg : CCGL.Spec.CommonGrid pl.hdr hM) (hco : CCGL.Spec.CoordsPresent hM) (hov : Overlaps hM vM pl.hdr)
    (hf : j.inFmt = .sfile ∧ j.outFmt = .sfile) (hi : ∃ s, j.inputs = [s] ∧ d.fs.resolve s = some pl.inp ∧ RasterFile d s pl.hdr pl.val)
    (hre : j.recls = false) :
    ∃ d', layerJob sys .dec (d, some m) j = .ok (d', some m) ∧ Rewritten d d' (fun _ => False) := by
  have hno : ¬ WantsAll .dec := by rintro (h | h) <;> cases h
  obtain ⟨d', e, hr, -⟩ := C78_job_groups sys (mode := .dec) hm hw hg hco hov
    (H := ⟨hf, hi, (fun h => by rw [hre] at h; cases h), fun _ h => absurd h hno⟩)
  refine ⟨d', e, ?_⟩
  have : JobTargets .dec (groupsView hM vM j pl) j pl = fun _ => False := by
    funext q
    apply propext
    constructor
    · rintro (⟨h, -⟩ | ⟨-, h, -⟩)
      · rw [hre] at h; cases h
      · exact hno h
    · exact False.elim
  rw [this] at hr
  exact hr

/-! ### examples -/

theorem exRun_nodir (n : Str) : exRunDisk.fs.kindOf [n] ≠ some .dir := by
  unfold FS.kindOf
  rw [if_neg (by simp)]
  intro h
  obtain ⟨e, h1, h2⟩ := Option.map_eq_some_iff.1 h
  have hm := List.mem_of_find?_eq_some h1
  have : e.2 = .file := by
    revert hm h1 h2 h
    generalize e.1 = a
    intro h h1 h2 hm
    simp only [exRunDisk, exWorld, List.mem_cons, List.not_mem_nil, or_false] at hm
    rcases hm with rfl | rfl | rfl | rfl <;> rfl
  rw [this] at h2
  cases h2

theorem exRun_writable (n : Str) : Writable exSys.env exRunDisk.fs [n] := ⟨exRun_nodir n, rfl, rfl, fun _ => rfl, rfl⟩

theorem exRun_can {mode : IOMode} {j : Job} {h : Header} {g : Groups} {fill : ℚ} {m : Int} (ho : j.out = "/o.tif".toList) (ht : CCGL.Spec.TableOf (numTable j) m)
    (hk : ((numTable j).map (·.1)).Nodup) (hty : j.type = .double) (hh : 0 < h.rows ∧ 0 < h.cols) :
    CanWrite exSys exRunDisk mode j h g fill [] "/".toList "o".toList "tif".toList m where
  out := by rw [ho]; decide
  table := ht
  keys := hk
  name := ⟨exRun_wf, ⟨by simp, rfl⟩, by decide, by decide, rfl⟩
  kind := .inr ⟨exTif, by rw [hty]; exact ⟨by decide, .inr ⟨rfl, by decide⟩⟩⟩
  nodir := exRun_nodir _
  all := fun _ => ⟨⟨hh.1, hh.2, fun ha => (asc_not_tif ha exTif).elim⟩, exRun_nodir _, fun _ _ => exRun_writable _⟩
  single := fun _ k _ => ⟨fun r0 r1 c0 c1 hb => by
      obtain ⟨c, hc⟩ := hb.bottom
      obtain ⟨r, hr⟩ := hb.right
      have a := hb.inside _ _ hc
      have b := hb.inside _ _ hr
      exact ⟨by show 0 < r1 - r0 + 1; omega, by show 0 < c1 - c0 + 1; omega, fun ha => (asc_not_tif ha exTif).elim⟩, exRun_nodir _, fun _ _ => exRun_writable _⟩
  vals := fun _ _ => ⟨fun ha => (asc_not_tif ha exTif).elim, fun _ h => by cases h⟩
  nodata := ⟨fun ha => (asc_not_tif ha exTif).elim, fun _ h => by cases h⟩

def exReclsText : String := "/b.tif;/o.tif;7;-1;DOUBLE;5:50,8:80\n"
def exReclsArgs : List Str := ["-mode".toList, "maskdec".toList, "-mask".toList, "/m.tif".toList, "-in".toList, "/a.tif".toList,
  "-configfile".toList, "/c.txt".toList]

def exJobA : Job where
  inputs := ["/a.tif".toList]
  inFmt := .sfile
  out := "/a_masked.tif".toList
  outFmt := .sfile
  default := .fin (-9999)
  update := false
  nodata := .fin (-9999)
  type := .double
  recls := false
  table := []

def exJobB : Job where
  inputs := ["/b.tif".toList]
  inFmt := .sfile
  out := "/o.tif".toList
  outFmt := .sfile
  default := .fin 7
  update := true
  nodata := .fin (-1)
  type := .double
  recls := true
  table := [(5, [.fin 50]), (8, [.fin 80])]

theorem exRecls_jobs : jobsOf (exWorld exReclsText) exReclsArgs = .ok (some [exJobA, exJobB]) := by decide +kernel

def exPlanA : RPlan := ⟨["a.tif".toList], exH 2, fun row col => [10, 20, -9999, 40].getD (row * 2 + col).toNat 0, [], "/".toList, "a_masked".toList, "tif".toList, 1⟩
def exPlanB : RPlan := ⟨["b.tif".toList], exH 2, fun row col => [5, 6, 7, 8].getD (row * 2 + col).toNat 0, [], "/".toList, "o".toList, "tif".toList, 1⟩
def exMaskV : Int → Int → ℚ := fun row col => [1, -9999, 1, 2, 2, -9999].getD (row * 3 + col).toNat 0

theorem exJobA_ok (V : View) (hh : 0 < V.hdr.rows ∧ 0 < V.hdr.cols) (mode : IOMode) : JobOk exSys exRunDisk mode V exJobA exPlanA := by
  have hc : ∀ x, CarriesValue (exSys.fmt .double) "tif".toList x := fun x => ⟨fun ha => (asc_not_tif ha exTif).elim, fun _ h => by cases h⟩
  exact ⟨⟨rfl, rfl⟩, ⟨_, rfl, by decide +kernel, exRun_a⟩, (fun h => by cases h), fun _ _ => ⟨by decide +kernel, exRun_out _ (by decide) (by decide +kernel),
    ⟨hh.1, hh.2, fun ha => (asc_not_tif ha exTif).elim⟩, hc _, fun _ _ _ => hc _⟩⟩

theorem exJobB_ok (V : View) (hh : 0 < V.hdr.rows ∧ 0 < V.hdr.cols) (mode : IOMode) : JobOk exSys exRunDisk mode V exJobB exPlanB :=
  ⟨⟨rfl, rfl⟩, ⟨_, rfl, by decide +kernel, exRun_b⟩, fun _ => exRun_can rfl ⟨by decide, by decide, by decide⟩ (by decide) rfl hh, fun h => by cases h⟩

/-- The value of the masked raster where the raster has a cell; elsewhere. -/
theorem maskedVal_at {hM hR : Header} {vM vR : Int → Int → ℚ} {dv : ℚ} {row col i j : Int} (hc : 0 < hR.cellsize) (h : HasValue hM vM row col)
    (hs : SameCell hR hM i j row col) : maskedVal hM vM hR vR dv row col = filled dv hR.noData (vR i j) := by
  symm
  apply masked_eq
  refine ⟨fun _ i' j' hs' => ?_, fun hn => ?_⟩
  · obtain ⟨a, b⟩ := center_inj (g := hR.grid) hc (hs'.2.trans hs.2.symm)
    rw [a, b]
  · rcases hn with hn | hn
    · exact absurd h hn
    · exact absurd ⟨i, j, hs⟩ hn

theorem maskedVal_none {hM hR : Header} {vM vR : Int → Int → ℚ} {dv : ℚ} {row col : Int}
    (h : ¬ HasValue hM vM row col ∨ ¬ ∃ i j, SameCell hR hM i j row col) : maskedVal hM vM hR vR dv row col = hR.noData := by
  unfold maskedVal
  rw [dif_neg]
  rintro ⟨a, b⟩
  rcases h with h | h
  · exact h a
  · exact h b

theorem exNames (k : Int) (l : Nat) : ["a_masked.tif".toList] ≠ outPath [] "o".toList "tif".toList 1 k l := by
  intro h
  unfold outPath layerCore subsetCore at h
  rw [if_pos rfl] at h
  have h := congrArg (fun x : Path => (x.map List.reverse).map (fun s => s.getD 4 ' ')) h
  simp only [List.nil_append, List.map_cons, List.map_nil, List.reverse_append, List.reverse_cons] at h
  revert h
  simp

/-- A run in the mode MASKDEC, one job with and one without reclassification: the hypotheses of `C78_groups_run` hold, and what it says about
some of the cells: in the combined output the cell (0, 0) has the table's value, (0, 2), which has no value in the raster but is in group 1,
the default value, the cell (0, 1), in no group, the new NoData value. -/
example : ∃ d', run exSys (exWorld exReclsText) exRunDisk exReclsArgs = .ok (0, d') ∧
    ∃ v, ReadsAs d' "/0_o.tif".toList { exH 3 with noData := -1 } v ∧ v 0 0 = 50 ∧ v 0 1 = -1 ∧ v 1 1 = 80 ∧ v 1 0 = 7 ∧ v 0 2 = 7 := by
  have hcfg : (configure (exWorld exReclsText) exReclsArgs).bind (fun | .exit _ => .ub | .go c => .ok (c.mode, c.maskFmt, c.maskPath)) =
      .ok (.maskdec, .sfile, "/m.tif".toList) := by decide +kernel
  obtain ⟨c, h1, h2⟩ := jobsOf_go exRecls_jobs
  rw [h1] at hcfg
  have hcfg' : (c.mode, c.maskFmt, c.maskPath) = (IOMode.maskdec, DataFmt.sfile, "/m.tif".toList) := Out.ok.inj hcfg
  injection hcfg' with q1 q2
  injection q2 with q2 q3
  have hin : ∀ row col, 0 ≤ row → row < 2 → 0 ≤ col → col < 3 → (exH 3).grid.CellInside row col := fun row col a b x y => exIn 3 row col a b x y
  have hval : ∀ row col, 0 ≤ row → row < 2 → 0 ≤ col → col < 3 → floatEqual (exMaskV row col) (-9999) = false → HasValue (exH 3) exMaskV row col :=
    fun row col a b x y h => ⟨hin row col a b x y, h⟩
  obtain ⟨d', e, -, hd⟩ := C78_groups_run exSys (xs := [(exJobA, exPlanA), (exJobB, exPlanB)]) exRun_wf h1 h2 (.inr q1) q2 (by rw [q3]; exact exRun_m)
    (vM := exMaskV) (by
      refine ⟨by decide +kernel, ?_, ?_⟩
      · intro col a b
        have : col = 0 ∨ col = 1 ∨ col = 2 := by have : col < 3 := b; omega
        rcases this with rfl | rfl | rfl <;> decide +kernel
      · intro row a b
        have : row = 0 ∨ row = 1 := by have : row < 2 := b; omega
        rcases this with rfl | rfl <;> decide +kernel) ⟨0, 0, hval 0 0 (by decide) (by decide) (by decide) (by decide) (by decide +kernel)⟩
    (by
      unfold ApartJobs
      simp only [List.pairwise_cons, List.mem_cons, List.not_mem_nil, or_false, forall_eq]
      refine ⟨?_, fun _ h => h.elim, .nil⟩
      rintro q (⟨h, -⟩ | ⟨-, -, rfl⟩)
      · cases h
      · refine ⟨by decide +kernel, ?_⟩
        rintro (⟨-, ⟨-, k, l, -, -, h⟩ | ⟨-, -, l, -, h⟩⟩ | ⟨h, -⟩)
        · exact exNames k l h
        · exact exNames 0 l h
        · cases h)
    (by
      intro x hx
      simp only [List.mem_cons, List.not_mem_nil, or_false] at hx
      rcases hx with rfl | rfl
      · exact ⟨exRun_overlap _ (by decide +kernel), exJobA_ok _ ⟨by decide, by decide⟩ _⟩
      · exact ⟨exRun_overlap _ (by decide +kernel), exJobB_ok _ ⟨by decide, by decide⟩ _⟩)
  refine ⟨d', e, ?_⟩
  have hB := (hd (exJobB, exPlanB) (by simp)).recls rfl
  rw [q1] at hB
  have hcell : ∀ row col, 0 ≤ row → row < 2 → 0 ≤ col → col < 2 → SameCell (exH 2) (exH 3) row col row col :=
    fun row col a b x y => ⟨exIn 2 row col a b x y, rfl⟩
  have hmv : ∀ row col, 0 ≤ row → row < 2 → 0 ≤ col → col < 2 → floatEqual (exMaskV row col) (-9999) = false →
      maskedVal (exH 3) exMaskV exPlanB.hdr exPlanB.val exJobB.default.toQ row col = filled 7 (-9999) (exPlanB.val row col) :=
    fun row col a b x y h => maskedVal_at (by decide) (hval row col a b x (by omega) h) (hcell row col a b x y)
  have h00 := hmv 0 0 (by decide) (by decide) (by decide) (by decide) (by decide +kernel)
  have h10 := hmv 1 0 (by decide) (by decide) (by decide) (by decide) (by decide +kernel)
  have h11 := hmv 1 1 (by decide) (by decide) (by decide) (by decide) (by decide +kernel)
  have h02 : maskedVal (exH 3) exMaskV exPlanB.hdr exPlanB.val exJobB.default.toQ 0 2 = -9999 := maskedVal_none (.inr (by
    rintro ⟨i, j, h3, h4⟩
    have h5 : 0 ≤ i ∧ i < 2 ∧ 0 ≤ j ∧ j < 2 := h3
    have hj : j = 0 ∨ j = 1 := by omega
    have hi : i = 0 ∨ i = 1 := by omega
    rcases hi with rfl | rfl <;> rcases hj with rfl | rfl <;> revert h4 <;> decide +kernel))
  have hb : ∀ k row col, 0 ≤ row → row < 2 → 0 ≤ col → col < 3 → floatEqual (exMaskV row col) (-9999) = false → truncQ (exMaskV row col) = k →
      byValue (exH 3) exMaskV k row col := fun k row col a b x y h t => ⟨hval row col a b x y h, t⟩
  have b00 := hb 1 0 0 (by decide) (by decide) (by decide) (by decide) (by decide +kernel) (by decide +kernel)
  have b02 := hb 1 0 2 (by decide) (by decide) (by decide) (by decide) (by decide +kernel) (by decide +kernel)
  have b10 := hb 2 1 0 (by decide) (by decide) (by decide) (by decide) (by decide +kernel) (by decide +kernel)
  have b11 := hb 2 1 1 (by decide) (by decide) (by decide) (by decide) (by decide +kernel) (by decide +kernel)
  have f00 : floatEqual (maskedVal (exH 3) exMaskV exPlanB.hdr exPlanB.val exJobB.default.toQ 0 0) exPlanB.hdr.noData = false := by rw [h00]; decide +kernel
  have f10 : floatEqual (maskedVal (exH 3) exMaskV exPlanB.hdr exPlanB.val exJobB.default.toQ 1 0) exPlanB.hdr.noData = false := by rw [h10]; decide +kernel
  have g00 : maskGroups exJobB (exH 3) exMaskV exPlanB.hdr exPlanB.val 1 0 0 := ⟨b00, 0, 0, b00, f00⟩
  have g02 : maskGroups exJobB (exH 3) exMaskV exPlanB.hdr exPlanB.val 1 0 2 := ⟨b02, 0, 0, b00, f00⟩
  have g10 : maskGroups exJobB (exH 3) exMaskV exPlanB.hdr exPlanB.val 2 1 0 := ⟨b10, 1, 0, b10, f10⟩
  have g11 : maskGroups exJobB (exH 3) exMaskV exPlanB.hdr exPlanB.val 2 1 1 := ⟨b11, 1, 0, b10, f10⟩
  obtain ⟨w, w1, w2⟩ := hB.all (.inr rfl) ⟨1, 0, 0, g00⟩ 0 (by decide)
  have hname : outFile exPlanB.dt exPlanB.core exPlanB.suf exPlanB.m 0 0 = "/0_o.tif".toList := by decide +kernel
  have hhdr : (groupsView (exH 3) exMaskV exJobB exPlanB).hdr = { exH 3 with noData := -1 } := rfl
  dsimp only at w1 w2
  rw [hname, hhdr] at w1
  have hv : ∀ row col x, maskedVal (exH 3) exMaskV exPlanB.hdr exPlanB.val exJobB.default.toQ row col = x →
      (groupsView (exH 3) exMaskV exJobB exPlanB).val row col = renamed true (-9999) (-1) x := by
    intro row col x h
    rw [← h]
    rfl
  refine ⟨w, w1, ?_, ?_, ?_, ?_, ?_⟩
  · rw [(w2 0 0 (hin 0 0 (by decide) (by decide) (by decide) (by decide))).1 ⟨1, g00⟩, hv 0 0 _ h00]
    decide +kernel
  · rw [(w2 0 1 (hin 0 1 (by decide) (by decide) (by decide) (by decide))).2 (by
      rintro ⟨k, ⟨⟨-, h⟩, -⟩, -⟩
      revert h
      decide +kernel)]
    decide +kernel
  · rw [(w2 1 1 (hin 1 1 (by decide) (by decide) (by decide) (by decide))).1 ⟨2, g11⟩, hv 1 1 _ h11]
    decide +kernel
  · rw [(w2 1 0 (hin 1 0 (by decide) (by decide) (by decide) (by decide))).1 ⟨2, g10⟩, hv 1 0 _ h10]
    decide +kernel
  · rw [(w2 0 2 (hin 0 2 (by decide) (by decide) (by decide) (by decide))).1 ⟨1, g02⟩, hv 0 2 _ h02]
    decide +kernel

theorem exApart (V : Job → RPlan → View) (mode : IOMode) : ApartJobs mode V [(exJobA, exPlanA), (exJobB, exPlanB)] := by
  unfold ApartJobs
  simp only [List.pairwise_cons, List.mem_cons, List.not_mem_nil, or_false, forall_eq]
  refine ⟨?_, fun _ h => h.elim, .nil⟩
  rintro q (⟨h, -⟩ | ⟨-, -, rfl⟩)
  · cases h
  · refine ⟨by decide +kernel, ?_⟩
    rintro (⟨-, ⟨-, k, l, -, -, h⟩ | ⟨-, -, l, -, h⟩⟩ | ⟨h, -⟩)
    · exact exNames k l h
    · exact exNames 0 l h
    · cases h

/-- The same jobs in the mode MASK, and in the mode DEC without mask. -/
example : ∃ d', run exSys (exWorld exReclsText) exRunDisk ["-mode".toList, "mask".toList, "-mask".toList, "/m.tif".toList, "-in".toList, "/a.tif".toList,
    "-configfile".toList, "/c.txt".toList] = .ok (0, d') ∧ JobDone d' .mask (maskView (exH 3) exMaskV exJobB exPlanB) exJobB exPlanB := by
  have hj : jobsOf (exWorld exReclsText) ["-mode".toList, "mask".toList, "-mask".toList, "/m.tif".toList, "-in".toList, "/a.tif".toList,
    "-configfile".toList, "/c.txt".toList] = .ok (some [exJobA, exJobB]) := by decide +kernel
  have hcfg : (configure (exWorld exReclsText) ["-mode".toList, "mask".toList, "-mask".toList, "/m.tif".toList, "-in".toList, "/a.tif".toList,
    "-configfile".toList, "/c.txt".toList]).bind (fun | .exit _ => .ub | .go c => .ok (c.mode, c.maskFmt, c.maskPath)) =
      .ok (.mask, .sfile, "/m.tif".toList) := by decide +kernel
  obtain ⟨c, h1, h2⟩ := jobsOf_go hj
  rw [h1] at hcfg
  have hcfg' : (c.mode, c.maskFmt, c.maskPath) = (IOMode.mask, DataFmt.sfile, "/m.tif".toList) := Out.ok.inj hcfg
  injection hcfg' with q1 q2
  injection q2 with q2 q3
  obtain ⟨d', e, -, hd⟩ := C78_mask_run exSys (xs := [(exJobA, exPlanA), (exJobB, exPlanB)]) exRun_wf h1 h2 q1 q2 (by rw [q3]; exact exRun_m)
    (vM := exMaskV) (exApart _ _)
    (by
      intro x hx
      simp only [List.mem_cons, List.not_mem_nil, or_false] at hx
      rcases hx with rfl | rfl
      · exact ⟨exRun_overlap _ (by decide +kernel), exJobA_ok _ ⟨by decide, by decide⟩ _⟩
      · exact ⟨exRun_overlap _ (by decide +kernel), exJobB_ok _ ⟨by decide, by decide⟩ _⟩)
  exact ⟨d', e, hd (exJobB, exPlanB) (by simp)⟩

example : ∃ d', run exSys (exWorld exReclsText) exRunDisk ["-mode".toList, "dec".toList, "-in".toList, "/a.tif".toList,
    "-configfile".toList, "/c.txt".toList] = .ok (0, d') ∧ JobDone d' .dec (plainView exJobB exPlanB) exJobB exPlanB := by
  have hj : jobsOf (exWorld exReclsText) ["-mode".toList, "dec".toList, "-in".toList, "/a.tif".toList,
    "-configfile".toList, "/c.txt".toList] = .ok (some [exJobA, exJobB]) := by decide +kernel
  have hcfg : (configure (exWorld exReclsText) ["-mode".toList, "dec".toList, "-in".toList, "/a.tif".toList,
    "-configfile".toList, "/c.txt".toList]).bind (fun | .exit _ => .ub | .go c => .ok (c.mode, c.maskPath)) =
      .ok (.dec, []) := by decide +kernel
  obtain ⟨c, h1, h2⟩ := jobsOf_go hj
  rw [h1] at hcfg
  have hcfg' : (c.mode, c.maskPath) = (IOMode.dec, []) := Out.ok.inj hcfg
  injection hcfg' with q1 q2
  obtain ⟨d', e, -, hd⟩ := C78_plain_run exSys (xs := [(exJobA, exPlanA), (exJobB, exPlanB)]) exRun_wf h1 h2 (by rw [q1]; exact .inr (.inl rfl)) q2
    (exApart _ _)
    (by
      intro x hx
      simp only [List.mem_cons, List.not_mem_nil, or_false] at hx
      rcases hx with rfl | rfl
      · exact exJobA_ok _ ⟨by decide, by decide⟩ _
      · exact exJobB_ok _ ⟨by decide, by decide⟩ _)
  have h := hd (exJobB, exPlanB) (by simp)
  rw [q1] at h
  exact ⟨d', e, h⟩

/-- Why a group with number 0 is excepted in the mode MASKDEC: its file has the name of the combined output, which is written later. The
file for the cells with value 0 is the whole grid. -/
def exZeroDisk : Disk := { exRunDisk with
  data := fun p => if p = ["b.tif".toList] then some (.tif (exGrid 2 2 [0, 5, 5, 8])) else exRunDisk.data p }

theorem C78_false_zero :
    (layerJob exSys .dec (exZeroDisk, none) exJobB).bind (fun x => .ok (match x.1.data ["0_o.tif".toList] with | some (.tif f) => (f.rows, f.cols) | _ => (0, 0))) = .ok (1, 1) ∧
    (layerJob exSys .maskdec (exZeroDisk, none) exJobB).bind (fun x => .ok (match x.1.data ["0_o.tif".toList] with | some (.tif f) => (f.rows, f.cols) | _ => (0, 0))) = .ok (2, 2) :=
  ⟨by decide +kernel, by decide +kernel⟩

end App
end CCGL
