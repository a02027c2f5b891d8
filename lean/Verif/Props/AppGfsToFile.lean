import Verif.Props.AppGfsRun
import Verif.Props.AppRunAll
/-!
# Jobs of `mask_rasterio` that read a stored file and write raster files (C100)
-/
namespace CCGL
namespace App
open Fs Disk Main Raster Gfs Disk.Spec App.Spec

namespace Spec

/-- The outputs of a job can be written to files: as in `JobOk`. -/
structure DiskOut (sys : Sys) (d : Disk) (mode : IOMode) (V : View) (j : Job) (pl : RPlan) : Prop where
  fmt : j.outFmt = .sfile
  recls : j.recls = true → CanWrite sys d mode j V.hdr V.grp (jobFill j pl.hdr) pl.dir pl.dt pl.core pl.suf pl.m
  whole : j.recls = false → WantsAll mode → j.out = pl.dt ++ pl.core ++ '.' :: pl.suf ∧
    OutName sys.env (sys.fmt j.type) d pl.dir pl.dt pl.core pl.suf ∧ CarriesHeader pl.suf V.hdr ∧ CarriesValue (sys.fmt j.type) pl.suf V.hdr.noData ∧
    ∀ row col, V.hdr.grid.CellInside row col → CarriesValue (sys.fmt j.type) pl.suf (V.val row col)

/-- A job with output to files can be carried out: the input is a raster file or a stored grid, the outputs can be written. -/
structure DiskJob (sys : Sys) (d : Disk) (st : Store) (mode : IOMode) (V : View) (jj : Job × JobDb) (pl : RPlan) : Prop where
  input : Input sys d st jj.1 jj.2 pl.hdr pl.val
  path : jj.1.inFmt = .sfile → ∃ s, jj.1.inputs = [s] ∧ d.fs.resolve s = some pl.inp
  nul : ∀ n ∈ jj.1.inputs, Char.ofNat 0 ∉ n
  out : DiskOut sys d mode V jj.1 pl

end Spec

/-- The rest of a job without reclassification that writes a file. -/
theorem finish_whole {sys : Sys} {d : Disk} {st : Store} {mode : IOMode} {j : Job} {jd : JobDb} {inc : Bool} {pl : RPlan} {V : View} {mk mk' : Option RasterS} {r r' : Raster}
    {subs : IMap Subset} (hw : Fs.Spec.WF d.fs) (hre : j.recls = false) (H : DiskOut sys d mode V j pl)
    (e3 : (if j.update then r.replaceNoData j.nodata.toQ else .ok r : Out Raster) = .ok r') (hbare : Bare subs)
    (hs : Shows r' V.hdr V.val) (hhn : r'.hdr.noData = V.hdr.noData) :
    ∃ d', finishJobDb sys inc mode (d, st, mk) (j, jd) (some ⟨r, subs⟩, mk') = .ok (d', st, mk') ∧ Rewritten d d' (JobTargets mode V j pl) ∧
      JobDone d' mode V j pl := by
  have hout : j.outFmt = .sfile := H.fmt
  have hwr : ∃ d', writeJob sys mode j ⟨r', subs⟩ d = .ok d' ∧ Rewritten d d' (JobTargets mode V j pl) ∧ JobDone d' mode V j pl := by
    have hs1 : (if outSubset mode then do
        let w ← outputToFile sys.env (sys.fmt j.type) d ⟨r', subs⟩ j.out false
        return (w.1, w.2.2)
      else return (⟨r', subs⟩, d) : Out (RasterS × Disk)) = .ok (⟨r', subs⟩, d) := by
      split
      · rw [combined_nothing hbare]
        rfl
      · rfl
    by_cases hm : WantsAll mode
    · obtain ⟨w1, w2, w3, w4, w5⟩ := H.whole hre hm
      have hch : CarriesHeader pl.suf r'.hdr := by
        have hg' := hs.grid
        unfold Header.grid at hg'
        injection hg' with g1 g2 g3 g4 g5
        unfold CarriesHeader at w3 ⊢
        rw [g1, g2, g3, g4, g5, hhn]
        exact w3
      obtain ⟨d', v, o1, o2, o3, o4⟩ := write_whole hs.built hs.cells hs.one hs.lyrs subs w2 hch (by
        intro row col x hin hx
        rw [hs.grid] at hin
        rw [hs.val row col hin] at hx
        injection hx with hx
        rw [← hx]
        exact w5 row col hin) (by rw [hs.nodata]; exact w4)
      refine ⟨d', ?_, ?_, ⟨(fun h => by rw [hre] at h; cases h), fun _ _ => ?_⟩⟩
      · unfold writeJob
        rw [if_neg (by rw [hout]; simp), hre]
        simp only [Bool.false_eq_true, if_false]
        rw [hs1]
        simp only [Out.ok_bind]
        rw [if_pos ((outAll_iff mode).2 hm), w1, o1]
        rfl
      · have : JobTargets mode V j pl = (fun q => q = pl.dir ++ [pl.core ++ '.' :: pl.suf]) := by
          funext q
          apply propext
          constructor
          · rintro (⟨h, -⟩ | ⟨-, -, h⟩)
            · rw [hre] at h; cases h
            · exact h
          · intro h
            exact .inr ⟨hre, hm, h⟩
        rw [this]
        exact o2
      · rw [w1]
        refine ReadsAs.change o3 hs.grid.symm hhn.symm ?_
        intro row col hin
        have a := o4 row col hin
        rw [hs.grid] at hin
        rw [hs.val row col hin] at a
        injection a
    · refine ⟨d, ?_, rewritten_refl hw ?_, ⟨(fun h => by rw [hre] at h; cases h), fun _ h => absurd h hm⟩⟩
      · unfold writeJob
        rw [if_neg (by rw [hout]; simp), hre]
        simp only [Bool.false_eq_true, if_false]
        rw [hs1]
        simp only [Out.ok_bind]
        rw [if_neg (fun h => hm ((outAll_iff mode).1 h))]
        rfl
      · rintro q (⟨h, -⟩ | ⟨-, h, -⟩)
        · rw [hre] at h; cases h
        · exact hm h
  obtain ⟨d', e, o1, o2⟩ := hwr
  refine ⟨d', ?_, o1, o2⟩
  unfold finishJobDb
  dsimp only
  rw [e3]
  simp only [Out.ok_bind, hre, Bool.false_eq_true, if_false, Out.pure_eq]
  rw [if_pos hout, e]
  rfl

/-- The rest of a reclassification job that writes files. -/
theorem finish_recls {sys : Sys} {d : Disk} {st : Store} {mode : IOMode} {j : Job} {jd : JobDb} {inc : Bool} {pl : RPlan} {V : View} {mk mk' : Option RasterS} {r r' : Raster}
    {subs : IMap Subset} {rs : RasterS} {b : Bool} (hre : j.recls = true) (H : DiskOut sys d mode V j pl)
    (e3 : (if j.update then r.replaceNoData j.nodata.toQ else .ok r : Out Raster) = .ok r') (eb : buildSubSet ⟨r', subs⟩ [] = .ok (rs, b))
    (HR : Ready rs V.hdr V.val V.grp j.default.toQ (jobFill j pl.hdr)) :
    ∃ d', finishJobDb sys inc mode (d, st, mk) (j, jd) (some ⟨r, subs⟩, mk') = .ok (d', st, mk') ∧ Rewritten d d' (JobTargets mode V j pl) ∧
      JobDone d' mode V j pl := by
  have hout : j.outFmt = .sfile := H.fmt
  obtain ⟨d', e, h1, h2⟩ := write_recls hout hre HR (H.recls hre)
  refine ⟨d', ?_, by rw [recls_targets hre]; exact h1, fun _ => h2, fun h => by rw [hre] at h; cases h⟩
  unfold finishJobDb
  dsimp only
  rw [e3]
  simp only [Out.ok_bind, hre, if_true]
  rw [eb]
  simp only [Out.ok_bind, Out.pure_eq]
  rw [if_pos hout, e]
  rfl

/-- C100: one job without mask, in any mode. -/
theorem C100_job_plain {sys : Sys} {d : Disk} {st : Store} {mode : IOMode} {j : Job} {jd : JobDb} {pl : RPlan} (hw : Fs.Spec.WF d.fs)
    (H : DiskJob sys d st mode (ownView j pl.hdr pl.val) (j, jd) pl) :
    ∃ d', layerJobDb sys true mode (d, st, none) (j, jd) = .ok (d', st, none) ∧ Rewritten d d' (JobTargets mode (ownView j pl.hdr pl.val) j pl) ∧
      JobDone d' mode (ownView j pl.hdr pl.val) j pl := by
  obtain ⟨r, ej, hs, hd⟩ := input_plain H.input mode
  obtain ⟨r', e3, hnh, hs'⟩ := shows_rename hs j.update j.nodata.toQ
  rw [ej]
  cases hre : j.recls with
  | true =>
    have hdf' : r'.dflt = if j.update then j.nodata.toQ else checkDefault j.default.toQ pl.hdr.noData := by rw [rename_dflt e3, hd]
    obtain ⟨rs, b, eb, HR⟩ := ready_own (h := plainHdr j pl.hdr) (v := plainVal j pl.hdr pl.val) (dv := j.default.toQ) (fill := jobFill j pl.hdr) hs'.built hs'.one
      hs'.grid hs'.nodata hs'.val (fill_unlisted hdf')
    exact finish_recls hre H.out e3 eb HR
  | false => exact finish_whole hw hre H.out e3 (fun _ h => by cases h) hs' hnh

/-- C100: one job of the mode MASK with a mask. -/
theorem C100_job_mask {sys : Sys} {d : Disk} {st : Store} {m : Raster} {hM : Header} {vM : Int → Int → ℚ} (hm : IsMask m hM vM) {j : Job} {jd : JobDb} {pl : RPlan}
    (hw : Fs.Spec.WF d.fs) (hg : CCGL.Spec.CommonGrid pl.hdr hM) (hov : Overlaps hM vM pl.hdr)
    (H : DiskJob sys d st .mask (maskedView j hM vM pl.hdr pl.val) (j, jd) pl) :
    ∃ d' m', layerJobDb sys true .mask (d, st, some ⟨m, []⟩) (j, jd) = .ok (d', st, some ⟨m', []⟩) ∧ IsMask m' hM vM ∧
      Rewritten d d' (JobTargets .mask (maskedView j hM vM pl.hdr pl.val) j pl) ∧ JobDone d' .mask (maskedView j hM vM pl.hdr pl.val) j pl := by
  obtain ⟨r, m', w, ej, hm', hs, hw', hd⟩ := input_masked hm H.input hg hov .mask
  obtain ⟨r', e3, hnh, hs'⟩ := shows_rename hs j.update j.nodata.toQ
  have hval : ∀ row col, hM.grid.CellInside row col → r'.getValue row col 1 = .ok (maskVal j hM vM pl.hdr pl.val row col) := by
    intro row col hin
    rw [hs'.val row col hin, masked_eq (hw' row col hin)]
    rfl
  rw [ej]
  cases hre : j.recls with
  | true =>
    have hdf' : r'.dflt = if j.update then j.nodata.toQ else checkDefault j.default.toQ pl.hdr.noData := by rw [rename_dflt e3, hd]
    obtain ⟨rs, b, eb, HR⟩ := ready_own (h := maskHdr j hM pl.hdr) (v := maskVal j hM vM pl.hdr pl.val) (dv := j.default.toQ) (fill := jobFill j pl.hdr) hs'.built hs'.one
      hs'.grid hs'.nodata hval (fill_unlisted hdf')
    obtain ⟨d', k1, k2, k3⟩ := finish_recls hre H.out e3 eb HR
    exact ⟨d', m', k1, hm', k2, k3⟩
  | false =>
    obtain ⟨d', k1, k2, k3⟩ := finish_whole (V := maskedView j hM vM pl.hdr pl.val) (subs := []) hw hre H.out e3 (fun _ h => by cases h)
      ⟨hs'.built, hs'.cells, hs'.one, hs'.lyrs, hs'.grid, hs'.nodata, hval⟩ hnh
    exact ⟨d', m', k1, hm', k2, k3⟩

/-- C100: one job of the modes DEC and MASKDEC with a mask, whose subsets have been built. -/
theorem C100_job_units {sys : Sys} {d : Disk} {st : Store} {m : RasterS} {hM : Header} {vM : Int → Int → ℚ} (hm : CutMask m hM vM) {mode : IOMode} {j : Job}
    {jd : JobDb} {pl : RPlan} (hw : Fs.Spec.WF d.fs) (hg : CCGL.Spec.CommonGrid pl.hdr hM) (hco : CCGL.Spec.CoordsPresent hM) (hov : Overlaps hM vM pl.hdr)
    (H : DiskJob sys d st mode (unitsView j hM vM pl.hdr pl.val) (j, jd) pl) :
    ∃ d', layerJobDb sys true mode (d, st, some m) (j, jd) = .ok (d', st, some m) ∧
      Rewritten d d' (JobTargets mode (unitsView j hM vM pl.hdr pl.val) j pl) ∧ JobDone d' mode (unitsView j hM vM pl.hdr pl.val) j pl := by
  obtain ⟨r, subs, ej, k⟩ := input_groups hm H.input hg hco hov mode
  obtain ⟨r', e3, -⟩ := rename_step k.built j.update j.nodata.toQ
  obtain ⟨hs, hn, hf, hgr⟩ := groups_renamed k e3
  rw [ej]
  cases hre : j.recls with
  | true =>
    by_cases hne : subs = []
    · subst hne
      obtain ⟨rs, b, eb, HR⟩ := ready_own (h := maskHdr j hM pl.hdr) (v := maskVal j hM vM pl.hdr pl.val) (dv := j.default.toQ) (fill := jobFill j pl.hdr) hs.built hs.one
        hs.grid hs.nodata hs.val hf
      rw [groups_none (fun k row col hk => by
        obtain ⟨s, h1, -⟩ := (hgr k row col).1 hk
        cases h1)] at HR
      exact finish_recls (V := unitsView j hM vM pl.hdr pl.val) hre H.out e3 eb HR
    · obtain ⟨ls, ps, G, hC⟩ := k.cut r' hs.built (rename_pos e3).1
      exact finish_recls (V := unitsView j hM vM pl.hdr pl.val) hre H.out e3 (build_kept hC hne) (groups_ready k e3)
  | false => exact finish_whole (V := unitsView j hM vM pl.hdr pl.val) hw hre H.out e3 k.bare hs hn

/-! ### what the other jobs leave alone -/

theorem diskJob_nodir {sys : Sys} {d : Disk} {st : Store} {mode : IOMode} {V : View} {jj : Job × JobDb} {pl : RPlan} (H : DiskJob sys d st mode V jj pl) {q : Path}
    (hq : JobTargets mode V jj.1 pl q) : d.fs.kindOf q ≠ some .dir := by
  rcases hq with ⟨hre, h⟩ | ⟨hre, hm, rfl⟩
  · exact targets_nodir (H.out.recls hre) h
  · exact (H.out.whole hre hm).2.1.write.nodir

theorem diskJob_same {sys : Sys} {d d' : Disk} {st st' : Store} {mode : IOMode} {V : View} {jj : Job × JobDb} {pl : RPlan} {new : Path → Prop} {P : Str → Prop}
    (hw : Fs.Spec.WF d.fs) (hr : Rewritten d d' new) (hd : ∀ q, new q → d.fs.kindOf q ≠ some .dir)
    (he : ∀ R : CCGL.Spec.Key, ¬ P R.name → CCGL.Spec.filesOf st' R = CCGL.Spec.filesOf st R) (hi : jj.1.inFmt = .sfile → ¬ new pl.inp)
    (hP : ∀ n, jj.1.inFmt = .gfs ∧ n ∈ jj.1.inputs → ¬ P n) (H : DiskJob sys d st mode V jj pl) : DiskJob sys d' st' mode V jj pl := by
  have hin : Input sys d' st' jj.1 jj.2 pl.hdr pl.val := by
    have h := input_stays he H.nul (fun hg n hn => hP n ⟨hg, hn⟩) H.input
    cases h with
    | file s a b c =>
      obtain ⟨s', b', hs⟩ := H.path a
      have hss : s' = s := by rw [b] at b'; injection b' with b'; exact b'.symm
      subst hss
      exact .file s' a b (rasterFile_same hw hr hd hs (hi a) c)
    | bucket n more a b c e f g => exact .bucket n more a b c e f g
  refine ⟨hin, fun a => ?_, H.nul, H.out.fmt, fun hre => canWrite_same hr hd (H.out.recls hre), fun hre hm => ?_⟩
  · obtain ⟨s, b, c⟩ := H.path a
    exact ⟨s, b, resolve_same hr hd c (hi a)⟩
  · obtain ⟨w1, w2, w3⟩ := H.out.whole hre hm
    exact ⟨w1, outName_kept hr hd w2, w3⟩

theorem diskDone_same {sys : Sys} {d d1 d' : Disk} {st : Store} {mode : IOMode} {V : View} {jj : Job × JobDb} {pl : RPlan} {new : Path → Prop}
    (H : DiskJob sys d st mode V jj pl) (hr1 : Rewritten d d1 (JobTargets mode V jj.1 pl)) (hr : Rewritten d1 d' new)
    (hd : ∀ q, new q → d1.fs.kindOf q ≠ some .dir) (hn : ∀ q, JobTargets mode V jj.1 pl q → ¬ new q) (D : JobDone d1 mode V jj.1 pl) :
    JobDone d' mode V jj.1 pl := by
  obtain ⟨j, jd⟩ := jj
  have hd0 : ∀ q, JobTargets mode V j pl q → d.fs.kindOf q ≠ some .dir := fun q hq => diskJob_nodir H hq
  constructor
  · intro hre
    have hN := nameIn_same hr1 hd0 (H.out.recls hre).name
    obtain ⟨a, b⟩ := D.recls hre
    refine ⟨fun hm hex => combined_same hN hr hd ?_ (a hm hex), fun hm k hk h0 => single_same hN hr hd ?_ (b hm k hk h0)⟩
    · intro l hl
      have ht : JobTargets mode V j pl (outPath pl.dir pl.core pl.suf pl.m 0 l) := .inl ⟨hre, .inr ⟨hm, hex, l, hl, rfl⟩⟩
      exact ⟨hr1.file _ ht, hn _ ht⟩
    · intro l hl
      have ht : JobTargets mode V j pl (outPath pl.dir pl.core pl.suf pl.m k l) := .inl ⟨hre, .inl ⟨hm, k, l, hk, hl, rfl⟩⟩
      exact ⟨hr1.file _ ht, hn _ ht⟩
  · intro hre hm
    obtain ⟨w1, w2, -⟩ := H.out.whole hre hm
    dsimp only at w1 w2
    have hN := nameIn_same hr1 hd0 w2.name
    have ht : JobTargets mode V j pl (pl.dir ++ [pl.core ++ '.' :: pl.suf]) := .inr ⟨hre, hm, rfl⟩
    have h := D.whole hre hm
    dsimp only at h ⊢
    rw [w1] at h ⊢
    exact reads_same hN.wf hr hd (resolve_out hN (hr1.file _ ht)) (hn _ ht) h

end App
end CCGL
