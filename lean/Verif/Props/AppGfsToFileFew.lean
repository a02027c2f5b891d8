import Verif.Props.AppGfsToFile
import Verif.Props.AppGfsFewDecRead
/-!
# Jobs of `mask_rasterio` with output to files and INCLUDE_NODATA FALSE (C100)
-/
namespace CCGL
namespace App
open Fs Disk Main Raster Gfs Disk.Spec App.Spec

/-- C100: a job that reads and writes files does the same whether the bucket is used or not, and does not touch the bucket. -/
theorem C100_file {sys : Sys} {inc : Bool} {mode : IOMode} {d : Disk} {st : Store} {m : Option RasterS} {j : Job} {jd : JobDb} (h : j.inFmt = .sfile)
    (h2 : j.outFmt = .sfile) {d' m'} (e : layerJob sys mode (d, m) j = .ok (d', m')) : layerJobDb sys inc mode (d, st, m) (j, jd) = .ok (d', st, m') := by
  unfold layerJob at e
  unfold layerJobDb
  dsimp only at e ⊢
  by_cases hf : j.inFmt = .sfile ∧ filesExist d.fs j.inputs = true
  · rw [if_pos hf] at e ⊢
    obtain ⟨x, e1, e⟩ := Out.bind_ok e
    rw [e1, Out.ok_bind]
    unfold finishJobDb
    cases hx : x.1 with
    | none => rw [hx] at e; cases e
    | some rs =>
      rw [hx] at e
      dsimp only at e ⊢
      obtain ⟨r1, e2, e⟩ := Out.bind_ok e
      rw [e2, Out.ok_bind]
      obtain ⟨rs2, e3, e⟩ := Out.bind_ok e
      rw [e3, Out.ok_bind, if_pos h2]
      obtain ⟨d2, e4, e⟩ := Out.bind_ok e
      rw [e4, Out.ok_bind]
      simp only [Out.pure_eq, Out.ok.injEq, Prod.mk.injEq] at e ⊢
      exact ⟨e.1, trivial, e.2⟩
  · rw [if_neg hf] at e ⊢
    rw [if_neg (by rw [h]; simp)]
    simp only [Out.ok.injEq, Prod.mk.injEq] at e ⊢
    exact ⟨e.1, trivial, e.2⟩

/-- C100: a stored file without NoData cells, read with the mask in the mode MASK: the values `w` are the stored ones at the cells of the mask, NoData elsewhere. -/
theorem C100_few_mask {sys : Sys} {d : Disk} {st : Store} {j : Job} {jd : JobDb} {pl : RPlan} {m : Raster} {hM : Header} {vM v : Int → Int → ℚ}
    (hw : Fs.Spec.WF d.fs) (hm : FullMask m hM vM) (H : FewInput sys st j jd pl.hdr v hM vM) (hc : FewCells pl.hdr v hM vM pl.val)
    (O : DiskOut sys d .mask (ownView j pl.hdr pl.val) j pl) :
    ∃ d' m', layerJobDb sys false .mask (d, st, some ⟨m, []⟩) (j, jd) = .ok (d', st, some ⟨m', []⟩) ∧ FullMask m' hM vM ∧
      Rewritten d d' (JobTargets .mask (ownView j pl.hdr pl.val) j pl) ∧ JobDone d' .mask (ownView j pl.hdr pl.val) j pl := by
  obtain ⟨r, m', ej, hm', hs, hpd, hst, hd⟩ := few_input (d := d) hm H .mask hc
  obtain ⟨r', e3, hnh, hs'⟩ := shows_rename hs j.update j.nodata.toQ
  rw [ej]
  cases hre : j.recls with
  | true =>
    have hdf' : r'.dflt = if j.update then j.nodata.toQ else checkDefault j.default.toQ pl.hdr.noData := by rw [rename_dflt e3, hd]
    obtain ⟨rs, b, eb, HR⟩ := ready_own (h := plainHdr j pl.hdr) (v := plainVal j pl.hdr pl.val) (dv := j.default.toQ) (fill := jobFill j pl.hdr) hs'.built hs'.one
      hs'.grid hs'.nodata hs'.val (fill_unlisted hdf')
    obtain ⟨d', k1, k2, k3⟩ := finish_recls (V := ownView j pl.hdr pl.val) hre O e3 eb HR
    exact ⟨d', m', k1, hm', k2, k3⟩
  | false =>
    obtain ⟨d', k1, k2, k3⟩ := finish_whole (V := ownView j pl.hdr pl.val) (subs := []) hw hre O e3 (fun _ h => by cases h) hs' hnh
    exact ⟨d', m', k1, hm', k2, k3⟩

/-- C100: the same in the modes DEC and MASKDEC, with a mask whose subsets have been built: the groups are those of the mask. -/
theorem C100_few_units {sys : Sys} {d : Disk} {st : Store} {mode : IOMode} {j : Job} {jd : JobDb} {pl : RPlan} {m : RasterS} {hM : Header} {vM v : Int → Int → ℚ}
    (hw : Fs.Spec.WF d.fs) (hm : CutMask m hM vM) (H : FewInput sys st j jd pl.hdr v hM vM) (hc : FewCells pl.hdr v hM vM pl.val)
    (O : DiskOut sys d mode (storeView j hM vM pl.hdr pl.val) j pl) :
    ∃ d', layerJobDb sys false mode (d, st, some m) (j, jd) = .ok (d', st, some m) ∧
      Rewritten d d' (JobTargets mode (storeView j hM vM pl.hdr pl.val) j pl) ∧ JobDone d' mode (storeView j hM vM pl.hdr pl.val) j pl := by
  obtain ⟨r, subs, ej, hs, hpd, hst, hd, hne, hbare, hcut, hgrp⟩ := few_cut_input (d := d) hm H mode hc
  obtain ⟨r', e3, hnh, hs'⟩ := shows_rename hs j.update j.nodata.toQ
  rw [ej]
  cases hre : j.recls with
  | true =>
    have hdf' : r'.dflt = if j.update then j.nodata.toQ else checkDefault j.default.toQ pl.hdr.noData := by rw [rename_dflt e3, hd]
    obtain ⟨ls, ps, G, hC⟩ := hcut r' hs'.built (rename_pos e3).1
    have hin := storeView_in (j := j) (vM := vM) (w := pl.val) H.rows H.cols
    have HR : Ready ⟨r', subs⟩ (plainHdr j pl.hdr) (plainVal j pl.hdr pl.val) (byValue hM vM) j.default.toQ (jobFill j pl.hdr) :=
      ⟨fun _ => hcut r' hs'.built (rename_pos e3).1, hs'.one, hs'.grid, hs'.nodata, hnh, fill_unlisted hdf', hgrp,
        fun k row col hk => hs'.val row col (hin k row col hk)⟩
    exact finish_recls (V := storeView j hM vM pl.hdr pl.val) hre O e3 (build_kept hC hne) HR
  | false => exact finish_whole (V := storeView j hM vM pl.hdr pl.val) hw hre O e3 hbare hs' hnh

end App
end CCGL
