import Verif.Lemmas.AppGroups
import Verif.Props.AppBatch
/-!
# Reclassification jobs of `mask_rasterio` on files (C78)
-/
namespace CCGL
open Raster

theorem writeCell_pos {r r' : Raster} {i l v} (e : r.writeCell i l v = .ok r') : r'.posData = r.posData ∧ r'.posIdx = r.posIdx := by
  unfold writeCell at e
  split at e
  · obtain ⟨a, _, e⟩ := Out.bind_ok e
    obtain ⟨b, _, e⟩ := Out.bind_ok e
    split at e
    · obtain ⟨d, _, e⟩ := Out.bind_ok e
      simp at e; subst e; exact ⟨rfl, rfl⟩
    · simp at e
  · obtain ⟨d, _, e⟩ := Out.bind_ok e
    simp at e; subst e; exact ⟨rfl, rfl⟩

theorem passCells_pos {f} (il : List (Int × Int)) : ∀ {r r' : Raster}, passCells f r il = .ok r' →
    r'.posData = r.posData ∧ r'.posIdx = r.posIdx := by
  induction il with
  | nil => intro r r' e; simp [passCells] at e; rw [e]; exact ⟨rfl, rfl⟩
  | cons p il ih =>
    intro r r' e
    unfold passCells at e
    obtain ⟨a, _, e⟩ := Out.bind_ok e
    obtain ⟨b, _, e⟩ := Out.bind_ok e
    obtain ⟨c, hc, e⟩ := Out.bind_ok e
    rw [(ih e).1, (ih e).2]
    split at hc
    · simp at hc; rw [hc]; exact ⟨rfl, rfl⟩
    · exact writeCell_pos hc

end CCGL

namespace CCGL
namespace App
open Fs Disk Main Raster Disk.Spec App.Spec

theorem rename_pos {r r' : Raster} {upd : Bool} {new : ℚ} (e : (if upd then r.replaceNoData new else .ok r : Out Raster) = .ok r') :
    r'.posData = r.posData ∧ r'.posIdx = r.posIdx := by
  cases upd
  · simp only [Bool.false_eq_true, if_false, Out.ok.injEq] at e
    rw [← e]; exact ⟨rfl, rfl⟩
  · simp only [if_true] at e
    unfold Raster.replaceNoData at e
    obtain ⟨x, ex, e⟩ := Out.bind_ok e
    simp only [Out.pure_eq, Out.ok.injEq] at e
    rw [← e]
    have t := passCells_pos _ ex
    exact ⟨t.1, t.2⟩

/-- A reclassification job, given the steps before writing. -/
theorem recls_job (sys : Sys) {d : Disk} {mode : IOMode} {j : Job} {mk mk' : Option RasterS} {r r' : Raster} {subs : IMap Subset} {rs : RasterS} {b : Bool}
    {h v g p dt core suf m fill} (hin : j.inFmt = .sfile) (hout : j.outFmt = .sfile) (hre : j.recls = true) (hfe : filesExist d.fs j.inputs = true)
    (hi : initFiles d j.inputs false mk true j.default.toQ = .ok (some ⟨r, subs⟩, mk'))
    (e3 : (if j.update then r.replaceNoData j.nodata.toQ else .ok r : Out Raster) = .ok r') (eb : buildSubSet ⟨r', subs⟩ [] = .ok (rs, b))
    (H : Ready rs h v g j.default.toQ fill) (W : CanWrite sys d mode j h g fill p dt core suf m) :
    ∃ d', layerJob sys mode (d, mk) j = .ok (d', mk') ∧ Rewritten d d' (Targets mode g p core suf m) ∧
      ReclsOutput d' mode j h v g fill dt core suf m := by
  obtain ⟨d', e, h1, h2⟩ := write_recls hout hre H W
  refine ⟨d', ?_, h1, h2⟩
  unfold layerJob
  rw [if_pos ⟨hin, hfe⟩]
  dsimp only
  rw [hi]
  simp only [Out.ok_bind]
  rw [e3]
  simp only [Out.ok_bind, hre, if_true]
  rw [eb]
  simp only [Out.ok_bind, Out.pure_eq]
  rw [e]
  rfl

theorem filesExist_one {f : FS} {s : Str} (h : fileExists f s = true) : filesExist f [s] = true := by
  unfold filesExist; simp [h]

/-- C78: a reclassification job with one input file and no mask, in any mode. -/
theorem C78_plain_job (sys : Sys) {d : Disk} {mode : IOMode} {j : Job} {s : Str} {hR : Header} {vR : Int → Int → ℚ} (hin : j.inFmt = .sfile)
    (hs : j.inputs = [s]) (H : RasterFile d s hR vR) (hout : j.outFmt = .sfile) (hre : j.recls = true) {p : Path} {dt core suf : Str} {m : Int}
    (W : CanWrite sys d mode j (plainHdr j hR) (byValue (plainHdr j hR) (plainVal j hR vR)) (jobFill j hR) p dt core suf m) :
    ∃ d', layerJob sys mode (d, none) j = .ok (d', none) ∧
      Rewritten d d' (Targets mode (byValue (plainHdr j hR) (plainVal j hR vR)) p core suf m) ∧
      ReclsOutput d' mode j (plainHdr j hR) (plainVal j hR vR) (byValue (plainHdr j hR) (plainVal j hR vR)) (jobFill j hR) dt core suf m := by
  obtain ⟨M, eM, hb, -, hgM, hnM, hvM, h2M, hlM, hcM⟩ := mask_file H j.default.toQ
  obtain ⟨hex, h', cells, e, -, hn', -⟩ := file_decode H
  have hdf : M.dflt = checkDefault j.default.toQ hR.noData := by
    have e1 := readFromFile_none d s _ hex e j.default.toQ
    rw [eM] at e1
    injection e1 with e1
    injection e1 with e1
    rw [e1, ← hn']
    rfl
  obtain ⟨r', e3, hb', hnc', h2d', hly', hhdr, hnd', hval'⟩ := rename_step hb j.update j.nodata.toQ
  have hdf' : r'.dflt = if j.update then j.nodata.toQ else checkDefault j.default.toQ hR.noData := by
    rw [rename_dflt e3, hdf]
  obtain ⟨rs, b, eb, HR⟩ := ready_own (h := plainHdr j hR) (v := plainVal j hR vR) (dv := j.default.toQ) (fill := jobFill j hR) hb' (by rw [h2d', h2M])
    (by rw [hhdr]; exact hgM) (by rw [hnd', hnM]; rfl) (by
      intro row col hij
      obtain ⟨y, y1, y2⟩ := hval' row col 1
      rw [hvM row col hij] at y1
      cases y1
      rw [y2, hnM]
      rfl) (fill_unlisted hdf')
  have hfe : filesExist d.fs j.inputs = true := by rw [hs]; exact filesExist_one hex
  refine recls_job sys hin hout hre hfe ?_ e3 eb HR W
  unfold initFiles
  rw [hfe, hs]
  simp only [Bool.not_true, Bool.false_eq_true, if_false]
  unfold initFile
  dsimp only
  rw [eM]
  rfl

/-- C78: a reclassification job of the mode MASK with a mask. -/
theorem C78_mask_job (sys : Sys) {d : Disk} {m : Raster} {hM hR : Header} {vM vR : Int → Int → ℚ} (hm : IsMask m hM vM) {j : Job} {s : Str}
    (hin : j.inFmt = .sfile) (hs : j.inputs = [s]) (H : RasterFile d s hR vR) (hg : CCGL.Spec.CommonGrid hR hM) (hov : Overlaps hM vM hR)
    (hout : j.outFmt = .sfile) (hre : j.recls = true) {p : Path} {dt core suf : Str} {n : Int}
    (W : CanWrite sys d .mask j (maskHdr j hM hR) (byValue (maskHdr j hM hR) (maskVal j hM vM hR vR)) (jobFill j hR) p dt core suf n) :
    ∃ d' m', layerJob sys .mask (d, some ⟨m, []⟩) j = .ok (d', some ⟨m', []⟩) ∧ IsMask m' hM vM ∧
      Rewritten d d' (Targets .mask (byValue (maskHdr j hM hR) (maskVal j hM vM hR vR)) p core suf n) ∧
      ReclsOutput d' .mask j (maskHdr j hM hR) (maskVal j hM vM hR vR) (byValue (maskHdr j hM hR) (maskVal j hM vM hR vR)) (jobFill j hR) dt core suf n := by
  obtain ⟨x, res, hex, e1, e2, hcode, hm', hb, hnc, h2d, hly, hgr, hnd, hval⟩ := file_masked hm H hg hov j.default.toQ
  obtain ⟨-, h', cells, e, hgr0, hn0, hl0, hlen, hv0⟩ := file_decode H
  rw [e] at e1
  injection e1 with e1
  injection e1 with e1
  subst e1
  obtain ⟨r', e3, hb', hnc', h2d', hly', hhdr, hnd', hval'⟩ := rename_step hb j.update j.nodata.toQ
  have hdf' : r'.dflt = if j.update then j.nodata.toQ else checkDefault j.default.toQ hR.noData := by
    rw [rename_dflt e3, maskRaster_dflt e2, ← hn0]
    rfl
  obtain ⟨rs, b, eb, HR⟩ := ready_own (h := maskHdr j hM hR) (v := maskVal j hM vM hR vR) (dv := j.default.toQ) (fill := jobFill j hR) hb' (by rw [h2d', h2d])
    (by rw [hhdr]; exact hgr) (by rw [hnd', hnd]; rfl) (by
      intro row col hij
      obtain ⟨w, w1, w2⟩ := hval row col hij
      obtain ⟨y, y1, y2⟩ := hval' row col 1
      rw [w1] at y1
      cases y1
      rw [y2, hnd, masked_eq w2]
      rfl) (fill_unlisted hdf')
  have hfe : filesExist d.fs j.inputs = true := by rw [hs]; exact filesExist_one hex
  have hi : initFiles d j.inputs false (some ⟨m, []⟩) true j.default.toQ = .ok (some ⟨res.ras, []⟩, some ⟨res.mask, []⟩) := by
    unfold initFiles
    rw [hfe, hs]
    simp only [Bool.not_true, Bool.false_eq_true, if_false]
    unfold initFile
    rw [hex]
    simp only [Bool.not_true, Bool.false_eq_true, if_false]
    rw [e]
    simp only [Out.ok_bind]
    unfold maskRasterS
    rw [e2]
    simp only [Out.ok_bind, or_true, if_true, Out.pure_eq, hcode]
    rfl
  obtain ⟨d', o1, o2, o3⟩ := recls_job sys hin hout hre hfe hi e3 eb HR W
  exact ⟨d', res.mask, o1, hm', o2, o3⟩

theorem build_kept {r : Raster} {subs : IMap Subset} {ls ps G} (hc : Cut ⟨r, subs⟩ ls ps G) (hne : subs ≠ []) :
    buildSubSet ⟨r, subs⟩ [] = .ok (⟨r, subs⟩, true) := by
  unfold buildSubSet
  have hv : r.validData = true := by
    have := hc.comp.holds.valid
    exact this
  have h1 : r.posData.isNone = false := by rw [hc.comp.pd]; rfl
  have h2 : r.posIdx.isNone = false := by rw [hc.comp.pi]; rfl
  dsimp only
  rw [hv, h1, h2]
  simp only [Bool.not_true, Bool.false_eq_true, if_false, Bool.or_false, Out.ok_bind]
  rw [if_pos hne]

/-- C78: a reclassification job of the modes DEC and MASKDEC with a mask, whose subsets have been built. -/
theorem C78_groups_job (sys : Sys) {d : Disk} {m : RasterS} {hM hR : Header} {vM vR : Int → Int → ℚ} (hm : CutMask m hM vM) {mode : IOMode} {j : Job} {s : Str}
    (hin : j.inFmt = .sfile) (hs : j.inputs = [s]) (H : RasterFile d s hR vR) (hg : CCGL.Spec.CommonGrid hR hM) (hco : CCGL.Spec.CoordsPresent hM)
    (hov : Overlaps hM vM hR) (hout : j.outFmt = .sfile) (hre : j.recls = true) {p : Path} {dt core suf : Str} {n : Int}
    (W : CanWrite sys d mode j (maskHdr j hM hR) (maskGroups j hM vM hR vR) (jobFill j hR) p dt core suf n) :
    ∃ d', layerJob sys mode (d, some m) j = .ok (d', some m) ∧
      Rewritten d d' (Targets mode (maskGroups j hM vM hR vR) p core suf n) ∧
      ReclsOutput d' mode j (maskHdr j hM hR) (maskVal j hM vM hR vR) (maskGroups j hM vM hR vR) (jobFill j hR) dt core suf n := by
  obtain ⟨x, res, subs', hex, ex, em, hcode, hmk, hb, hnc, h2d, hly, hdf, hgr, hnd, hval, -, hcut, hgrp⟩ := file_masked_groups hm H hg hco hov j.default.toQ
  obtain ⟨r', e3, hb', hnc', h2d', hly', hhdr, hnd', hval'⟩ := rename_step hb j.update j.nodata.toQ
  have hdf' : r'.dflt = if j.update then j.nodata.toQ else checkDefault j.default.toQ hR.noData := by
    rw [rename_dflt e3, hdf]
  have hvals : ∀ row col, (maskHdr j hM hR).grid.CellInside row col → r'.getValue row col 1 = .ok (maskVal j hM vM hR vR row col) := by
    intro row col hij
    obtain ⟨y, y1, y2⟩ := hval' row col 1
    rw [hval row col hij] at y1
    cases y1
    rw [y2, hnd]
    rfl
  have hgr' : r'.hdr.grid = (maskHdr j hM hR).grid := by rw [hhdr]; exact hgr
  have hfe : filesExist d.fs j.inputs = true := by rw [hs]; exact filesExist_one hex
  have hi : initFiles d j.inputs false (some m) true j.default.toQ = .ok (some ⟨res.ras, subs'⟩, some m) := by
    unfold initFiles
    rw [hfe, hs]
    simp only [Bool.not_true, Bool.false_eq_true, if_false]
    unfold initFile
    rw [hex]
    simp only [Bool.not_true, Bool.false_eq_true, if_false]
    rw [ex]
    simp only [Out.ok_bind]
    rw [em]
    simp only [Out.ok_bind, Out.pure_eq, hcode, hmk]
    rfl
  by_cases hne : subs' = []
  · subst hne
    obtain ⟨rs, b, eb, HR⟩ := ready_own (h := maskHdr j hM hR) (v := maskVal j hM vM hR vR) (dv := j.default.toQ) (fill := jobFill j hR) hb' (by rw [h2d', h2d])
      hgr' (by rw [hnd', hnd]; rfl) hvals (fill_unlisted hdf')
    have hno : ∀ row col, hM.grid.CellInside row col → floatEqual (maskedVal hM vM hR vR j.default.toQ row col) hR.noData = true := by
      intro row col hin
      by_contra hf
      rw [Bool.not_eq_true] at hf
      have hh : HasValue hM vM row col := by
        by_contra hh
        unfold maskedVal at hf
        rw [dif_neg (fun h => hh h.1), floatEqual_self] at hf
        cases hf
      obtain ⟨s', hs', -⟩ := (hgrp (truncQ (vM row col)) row col).1 ⟨⟨hh, rfl⟩, row, col, ⟨hh, rfl⟩, hf⟩
      cases hs'
    have hbyv : byValue (maskHdr j hM hR) (maskVal j hM vM hR vR) = maskGroups j hM vM hR vR := by
      funext k row col
      apply propext
      constructor
      · rintro ⟨⟨h1, h2⟩, -⟩
        exfalso
        have := hno row col h1
        unfold maskVal renamed maskHdr renamedNd at h2
        dsimp only at h2
        cases hu : j.update with
        | false =>
          rw [hu, if_neg (by simp)] at h2
          simp only [Bool.false_eq_true, if_false] at h2
          rw [this] at h2
          cases h2
        | true =>
          rw [hu, if_pos ⟨rfl, this⟩] at h2
          simp only [if_true] at h2
          rw [floatEqual_self] at h2
          cases h2
      · rintro ⟨-, row', col', h1, h2⟩
        rw [hno row' col' h1.1.1] at h2
        cases h2
    rw [hbyv] at HR
    exact recls_job sys hin hout hre hfe hi e3 eb HR W
  · obtain ⟨ls, ps, G, hC⟩ := hcut r' hb' (rename_pos e3).1
    have HR : Ready ⟨r', subs'⟩ (maskHdr j hM hR) (maskVal j hM vM hR vR) (maskGroups j hM vM hR vR) j.default.toQ (jobFill j hR) := by
      refine ⟨fun _ => ⟨ls, ps, G, hC⟩, by rw [h2d', h2d], hgr', by rw [hnd', hnd]; rfl, by rw [hhdr, hnd]; rfl, fill_unlisted hdf', hgrp, ?_⟩
      rintro k row col ⟨⟨hk, -⟩, -⟩
      exact hvals row col hk.1
    exact recls_job sys hin hout hre hfe hi e3 (build_kept hC hne) HR W

end App
end CCGL
