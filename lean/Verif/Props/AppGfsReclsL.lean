import Verif.Lemmas.AppGfsReclsL
import Verif.Props.AppReclsL
import Verif.Props.AppGfsDec
/-!
# Reclassifying jobs of `mask_rasterio` with several input files and output to GridFS (C98)
-/
namespace CCGL
namespace App
open Fs Disk Main Raster Gfs Disk.Spec App.Spec

theorem reclsL_job_db {sys : Sys} (hrnd : ∀ v, CCGL.Spec.Representable .float v → sys.rnd v = v) {d : Disk} {st : Store} {mode : IOMode} {j : Job} {jd : JobDb}
    {mk mk' : Option RasterS} {r r' : Raster} {subs : IMap Subset} {rs : RasterS} {b : Bool} {V : View} {N : Nat → Int → Int → ℚ → Prop} {fill : ℚ} {m : Int}
    (hin : j.inFmt = .sfile) (hout : j.outFmt = .gfs) (hre : j.recls = true) (hfe : filesExist d.fs j.inputs = true)
    (hi : initFiles d j.inputs false mk true j.default.toQ = .ok (some ⟨r, subs⟩, mk'))
    (e3 : (if j.update then r.replaceNoData j.nodata.toQ else .ok r : Out Raster) = .ok r') (eb : buildSubSet ⟨r', subs⟩ [] = .ok (rs, b))
    (H : ReadyL rs V.hdr N V.grp m j.default.toQ fill) (O : DbOut st mode j jd V fill m) :
    ∃ st', layerJobDb sys true mode (d, st, mk) (j, jd) = .ok (d, st', mk') ∧ OthersStay st st' mode j V.grp ∧ DbLayers sys.rnd st' mode j V N fill m := by
  obtain ⟨st', e, h1, h2⟩ := write_reclsL_db (noMask := mk.isNone) hrnd hre H O
  refine ⟨st', ?_, h1, h2⟩
  unfold layerJobDb
  rw [if_pos ⟨hin, hfe⟩]
  dsimp only
  rw [hi, Out.ok_bind]
  unfold finishJobDb
  dsimp only
  rw [e3]
  simp only [Out.ok_bind, hre, if_true]
  rw [eb]
  simp only [Out.ok_bind, Out.pure_eq]
  rw [if_neg (by rw [hout]; simp), if_pos hout, e]
  rfl

/-- C98 with output to GridFS: a reclassification job with several input files and no mask, in any mode. -/
theorem C98_gfs_plain_partial {sys : Sys} (hrnd : ∀ v, CCGL.Spec.Representable .float v → sys.rnd v = v) {d : Disk} {st : Store} {jd : JobDb} {mode : IOMode} {j : Job} {s : Str} {rest : List LayerFile} {hR : Header} {vR : Int → Int → ℚ} (hin : j.inFmt = .sfile)
    (hs : j.inputs = s :: rest.map (·.path)) (hne : rest ≠ []) (H : RasterFile d s hR vR)
    (Hl : ∀ l ∈ rest, RasterFile d l.path l.hdr l.val) (hgl : ∀ l ∈ rest, CCGL.Spec.CommonGrid l.hdr hR)
    (hout : j.outFmt = .gfs) (hre : j.recls = true) {m : Int} (hm : m ≤ rest.length + 1)
    (O : DbOut st mode j jd (ownView j hR vR) (jobFill j hR) m) :
    ∃ st', layerJobDb sys true mode (d, st, none) (j, jd) = .ok (d, st', none) ∧
      OthersStay st st' mode j (ownView j hR vR).grp ∧ DbLayers sys.rnd st' mode j (ownView j hR vR) (plainNum j hR vR rest) (jobFill j hR) m := by
  obtain ⟨r, hi, hfe, hb, hnc, h2, hl, hgr, hnd, hdf, hval⟩ := plain_layers hne H Hl hgl j.default.toQ
  obtain ⟨r', e3, hb', hnc', h2d', hly', hhdr, hnd', hval'⟩ := rename_step hb j.update j.nodata.toQ
  have hdf' : r'.dflt = if j.update then j.nodata.toQ else checkDefault j.default.toQ hR.noData := by
    rw [rename_dflt e3, hdf]
  have hV : ∀ row col, (plainHdr j hR).grid.CellInside row col → ∀ l : Nat, l < rest.length + 1 → ∀ x, r'.getValue row col ((l : Int) + 1) = .ok x →
      plainNum j hR vR rest l row col x := by
    intro row col hij l hln x hx
    obtain ⟨w, w1, w2⟩ := hval row col hij l hln
    obtain ⟨y, y1, y2⟩ := hval' row col ((l : Int) + 1)
    rw [w1] at y1
    cases y1
    rw [y2] at hx
    cases hx
    exact ⟨w, w2, by rw [hnd]⟩
  obtain ⟨rs, b, eb, HR, -⟩ := ready_ownL (h := plainHdr j hR) (v := plainVal j hR vR) (V := plainNum j hR vR rest) (dv := j.default.toQ) (fill := jobFill j hR) (m := m) (n := rest.length + 1)
    hb' (by rw [h2d', h2]) (by rw [hly', hl]; push_cast; rfl) (by push_cast; exact hm)
    (by rw [hhdr]; exact hgr) (by rw [hnd', hnd]; rfl) (by
      intro row col hij
      obtain ⟨w, w1, w2⟩ := hval row col hij 0 (by omega)
      obtain ⟨y, y1, y2⟩ := hval' row col 1
      have w1 : r.getValue row col 1 = .ok w := w1
      rw [w1] at y1
      cases y1
      rw [y2, hnd, w2.1 rfl]
      rfl) hV (fill_unlisted hdf')
  exact reclsL_job_db (V := (ownView j hR vR)) hrnd hin hout hre (by rw [hs]; exact hfe) (by rw [hs]; exact hi) e3 eb HR O

/-- C98 with output to GridFS: the same in the mode MASK with a mask. -/
theorem C98_gfs_mask_partial {sys : Sys} (hrnd : ∀ v, CCGL.Spec.Representable .float v → sys.rnd v = v) {d : Disk} {st : Store} {jd : JobDb} {m : Raster} {hM hR : Header} {vM vR : Int → Int → ℚ} (hm : IsMask m hM vM) {j : Job} {s : Str} {rest : List LayerFile}
    (hin : j.inFmt = .sfile) (hs : j.inputs = s :: rest.map (·.path)) (hne : rest ≠ []) (H : RasterFile d s hR vR)
    (Hl : ∀ l ∈ rest, RasterFile d l.path l.hdr l.val) (hg : CCGL.Spec.CommonGrid hR hM) (hgl : ∀ l ∈ rest, CCGL.Spec.CommonGrid l.hdr hM)
    (hov : Overlaps hM vM hR) (hout : j.outFmt = .gfs) (hre : j.recls = true) {n : Int} (hmn : n ≤ rest.length + 1)
    (O : DbOut st .mask j jd (maskedView j hM vM hR vR) (jobFill j hR) n) :
    ∃ st' m', layerJobDb sys true .mask (d, st, some ⟨m, []⟩) (j, jd) = .ok (d, st', some ⟨m', []⟩) ∧ IsMask m' hM vM ∧
      OthersStay st st' .mask j (maskedView j hM vM hR vR).grp ∧ DbLayers sys.rnd st' .mask j (maskedView j hM vM hR vR) (maskNum j hM vM hR vR rest) (jobFill j hR) n := by
  obtain ⟨r, m', hi, hm', hfe, hb, hnc, h2, hl, hgr, hnd, hdf, hval⟩ := masked_layers hm hne H Hl hg hgl hov j.default.toQ
  obtain ⟨r', e3, hb', hnc', h2d', hly', hhdr, hnd', hval'⟩ := rename_step hb j.update j.nodata.toQ
  have hdf' : r'.dflt = if j.update then j.nodata.toQ else checkDefault j.default.toQ hR.noData := by
    rw [rename_dflt e3, hdf]
  have hV : ∀ row col, (maskHdr j hM hR).grid.CellInside row col → ∀ l : Nat, l < rest.length + 1 → ∀ x, r'.getValue row col ((l : Int) + 1) = .ok x →
      maskNum j hM vM hR vR rest l row col x := by
    intro row col hij l hln x hx
    obtain ⟨w, w1, w2⟩ := hval row col hij l hln
    obtain ⟨y, y1, y2⟩ := hval' row col ((l : Int) + 1)
    rw [w1] at y1
    cases y1
    rw [y2] at hx
    cases hx
    exact ⟨w, w2, by rw [hnd]⟩
  obtain ⟨rs, b, eb, HR, -⟩ := ready_ownL (h := maskHdr j hM hR) (v := maskVal j hM vM hR vR) (V := maskNum j hM vM hR vR rest) (dv := j.default.toQ) (fill := jobFill j hR) (m := n)
    (n := rest.length + 1) hb' (by rw [h2d', h2]) (by rw [hly', hl]; push_cast; rfl) (by push_cast; exact hmn)
    (by rw [hhdr]; exact hgr) (by rw [hnd', hnd]; rfl) (by
      intro row col hij
      obtain ⟨w, w1, w2⟩ := hval row col hij 0 (by omega)
      obtain ⟨y, y1, y2⟩ := hval' row col 1
      have w1 : r.getValue row col 1 = .ok w := w1
      rw [w1] at y1
      cases y1
      rw [y2, hnd, masked_eq (w2.1 rfl)]
      rfl) hV (fill_unlisted hdf')
  obtain ⟨st', o1, o2, o3⟩ := reclsL_job_db (V := (maskedView j hM vM hR vR)) hrnd hin hout hre (by rw [hs]; exact hfe) (by rw [hs]; exact hi) e3 eb HR O
  exact ⟨st', m', o1, hm', o2, o3⟩

/-- C98 with output to GridFS: the same in the modes DEC and MASKDEC with a mask, whose subsets have been built. -/
theorem C98_gfs_groups_partial {sys : Sys} (hrnd : ∀ v, CCGL.Spec.Representable .float v → sys.rnd v = v) {d : Disk} {st : Store} {jd : JobDb} {m : RasterS} {hM hR : Header} {vM vR : Int → Int → ℚ} (hm : CutMask m hM vM) {mode : IOMode} {j : Job} {s : Str} {rest : List LayerFile}
    (hin : j.inFmt = .sfile) (hs : j.inputs = s :: rest.map (·.path)) (hne : rest ≠ []) (H : RasterFile d s hR vR)
    (Hl : ∀ l ∈ rest, RasterFile d l.path l.hdr l.val) (hg : CCGL.Spec.CommonGrid hR hM) (hco : CCGL.Spec.CoordsPresent hM)
    (hgl : ∀ l ∈ rest, CCGL.Spec.CommonGrid l.hdr hM) (hov : Overlaps hM vM hR) (hout : j.outFmt = .gfs) (hre : j.recls = true)
    {n : Int} (hmn : n ≤ rest.length + 1)
    (O : DbOut st mode j jd (unitsView j hM vM hR vR) (jobFill j hR) n) :
    ∃ st', layerJobDb sys true mode (d, st, some m) (j, jd) = .ok (d, st', some m) ∧
      OthersStay st st' mode j (unitsView j hM vM hR vR).grp ∧ DbLayers sys.rnd st' mode j (unitsView j hM vM hR vR) (maskNum j hM vM hR vR rest) (jobFill j hR) n := by
  obtain ⟨r, subs', hi, hfe, hb, hnc, h2, hl, hgr, hnd, hdf, hval1, hval, -, hcut, hgrp⟩ := grouped_layers hm hne H Hl hg hco hgl hov j.default.toQ
  obtain ⟨r', e3, hb', hnc', h2d', hly', hhdr, hnd', hval'⟩ := rename_step hb j.update j.nodata.toQ
  have hdf' : r'.dflt = if j.update then j.nodata.toQ else checkDefault j.default.toQ hR.noData := by
    rw [rename_dflt e3, hdf]
  have hvals : ∀ row col, (maskHdr j hM hR).grid.CellInside row col → r'.getValue row col 1 = .ok (maskVal j hM vM hR vR row col) := by
    intro row col hij
    obtain ⟨y, y1, y2⟩ := hval' row col 1
    rw [hval1 row col hij] at y1
    cases y1
    rw [y2, hnd]
    rfl
  have hV : ∀ row col, (maskHdr j hM hR).grid.CellInside row col → ∀ l : Nat, l < rest.length + 1 → ∀ x, r'.getValue row col ((l : Int) + 1) = .ok x →
      maskNum j hM vM hR vR rest l row col x := by
    intro row col hij l hln x hx
    obtain ⟨w, w1, w2⟩ := hval row col hij l hln
    obtain ⟨y, y1, y2⟩ := hval' row col ((l : Int) + 1)
    rw [w1] at y1
    cases y1
    rw [y2] at hx
    cases hx
    exact ⟨w, w2, by rw [hnd]⟩
  have hgr' : r'.hdr.grid = (maskHdr j hM hR).grid := by rw [hhdr]; exact hgr
  have hfe' : filesExist d.fs j.inputs = true := by rw [hs]; exact hfe
  have hi' : initFiles d j.inputs false (some m) true j.default.toQ = .ok (some ⟨r, subs'⟩, some m) := by rw [hs]; exact hi
  have hly2 : r'.nLyrs = ((rest.length + 1 : Nat) : Int) := by rw [hly', hl]; push_cast; rfl
  have hmn' : n ≤ ((rest.length + 1 : Nat) : Int) := by push_cast; exact hmn
  by_cases hne : subs' = []
  · subst hne
    obtain ⟨rs, b, eb, HR, -⟩ := ready_ownL (h := maskHdr j hM hR) (v := maskVal j hM vM hR vR) (V := maskNum j hM vM hR vR rest) (dv := j.default.toQ) (fill := jobFill j hR) (m := n)
      (n := rest.length + 1) hb' (by rw [h2d', h2]) hly2 hmn' hgr' (by rw [hnd', hnd]; rfl) hvals hV (fill_unlisted hdf')
    rw [no_groups hgrp] at HR
    exact reclsL_job_db (V := (unitsView j hM vM hR vR)) hrnd hin hout hre hfe' hi' e3 eb HR O
  · obtain ⟨ls, ps, G, hC⟩ := hcut r' hb' (rename_pos e3).1
    have HR : ReadyL ⟨r', subs'⟩ (maskHdr j hM hR) (maskNum j hM vM hR vR rest) (maskGroups j hM vM hR vR) n j.default.toQ (jobFill j hR) := by
      refine ⟨fun _ => ⟨ls, ps, G, hC⟩, fun _ => by rw [hly2]; exact hmn', hgr', by rw [hnd', hnd]; rfl, by rw [hhdr, hnd]; rfl, fill_unlisted hdf', hgrp, ?_⟩
      rintro k row col l x ⟨⟨hk, -⟩, -⟩ hlm hx
      dsimp only at hx
      rw [h2d', h2, if_pos rfl] at hx
      exact hV row col hk.1 l (by omega) x hx
    exact reclsL_job_db (V := (unitsView j hM vM hR vR)) hrnd hin hout hre hfe' hi' e3 (build_kept hC hne) HR O

end App
end CCGL
