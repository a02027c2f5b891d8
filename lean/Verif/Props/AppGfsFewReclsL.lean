import Verif.Lemmas.AppGfsFewReclsL
import Verif.Props.AppGfsFewDec
import Verif.Props.AppGfsReclsL
/-!
# Reclassifying jobs of `mask_rasterio` with several input files that store files without NoData cells in GridFS (C98)
-/
namespace CCGL
namespace App
open Fs Disk Main Raster Gfs Disk.Spec App.Spec

/-- A raster without positions: `BuildSubSet` stores the cells that have a value. -/
theorem build_own_cellsL {r : Raster} {h : Header} {v : Int → Int → ℚ} {rs : RasterS} {b : Bool} (hb : CCGL.Spec.Built r) (hc0 : 0 < r.nCells) (hgr : r.hdr.grid = h.grid)
    (hnd : r.noData = h.noData) (hv : ∀ row col, h.grid.CellInside row col → r.getValue row col 1 = .ok (v row col)) (hp : r.posData = none)
    (hval : ∃ row col, HasValue h v row col) (e : buildSubSet ⟨r, []⟩ [] = .ok (rs, b)) :
    ∃ ps, rs.ras.posData = some ps ∧ ∀ row col, (row, col) ∈ ps ↔ h.grid.CellInside row col ∧ HasValue h v row col := by
  have hfv : ∀ row col, h.grid.CellInside row col → (FirstValid r row col ↔ HasValue h v row col) := by
    intro row col hin
    unfold FirstValid HasValue
    rw [hv row col hin, hnd]
    constructor
    · rintro ⟨x, e, hx⟩
      injection e with e
      rw [e]; exact ⟨hin, hx⟩
    · intro hx; exact ⟨_, rfl, hx.2⟩
  obtain ⟨r1, ls, ps, c1, c2, c3, c4, c5, c6, c7, c8, c9⟩ := clean_positions hb (.inl hp) (by
    obtain ⟨row, col, h2⟩ := hval
    exact ⟨row, col, by rw [hgr]; exact h2.1, (hfv row col h2.1).2 h2⟩)
  have hvd : r.validData = true := built_valid hb hc0
  obtain ⟨c, hc⟩ := (build_ras hvd e).1 (.inl (by rw [hp]; rfl))
  have hr : rs.ras = r1 := by
    rcases c3 with ⟨-, ⟨c', h1⟩, -⟩ | h1
    · rw [h1] at hc
      injection hc with hc
      injection hc with hc
      exact hc.symm
    · have := c1.pd
      rw [h1, hp] at this
      cases this
  refine ⟨ps, by rw [hr]; exact c1.pd, ?_⟩
  intro row col
  rw [c8, hgr]
  constructor
  · rintro ⟨h1, h2⟩; exact ⟨h1, (hfv row col h1).1 h2⟩
  · rintro ⟨h1, h2⟩; exact ⟨h1, (hfv row col h1).2 h2⟩

/-- The positions of a raster that has them are kept by `BuildSubSet`, and are cells of the grid. -/
theorem build_kept_cellsL {r : Raster} {h : Header} {rs : RasterS} {b : Bool} {S : Int → Int → Prop} {ps : List (Int × Int)} (hb : CCGL.Spec.Built r)
    (hc0 : 0 < r.nCells) (hg : r.hdr.grid = h.grid) (hp : r.posData = some ps)
    (hS : ∀ row col, h.grid.CellInside row col → ((row, col) ∈ ps ↔ S row col)) :
    (∀ row col, (row, col) ∈ ps ↔ h.grid.CellInside row col ∧ S row col) ∧ (buildSubSet ⟨r, []⟩ [] = .ok (rs, b) → rs.ras = r) := by
  have hvd : r.validData = true := built_valid hb hc0
  unfold Header.grid at hg
  injection hg with g1 g2 g3 g4 g5
  rcases built_cases hb hvd (fun _ => hc0) with ⟨ls, hf⟩ | ⟨ls, ps', hc⟩
  · rw [hf.pd] at hp; cases hp
  · have hps : ps' = ps := by
      have := hc.pd
      rw [hp] at this
      injection this with this
      exact this.symm
    subst hps
    refine ⟨?_, fun e => (build_ras hvd e).2 (by rw [hp]; rfl) (by rw [hc.pi]; rfl)⟩
    intro row col
    constructor
    · intro hm
      have hin := hc.inside _ hm
      dsimp only at hin
      rw [g1, g2] at hin
      exact ⟨hin, (hS row col hin).1 hm⟩
    · rintro ⟨hin, h2⟩
      exact (hS row col hin).2 h2

theorem reclsL_job_few {sys : Sys} (hrnd : ∀ v, CCGL.Spec.Representable .float v → sys.rnd v = v) {d : Disk} {st : Store} {mode : IOMode} {j : Job} {jd : JobDb}
    {mk mk' : Option RasterS} {r r' : Raster} {subs : IMap Subset} {rs : RasterS} {b : Bool} {V : View} {N : Nat → Int → Int → ℚ → Prop} {fill : ℚ} {m : Int} {C : Int → Int → Prop}
    (hin : j.inFmt = .sfile) (hout : j.outFmt = .gfs) (hre : j.recls = true) (hfe : filesExist d.fs j.inputs = true)
    (hi : initFiles d j.inputs false mk true j.default.toQ = .ok (some ⟨r, subs⟩, mk'))
    (e3 : (if j.update then r.replaceNoData j.nodata.toQ else .ok r : Out Raster) = .ok r') (eb : buildSubSet ⟨r', subs⟩ [] = .ok (rs, b))
    (H : ReadyL rs V.hdr N V.grp m j.default.toQ fill) (O : FewOut st mode j jd V fill m)
    (hcells : WantsAll mode → (∃ k, Present V.grp k) → ∃ ps, rs.ras.posData = some ps ∧ ∀ row col, (row, col) ∈ ps ↔ V.hdr.grid.CellInside row col ∧ C row col) :
    ∃ st', layerJobDb sys false mode (d, st, mk) (j, jd) = .ok (d, st', mk') ∧ OthersStay st st' mode j V.grp ∧ DbLayersFew sys.rnd st' mode j V N fill m C := by
  obtain ⟨st', e, h1, h2⟩ := write_recls_fewL (noMask := mk.isNone) hrnd hre H O hcells
  refine ⟨st', ?_, h1, h2⟩
  unfold layerJobDb
  rw [if_pos ⟨hin, hfe⟩]
  dsimp only
  rw [hi, Out.ok_bind]
  unfold finishJobDb
  dsimp only
  rw [e3]
  simp only [Out.ok_bind, hre, if_true]
  rw [eb]
  simp only [Out.ok_bind, Out.pure_eq]
  rw [if_neg (by rw [hout]; simp), if_pos hout, e]
  rfl

/-- C98 with output to GridFS without NoData cells: a reclassification job with several input files and no mask, in any mode. -/
theorem C98_gfs_few_plain_partial {sys : Sys} (hrnd : ∀ v, CCGL.Spec.Representable .float v → sys.rnd v = v) {d : Disk} {st : Store} {jd : JobDb} {mode : IOMode} {j : Job} {s : Str} {rest : List LayerFile} {hR : Header} {vR : Int → Int → ℚ} (hin : j.inFmt = .sfile)
    (hs : j.inputs = s :: rest.map (·.path)) (hne : rest ≠ []) (H : RasterFile d s hR vR)
    (Hl : ∀ l ∈ rest, RasterFile d l.path l.hdr l.val) (hgl : ∀ l ∈ rest, CCGL.Spec.CommonGrid l.hdr hR)
    (hout : j.outFmt = .gfs) (hre : j.recls = true) {m : Int} (hm : m ≤ rest.length + 1)
    (O : FewOut st mode j jd (ownView j hR vR) (jobFill j hR) m) :
    ∃ st', layerJobDb sys false mode (d, st, none) (j, jd) = .ok (d, st', none) ∧
      OthersStay st st' mode j (ownView j hR vR).grp ∧ DbLayersFew sys.rnd st' mode j (ownView j hR vR) (plainNum j hR vR rest) (jobFill j hR) m (HasValue (plainHdr j hR) (plainVal j hR vR)) := by
  obtain ⟨r, hi, hfe, hb, hnc, h2, hl, hgr, hnd, hdf, hpd, hval⟩ := plain_layers_pos hne H Hl hgl j.default.toQ
  obtain ⟨r', e3, hb', hnc', h2d', hly', hhdr, hnd', hval'⟩ := rename_step hb j.update j.nodata.toQ
  have hdf' : r'.dflt = if j.update then j.nodata.toQ else checkDefault j.default.toQ hR.noData := by
    rw [rename_dflt e3, hdf]
  have hV : ∀ row col, (plainHdr j hR).grid.CellInside row col → ∀ l : Nat, l < rest.length + 1 → ∀ x, r'.getValue row col ((l : Int) + 1) = .ok x →
      plainNum j hR vR rest l row col x := by
    intro row col hij l hln x hx
    obtain ⟨w, w1, w2⟩ := hval row col hij l hln
    obtain ⟨y, y1, y2⟩ := hval' row col ((l : Int) + 1)
    rw [w1] at y1
    cases y1
    rw [y2] at hx
    cases hx
    exact ⟨w, w2, by rw [hnd]⟩
  have hc' : 0 < r'.nCells := by rw [hnc']; exact hnc
  have hV1 : ∀ row col, (plainHdr j hR).grid.CellInside row col → r'.getValue row col 1 = .ok (plainVal j hR vR row col) := by
    intro row col hij
    obtain ⟨w, w1, w2⟩ := hval row col hij 0 (by omega)
    obtain ⟨y, y1, y2⟩ := hval' row col 1
    have w1 : r.getValue row col 1 = .ok w := w1
    rw [w1] at y1
    cases y1
    rw [y2, hnd, w2.1 rfl]
    rfl
  obtain ⟨rs, b, eb, HR, -⟩ := ready_ownL (h := plainHdr j hR) (v := plainVal j hR vR) (V := plainNum j hR vR rest) (dv := j.default.toQ) (fill := jobFill j hR) (m := m) (n := rest.length + 1)
    hb' (by rw [h2d', h2]) (by rw [hly', hl]; push_cast; rfl) (by push_cast; exact hm)
    (by rw [hhdr]; exact hgr) (by rw [hnd', hnd]; rfl) hV1 hV (fill_unlisted hdf')
  refine reclsL_job_few (V := (ownView j hR vR)) hrnd hin hout hre (by rw [hs]; exact hfe) (by rw [hs]; exact hi) e3 eb HR O ?_
  rintro - ⟨k, row, col, hk⟩
  exact build_own_cellsL (h := plainHdr j hR) (v := plainVal j hR vR) hb' hc' (by rw [hhdr]; exact hgr) (by rw [hnd', hnd]; rfl) hV1
    (by rw [(rename_pos e3).1, hpd]) ⟨row, col, hk.1⟩ eb

/-- C98 with output to GridFS without NoData cells: the same in the mode MASK with a mask. -/
theorem C98_gfs_few_mask_partial {sys : Sys} (hrnd : ∀ v, CCGL.Spec.Representable .float v → sys.rnd v = v) {d : Disk} {st : Store} {jd : JobDb} {m : Raster} {hM hR : Header} {vM vR : Int → Int → ℚ} (hm : IsMask m hM vM) {j : Job} {s : Str} {rest : List LayerFile}
    (hin : j.inFmt = .sfile) (hs : j.inputs = s :: rest.map (·.path)) (hne : rest ≠ []) (H : RasterFile d s hR vR)
    (Hl : ∀ l ∈ rest, RasterFile d l.path l.hdr l.val) (hg : CCGL.Spec.CommonGrid hR hM) (hgl : ∀ l ∈ rest, CCGL.Spec.CommonGrid l.hdr hM)
    (hov : Overlaps hM vM hR) (hout : j.outFmt = .gfs) (hre : j.recls = true) {n : Int} (hmn : n ≤ rest.length + 1)
    (O : FewOut st .mask j jd (maskedView j hM vM hR vR) (jobFill j hR) n) :
    ∃ st' m', layerJobDb sys false .mask (d, st, some ⟨m, []⟩) (j, jd) = .ok (d, st', some ⟨m', []⟩) ∧ IsMask m' hM vM ∧
      OthersStay st st' .mask j (maskedView j hM vM hR vR).grp ∧ DbLayersFew sys.rnd st' .mask j (maskedView j hM vM hR vR) (maskNum j hM vM hR vR rest) (jobFill j hR) n (HasValue hM vM) := by
  obtain ⟨r, m', hi, hm', hfe, hb, hnc, h2, hl, hgr, hnd, hdf, ⟨ps, hpd, hps⟩, hval⟩ := masked_layers_pos hm hne H Hl hg hgl hov j.default.toQ
  obtain ⟨r', e3, hb', hnc', h2d', hly', hhdr, hnd', hval'⟩ := rename_step hb j.update j.nodata.toQ
  have hdf' : r'.dflt = if j.update then j.nodata.toQ else checkDefault j.default.toQ hR.noData := by
    rw [rename_dflt e3, hdf]
  have hV : ∀ row col, (maskHdr j hM hR).grid.CellInside row col → ∀ l : Nat, l < rest.length + 1 → ∀ x, r'.getValue row col ((l : Int) + 1) = .ok x →
      maskNum j hM vM hR vR rest l row col x := by
    intro row col hij l hln x hx
    obtain ⟨w, w1, w2⟩ := hval row col hij l hln
    obtain ⟨y, y1, y2⟩ := hval' row col ((l : Int) + 1)
    rw [w1] at y1
    cases y1
    rw [y2] at hx
    cases hx
    exact ⟨w, w2, by rw [hnd]⟩
  obtain ⟨rs, b, eb, HR, -⟩ := ready_ownL (h := maskHdr j hM hR) (v := maskVal j hM vM hR vR) (V := maskNum j hM vM hR vR rest) (dv := j.default.toQ) (fill := jobFill j hR) (m := n)
    (n := rest.length + 1) hb' (by rw [h2d', h2]) (by rw [hly', hl]; push_cast; rfl) (by push_cast; exact hmn)
    (by rw [hhdr]; exact hgr) (by rw [hnd', hnd]; rfl) (by
      intro row col hij
      obtain ⟨w, w1, w2⟩ := hval row col hij 0 (by omega)
      obtain ⟨y, y1, y2⟩ := hval' row col 1
      have w1 : r.getValue row col 1 = .ok w := w1
      rw [w1] at y1
      cases y1
      rw [y2, hnd, masked_eq (w2.1 rfl)]
      rfl) hV (fill_unlisted hdf')
  obtain ⟨st', o1, o2, o3⟩ := reclsL_job_few (V := (maskedView j hM vM hR vR)) (C := HasValue hM vM) hrnd hin hout hre (by rw [hs]; exact hfe) (by rw [hs]; exact hi) e3 eb HR O (fun _ _ => by
    obtain ⟨k1, k2⟩ := build_kept_cellsL (h := maskHdr j hM hR) (S := HasValue hM vM) (rs := rs) (b := b) hb' (by rw [hnc']; exact hnc) (by rw [hhdr]; exact hgr)
      (by rw [(rename_pos e3).1, hpd]) hps
    exact ⟨ps, by rw [k2 eb, (rename_pos e3).1, hpd], k1⟩)
  exact ⟨st', m', o1, hm', o2, o3⟩

/-- C98 with output to GridFS without NoData cells: the same in the modes DEC and MASKDEC with a mask, whose subsets have been built. -/
theorem C98_gfs_few_groups_partial {sys : Sys} (hrnd : ∀ v, CCGL.Spec.Representable .float v → sys.rnd v = v) {d : Disk} {st : Store} {jd : JobDb} {m : RasterS} {hM hR : Header} {vM vR : Int → Int → ℚ} (hm : CutMask m hM vM) {mode : IOMode} {j : Job} {s : Str} {rest : List LayerFile}
    (hin : j.inFmt = .sfile) (hs : j.inputs = s :: rest.map (·.path)) (hne : rest ≠ []) (H : RasterFile d s hR vR)
    (Hl : ∀ l ∈ rest, RasterFile d l.path l.hdr l.val) (hg : CCGL.Spec.CommonGrid hR hM) (hco : CCGL.Spec.CoordsPresent hM)
    (hgl : ∀ l ∈ rest, CCGL.Spec.CommonGrid l.hdr hM) (hov : Overlaps hM vM hR) (hout : j.outFmt = .gfs) (hre : j.recls = true)
    {n : Int} (hmn : n ≤ rest.length + 1)
    (O : FewOut st mode j jd (unitsView j hM vM hR vR) (jobFill j hR) n) :
    ∃ st', layerJobDb sys false mode (d, st, some m) (j, jd) = .ok (d, st', some m) ∧
      OthersStay st st' mode j (unitsView j hM vM hR vR).grp ∧ DbLayersFew sys.rnd st' mode j (unitsView j hM vM hR vR) (maskNum j hM vM hR vR rest) (jobFill j hR) n (HasValue hM vM) := by
  obtain ⟨r, subs', hi, hfe, hb, hnc, h2, hl, hgr, hnd, hdf, hval1, hval, -, ⟨ps0, hpd, hps⟩, hcut, hgrp⟩ := grouped_layers_pos hm hne H Hl hg hco hgl hov j.default.toQ
  obtain ⟨r', e3, hb', hnc', h2d', hly', hhdr, hnd', hval'⟩ := rename_step hb j.update j.nodata.toQ
  have hdf' : r'.dflt = if j.update then j.nodata.toQ else checkDefault j.default.toQ hR.noData := by
    rw [rename_dflt e3, hdf]
  have hvals : ∀ row col, (maskHdr j hM hR).grid.CellInside row col → r'.getValue row col 1 = .ok (maskVal j hM vM hR vR row col) := by
    intro row col hij
    obtain ⟨y, y1, y2⟩ := hval' row col 1
    rw [hval1 row col hij] at y1
    cases y1
    rw [y2, hnd]
    rfl
  have hV : ∀ row col, (maskHdr j hM hR).grid.CellInside row col → ∀ l : Nat, l < rest.length + 1 → ∀ x, r'.getValue row col ((l : Int) + 1) = .ok x →
      maskNum j hM vM hR vR rest l row col x := by
    intro row col hij l hln x hx
    obtain ⟨w, w1, w2⟩ := hval row col hij l hln
    obtain ⟨y, y1, y2⟩ := hval' row col ((l : Int) + 1)
    rw [w1] at y1
    cases y1
    rw [y2] at hx
    cases hx
    exact ⟨w, w2, by rw [hnd]⟩
  have hgr' : r'.hdr.grid = (maskHdr j hM hR).grid := by rw [hhdr]; exact hgr
  have hfe' : filesExist d.fs j.inputs = true := by rw [hs]; exact hfe
  have hi' : initFiles d j.inputs false (some m) true j.default.toQ = .ok (some ⟨r, subs'⟩, some m) := by rw [hs]; exact hi
  have hly2 : r'.nLyrs = ((rest.length + 1 : Nat) : Int) := by rw [hly', hl]; push_cast; rfl
  have hmn' : n ≤ ((rest.length + 1 : Nat) : Int) := by push_cast; exact hmn
  by_cases hne : subs' = []
  · subst hne
    obtain ⟨rs, b, eb, HR, -⟩ := ready_ownL (h := maskHdr j hM hR) (v := maskVal j hM vM hR vR) (V := maskNum j hM vM hR vR rest) (dv := j.default.toQ) (fill := jobFill j hR) (m := n)
      (n := rest.length + 1) hb' (by rw [h2d', h2]) hly2 hmn' hgr' (by rw [hnd', hnd]; rfl) hvals hV (fill_unlisted hdf')
    rw [no_groups hgrp] at HR
    exact reclsL_job_few (V := (unitsView j hM vM hR vR)) hrnd hin hout hre hfe' hi' e3 eb HR O
      (fun _ ⟨k, row, col, hk⟩ => by (obtain ⟨s, h1, -⟩ := (hgrp k row col).1 hk; cases h1))
  · obtain ⟨ls, ps, G, hC⟩ := hcut r' hb' (rename_pos e3).1
    have HR : ReadyL ⟨r', subs'⟩ (maskHdr j hM hR) (maskNum j hM vM hR vR rest) (maskGroups j hM vM hR vR) n j.default.toQ (jobFill j hR) := by
      refine ⟨fun _ => ⟨ls, ps, G, hC⟩, fun _ => by rw [hly2]; exact hmn', hgr', by rw [hnd', hnd]; rfl, by rw [hhdr, hnd]; rfl, fill_unlisted hdf', hgrp, ?_⟩
      rintro k row col l x ⟨⟨hk, -⟩, -⟩ hlm hx
      dsimp only at hx
      rw [h2d', h2, if_pos rfl] at hx
      exact hV row col hk.1 l (by omega) x hx
    exact reclsL_job_few (V := (unitsView j hM vM hR vR)) hrnd hin hout hre hfe' hi' e3 (build_kept hC hne) HR O (fun _ _ => by
      obtain ⟨k1, -⟩ := build_kept_cellsL (h := maskHdr j hM hR) (S := HasValue hM vM) (rs := ⟨r', []⟩) (b := true) hb' (by rw [hnc']; exact hnc) hgr'
        (by rw [(rename_pos e3).1, hpd]) hps
      exact ⟨ps0, by rw [(rename_pos e3).1, hpd], k1⟩)

end App
end CCGL
