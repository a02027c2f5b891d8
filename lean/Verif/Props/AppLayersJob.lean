import Verif.Props.AppReclsL
/-!
# C92: jobs of `mask_rasterio` in the mode MASK with several input files
-/
namespace CCGL
namespace App
open Fs Disk Main Raster Disk.Spec App.Spec

/-- A raster without list of stored cells stores all cells. -/
theorem stored_full {r : Raster} (hb : CCGL.Spec.Built r) (hn : 0 < r.nCells) (hp : r.posData = none) {row col : Int} (hin : r.hdr.grid.CellInside row col) :
    CCGL.Spec.Stored r row col := by
  rcases built_cases hb (built_valid hb hn) (fun _ => hn) with ⟨ls, hf⟩ | ⟨ls, ps, hf⟩
  · rw [(Raster.Inv.full hf).stored]
    unfold fullLoc
    have h : 0 ≤ row ∧ row < r.hdr.rows ∧ 0 ≤ col ∧ col < r.hdr.cols := hin
    rw [if_pos h]
    exact ⟨_, rfl⟩
  · rw [hf.pd] at hp
    cases hp

/-- C92: a job of the mode MASK with several input files and a mask. Each file becomes a layer in a file of its own on the grid of the mask. -/
theorem C92_mask_partial (sys : Sys) {d : Disk} {m : Raster} {hM hR : Header} {vM vR : Int → Int → ℚ} (hm : IsMask m hM vM) {j : Job} {s : Str} {rest : List LayerFile}
    (hin : j.inFmt = .sfile) (hs : j.inputs = s :: rest.map (·.path)) (hne : rest ≠ []) (H : RasterFile d s hR vR)
    (Hl : ∀ l ∈ rest, RasterFile d l.path l.hdr l.val) (hg : CCGL.Spec.CommonGrid hR hM) (hgl : ∀ l ∈ rest, CCGL.Spec.CommonGrid l.hdr hM)
    (hov : Overlaps hM vM hR) (hout : j.outFmt = .sfile) (hre : j.recls = false) {p : Path} {dt core suf : Str} {first : Int} (ho : j.out = dt ++ core ++ '.' :: suf)
    (hn : OutLayers sys.env (sys.fmt j.type) d p dt core suf (rest.length + 1) first)
    (hh : CarriesHeader suf { hM with noData := renamedNd j.update hR.noData j.nodata.toQ })
    (hc : Carried (sys.fmt j.type) suf hR vR j.default.toQ j.update j.nodata.toQ)
    (hcl : ∀ l ∈ rest, ∀ i k, l.hdr.grid.CellInside i k → CarriesValue (sys.fmt j.type) suf (l.val i k)) :
    ∃ d' m', layerJob sys .mask (d, some ⟨m, []⟩) j = .ok (d', some ⟨m', []⟩) ∧ IsMask m' hM vM ∧
      Rewritten d d' (fun q => ∃ l : Nat, l < rest.length + 1 ∧ q = p ++ [core ++ '_' :: intToDec ((l : Int) + first) ++ '.' :: suf]) ∧
      LayersOut d' dt core suf first hM j.update hR.noData j.nodata.toQ (rest.length + 1) (HasValue hM vM) (MaskedLayers hM vM hR vR j.default.toQ rest) := by
  obtain ⟨r', m', hi2, hm', hfe, hb', hnc', h2', hl', hgr', hnd2, -, ⟨ps, p1, p2⟩, hVal⟩ := masked_layers_pos hm hne H Hl hg hgl hov j.default.toQ
  have hK : ∀ row col, hM.grid.CellInside row col → (HasValue hM vM row col ↔ CCGL.Spec.Stored r' row col) := by
    intro row col hc
    rw [stored_mem hb' hnc' (by rw [hl']; omega) p1 (by rw [hgr']; exact hc), p2 row col hc]
  obtain ⟨r1, d', o0, o1, o2, o3⟩ := layers_written (fmt := sys.fmt j.type) (env := sys.env) (d := d) hb' hnc' h2' (n := rest.length + 1) (by rw [hl']; push_cast; rfl) hgr'
    hnd2 hVal hn hK hh (by
      intro row col hin l hln w hw
      cases l with
      | zero => exact carried_masked hc (hw.1 rfl)
      | succ k => exact carried_layer hc (hcl _ (List.getElem_mem (by omega : k < rest.length))) (hw.2 k (by omega) rfl)) (carried_nd hc) []
  refine ⟨d', m', ?_, hm', o2, o3⟩
  exact layer_job hin (by rw [hs]; exact hfe) (by rw [hs]; exact hi2) o0 hre hout (by rw [ho]; exact o1)

/-- C92: the same without mask: each file becomes a layer in a file of its own on the grid of the first file; the others have values only where the first
has one. -/
theorem C92_plain_partial (sys : Sys) {d : Disk} {hR : Header} {vR : Int → Int → ℚ} {j : Job} {s : Str} {rest : List LayerFile}
    (hin : j.inFmt = .sfile) (hs : j.inputs = s :: rest.map (·.path)) (hne : rest ≠ []) (H : RasterFile d s hR vR)
    (Hl : ∀ l ∈ rest, RasterFile d l.path l.hdr l.val) (hgl : ∀ l ∈ rest, CCGL.Spec.CommonGrid l.hdr hR)
    (hout : j.outFmt = .sfile) (hre : j.recls = false) {p : Path} {dt core suf : Str} {first : Int} (ho : j.out = dt ++ core ++ '.' :: suf)
    (hn : OutLayers sys.env (sys.fmt j.type) d p dt core suf (rest.length + 1) first)
    (hh : CarriesHeader suf { hR with noData := renamedNd j.update hR.noData j.nodata.toQ })
    (hc : Carried (sys.fmt j.type) suf hR vR j.default.toQ j.update j.nodata.toQ)
    (hcl : ∀ l ∈ rest, ∀ i k, l.hdr.grid.CellInside i k → CarriesValue (sys.fmt j.type) suf (l.val i k)) :
    ∃ d', layerJob sys .mask (d, none) j = .ok (d', none) ∧
      Rewritten d d' (fun q => ∃ l : Nat, l < rest.length + 1 ∧ q = p ++ [core ++ '_' :: intToDec ((l : Int) + first) ++ '.' :: suf]) ∧
      LayersOut d' dt core suf first hR j.update hR.noData j.nodata.toQ (rest.length + 1) (fun _ _ => True) (PlainLayers hR vR rest) := by
  obtain ⟨r', hi2, hfe, hb', hnc', h2', hl', hgr', hnd2, -, hp, hVal⟩ := plain_layers_pos hne H Hl hgl j.default.toQ
  have hK : ∀ row col, hR.grid.CellInside row col → (True ↔ CCGL.Spec.Stored r' row col) :=
    fun row col hc => ⟨fun _ => stored_full hb' hnc' hp (by rw [hgr']; exact hc), fun _ => trivial⟩
  obtain ⟨r1, d', o0, o1, o2, o3⟩ := layers_written (fmt := sys.fmt j.type) (env := sys.env) (d := d) hb' hnc' h2' (n := rest.length + 1) (by rw [hl']; push_cast; rfl) hgr'
    hnd2 hVal hn (K := fun _ _ => True) hK hh (by
      intro row col hin l hln w hw
      cases l with
      | zero =>
        rw [hw.1 rfl]
        unfold renamed
        split
        · next hu => exact hc.new hu.1
        · exact hc.cells row col hin
      | succ k => exact carried_layer hc (hcl _ (List.getElem_mem (by omega : k < rest.length))) (hw.2 k (by omega) rfl)) (carried_nd hc) []
  refine ⟨d', ?_, o2, o3⟩
  exact layer_job hin (by rw [hs]; exact hfe) (by rw [hs]; exact hi2) o0 hre hout (by rw [ho]; exact o1)

end App
end CCGL
