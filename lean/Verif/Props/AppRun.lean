import Verif.Lemmas.AppRun
import Verif.Props.FileWhole
import Verif.Props.Raster
/-!
# The jobs of `mask_rasterio` on files (C77)
-/
namespace CCGL
namespace App
open Fs Disk Main Raster Disk.Spec App.Spec

/-- Writing a raster with one layer. -/
theorem write_whole {env : Env} {fmt : Disk.Fmt} {d : Disk} {r : Raster} (hb : CCGL.Spec.Built r) (hn : 0 < r.nCells) (h1 : r.is2d = false)
    (hl : r.nLyrs = 1) (subs : IMap Subset) {p : Path} {dt core suf : Str} (ho : OutName env fmt d p dt core suf) (hh : CarriesHeader suf r.hdr)
    (hcv : ∀ row col v, r.hdr.grid.CellInside row col → r.getValue row col 1 = .ok v → CarriesValue fmt suf v)
    (hnv : CarriesValue fmt suf r.noData) :
    ∃ d' v, outputToFile env fmt d ⟨r, subs⟩ (dt ++ core ++ '.' :: suf) true = .ok (⟨r, subs⟩, true, d') ∧
      Rewritten d d' (fun q => q = p ++ [core ++ '.' :: suf]) ∧ ReadsAs d' (dt ++ core ++ '.' :: suf) r.hdr v ∧
      ∀ row col, r.hdr.grid.CellInside row col → r.getValue row col 1 = .ok (v row col) := by
  have hv := built_valid hb hn
  have hw : ∀ (f : Int) (l : Nat), (l : Int) < r.nLyrs → Writable env d.fs (p ++ [wholeCore core r.is2d f l ++ '.' :: suf]) := by
    intro f l _
    rw [h1]; exact ho.write
  have hc : ∀ row col lyr v, 0 ≤ row → row < r.hdr.rows → 0 ≤ col → col < r.hdr.cols → 1 ≤ lyr → lyr ≤ r.nLyrs →
      r.getValue row col lyr = .ok v → CarriesValue fmt suf v := by
    intro row col lyr v a1 a2 a3 a4 a5 a6 e
    have : lyr = 1 := by omega
    subst this
    exact hcv row col v ⟨a1, a2, a3, a4⟩ e
  have fin : ∀ f : Int, (∃ d', outputToFile env fmt d ⟨r, subs⟩ (dt ++ core ++ '.' :: suf) true = .ok (⟨r, subs⟩, true, d') ∧
      Rewritten d d' (fun q => ∃ l : Nat, (l : Int) < r.nLyrs ∧ q = p ++ [wholeCore core r.is2d f l ++ '.' :: suf]) ∧
      ∀ l : Nat, (l : Int) < r.nLyrs → ∃ v, ReadsAs d' (dt ++ wholeCore core r.is2d f l ++ '.' :: suf) r.hdr v ∧
        ∀ row col, 0 ≤ row → row < r.hdr.rows → 0 ≤ col → col < r.hdr.cols → r.getValue row col ((l : Int) + 1) = .ok (v row col)) →
      ∃ d' v, outputToFile env fmt d ⟨r, subs⟩ (dt ++ core ++ '.' :: suf) true = .ok (⟨r, subs⟩, true, d') ∧
      Rewritten d d' (fun q => q = p ++ [core ++ '.' :: suf]) ∧ ReadsAs d' (dt ++ core ++ '.' :: suf) r.hdr v ∧
      ∀ row col, r.hdr.grid.CellInside row col → r.getValue row col 1 = .ok (v row col) := by
    rintro f ⟨d', e, hrw, hR⟩
    have hcore : wholeCore core r.is2d f 0 = core := by rw [h1]; rfl
    obtain ⟨v, v1, v2⟩ := hR 0 (by omega)
    rw [hcore] at v1
    refine ⟨d', v, e, ?_, v1, fun row col hin => v2 row col hin.1 hin.2.1 hin.2.2.1 hin.2.2.2⟩
    have hp : (fun q => ∃ l : Nat, (l : Int) < r.nLyrs ∧ q = p ++ [wholeCore core r.is2d f l ++ '.' :: suf]) =
        (fun q => q = p ++ [core ++ '.' :: suf]) := by
      funext q
      apply propext
      constructor
      · rintro ⟨l, hl', rfl⟩
        rw [h1]; rfl
      · rintro rfl
        exact ⟨0, by omega, by rw [hcore]⟩
    rw [hp] at hrw
    exact hrw
  have hno : r.is2d = true → 0 < r.nCells := fun _ => hn
  rcases ho.suf with hs | ⟨hs, hty⟩
  · exact fin 0 (C75_whole_asc_partial hb hv hno subs ho.name hs ho.write.nodir (hw 0) hh (fun h => by rw [h1] at h; cases h) hc hnv)
  · exact fin 1 (C75_whole_tif_partial hb hv hno subs ho.name hs hty ho.write.nodir (hw 1) hh hc hnv)

/-- `ReplaceNoData` as an option, on a raster with cells. -/
theorem rename_step {r : Raster} (hb : CCGL.Spec.Built r) (upd : Bool) (new : ℚ) :
    ∃ r', (if upd then r.replaceNoData new else .ok r : Out Raster) = .ok r' ∧ CCGL.Spec.Built r' ∧ r'.nCells = r.nCells ∧ r'.is2d = r.is2d ∧
      r'.nLyrs = r.nLyrs ∧ r'.hdr = { r.hdr with noData := renamedNd upd r.noData new } ∧ r'.noData = renamedNd upd r.noData new ∧
      ∀ row col lyr : Int, ∃ x, r.getValue row col lyr = .ok x ∧ r'.getValue row col lyr = .ok (renamed upd r.noData new x) := by
  cases upd
  · refine ⟨r, rfl, hb, rfl, rfl, rfl, ?_, rfl, ?_⟩
    · unfold renamedNd
      rw [if_neg (by simp), ← hb.hdrOk.nd]
    · intro row col lyr
      obtain ⟨_, _, _, _, _, h⟩ := C11_replaceNoData hb 0
      obtain ⟨x, hx, _⟩ := h row col lyr
      refine ⟨x, hx, ?_⟩
      rw [hx]
      unfold renamed
      rw [if_neg (by simp)]
  · obtain ⟨r', e, h1, h2, h3, h4⟩ := C11_replaceNoData hb new
    have hb' : CCGL.Spec.Built r' := hb.step (.replaceNoData new) e
    have hi : r'.is2d = r.is2d := by
      unfold Raster.replaceNoData at e
      obtain ⟨x, ex, e⟩ := Out.bind_ok e
      simp only [Out.pure_eq, Out.ok.injEq] at e
      rw [← e]
      show x.is2d = r.is2d
      exact passCells_is2d _ ex
    have hl : r'.nLyrs = r.nLyrs := by rw [← hb'.hdrOk.lyrs, ← hb.hdrOk.lyrs, h2]
    refine ⟨r', e, hb', h3, hi, hl, h2, h1, ?_⟩
    intro row col lyr
    obtain ⟨x, x1, x2⟩ := h4 row col lyr
    refine ⟨x, x1, ?_⟩
    rw [x2]
    unfold renamed
    simp

theorem carried_filled {fmt suf hR vR dv upd new} (h : Carried fmt suf hR vR dv upd new) {i j : Int} (hij : hR.grid.CellInside i j) :
    CarriesValue fmt suf (filled dv hR.noData (vR i j)) := by
  unfold filled
  split
  · exact h.dflt
  · exact h.cells i j hij

theorem carried_masked {fmt suf hM vM hR vR dv upd new row col w} (h : Carried fmt suf hR vR dv upd new)
    (hw : MaskedCell hM vM hR vR dv row col w) : CarriesValue fmt suf (renamed upd hR.noData new w) := by
  unfold renamed
  split
  · next hu => exact h.new hu.1
  · by_cases hv : HasValue hM vM row col
    · by_cases hx : ∃ i j, SameCell hR hM i j row col
      · obtain ⟨i, j, hij⟩ := hx
        rw [hw.taken hv i j hij]
        exact carried_filled h hij.1
      · rw [hw.none (.inr hx)]; exact h.nodata
    · rw [hw.none (.inl hv)]; exact h.nodata

theorem carried_nd {fmt suf hR vR dv upd new} (h : Carried fmt suf hR vR dv upd new) : CarriesValue fmt suf (renamedNd upd hR.noData new) := by
  unfold renamedNd
  split
  · next hu => exact h.new hu
  · exact h.nodata

/-- C77: one job of the mode MASK without reclassification, with one input file. If the mask object stands for the mask file, the input
file lies on the grid of the mask and some cell of the mask with a value lies on it, then the output file reads back as the grid of the mask,
where each cell has the value demanded by `MaskedCell` (NoData renamed if asked for); nothing else on the disk changes, and the mask
object stands for the mask file as before. -/
theorem C77_mask_job (sys : Sys) {d : Disk} {m : Raster} {hM hR : Header} {vM vR : Int → Int → ℚ} (hm : IsMask m hM vM) {j : Job} {s : Str}
    (hin : j.inFmt = .sfile) (hs : j.inputs = [s]) (H : RasterFile d s hR vR) (hg : CCGL.Spec.CommonGrid hR hM) (hov : Overlaps hM vM hR)
    (hout : j.outFmt = .sfile) (hre : j.recls = false) {p : Path} {dt core suf : Str} (ho : j.out = dt ++ core ++ '.' :: suf)
    (hn : OutName sys.env (sys.fmt j.type) d p dt core suf)
    (hh : CarriesHeader suf { hM with noData := renamedNd j.update hR.noData j.nodata.toQ })
    (hc : Carried (sys.fmt j.type) suf hR vR j.default.toQ j.update j.nodata.toQ) :
    ∃ d' m' v, layerJob sys .mask (d, some ⟨m, []⟩) j = .ok (d', some ⟨m', []⟩) ∧ IsMask m' hM vM ∧
      Rewritten d d' (fun q => q = p ++ [core ++ '.' :: suf]) ∧
      ReadsAs d' j.out { hM with noData := renamedNd j.update hR.noData j.nodata.toQ } v ∧
      ∀ row col, hM.grid.CellInside row col → ∃ w, MaskedCell hM vM hR vR j.default.toQ row col w ∧
        v row col = renamed j.update hR.noData j.nodata.toQ w := by
  obtain ⟨x, res, hex, e1, e2, hcode, hm', hb, hnc, h2d, hly, hgr, hnd, hval⟩ := file_masked hm H hg hov j.default.toQ
  obtain ⟨r', e3, hb', hnc', h2d', hly', hhdr, hnd', hval'⟩ := rename_step hb j.update j.nodata.toQ
  have hgr2 : r'.hdr.grid = hM.grid := by rw [hhdr]; exact hgr
  have hnd2 : r'.hdr.noData = renamedNd j.update hR.noData j.nodata.toQ := by rw [hhdr, hnd]
  have hgr3 := hgr2
  unfold Header.grid at hgr3
  injection hgr3 with g1 g2 g3 g4 g5
  have hch : CarriesHeader suf r'.hdr := by
    unfold CarriesHeader at hh ⊢
    rw [g1, g2, g3, g4, g5, hnd2]
    exact hh
  obtain ⟨d', v, o1, o2, o3, o4⟩ := write_whole hb' (by rw [hnc']; exact hnc) (by rw [h2d', h2d]) (by rw [hly', hly]) [] hn hch (by
    intro row col v hin hv
    rw [hgr2] at hin
    obtain ⟨w, w1, w2⟩ := hval row col hin
    obtain ⟨y, y1, y2⟩ := hval' row col 1
    rw [w1] at y1
    cases y1
    rw [hv] at y2
    cases y2
    rw [hnd]
    exact carried_masked hc w2) (by rw [hnd', hnd]; exact carried_nd hc)
  refine ⟨d', res.mask, v, ?_, hm', o2, ?_, ?_⟩
  · unfold layerJob
    have hfe : filesExist d.fs j.inputs = true := by rw [hs]; unfold filesExist; simp [hex]
    rw [if_pos ⟨hin, hfe⟩]
    have hi : initFiles d j.inputs false (some ⟨m, []⟩) true j.default.toQ = .ok (some ⟨res.ras, []⟩, some ⟨res.mask, []⟩) := by
      unfold initFiles
      rw [hfe, hs]
      simp only [Bool.not_true, Bool.false_eq_true, if_false]
      unfold initFile
      rw [hex]
      simp only [Bool.not_true, Bool.false_eq_true, if_false]
      rw [e1]
      simp only [Out.ok_bind]
      unfold maskRasterS
      rw [e2]
      simp only [Out.ok_bind, or_true, if_true, Out.pure_eq, hcode]
      rfl
    rw [hi]
    simp only [Out.ok_bind]
    rw [e3]
    simp only [Out.ok_bind, hre, Bool.false_eq_true, if_false, Out.pure_eq]
    unfold writeJob
    rw [if_neg (by rw [hout]; simp), hre]
    simp only [Bool.false_eq_true, if_false]
    have q1 : outSubset .mask = false := by decide
    have q2 : outAll .mask = true := by decide
    rw [q1, q2]
    simp only [Bool.false_eq_true, if_false, if_true, Out.pure_eq, Out.ok_bind]
    rw [ho, o1]
    rfl
  · rw [ho]
    exact ReadsAs.change o3 hgr2.symm hnd2.symm (fun _ _ _ => rfl)
  · intro row col hin
    obtain ⟨w, w1, w2⟩ := hval row col hin
    obtain ⟨y, y1, y2⟩ := hval' row col 1
    rw [w1] at y1
    cases y1
    have := o4 row col (by rw [hgr2]; exact hin)
    rw [this] at y2
    injection y2 with y2
    exact ⟨w, w2, by rw [y2, hnd]⟩

end App
end CCGL
