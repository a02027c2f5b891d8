import Verif.Spec.AppRun
import Verif.Model.AppRun
import Verif.Lemmas.FileWhole
import Verif.Lemmas.MaskShape
import Verif.Lemmas.HdrOk
/-!
# Lemmas about the jobs of `mask_rasterio`
-/
namespace CCGL
open Raster

theorem built_valid {r : Raster} (hb : Spec.Built r) (h : 0 < r.nCells) : r.validData = true := by
  rcases hb.inv with ⟨ls, loc, hi⟩ | ⟨-, hE⟩
  · cases hi with
    | full h => exact h.holds.valid
    | comp h => exact h.holds.valid
    | empty h' _ => have := h'.ncells; omega
  · have := hE.ncells; omega

theorem withCells_is2d (r : Raster) (cs : List (List ℚ)) : (r.withCells cs).is2d = r.is2d := by
  unfold Raster.withCells; split <;> rfl

theorem maskFinish_is2d {old m : Raster} {ps : List (Int × Int)} {a : MaskAcc} {res : MaskRes} (e : maskFinish old m ps a = .ok res) :
    res.ras.is2d = a.ras.is2d := by
  unfold maskFinish at e
  dsimp only at e
  generalize maskFlags (decide (a.maxRow - a.minRow + 1 = m.hdr.rows) && decide (a.maxCol - a.minCol + 1 = m.hdr.cols))
    a.ras.useMaskExt a.ras.calcPos (decide (a.matched = (ps.length : Int))) = fl at e
  by_cases q1 : (decide (a.maxRow - a.minRow + 1 = m.hdr.rows) && decide (a.maxCol - a.minCol + 1 = m.hdr.cols) &&
      decide (a.masked ≠ (ps.length : Int))) = true
  · rw [if_pos q1] at e; simp at e
  rw [if_neg q1] at e
  by_cases q2 : ((a.ras.posData.isSome || a.ras.posIdx.isSome) && !a.ras.storePos) = true
  · rw [if_pos q2] at e; simp at e
  rw [if_neg q2] at e
  by_cases q3 : (!a.ras.validData) = true
  · rw [if_pos q3] at e; simp at e
  rw [if_neg q3] at e
  by_cases h1 : fl.recalcPos = true
  · rw [if_pos h1] at e
    injection e with e
    subst e
    exact withCells_is2d _ _
  rw [if_neg h1] at e
  by_cases h2 : fl.storeFull = true
  · rw [if_pos h2] at e
    generalize (if fl.updRowCol = true then ({ m.hdr with
        noData := a.ras.noData, layers := a.ras.nLyrs, rows := a.maxRow - a.minRow + 1, cols := a.maxCol - a.minCol + 1,
        xll := m.hdr.xll + a.minCol * m.hdr.cellsize,
        yll := m.hdr.yll + ((m.hdr.rows - a.maxRow - 1 : Int) : ℚ) * m.hdr.cellsize, cellsize := m.hdr.cellsize } : Header)
      else { m.hdr with noData := a.ras.noData, layers := a.ras.nLyrs }) = H at e
    by_cases h3 : old.hdr.rows * old.hdr.cols = H.cols * H.rows
    · rw [if_pos h3] at e
      injection e with e
      subst e
      rfl
    · rw [if_neg h3] at e
      obtain ⟨d, _, e⟩ := Out.bind_ok e
      obtain ⟨l, _, e⟩ := Out.bind_ok e
      injection e with e
      subst e
      exact withCells_is2d _ _
  · rw [if_neg h2] at e
    injection e with e
    subst e
    exact withCells_is2d _ _

theorem maskRaster_is2d {r mask : Raster} {res : MaskRes} (e : maskRaster r mask = .ok res) : res.ras.is2d = r.is2d := by
  unfold maskRaster at e
  obtain ⟨⟨m, n, pd⟩, -, e⟩ := Out.bind_ok e
  dsimp only at e
  split at e
  · cases e
  obtain ⟨ps, _, e⟩ := Out.bind_ok e
  obtain ⟨a, ea, e⟩ := Out.bind_ok e
  have hs := (SameButCells.maskLoop _ ea).1.is2d
  split at e
  · injection e with e
    subst e
    exact hs
  · rw [maskFinish_is2d e]; exact hs

/-- Masking into the extent of the mask, cell by cell. -/
theorem mask_values_stored {r mask : Raster} (hr : Spec.ReadGrid r) (hm : Spec.Built mask) (hcl : Spec.CleanMask mask)
    (hg : Spec.CommonGrid r.hdr mask.hdr) (hu : r.useMaskExt = true) (hc : r.calcPos = false)
    (hov : ∃ x y, Spec.ValidAt mask x y ∧ Spec.Covers r x y) :
    ∃ (res : MaskRes) (ps : List (Int × Int)) (lsM : List (List ℚ)), maskRaster r mask = .ok res ∧ res.code = 2 ∧
      mask.maskPositions = .ok (res.mask, (ps.length : Int), some ps) ∧ res.mask.Compact lsM ps ∧ Spec.Built res.ras ∧
      0 < res.ras.nCells ∧ res.ras.is2d = r.is2d ∧ res.ras.nLyrs = r.nLyrs ∧ res.ras.hdr.grid = mask.hdr.grid ∧
      res.ras.noData = r.noData ∧
      res.ras.posData.isNone = false ∧
      (∀ row col : Int, mask.hdr.grid.CellInside row col → (Spec.Stored res.ras row col ↔ ∃ v, mask.getValue row col 1 = .ok v ∧ floatEqual v mask.noData = false)) ∧
      ∀ row col lyr : Int, mask.hdr.grid.CellInside row col → 1 ≤ lyr → lyr ≤ r.nLyrs →
        ∃ w, res.ras.getValue row col lyr = .ok w ∧
        ((∃ v, mask.getValue row col 1 = .ok v ∧ floatEqual v mask.noData = false) →
          ∀ i j, r.hdr.grid.CellInside i j → r.hdr.grid.center i j = mask.hdr.grid.center row col →
            ∃ x, r.getValue i j lyr = .ok x ∧ w = fillV r.noData r.dflt x) ∧
        ((¬ (∃ v, mask.getValue row col 1 = .ok v ∧ floatEqual v mask.noData = false) ∨
          ¬ ∃ i j, r.hdr.grid.CellInside i j ∧ r.hdr.grid.center i j = mask.hdr.grid.center row col) → w = r.noData) := by
  have hmk : Spec.Maskable r mask :=
    ⟨fun h => absurd ⟨hu, hc⟩ h, fun _ h => by (rw [hc] at h; cases h), fun h => by (rw [hu] at h; cases h)⟩
  obtain ⟨res, ls, m, ps, dr, dc, h, e, -, hrm, hcase⟩ := mask_full hr hm.inv hcl hg hmk.overlap hmk.extCalc hmk.plain
  obtain ⟨x0, y0, hv0, hc0⟩ := hov
  rcases hcase with ⟨-, h2⟩ | ⟨hcode, lsM, sr, sc, keep, hcm, hma, hext, -, -, hpd, hkeep⟩
  · exact absurd hc0 (h2 x0 y0 hv0)
  replace hkeep := hkeep hc hu
  obtain ⟨rfl, rfl, e1, e2⟩ := hext (.inl hu)
  have hpd' : res.ras.posData = some ps := by
    rw [hpd (.inl hu) (fun h => by rw [hc] at h; cases h), hcm.pd]
  have hb : Spec.Built res.ras := .masked hr hm hcl hg hmk e (by omega)
  have hgrid : res.ras.hdr.grid = mask.hdr.grid := by
    have hx := hma.xll
    have hy := hma.yll
    rw [e1] at hy
    simp only [Int.cast_zero, zero_mul, add_zero, sub_self] at hx hy
    unfold Header.grid
    rw [e1, e2, hx, hy, hma.cs, h.pos.rows, h.pos.cols, h.pos.cs, h.pos.xll, h.pos.yll]
  have hn : 0 < res.ras.nCells := by
    have hlen : 0 < ps.length := List.length_pos_of_ne_nil hcm.ne
    rcases hb.inv with ⟨ls', loc, hi⟩ | ⟨-, hE⟩
    · cases hi with
      | full h => rw [h.pd] at hpd'; cases hpd'
      | comp h =>
        rw [h.pd] at hpd'
        injection hpd' with hpd'
        rw [h.ncells, hpd']; omega
      | empty h' _ =>
        rw [h'.pd] at hpd'
        injection hpd' with hpd'
        exact absurd hpd'.symm hcm.ne
    · rw [hE.pd] at hpd'
      injection hpd' with hpd'
      exact absurd hpd'.symm hcm.ne
  have hpos := h.pos.run
  rw [← hrm] at hpos
  refine ⟨res, ps, lsM, e, hcode, hpos, by rw [hrm]; exact hcm, hb, hn, maskRaster_is2d e, hma.lyrs, hgrid, hma.nod, by rw [hpd']; rfl, ?_, ?_⟩
  · intro row col hin
    rcases hb.inv with ⟨ls', loc, hi⟩ | ⟨-, hE⟩
    · have hst := hi.stored row col
      cases hi with
      | full h => rw [h.pd] at hpd'; cases hpd'
      | comp h1 =>
        have hpd2 := hpd'
        rw [h1.pd] at hpd2
        injection hpd2 with hpd2
        rw [hst, hpd2]
        unfold compLoc
        constructor
        · rintro ⟨i, hi⟩
          by_cases hmem : (row, col) ∈ ps
          · exact ((h.pos.mem row col).1 hmem).2
          · rw [if_neg hmem] at hi
            cases hi
        · intro hv
          rw [if_pos ((h.pos.mem row col).2 ⟨hin, hv⟩)]
          exact ⟨_, rfl⟩
      | empty h' _ =>
        rw [h'.pd] at hpd'
        injection hpd' with hpd'
        exact absurd hpd'.symm hcm.ne
    · rw [hE.pd] at hpd'
      injection hpd' with hpd'
      exact absurd hpd'.symm hcm.ne
  intro row col lyr hin hl1 hl2
  have hin' : In res.ras.hdr (row, col) := by
    have : res.ras.hdr.grid.CellInside row col := by rw [hgrid]; exact hin
    exact this
  refine ⟨_, hma.val row col lyr hin' hl1 hl2, ?_, ?_⟩
  · intro hv i j hij hcen
    have hmem : (row, col) ∈ ps := (h.pos.mem row col).2 ⟨hin, hv⟩
    simp only [add_zero]
    rw [if_pos ⟨hmem, hkeep _⟩]
    have hgeo := h.geo row col
    rw [← hcen] at hgeo
    obtain ⟨h5, h6⟩ := center_inj (g := r.hdr.grid) h.cs hgeo
    have hins : insideB r.hdr m.hdr (row, col) = true := by
      rw [h.shift.inside]
      show In r.hdr (row + dr, col + dc)
      rw [← h5, ← h6]; exact hij
    refine ⟨_, h.grid.getValue (i, j) lyr hij ⟨hl1, hl2⟩, ?_⟩
    unfold maskVals
    rw [if_pos hins, h.shift.under _ hins]
    unfold takeVals
    rw [List.getD_eq_getElem _ _ (by rw [List.length_map, List.length_range]; omega)]
    simp only [List.getElem_map, List.getElem_range, ← h5, ← h6]
  · intro hno
    simp only [add_zero]
    by_cases hmem : (row, col) ∈ ps
    · rw [if_pos ⟨hmem, hkeep _⟩]
      rcases hno with hno | hno
      · exact absurd ((h.pos.mem row col).1 hmem).2 hno
      · have hins : ¬ insideB r.hdr m.hdr (row, col) = true := by
          rw [h.shift.inside]
          intro hi
          exact hno ⟨row + dr, col + dc, hi, (h.geo row col).symm⟩
        unfold maskVals
        rw [if_neg hins, List.getD_eq_getElem _ _ (by rw [List.length_replicate]; omega), List.getElem_replicate]
    · rw [if_neg (fun h => hmem h.1)]

theorem mask_values {r mask : Raster} (hr : Spec.ReadGrid r) (hm : Spec.Built mask) (hcl : Spec.CleanMask mask)
    (hg : Spec.CommonGrid r.hdr mask.hdr) (hu : r.useMaskExt = true) (hc : r.calcPos = false)
    (hov : ∃ x y, Spec.ValidAt mask x y ∧ Spec.Covers r x y) :
    ∃ (res : MaskRes) (ps : List (Int × Int)) (lsM : List (List ℚ)), maskRaster r mask = .ok res ∧ res.code = 2 ∧
      mask.maskPositions = .ok (res.mask, (ps.length : Int), some ps) ∧ res.mask.Compact lsM ps ∧ Spec.Built res.ras ∧
      0 < res.ras.nCells ∧ res.ras.is2d = r.is2d ∧ res.ras.nLyrs = r.nLyrs ∧ res.ras.hdr.grid = mask.hdr.grid ∧
      res.ras.noData = r.noData ∧
      ∀ row col lyr : Int, mask.hdr.grid.CellInside row col → 1 ≤ lyr → lyr ≤ r.nLyrs →
        ∃ w, res.ras.getValue row col lyr = .ok w ∧
        ((∃ v, mask.getValue row col 1 = .ok v ∧ floatEqual v mask.noData = false) →
          ∀ i j, r.hdr.grid.CellInside i j → r.hdr.grid.center i j = mask.hdr.grid.center row col →
            ∃ x, r.getValue i j lyr = .ok x ∧ w = fillV r.noData r.dflt x) ∧
        ((¬ (∃ v, mask.getValue row col 1 = .ok v ∧ floatEqual v mask.noData = false) ∨
          ¬ ∃ i j, r.hdr.grid.CellInside i j ∧ r.hdr.grid.center i j = mask.hdr.grid.center row col) → w = r.noData) := by
  obtain ⟨res, ps, lsM, e1, e2, e3, e4, e5, e6, e7, e8, e9, e10, -, -, e11⟩ := mask_values_stored hr hm hcl hg hu hc hov
  exact ⟨res, ps, lsM, e1, e2, e3, e4, e5, e6, e7, e8, e9, e10, e11⟩

/-- Masking depends on the mask only through its positions. -/
theorem maskRaster_congr {r mask mask' : Raster} (h : mask'.maskPositions = mask.maskPositions) :
    maskRaster r mask' = maskRaster r mask := by
  unfold maskRaster; rw [h]

end CCGL

namespace CCGL
namespace App
open Fs Disk Main Raster Disk.Spec App.Spec

theorem ReadsAs.change {d : Disk} {s : Str} {h h' : Header} {v v' : Int → Int → ℚ} (H : ReadsAs d s h v) (hg : h'.grid = h.grid)
    (hn : h'.noData = h.noData) (hv : ∀ row col, h.grid.CellInside row col → v' row col = v row col) : ReadsAs d s h' v' := by
  unfold Header.grid at hg
  injection hg with g1 g2 g3 g4 g5
  intro calcPos dflt hp
  obtain ⟨r', k1, k2, k3, k4, k5, k6, k7, k8, k9, k10⟩ := H calcPos dflt (by
    intro hc
    obtain ⟨row, col, a1, a2, a3, a4, a5⟩ := hp hc
    rw [g1] at a2; rw [g2] at a4
    rw [hn, hv row col ⟨a1, a2, a3, a4⟩] at a5
    exact ⟨row, col, a1, a2, a3, a4, a5⟩)
  refine ⟨r', k1, by rw [k2, g1], by rw [k3, g2], by rw [k4, g3], by rw [k5, g4], by rw [k6, g5], by rw [k7, hn], k8,
    fun hc => ?_, ?_⟩
  · obtain ⟨cells, c1, c2⟩ := k9 hc
    exact ⟨cells, c1, by rw [c2, g1, g2]⟩
  · intro row col a1 a2 a3 a4
    rw [g1] at a2; rw [g2] at a4
    rw [hn, hv row col ⟨a1, a2, a3, a4⟩]
    exact k10 row col a1 a2 a3 a4

theorem decode_layers {d : Disk} {s : Str} {h : Header} {p : Ptr ℚ} (e : decode d s = .ok (some (h, p))) : h.layers = 1 := by
  unfold decode at e
  split at e
  · split at e
    · obtain ⟨x, ex, e⟩ := Out.bind_ok e
      simp only [Out.pure_eq, Out.ok.injEq] at e
      split at e
      · next ht =>
        simp only [Option.some.injEq, Prod.mk.injEq] at e
        rw [← e.1]
        unfold readAsc at ex
        dsimp only at ex
        split at ex
        · cases ex; cases ht
        · split at ex
          · cases ex; cases ht
          · obtain ⟨f, ef, ex⟩ := Out.bind_ok ex
            cases f with
            | fail v => cases ex; cases ht
            | go st =>
              dsimp only at ex
              unfold ascFinish at ex
              split at ex
              · cases ex; cases ht
              · obtain ⟨n, _, ex⟩ := Out.bind_ok ex
                simp only [Out.pure_eq, Out.ok.injEq] at ex
                rw [← ex]; rfl
      · cases e
    · cases e
  · split at e
    · simp only [Out.ok.injEq, Option.some.injEq, Prod.mk.injEq] at e
      rw [← e.1]; rfl
    · cases e

/-- What reading a file delivers. -/
theorem file_decode {d : Disk} {s : Str} {h : Header} {v : Int → Int → ℚ} (H : RasterFile d s h v) :
    fileExists d.fs s = true ∧ ∃ h' cells, decode d s = .ok (some (h', some cells)) ∧ h'.grid = h.grid ∧ h'.noData = h.noData ∧
      h'.layers = 1 ∧ (cells.length : Int) = h'.rows * h'.cols ∧
      ∀ row col, h.grid.CellInside row col → cells.getD (row * h'.cols + col).toNat 0 = v row col := by
  obtain ⟨r', e, k2, k3, k4, k5, k6, k7, k8, k9, k10⟩ := H.reads false 0 (fun h => by cases h)
  obtain ⟨cells, c1, c2⟩ := k9 rfl
  unfold readFromFile at e
  split at e
  · cases e
  next hex =>
  obtain ⟨x, ex, e⟩ := Out.bind_ok e
  cases x with
  | none => cases e
  | some y =>
    obtain ⟨h', p⟩ := y
    obtain ⟨z, ez, e⟩ := Out.bind_ok e
    unfold calcNoMask at ez
    have e2 : ¬ ((fileRaster (h', p) false false 0).calcPos = true) := by
      unfold fileRaster ofFile; simp
    rw [if_neg e2] at ez
    injection ez with ez
    subst ez
    simp only [Out.pure_eq, Out.ok.injEq, le_refl, if_true, Option.some.injEq] at e
    subst e
    have hp : p = some cells := c1
    subst hp
    have hrows : h'.rows = h.rows := k2
    have hcols : h'.cols = h.cols := k3
    refine ⟨by simpa using hex, h', cells, ex, ?_, k7, decode_layers ex, by rw [c2, hrows, hcols], ?_⟩
    · unfold Header.grid
      have q1 : h'.cellsize = h.cellsize := k4
      have q2 : h'.xll = h.xll := k5
      have q3 : h'.yll = h.yll := k6
      rw [hrows, hcols, q1, q2, q3]
    · intro row col hin
      have hin' : 0 ≤ row ∧ row < h.rows ∧ 0 ≤ col ∧ col < h.cols := hin
      have := k10 row col hin'.1 hin'.2.1 hin'.2.2.1 hin'.2.2.2
      simp only [Bool.false_eq_true, false_and, if_false] at this
      have hF := Raster.ofFile_full h' cells false false 0 (by rw [hrows]; exact H.rows.le) (by rw [hcols]; exact H.cols.le)
        (by rw [c2, hrows, hcols])
      obtain ⟨hi, hv⟩ := hF.getValue row col 1 (by
        show 0 ≤ row ∧ row < h'.rows ∧ 0 ≤ col ∧ col < h'.cols
        rw [hrows, hcols]; exact hin') ⟨le_rfl, le_rfl⟩
      have hsame : ({ ofFile h' cells false false 0 with nCells := h'.rows * h'.cols } : Raster).getValue row col 1 = .ok (v row col) := by
        rw [← this]; rfl
      rw [hsame] at hv
      simp only [Out.ok.injEq, List.getElem_map] at hv
      have hi' : (row * h'.cols + col).toNat < cells.length := by
        rw [List.length_map] at hi; exact hi
      rw [hv, List.getD_eq_getElem _ _ hi']
      rfl

/-- What a mask object is for the jobs: its positions are those of the cells with a value of the mask file. -/
structure IsMask (m : Raster) (hM : Header) (vM : Int → Int → ℚ) : Prop where
  ex : ∃ M : Raster, CCGL.Spec.Built M ∧ CCGL.Spec.CleanMask M ∧ M.hdr.grid = hM.grid ∧ M.noData = hM.noData ∧
    (∀ row col, hM.grid.CellInside row col → ∃ x, M.getValue row col 1 = .ok x ∧ floatEqual x M.noData = floatEqual (vM row col) hM.noData) ∧
    m.maskPositions = M.maskPositions

theorem readFromFile_none (d : Disk) (s : Str) (x : Header × Ptr ℚ) (hex : fileExists d.fs s = true) (e : decode d s = .ok (some x)) (dflt : ℚ) :
    readFromFile d s false dflt = .ok (some { fileRaster x false false dflt with
      nCells := x.1.rows * x.1.cols, hdr := { x.1 with cellsnum := x.1.rows * x.1.cols } }) := by
  unfold readFromFile
  rw [hex, e]
  rfl

theorem mask_file {d : Disk} {s : Str} {h : Header} {v : Int → Int → ℚ} (H : RasterFile d s h v) (dv : ℚ) :
    ∃ M, readFromFile d s false dv = .ok (some M) ∧ CCGL.Spec.Built M ∧ CCGL.Spec.CleanMask M ∧ M.hdr.grid = h.grid ∧ M.noData = h.noData ∧
    (∀ row col, h.grid.CellInside row col → M.getValue row col 1 = .ok (v row col)) ∧ M.is2d = false ∧ M.nLyrs = 1 ∧ 0 < M.nCells := by
  obtain ⟨hex, h', cells, e, hg, hn, hl, hlen, hv⟩ := file_decode H
  obtain ⟨M, eM, k2, k3, k4, k5, k6, k7, k8, -, k10⟩ := H.reads false dv (fun h => by cases h)
  have e1 := readFromFile_none d s _ hex e dv
  have hgr := hg
  unfold Header.grid at hgr
  injection hgr with g1 g2 g3 g4 g5
  have hb : CCGL.Spec.Built M := by
    rw [eM] at e1
    injection e1 with e1
    injection e1 with e1
    refine .file (code := 0) h' cells false false dv (by rw [g1]; exact H.rows.le) (by rw [g2]; exact H.cols.le) hl hlen ?_
    rw [e1]; rfl
  refine ⟨M, eM, hb, .inl ?_, ?_, k7, ?_, ?_, k8, ?_⟩
  · rw [eM] at e1
    injection e1 with e1
    injection e1 with e1
    rw [e1]; rfl
  · unfold Header.grid
    rw [k2, k3, k4, k5, k6]
  · intro row col hin
    have hin' : 0 ≤ row ∧ row < h.rows ∧ 0 ≤ col ∧ col < h.cols := hin
    have := k10 row col hin'.1 hin'.2.1 hin'.2.2.1 hin'.2.2.2
    simpa using this
  · rw [eM] at e1
    injection e1 with e1
    injection e1 with e1
    rw [e1]; rfl
  · rw [eM] at e1
    injection e1 with e1
    injection e1 with e1
    rw [e1]
    show 0 < h'.rows * h'.cols
    rw [g1, g2]
    exact Int.mul_pos H.rows H.cols

theorem mask_loaded {d : Disk} {s : Str} {h : Header} {v : Int → Int → ℚ} (H : RasterFile d s h v) :
    ∃ M, readFromFile d s false NODATA = .ok (some M) ∧ IsMask M h v := by
  obtain ⟨M, e, h1, h2, h3, h4, h5, -⟩ := mask_file H NODATA
  exact ⟨M, e, ⟨⟨M, h1, h2, h3, h4, fun row col hin => ⟨_, h5 row col hin, by rw [h4]⟩, rfl⟩⟩⟩

theorem fill_eq (dv nd x : ℚ) : fillV nd (checkDefault dv nd) x = filled dv nd x := by
  unfold fillV filled checkDefault NODATA
  have hs := floatEqual_self nd
  by_cases h1 : floatEqual x nd = true <;> by_cases h2 : floatEqual dv (-9999) = true <;> by_cases h3 : floatEqual nd (-9999) = true <;>
    by_cases h4 : floatEqual dv nd = true <;> simp_all

/-- Masking a file. -/
theorem file_masked_stored {d : Disk} {s : Str} {hM hR : Header} {vM vR : Int → Int → ℚ} {m : Raster} (hm : IsMask m hM vM)
    (H : RasterFile d s hR vR) (hg : CCGL.Spec.CommonGrid hR hM) (hov : Overlaps hM vM hR) (dv : ℚ) :
    ∃ x res, fileExists d.fs s = true ∧ decode d s = .ok (some x) ∧ maskRaster (fileRaster x false true dv) m = .ok res ∧ res.code = 2 ∧
      IsMask res.mask hM vM ∧ CCGL.Spec.Built res.ras ∧ 0 < res.ras.nCells ∧ res.ras.is2d = false ∧ res.ras.nLyrs = 1 ∧
      res.ras.hdr.grid = hM.grid ∧ res.ras.noData = hR.noData ∧ res.ras.posData.isNone = false ∧
      (∀ row col, hM.grid.CellInside row col → (CCGL.Spec.Stored res.ras row col ↔ HasValue hM vM row col)) ∧
      ∀ row col, hM.grid.CellInside row col → ∃ w, res.ras.getValue row col 1 = .ok w ∧ MaskedCell hM vM hR vR dv row col w := by
  obtain ⟨hex, h', cells, e, hgr, hn, hl, hlen, hv⟩ := file_decode H
  obtain ⟨M, hb, hcl, hMg, hMn, hMv, hpos⟩ := hm.ex
  have hgr' := hgr
  unfold Header.grid at hgr'
  injection hgr' with g1 g2 g3 g4 g5
  have hMg' := hMg
  unfold Header.grid at hMg'
  injection hMg' with m1 m2 m3 m4 m5
  have hfr : fileRaster (h', some cells) false true dv = ofFile h' cells false true dv := rfl
  have hr0 : 0 < h'.rows := by rw [g1]; exact H.rows
  have hc0 : 0 < h'.cols := by rw [g2]; exact H.cols
  have hrd : CCGL.Spec.ReadGrid (ofFile h' cells false true dv) := .file h' cells false true dv hr0 hc0 hlen
  have hcg : CCGL.Spec.CommonGrid (ofFile h' cells false true dv).hdr M.hdr := by
    obtain ⟨a1, a2, a, b, a3, a4⟩ := hg
    refine ⟨?_, ?_, a, b, ?_, ?_⟩
    · show 0 < h'.cellsize; rw [g3]; exact a1
    · show M.hdr.cellsize = h'.cellsize; rw [g3, m3]; exact a2
    · show M.hdr.xll = h'.xll + a * h'.cellsize; rw [g3, g4, m4]; exact a3
    · show M.hdr.yll = h'.yll + b * h'.cellsize; rw [g3, g5, m5]; exact a4
  have hval : ∀ i j, hR.grid.CellInside i j → (ofFile h' cells false true dv).getValue i j 1 = .ok (vR i j) := by
    intro i j hij
    obtain ⟨hi, ev⟩ := (Raster.ofFile_full h' cells false true dv hr0.le hc0.le hlen).getValue i j 1 (by
        show 0 ≤ i ∧ i < h'.rows ∧ 0 ≤ j ∧ j < h'.cols
        rw [g1, g2]; exact hij) ⟨le_rfl, le_rfl⟩
    rw [← hv i j hij]
    have hsame : ({ ofFile h' cells false true dv with nCells := h'.rows * h'.cols } : Raster).getValue i j 1 =
      (ofFile h' cells false true dv).getValue i j 1 := rfl
    rw [hsame] at ev
    rw [ev]
    have hi' : (i * h'.cols + j).toNat < cells.length := by
      rw [List.length_map] at hi; exact hi
    simp only [List.getElem_map]
    rw [List.getD_eq_getElem cells _ hi']
    rfl
  have hgrid : (ofFile h' cells false true dv).hdr.grid = hR.grid := hgr
  obtain ⟨res, ps, lsM, e1, e2, e3, e4, e5, e6, e7, e8, e9, e10, e13, e12, e11⟩ := mask_values_stored hrd hb hcl hcg rfl rfl (by
    obtain ⟨row, col, i, j, ⟨q1, q2⟩, q3, q4⟩ := hov
    obtain ⟨y, y1, y2⟩ := hMv row col q1
    refine ⟨(hM.grid.center row col).1, (hM.grid.center row col).2, ⟨y, row, col, by rw [hMg]; exact q1, by rw [hMg],
      y1, by rw [y2]; exact q2⟩, i, j, by rw [hgrid]; exact q3, ?_⟩
    rw [hgrid, q4])
  have hiffA : ∀ row col, hM.grid.CellInside row col → ((∃ v, M.getValue row col 1 = .ok v ∧ floatEqual v M.noData = false) ↔ HasValue hM vM row col) := by
    intro row col hin
    constructor
    · rintro ⟨v, q1, q2⟩
      obtain ⟨y, y1, y2⟩ := hMv row col hin
      rw [y1] at q1
      injection q1 with q1
      rw [← q1, y2] at q2
      exact ⟨hin, q2⟩
    · rintro ⟨-, q2⟩
      obtain ⟨y, y1, y2⟩ := hMv row col hin
      exact ⟨_, y1, by rw [y2]; exact q2⟩
  refine ⟨(h', some cells), res, hex, e, ?_, e2, ?_, e5, e6, e7, e8, by rw [e9, hMg], by rw [e10]; exact hn, e13, fun row col hin => (e12 row col (by rw [hMg]; exact hin)).trans (hiffA row col hin), ?_⟩
  · rw [hfr, maskRaster_congr hpos, e1]
  · refine ⟨⟨M, hb, hcl, hMg, hMn, hMv, ?_⟩⟩
    rw [e3, e4.positions]
  · intro row col hin
    obtain ⟨w, w1, w2, w3⟩ := e11 row col 1 (by rw [hMg]; exact hin) le_rfl le_rfl
    have hiff := hiffA row col hin
    rw [hiff, hgrid, hMg] at w2 w3
    refine ⟨w, w1, ⟨?_, ?_⟩⟩
    · intro hh i j hij
      obtain ⟨x, x1, x2⟩ := w2 hh i j hij.1 hij.2
      rw [hval i j hij.1] at x1
      injection x1 with x1
      rw [x2, ← x1, ← fill_eq, ← hn]
      rfl
    · intro hh
      have := w3 hh
      rw [this]
      exact hn

theorem file_masked {d : Disk} {s : Str} {hM hR : Header} {vM vR : Int → Int → ℚ} {m : Raster} (hm : IsMask m hM vM)
    (H : RasterFile d s hR vR) (hg : CCGL.Spec.CommonGrid hR hM) (hov : Overlaps hM vM hR) (dv : ℚ) :
    ∃ x res, fileExists d.fs s = true ∧ decode d s = .ok (some x) ∧ maskRaster (fileRaster x false true dv) m = .ok res ∧ res.code = 2 ∧
      IsMask res.mask hM vM ∧ CCGL.Spec.Built res.ras ∧ 0 < res.ras.nCells ∧ res.ras.is2d = false ∧ res.ras.nLyrs = 1 ∧
      res.ras.hdr.grid = hM.grid ∧ res.ras.noData = hR.noData ∧
      ∀ row col, hM.grid.CellInside row col → ∃ w, res.ras.getValue row col 1 = .ok w ∧ MaskedCell hM vM hR vR dv row col w := by
  obtain ⟨x, res, e1, e2, e3, e4, e5, e6, e7, e8, e9, e10, e11, -, -, e12⟩ := file_masked_stored hm H hg hov dv
  exact ⟨x, res, e1, e2, e3, e4, e5, e6, e7, e8, e9, e10, e11, e12⟩

end App
end CCGL
