import Verif.Lemmas.Output
import Verif.Model.Dec
/-!
# C10: full-size output reproduces the grid

All theorems range over every raster built from memory and any history of operations (`Spec.Built`).
-/
namespace CCGL
open Raster Spec

/-- The raster has data (`OutputToFile` returns false otherwise, data_raster.hpp:2854) and, if it has several
layers, at least one stored cell. -/
def HasCells (r : Raster) : Prop := r.validData = true ∧ (r.is2d = true → 0 < r.nCells)

theorem built_grid {r : Raster} (hb : Built r) (hc : HasCells r) :
    ∃ ls loc, Inv r ls loc ∧
      (∀ pr, r.outputAsc pr = .ok (r, true, if r.is2d
        then (List.range r.nLyrs.toNat).map (fun (l : Nat) => (some (l : Int),
          gridFile pr r.hdr (fillGrid ls loc NODATA l)))
        else [(none, gridFile pr r.hdr (fillGrid ls loc r.noData 0))])) := by
  rcases built_cases hb hc.1 hc.2 with ⟨ls, h⟩ | ⟨ls, ps, h⟩
  · exact ⟨ls, _, .full h, h.outputAsc⟩
  · exact ⟨ls, _, .comp h, h.outputAsc⟩

/-- C10 (ASCII, one layer): the file is the header followed by the grid seen through `GetValue`, whether the
raster is stored in full or by positions; the raster is unchanged. -/
theorem C10_asc_1d (pr : ℚ → Str) {r : Raster} (hb : Built r) (hc : HasCells r) (h1 : r.is2d = false) :
    ∃ g, GridOf r 1 g ∧ r.outputAsc pr = .ok (r, true, [(none, gridFile pr r.hdr g)]) := by
  obtain ⟨ls, loc, hi, e⟩ := built_grid hb hc
  refine ⟨fillGrid ls loc r.noData 0, ?_, ?_⟩
  · have := hi.gridOf 0 (by have := hi.lyrs; simp; omega)
    simpa using this
  · rw [e pr, h1]; rfl

/-- C10 (ASCII, several layers): one file per layer; a stored cell has its own value, a cell without stored
value the constant -9999. -/
theorem C10_asc_2d (pr : ℚ → Str) {r : Raster} (hb : Built r) (hc : HasCells r) (h2 : r.is2d = true) :
    ∃ g : Nat → Int → Int → ℚ,
      r.outputAsc pr = .ok (r, true, (List.range r.nLyrs.toNat).map (fun (l : Nat) =>
        (some (l : Int), gridFile pr r.hdr (g l)))) ∧
      ∀ (l : Nat), (l : Int) < r.nLyrs → ∀ row col, 0 ≤ row → row < r.hdr.rows → 0 ≤ col → col < r.hdr.cols →
        (Stored r row col → r.getValue row col ((l : Int) + 1) = .ok (g l row col)) ∧
        (¬ Stored r row col → g l row col = -9999) := by
  obtain ⟨ls, loc, hi, e⟩ := built_grid hb hc
  refine ⟨fun l => fillGrid ls loc NODATA l, ?_, ?_⟩
  · rw [e pr, h2]; rfl
  · intro l hl row col _ _ _ _
    rw [hi.stored row col, hi.val row col _ (by omega)]
    simp only [fillGrid]
    cases loc row col with
    | none => exact ⟨by rintro ⟨m, hm⟩; simp at hm, fun _ => rfl⟩
    | some m => exact ⟨fun _ => by simp, fun h => absurd ⟨m, rfl⟩ h⟩

/-- C10 (ASCII, several layers) for the usual NoData value: the files are the layers of the grid. -/
theorem C10_asc_2d_partial (pr : ℚ → Str) {r : Raster} (hb : Built r) (hc : HasCells r) (h2 : r.is2d = true)
    (hn : r.noData = -9999) :
    ∃ g : Nat → Int → Int → ℚ, (∀ l : Nat, (l : Int) < r.nLyrs → GridOf r ((l : Int) + 1) (g l)) ∧
      r.outputAsc pr = .ok (r, true, (List.range r.nLyrs.toNat).map (fun (l : Nat) =>
        (some (l : Int), gridFile pr r.hdr (g l)))) := by
  obtain ⟨ls, loc, hi, e⟩ := built_grid hb hc
  refine ⟨fun l => fillGrid ls loc NODATA l, ?_, ?_⟩
  · intro l hl
    have := hi.gridOf l hl
    rw [hn] at this
    exact this
  · rw [e pr, h2]; rfl

/-- A 1x2 grid of two layers whose NoData value is -1. -/
def exOut2 : Raster := ofArray2 (some [[5, 6], [-1, 8]]) 2 1 2 (-1) 10 5 5

/-- C10 is false of multi-layer ASCII output if the NoData value is not -9999: the excluded cell is written as
-9999 although the header of the file declares -1. -/
theorem C10_false_asc_2d_nodata :
    (exOut2.calcValidPositions >>= fun r => do
      let v ← r.getValue 0 1 1
      let pos ← r.getPositionData
      let rows ← r.ascLayerRows false pos.2.2 NODATA 0
      return (r.noData, v, rows)) = .ok (-1, -1, [[5, -9999]]) := by decide +kernel

/-- C10 is false of compacted multi-layer rasters without any valid cell: both file outputs read outside of
the array. -/
theorem C10_false_empty_2d :
    ((ofArray2 (some [[-9999, 2]]) 1 1 2 (-9999) 10 5 5).calcValidPositions >>= fun r => do
      let _ ← r.outputAsc fmtG
      return 0) = .ub ∧
    ((ofArray2 (some [[-9999, 2]]) 1 1 2 (-9999) 10 5 5).calcValidPositions >>= fun r => do
      let _ ← r.outputGdal (fun _ => true)
      return 0) = .ub := by
  constructor <;> decide +kernel

/-- C10 (GeoTIFF): each array handed to the GeoTIFF writer is, cell by cell, the layer seen through
`GetValue`; the layers are written in order with the numbers 1, 2, ... until the first failure, and the result
is true iff none failed. -/
theorem C10_gdal_2d {r : Raster} (wr : Int → Bool) (hb : Built r) (hc : HasCells r) (h2 : r.is2d = true) :
    ∃ (g : Nat → Int → Int → ℚ) (files : List (Option Int × Ptr ℚ)),
      (∀ l : Nat, (l : Int) < r.nLyrs → GridOf r ((l : Int) + 1) (g l)) ∧
      r.outputGdal wr = .ok ((List.range r.nLyrs.toNat).all (fun l => wr l), files) ∧
      List.Forall₂ (fun (l : Nat) (f : Option Int × Ptr ℚ) => f.1 = some ((l : Int) + 1) ∧
        IsFullArray r.hdr f.2 (g l)) ((List.range r.nLyrs.toNat).takeWhile (fun l => wr l)) files := by
  suffices main : ∃ ls loc, Inv r ls loc ∧ (∀ (b : Ptr ℚ) (l : Nat), GoodBuf r loc b → (l : Int) < r.nLyrs →
        ∃ d, r.gdalLayer b l = .ok d ∧ IsFullArray r.hdr d (fillGrid ls loc r.noData l)) by
    obtain ⟨ls, loc, hi, hstep⟩ := main
    obtain ⟨ds, e, hf⟩ := gdalLayers_spec hstep wr (List.range r.nLyrs.toNat)
      (by intro l hl; have := List.mem_range.1 hl; omega) none (.inl rfl)
    refine ⟨fun l => fillGrid ls loc r.noData l, ds, fun l hl => hi.gridOf l hl, ?_, hf⟩
    unfold Raster.outputGdal
    rw [h2, if_pos rfl]
    exact e
  rcases built_cases hb hc.1 hc.2 with ⟨ls, h⟩ | ⟨ls, ps, h⟩
  · have hp : 0 < r.hdr.rows * r.hdr.cols := by rw [← h.ncells]; exact hc.2 h2
    exact ⟨ls, _, .full h, fun b l hg hl => h.gdalLayer b hg hp l hl⟩
  · exact ⟨ls, _, .comp h, fun b l hg hl => h.gdalLayer b hg l hl⟩

/-- C10 (GeoTIFF, one layer). -/
theorem C10_gdal_1d {r : Raster} (wr : Int → Bool) (hb : Built r) (hc : HasCells r) (h1 : r.is2d = false)
    (hp : 0 < r.hdr.rows * r.hdr.cols) :
    ∃ g d, GridOf r 1 g ∧ IsFullArray r.hdr d g ∧
      r.outputGdal wr = .ok (wr 0, if wr 0 then [(none, d)] else []) := by
  suffices main : ∃ ls loc, Inv r ls loc ∧ (∃ d, r.gdalLayer none (0 : Nat) = .ok d ∧
      IsFullArray r.hdr d (fillGrid ls loc r.noData 0)) by
    obtain ⟨ls, loc, hi, d, e, hd⟩ := main
    refine ⟨fillGrid ls loc r.noData 0, d, ?_, hd, ?_⟩
    · have := hi.gridOf 0 (by have := hi.lyrs; simp; omega)
      simpa using this
    · unfold Raster.outputGdal
      rw [h1, if_neg (by simp)]
      simp only [Int.natCast_zero] at e
      rw [e]
      cases wr 0 <;> rfl
  rcases built_cases hb hc.1 hc.2 with ⟨ls, h⟩ | ⟨ls, ps, h⟩
  · exact ⟨ls, _, .full h, h.gdalLayer none (.inl rfl) hp 0 (by have := h.holds.1; simp; omega)⟩
  · exact ⟨ls, _, .comp h, h.gdalLayer none (.inl rfl) 0 (by have := h.holds.1; simp; omega)⟩

/-- C10 (GridFS, NoData cells included): the stream has `layers*rows*cols` values; the value of (row, col) in
layer `k+1` is at `(row*cols + col)*layers + k`; the stored header declares `rows*cols` cells. -/
theorem C10_stream {r : Raster} (hb : Built r) (hc : HasCells r) :
    ∃ (l : List ℚ), r.outputStream true = .ok (StreamOut.mk r
        { r.hdr with cellsnum := r.hdr.rows * r.hdr.cols } (some l) (l.length : Int)) ∧
      (l.length : Int) = r.nLyrs * (r.hdr.rows * r.hdr.cols) ∧
      ∀ (row col : Int) (k : Nat), 0 ≤ row → row < r.hdr.rows → 0 ≤ col → col < r.hdr.cols → (k : Int) < r.nLyrs →
        ∃ v, r.getValue row col ((k : Int) + 1) = .ok v ∧
          l[((row * r.hdr.cols + col) * r.nLyrs + k).toNat]? = some v := by
  suffices main : ∃ ls loc, Inv r ls loc ∧ (∃ d, r.outputStream true = .ok (StreamOut.mk r
        { r.hdr with cellsnum := r.hdr.rows * r.hdr.cols } d (r.nLyrs * (r.hdr.rows * r.hdr.cols))) ∧
      IsStream r d (fun k => fillGrid ls loc r.noData k)) by
    obtain ⟨ls, loc, hi, d, e, l, rfl, hl, hv⟩ := main
    refine ⟨l, by rw [e, hl], hl, ?_⟩
    intro row col k h1 h2 h3 h4 hk
    exact ⟨_, hi.gridOf k hk row col h1 h2 h3 h4, hv row col k h1 h2 h3 h4 hk⟩
  rcases built_cases hb hc.1 hc.2 with ⟨ls, h⟩ | ⟨ls, ps, h⟩
  · exact ⟨ls, _, .full h, h.outputStream hc.2⟩
  · exact ⟨ls, _, .comp h, h.outputStream⟩

theorem Raster.Compact.stream_valid {r : Raster} {ls ps} (h : r.Compact ls ps) :
    ∃ l : List ℚ, r.outputStream false = .ok (StreamOut.mk r r.hdr (some l) (r.nLyrs * r.nCells)) ∧
      (l.length : Int) = r.nLyrs * r.nCells ∧
      ∀ i k : Nat, (i : Int) < r.nCells → (k : Int) < r.nLyrs →
        l[i * r.nLyrs.toNat + k]? = some (cellAt ls i k) := by
  obtain ⟨l, e, hl, hv⟩ := h.holds.pool
  have hn := h.ncells
  have hll := h.len
  have hne : 0 < ls.length := by rw [hll]; exact List.length_pos_of_ne_nil h.ne
  refine ⟨l, ?_, by rw [hl, hn, hll], fun i k hi hk => hv i k (by omega) hk⟩
  unfold Raster.outputStream
  simp only [h.pd, h.pi, Option.isSome_some, Bool.or_true, Bool.and_false, Bool.false_eq_true, if_false,
    Out.pure_eq, Out.ok_bind, Option.isNone_some, Bool.or_false, Bool.false_and, if_true]
  have hh := h.holds.2.2
  cases hd : r.is2d with
  | true =>
    simp only [hd, if_true] at e hh ⊢
    rw [hh] at e ⊢
    have hr0 := readAt_some_nat ls 0 hne
    simp only [Int.natCast_zero] at hr0
    rw [hr0]
    simp only [Out.ok_bind]
    rw [e]
  | false =>
    simp only [hd, Bool.false_eq_true, if_false] at e hh ⊢
    rw [e, hh.1, one_mul]

/-- C10 (GridFS, valid cells only): the stream is the values of the valid cells in storage order, layer after
layer within a cell, of the raster compacted if it was not. -/
theorem C10_stream_valid {r : Raster} (hb : Built r) (hc : HasCells r)
    (hv : ∃ row col v, 0 ≤ row ∧ row < r.hdr.rows ∧ 0 ≤ col ∧ col < r.hdr.cols ∧
      r.getValue row col 1 = .ok v ∧ floatEqual v r.noData = false) :
    ∃ (r' : Raster) (l : List ℚ),
      (r' = r ∨ (r.posData = none ∧ ∃ code, r.setCalcPositions = .ok (r', code))) ∧
      r.outputStream false = .ok (StreamOut.mk r' r'.hdr (some l) (r'.nLyrs * r'.nCells)) ∧
      (l.length : Int) = r'.nLyrs * r'.nCells ∧
      ∀ i k : Nat, (i : Int) < r'.nCells → (k : Int) < r'.nLyrs →
        ∃ v, r'.getValueByIndex i ((k : Int) + 1) = .ok v ∧ l[i * r'.nLyrs.toNat + k]? = some v := by
  have idx : ∀ {r' : Raster} {ls ps}, r'.Compact ls ps → ∀ i k : Nat, (i : Int) < r'.nCells →
      (k : Int) < r'.nLyrs → r'.getValueByIndex i ((k : Int) + 1) = .ok (cellAt ls i k) := by
    intro r' ls ps h i k hi hk
    have hn := h.ncells
    have hll := h.len
    unfold Raster.getValueByIndex
    have h1 : r'.validIndex i = true := (r'.validIndex_iff i).2 ⟨by omega, hi⟩
    have h2 : r'.validLayer ((k : Int) + 1) = true := (r'.validLayer_iff _).2 ⟨by omega, by omega⟩
    rw [h.holds.valid, h1, h2]
    simp only [Bool.not_true, Bool.or_false, Bool.false_eq_true, if_false]
    rw [h.holds.readCell' i (by omega) _ (by omega) (by omega)]
    simp
  rcases built_cases hb hc.1 hc.2 with ⟨ls, h⟩ | ⟨ls, ps, h⟩
  · obtain ⟨row, col, v, h1, h2, h3, h4, hg, hf⟩ := hv
    have hne : r.validCells ls ≠ [] := by
      have hr := idx_range h1 h2 h3 h4
      have := (Inv.full h).val row col 1 ⟨by omega, h.holds.1⟩
      rw [hg] at this
      simp only [fullLoc, if_pos (show 0 ≤ row ∧ row < r.hdr.rows ∧ 0 ≤ col ∧ col < r.hdr.cols from
        ⟨h1, h2, h3, h4⟩), Out.ok.injEq] at this
      have hmem : (row, col) ∈ r.validCells ls := by
        unfold validCells
        rw [List.mem_filter, mem_gridCells]
        refine ⟨⟨h1, h2, h3, h4⟩, ?_⟩
        rw [this] at hf
        unfold cellAt at hf
        have hx : ∀ c : List ℚ, c.getD 0 0 = c.headD 0 := by intro c; cases c <;> simp
        simp only [Int.sub_self, Int.toNat_zero] at hf
        rw [hx] at hf
        simp only
        rw [hf]; rfl
      intro he; rw [he] at hmem; simp at hmem
    have hcalc := (h.setCalc true).calc
    have hvc : ({ r with calcPos := true } : Raster).validCells ls = r.validCells ls := rfl
    rw [hvc] at hcalc
    obtain ⟨r', e, _, _, _, _, _, _, _, hcase⟩ := hcalc
    have hC : ∃ ls' ps', r'.Compact ls' ps' := by
      rcases hcase with ⟨h0, _⟩ | hC
      · exact absurd h0 hne
      · exact ⟨_, _, hC⟩
    obtain ⟨ls', ps', hC⟩ := hC
    have hset : r.setCalcPositions = .ok (r', true) := by
      unfold Raster.setCalcPositions
      simp only [h.holds.valid, h.pd, h.pi, Option.isSome_none, Bool.or_false, Bool.and_false, Bool.not_true,
        Bool.false_eq_true, if_false]
      unfold Raster.calcNoMask
      simp only [if_true, h.pd, Option.isNone_none, Bool.true_or]
      rw [h.pd, h.pi] at e
      rw [e]; rfl
    have hsame : r.outputStream false = r'.outputStream false := by
      unfold Raster.outputStream
      simp only [h.pd, h.pi, Option.isSome_none, Bool.or_false, Bool.and_false, Bool.false_eq_true, if_false,
        Out.pure_eq, Out.ok_bind, Option.isNone_none, Bool.or_true, Bool.not_false, Bool.and_true, if_true, hset,
        Raster.getPositionData, hC.pd, hC.pi, Option.isSome_some, Option.isNone_some, Bool.false_and]
    obtain ⟨l, e2, hl, hv2⟩ := hC.stream_valid
    refine ⟨r', l, .inr ⟨h.pd, true, hset⟩, by rw [hsame]; exact e2, hl, ?_⟩
    intro i k hi hk
    exact ⟨_, idx hC i k hi hk, hv2 i k hi hk⟩
  · obtain ⟨l, e2, hl, hv2⟩ := h.stream_valid
    refine ⟨r, l, .inl rfl, e2, hl, ?_⟩
    intro i k hi hk
    exact ⟨_, idx h i k hi hk, hv2 i k hi hk⟩

/-- C10 (interleaved full-size data, `OutputFullsizeToFiles`): with all writes succeeding, the file of layer
`l+1` holds at cell `gi` the value `full[gi*lyrs + l]`. -/
theorem C10_fullsize (full : List ℚ) (fsize lyrs : Int) (hf : 0 < fsize) (hl : 2 ≤ lyrs)
    (hlen : (full.length : Int) = fsize * lyrs) (wr : Int → Bool) (hw : ∀ l, wr l = true) :
    ∃ g : Nat → List ℚ, outputFullsize (some full) fsize lyrs wr = .ok (true,
        (List.range lyrs.toNat).map (fun (l : Nat) => (some ((l : Int) + 1), some (g l)))) ∧
      ∀ l : Nat, (l : Int) < lyrs → ((g l).length : Int) = fsize ∧
        ∀ gi : Nat, (gi : Int) < fsize → (g l)[gi]? = full[gi * lyrs.toNat + l]? := by
  have hs := fun (l : Nat) (hll : (l : Int) < lyrs) =>
    deinterleave_spec full fsize lyrs hf (by omega) hlen l hll
  let g : Nat → List ℚ := fun l => if hll : (l : Int) < lyrs then Classical.choose (hs l hll) else []
  have hg : ∀ (l : Nat) (hll : (l : Int) < lyrs), deinterleave (some full) fsize lyrs l = .ok (some (g l)) ∧
      ((g l).length : Int) = fsize ∧ ∀ gi : Nat, (gi : Int) < fsize → (g l)[gi]? = full[gi * lyrs.toNat + l]? := by
    intro l hll
    have := Classical.choose_spec (hs l hll)
    simp only [g, dif_pos hll]
    exact this
  refine ⟨g, ?_, fun l hll => (hg l hll).2⟩
  unfold outputFullsize
  rw [if_neg (by simp), if_neg (by omega), if_neg (by omega)]
  rw [mapM_ok (g := fun (l : Nat) => (l, some (g l)))]
  · have htw : ∀ (xs : List (Nat × Ptr ℚ)), xs.takeWhile (fun x => wr x.1) = xs := by
      intro xs; induction xs with
      | nil => rfl
      | cons x xs ih => rw [List.takeWhile_cons, if_pos (hw _), ih]
    simp only [Out.ok_bind, Out.pure_eq]
    rw [htw]
    simp [List.map_map, Function.comp_def]
  · intro l hll
    have := List.mem_range.1 hll
    rw [(hg l (by omega)).1]; rfl

/-! ### Non-vacuity -/

example : Built exRaster ∧ HasCells exRaster ∧ exRaster.is2d = false ∧ 0 < exRaster.hdr.rows * exRaster.hdr.cols :=
  ⟨Built.grid1 [1, -9999, 3, 4] 2 2 (-9999) 10 5 5 rfl, by unfold HasCells; decide +kernel, rfl, by decide +kernel⟩

/-- The compacted example raster written as ASCII, GeoTIFF array and stream. -/
example : (exRaster.calcValidPositions >>= fun r => do
    let rows ← r.ascLayerRows false r.posData r.noData 0
    return rows) = .ok [[1, -9999], [3, 4]] := by decide +kernel
example : (exRaster.calcValidPositions >>= fun r => r.outputGdal (fun _ => true)) =
    .ok (true, [(none, some [1, -9999, 3, 4])]) := by decide +kernel
example : (exRaster.calcValidPositions >>= fun r => do
    let s ← r.outputStream true
    let t ← r.outputStream false
    return (s.data, s.hdr.cellsnum, t.data, t.len)) =
    .ok (some [1, -9999, 3, 4], 4, some [1, 3, 4], 3) := by decide +kernel

example : Built exOut2 ∧ HasCells exOut2 ∧ exOut2.is2d = true :=
  ⟨Built.grid2 [[5, 6], [-1, 8]] 1 2 2 (-1) 10 5 5 rfl (by decide) (by decide), by unfold HasCells; decide +kernel, rfl⟩

example : (exOut2.calcValidPositions >>= fun r => do
    let (_, files) ← r.outputGdal (fun _ => true)
    let s ← r.outputStream true
    return (files, s.data)) =
    .ok ([(some 1, some [5, -1]), (some 2, some [6, -1])], some [5, 6, -1, -1]) := by decide +kernel

example : outputFullsize (some [1, 10, 2, 20, 3, 30]) 3 2 (fun _ => true) =
    .ok (true, [(some 1, some [1, 2, 3]), (some 2, some [10, 20, 30])]) := by decide +kernel

end CCGL
