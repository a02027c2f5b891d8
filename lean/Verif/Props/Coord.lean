import Verif.Model.Coord
import Verif.Spec.MaskGeo
import Verif.Lemmas.RasterHist
/-!
# Coordinates (C06, C07) and alignment of layers (C60)
-/
namespace CCGL
open Raster

theorem truncQ_eq {q : ℚ} {n : Int} (h0 : 0 ≤ n) (h1 : (n : ℚ) ≤ q) (h2 : q < n + 1) : truncQ q = n := by
  have : (0 : ℚ) ≤ q := le_trans (by exact_mod_cast h0) h1
  unfold truncQ
  rw [if_pos this, Int.floor_eq_iff]
  exact ⟨h1, h2⟩

/-- A point in a cell that the function does not reject is mapped to that cell. -/
theorem posOfCoord_inCell {h : Header} (hd : 0 < h.cellsize) {row col : Int} {x y : ℚ}
    (hi : h.grid.CellInside row col) (hc : h.grid.InCell row col x y) (hx : h.xll ≤ x) (hy : h.yll ≤ y) :
    posOfCoord h x y = (row, col) := by
  obtain ⟨r0, r1, c0, c1⟩ := hi
  obtain ⟨x0, x1, y0, y1⟩ := hc
  simp only [Header.grid, Spec.Grid.left, Spec.Grid.top, Spec.Grid.bottom] at r1 c1 x0 x1 y0 y1
  have c1' : (col : ℚ) + 1 ≤ h.cols := by exact_mod_cast c1
  have r1' : (row : ℚ) + 1 ≤ h.rows := by exact_mod_cast r1
  have r0' : (0 : ℚ) ≤ row := by exact_mod_cast r0
  have hcm := mul_le_mul_of_nonneg_right c1' hd.le
  have hrm := mul_nonneg r0' hd.le
  unfold posOfCoord
  rw [if_neg]
  · refine Prod.ext ?_ ?_
    · refine truncQ_eq r0 ?_ ?_
      · rw [le_div_iff₀ hd]; simp only; linarith
      · rw [div_lt_iff₀ hd]; simp only; linarith
    · refine truncQ_eq c0 ?_ ?_
      · rw [le_div_iff₀ hd]; simp only; linarith
      · rw [div_lt_iff₀ hd]; simp only; linarith
  · push Not
    refine ⟨⟨?_, hx⟩, ?_, hy⟩
    · linarith
    · linarith

theorem coordOf_eq (h : Header) (row col : Int) : coordOf h row col = h.grid.center row col := by
  unfold coordOf Spec.Grid.center
  simp only [Header.grid, Spec.Grid.left, Spec.Grid.top, Spec.Grid.bottom]
  refine Prod.ext ?_ ?_ <;> simp only <;> push_cast <;> ring

theorem center_inCell (g : Spec.Grid) (hd : 0 < g.dx) (row col : Int) :
    g.InCell row col (g.center row col).1 (g.center row col).2 := by
  unfold Spec.Grid.InCell Spec.Grid.center
  refine ⟨?_, ?_, ?_, ?_⟩ <;> simp only <;> linarith

/-- C06: looking up the centre coordinate of a cell gives the cell. -/
theorem C06_roundtrip (h : Header) (hd : 0 < h.cellsize) (row col : Int)
    (hi : 0 ≤ row ∧ row < h.rows ∧ 0 ≤ col ∧ col < h.cols) :
    posOfCoord h (coordOf h row col).1 (coordOf h row col).2 = (row, col) := by
  rw [coordOf_eq]
  refine posOfCoord_inCell hd hi (center_inCell h.grid hd row col) ?_ ?_
  · have : (0 : ℚ) ≤ col := by exact_mod_cast hi.2.2.1
    have := mul_nonneg this hd.le
    simp only [Spec.Grid.center, Header.grid, Spec.Grid.left]; linarith
  · have : (row : ℚ) + 1 ≤ h.rows := by exact_mod_cast hi.2.1
    have := mul_le_mul_of_nonneg_right this hd.le
    simp only [Spec.Grid.center, Header.grid, Spec.Grid.top, Spec.Grid.bottom]; linarith

/-- C06: the coordinate handed out is the centre of the cell. -/
theorem C06_center (h : Header) (row col : Int) : coordOf h row col = h.grid.center row col := coordOf_eq h row col

/-- Non-vacuity: a 3x4 grid of size 10. -/
def exHdr : Header := ⟨3, 4, 10, 100, 200, -9999, 1, 12⟩
example : 0 < exHdr.cellsize ∧ (0 ≤ (1 : Int) ∧ 1 < exHdr.rows ∧ 0 ≤ (2 : Int) ∧ 2 < exHdr.cols) ∧
    coordOf exHdr 1 2 = (120, 210) ∧ posOfCoord exHdr 120 210 = (1, 2) := by decide +kernel

/-! ## C07 -/

/-- C07 (partial): every point of a cell's square is mapped to this cell, except the points left of or below the
centre of the lower-left cell. Missing: these points (`C07_false_lower_left`). -/
theorem C07_contains_partial (h : Header) (hd : 0 < h.cellsize) (row col : Int) (x y : ℚ)
    (hi : h.grid.CellInside row col) (hc : h.grid.InCell row col x y) (hx : h.xll ≤ x) (hy : h.yll ≤ y) :
    posOfCoord h x y = (row, col) := posOfCoord_inCell hd hi hc hx hy

/-- C07: points outside of the extent are rejected. -/
theorem C07_outside (h : Header) (hd : 0 < h.cellsize) (x y : ℚ)
    (ho : x < h.grid.left ∨ h.grid.right < x ∨ y < h.grid.bottom ∨ h.grid.top < y) :
    posOfCoord h x y = (-1, -1) := by
  unfold posOfCoord
  rw [if_pos]
  simp only [Header.grid, Spec.Grid.left, Spec.Grid.right, Spec.Grid.top, Spec.Grid.bottom] at ho
  rcases ho with h1 | h1 | h1 | h1
  · left; right; linarith
  · left; left; linarith
  · right; right; linarith
  · right; left; linarith

/-- The exact set of accepted points. -/
theorem C07_rejected_iff (h : Header) (hd : 0 < h.cellsize) (x y : ℚ) :
    posOfCoord h x y = (-1, -1) ↔
      (x < h.xll ∨ h.grid.right < x ∨ y < h.yll ∨ h.grid.top < y) := by
  simp only [Header.grid, Spec.Grid.left, Spec.Grid.right, Spec.Grid.top, Spec.Grid.bottom]
  unfold posOfCoord
  simp only
  split
  · next hc =>
    refine ⟨fun _ => ?_, fun _ => rfl⟩
    rcases hc with (h1 | h1) | (h1 | h1)
    · right; left; linarith
    · left; exact h1
    · right; right; right; linarith
    · right; right; left; exact h1
  · next hc =>
    push Not at hc
    obtain ⟨⟨h1, h2⟩, h3, h4⟩ := hc
    constructor
    · intro he
      exfalso
      have he := congrArg Prod.fst he
      simp only at he
      have : (0 : ℚ) ≤ (h.yll - h.cellsize / 2 + h.cellsize * h.rows - y) / h.cellsize :=
        div_nonneg (by linarith) hd.le
      unfold truncQ at he
      rw [if_pos this] at he
      have := Int.floor_nonneg.2 this
      omega
    · rintro (h5 | h5 | h5 | h5) <;> exfalso <;> linarith

/-- C07 is false: the centre of the lower left quarter of the lower-left cell of every grid is rejected, although it
lies inside the extent. -/
theorem C07_false_lower_left (h : Header) (hd : 0 < h.cellsize) (hr : 1 ≤ h.rows) (hc : 1 ≤ h.cols) :
    h.grid.CellInside (h.rows - 1) 0 ∧
    h.grid.InCell (h.rows - 1) 0 (h.xll - h.cellsize / 4) (h.yll - h.cellsize / 4) ∧
    posOfCoord h (h.xll - h.cellsize / 4) (h.yll - h.cellsize / 4) = (-1, -1) := by
  refine ⟨⟨by omega, by simp only [Header.grid]; omega, le_refl _,
    by simp only [Header.grid]; omega⟩, ?_, ?_⟩
  · unfold Spec.Grid.InCell
    simp only [Header.grid, Spec.Grid.left, Spec.Grid.top, Spec.Grid.bottom]
    push_cast
    refine ⟨?_, ?_, ?_, ?_⟩ <;> linarith
  · rw [C07_rejected_iff h hd]; left; linarith

/-- C07 is false on the right border, which the function accepts as part of a column that does not exist. -/
theorem C07_false_right (h : Header) (hd : 0 < h.cellsize) (hc : 1 ≤ h.cols) (hr : 1 ≤ h.rows) :
    (posOfCoord h h.grid.right h.yll).2 = h.cols := by
  have hc' : (1 : ℚ) ≤ h.cols := by exact_mod_cast hc
  have hr' : (1 : ℚ) ≤ h.rows := by exact_mod_cast hr
  have e1 := mul_le_mul_of_nonneg_right hc' hd.le
  have e2 := mul_le_mul_of_nonneg_right hr' hd.le
  simp only [Header.grid, Spec.Grid.left, Spec.Grid.right]
  unfold posOfCoord
  rw [if_neg]
  · refine truncQ_eq (by omega) ?_ ?_
    · rw [le_div_iff₀ hd]; linarith
    · rw [div_lt_iff₀ hd]; linarith
  · push Not
    refine ⟨⟨?_, ?_⟩, ?_, le_refl _⟩ <;> linarith

/-- The other lookup, `GetPosition(x, y)`, has no such gap: a point of a cell's square gives the storage index of
this cell. -/
theorem C07_getPosition_xy (r : Raster) (hd : 0 < r.hdr.cellsize) (row col : Int) (x y : ℚ)
    (h1 : floatEqual r.hdr.xll NODATA = false) (h2 : floatEqual r.hdr.yll NODATA = false)
    (h3 : floatEqual r.hdr.cellsize NODATA = false)
    (hi : r.hdr.grid.CellInside row col) (hc : r.hdr.grid.InCell row col x y) :
    r.getPositionXY x y = r.getPosition row col := by
  obtain ⟨r0, r1, c0, c1⟩ := hi
  obtain ⟨x0, x1, y0, y1⟩ := hc
  simp only [Header.grid, Spec.Grid.left, Spec.Grid.top, Spec.Grid.bottom] at r1 c1 x0 x1 y0 y1
  have c1' : (col : ℚ) + 1 ≤ r.hdr.cols := by exact_mod_cast c1
  have r1' : (row : ℚ) + 1 ≤ r.hdr.rows := by exact_mod_cast r1
  have r0' : (0 : ℚ) ≤ row := by exact_mod_cast r0
  have c0' : (0 : ℚ) ≤ col := by exact_mod_cast c0
  have hcm := mul_le_mul_of_nonneg_right c1' hd.le
  have hrm := mul_nonneg r0' hd.le
  have hrm' := mul_le_mul_of_nonneg_right r1' hd.le
  have hcm' := mul_nonneg c0' hd.le
  unfold Raster.getPositionXY
  have e1 : decide (r.hdr.rows < 0) = false := by simp; omega
  have e2 : decide (r.hdr.cols < 0) = false := by simp; omega
  simp only [h1, h2, h3, e1, e2, Bool.or_self, Bool.false_eq_true, if_false]
  rw [if_neg, if_neg]
  · congr 1
    · refine truncQ_eq r0 ?_ ?_
      · rw [le_div_iff₀ hd]; linarith
      · rw [div_lt_iff₀ hd]; linarith
    · refine truncQ_eq c0 ?_ ?_
      · rw [le_div_iff₀ hd]; linarith
      · rw [div_lt_iff₀ hd]; linarith
  · push Not; constructor <;> linarith
  · push Not; constructor <;> linarith

/-! ## C60 -/

/-- The value a raster with the given header and data (row by row) shows at a point: that of the cell containing
the point; `noData` if this is its NoData value or if the point is in no cell. -/
def Spec.ShowsAt (lh : Header) (data : List ℚ) (noData : ℚ) (x y v : ℚ) : Prop :=
  (∃ row col, lh.grid.CellInside row col ∧ lh.grid.InCell row col x y ∧
    v = (let w := data.getD (row * lh.cols + col).toNat 0
         if floatEqual w lh.noData then noData else w)) ∨
  ((∀ row col, lh.grid.CellInside row col → ¬ lh.grid.InCell row col x y) ∧ v = noData)

/-- A well-formed layer. -/
def LayerOk (l : Header × List ℚ) : Prop :=
  0 < l.1.cellsize ∧ 0 ≤ l.1.rows ∧ 0 ≤ l.1.cols ∧ (l.2.length : Int) = l.1.rows * l.1.cols

/-- Points on which the lookup is right: strictly outside of the extent, or inside but neither left of or below the
centre of the lower-left cell nor on the right border. -/
def GoodPoint (h : Header) (x y : ℚ) : Prop :=
  (x < h.grid.left ∨ h.grid.right < x ∨ y ≤ h.grid.bottom ∨ h.grid.top < y) ∨
  (h.xll ≤ x ∧ x < h.grid.right ∧ h.yll ≤ y ∧ y ≤ h.grid.top)

theorem InCell.inExtent {h : Header} (hd : 0 < h.cellsize) {row col : Int} {x y : ℚ}
    (hi : h.grid.CellInside row col) (hc : h.grid.InCell row col x y) :
    h.grid.left ≤ x ∧ x < h.grid.right ∧ h.grid.bottom < y ∧ y ≤ h.grid.top := by
  obtain ⟨r0, r1, c0, c1⟩ := hi
  obtain ⟨x0, x1, y0, y1⟩ := hc
  simp only [Header.grid, Spec.Grid.left, Spec.Grid.top, Spec.Grid.bottom, Spec.Grid.right] at r1 c1 x0 x1 y0 y1 ⊢
  have c1' : (col : ℚ) + 1 ≤ h.cols := by exact_mod_cast c1
  have r1' : (row : ℚ) + 1 ≤ h.rows := by exact_mod_cast r1
  have r0' : (0 : ℚ) ≤ row := by exact_mod_cast r0
  have c0' : (0 : ℚ) ≤ col := by exact_mod_cast c0
  have hcm := mul_le_mul_of_nonneg_right c1' hd.le
  have hrm := mul_nonneg r0' hd.le
  have hrm' := mul_le_mul_of_nonneg_right r1' hd.le
  have hcm' := mul_nonneg c0' hd.le
  refine ⟨?_, ?_, ?_, ?_⟩ <;> linarith

/-- Every point of the extent (without right and lower border) is in a cell. -/
theorem exists_cell {h : Header} (hd : 0 < h.cellsize) {x y : ℚ}
    (h1 : h.grid.left ≤ x) (h2 : x < h.grid.right) (h3 : h.grid.bottom < y) (h4 : y ≤ h.grid.top) :
    ∃ row col, h.grid.CellInside row col ∧ h.grid.InCell row col x y := by
  refine ⟨⌊(h.grid.top - y) / h.cellsize⌋, ⌊(x - h.grid.left) / h.cellsize⌋, ?_, ?_⟩
  · simp only [Header.grid, Spec.Grid.left, Spec.Grid.top, Spec.Grid.bottom, Spec.Grid.right,
      Spec.Grid.CellInside] at h1 h2 h3 h4 ⊢
    refine ⟨Int.floor_nonneg.2 (div_nonneg (by linarith) hd.le), ?_,
      Int.floor_nonneg.2 (div_nonneg (by linarith) hd.le), ?_⟩
    · rw [Int.floor_lt, div_lt_iff₀ hd]; linarith
    · rw [Int.floor_lt, div_lt_iff₀ hd]; linarith
  · have a1 := Int.floor_le ((x - h.grid.left) / h.cellsize)
    have a2 := Int.lt_floor_add_one ((x - h.grid.left) / h.cellsize)
    have a3 := Int.floor_le ((h.grid.top - y) / h.cellsize)
    have a4 := Int.lt_floor_add_one ((h.grid.top - y) / h.cellsize)
    rw [le_div_iff₀ hd] at a1 a3
    rw [div_lt_iff₀ hd] at a2 a4
    have hdx : h.grid.dx = h.cellsize := rfl
    unfold Spec.Grid.InCell
    rw [hdx]
    refine ⟨?_, ?_, ?_, ?_⟩ <;> linarith

/-- Value taken from another layer. -/
theorem otherLayerValue_spec (h : Header) (noData : ℚ) (l : Header × List ℚ) (hl : LayerOk l) (row col : Int)
    (hg : GoodPoint l.1 (h.grid.center row col).1 (h.grid.center row col).2) :
    ∃ v, otherLayerValue h noData l.1 (some l.2) row col = .ok v ∧
      Spec.ShowsAt l.1 l.2 noData (h.grid.center row col).1 (h.grid.center row col).2 v := by
  obtain ⟨hd, hr, hc, hlen⟩ := hl
  unfold otherLayerValue
  simp only [coordOf_eq]
  generalize h.grid.center row col = xy at hg ⊢
  rcases hg with hg | ⟨g1, g2, g3, g4⟩
  · have hrej : posOfCoord l.1 xy.1 xy.2 = (-1, -1) := by
      rw [C07_rejected_iff l.1 hd]
      rcases hg with h1 | h1 | h1 | h1
      · left; simp only [Header.grid, Spec.Grid.left] at h1; linarith
      · right; left; exact h1
      · right; right; left; simp only [Header.grid, Spec.Grid.bottom] at h1; linarith
      · right; right; right; exact h1
    simp only [hrej, true_or, if_true]
    refine ⟨noData, rfl, .inr ⟨?_, rfl⟩⟩
    intro row' col' hi hin
    have := InCell.inExtent hd hi hin
    rcases hg with h1 | h1 | h1 | h1 <;> linarith
  · have e1 : l.1.grid.left ≤ xy.1 := by simp only [Header.grid, Spec.Grid.left]; linarith
    have e2 : l.1.grid.bottom < xy.2 := by simp only [Header.grid, Spec.Grid.bottom]; linarith
    obtain ⟨r', c', hi, hin⟩ := exists_cell hd e1 g2 e2 g4
    have hp := posOfCoord_inCell hd hi hin g1 g3
    have hi' := hi
    obtain ⟨r0, r1, c0, c1⟩ := hi'
    simp only [Header.grid] at r1 c1
    have hrng := idx_range r0 r1 c0 c1
    rw [hp, if_neg (by omega), readAt_some_int _ _ hrng.1 (by omega)]
    simp only [Out.ok_bind, Out.pure_eq]
    refine ⟨_, rfl, .inl ⟨r', c', hi, hin, ?_⟩⟩
    rw [List.getD_eq_getElem _ _ (by omega)]

theorem cellOfLayers_spec (h : Header) (noData : ℚ) (skip : Bool) (first : ℚ) (row col : Int)
    (layers : List (Header × List ℚ)) (hl : ∀ l ∈ layers, LayerOk l)
    (hg : ∀ l ∈ layers, GoodPoint l.1 (h.grid.center row col).1 (h.grid.center row col).2) :
    ∃ vs, cellOfLayers h noData skip first row col (layers.map (fun l => (l.1, some l.2))) = .ok vs ∧
      vs.length = layers.length ∧ ∀ k (hk : k < layers.length), ∃ v, vs[k]? = some v ∧
        if (skip && floatEqual noData first) = true then v = noData
        else Spec.ShowsAt layers[k].1 layers[k].2 noData (h.grid.center row col).1 (h.grid.center row col).2 v := by
  induction layers with
  | nil => exact ⟨[], rfl, rfl, by simp⟩
  | cons l layers ih =>
    obtain ⟨vs, e, hlen, hv⟩ := ih (fun x hx => hl x (by simp [hx])) (fun x hx => hg x (by simp [hx]))
    obtain ⟨v, e1, hs⟩ := otherLayerValue_spec h noData l (hl l (by simp)) row col (hg l (by simp))
    have e2 : ∃ v', (if (skip && floatEqual noData first) = true then Out.ok noData
            else otherLayerValue h noData l.1 (some l.2) row col) = .ok v' ∧
        if (skip && floatEqual noData first) = true then v' = noData
        else Spec.ShowsAt l.1 l.2 noData (h.grid.center row col).1 (h.grid.center row col).2 v' := by
      by_cases hc : (skip && floatEqual noData first) = true
      · rw [if_pos hc]; exact ⟨_, rfl, by rw [if_pos hc]⟩
      · rw [if_neg hc]; exact ⟨v, e1, by rw [if_neg hc]; exact hs⟩
    obtain ⟨v', e3, hs'⟩ := e2
    refine ⟨v' :: vs, ?_, by simp [hlen], ?_⟩
    · simp only [List.map_cons, cellOfLayers, e, Out.ok_bind, Out.pure_eq]
      by_cases hc : (skip && floatEqual noData first) = true
      · rw [if_pos hc] at e3 ⊢; cases e3; rfl
      · rw [if_neg hc] at e3 ⊢; rw [e3]; rfl
    · intro k hk
      cases k with
      | zero => exact ⟨v', rfl, hs'⟩
      | succ k =>
        simp only [List.length_cons] at hk
        obtain ⟨w, hw, hs⟩ := hv k (by omega)
        exact ⟨w, by simpa using hw, by simpa using hs⟩

/-- The cell of each storage index of a single-layer raster, as the loops of `ReadFromFiles` find it. -/
theorem Inv.cellOf {r : Raster} {ls loc} (h : Inv r ls loc) (i : Nat) (hi : i < ls.length) :
    ∃ row col, loc row col = some i ∧ 0 < r.hdr.cols ∧ 0 ≤ row ∧ 0 ≤ col ∧ col < r.hdr.cols ∧
      (if r.posData.isNone && r.posIdx.isNone then .ok (i : Int) else readAt r.posIdx i) =
        .ok (row * r.hdr.cols + col) := by
  cases h with
  | full h =>
    obtain ⟨row, col, hloc⟩ := (Inv.full h).surj i hi
    have hin := ((Inv.full h).inside hloc).1
    refine ⟨row, col, hloc, by omega, hin.1, hin.2.2.1, hin.2.2.2, ?_⟩
    simp only [h.pd, h.pi, Option.isNone_none, Bool.and_self, if_true]
    unfold fullLoc at hloc
    rw [if_pos hin] at hloc
    simp only [Option.some.injEq] at hloc
    have := idx_range hin.1 hin.2.1 hin.2.2.1 hin.2.2.2
    congr 1; omega
  | comp h =>
    rename_i ps
    obtain ⟨row, col, hloc⟩ := (Inv.comp h).surj i hi
    have hin := ((Inv.comp h).inside hloc).1
    refine ⟨row, col, hloc, by omega, hin.1, hin.2.2.1, hin.2.2.2, ?_⟩
    have hm : (row, col) ∈ ps := by
      unfold compLoc at hloc; split at hloc
      · assumption
      · simp at hloc
    unfold compLoc at hloc
    rw [if_pos hm] at hloc
    simp only [Option.some.injEq] at hloc
    have hlt := List.idxOf_lt_length_of_mem hm
    have hg := List.getElem_idxOf hlt
    simp only [h.pd, h.pi, Option.isNone_some, Bool.and_self, Bool.false_eq_true, if_false]
    rw [readAt_some_nat _ _ (by simp; omega)]
    simp only [hloc] at hg
    simp [hg]
  | empty h h1 => simp at hi

/-- Layers on the same grid meet the condition of C60 at every cell. -/
theorem GoodPoint.same (h : Header) (hd : 0 < h.cellsize) (row col : Int)
    (hi : 0 ≤ row ∧ row < h.rows ∧ 0 ≤ col ∧ col < h.cols) :
    GoodPoint h (h.grid.center row col).1 (h.grid.center row col).2 := by
  have hc := center_inCell h.grid hd row col
  have he := InCell.inExtent hd hi hc
  refine .inr ⟨?_, he.2.1, ?_, he.2.2.2⟩
  · have : (0 : ℚ) ≤ col := by exact_mod_cast hi.2.2.1
    have := mul_nonneg this hd.le
    simp only [Spec.Grid.center, Header.grid, Spec.Grid.left]; linarith
  · have : (row : ℚ) + 1 ≤ h.rows := by exact_mod_cast hi.2.1
    have := mul_le_mul_of_nonneg_right this hd.le
    simp only [Spec.Grid.center, Header.grid, Spec.Grid.top, Spec.Grid.bottom]; linarith

/-- C60 is false for a layer shifted by a quarter of a cell: the cell centre lies in the layer's lower-left cell (of
value 7) but NoData is stored. -/
theorem C60_false : otherLayerValue ⟨1, 1, 4, 0, 0, -9999, 1, 1⟩ (-9999) ⟨1, 1, 4, 1, 1, -9999, 1, 1⟩ (some [7]) 0 0 =
      .ok (-9999) ∧
    (Header.grid ⟨1, 1, 4, 1, 1, -9999, 1, 1⟩).InCell 0 0
      ((Header.grid ⟨1, 1, 4, 0, 0, -9999, 1, 1⟩).center 0 0).1
      ((Header.grid ⟨1, 1, 4, 0, 0, -9999, 1, 1⟩).center 0 0).2 := by
  unfold Spec.Grid.InCell
  decide +kernel

/-- C60 is false for a layer whose right border runs through the cell centres: memory outside of the layer's data
is read. -/
theorem C60_false_right : otherLayerValue ⟨1, 2, 4, 0, 0, -9999, 1, 2⟩ (-9999) ⟨1, 1, 4, 2, 0, -9999, 1, 1⟩
    (some [7]) 0 1 = .ub := by decide +kernel

end CCGL
