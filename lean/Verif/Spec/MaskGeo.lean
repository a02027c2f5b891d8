import Verif.Model.Mask
import Verif.Spec.Coord
/-!
# Grids, their points, and how a raster and a mask lie on each other
-/
namespace CCGL

/-- The grid of a header. -/
def Header.grid (h : Header) : Spec.Grid := ⟨h.rows, h.cols, h.cellsize, h.xll, h.yll⟩

end CCGL
namespace CCGL.Spec
open Raster

/-- The cell is stored in the raster (not excluded, not outside). -/
def Stored (r : Raster) (row col : Int) : Prop := ∃ i : Nat, r.getPosition row col = .ok (i : Int)

/-- The raster has a cell with its centre at (x, y). -/
def Covers (r : Raster) (x y : ℚ) : Prop :=
  ∃ row col : Int, r.hdr.grid.CellInside row col ∧ r.hdr.grid.center row col = (x, y)

/-- The raster has a cell with its centre at (x, y), and `GetValue` gives the value `v` there, which is not NoData. -/
def Shows (r : Raster) (x y : ℚ) (lyr : Int) (v : ℚ) : Prop :=
  ∃ row col : Int, r.hdr.grid.CellInside row col ∧ r.hdr.grid.center row col = (x, y) ∧
    r.getValue row col lyr = .ok v ∧ floatEqual v r.noData = false

/-- The mask has a valid cell with its centre at (x, y). -/
def ValidAt (m : Raster) (x y : ℚ) : Prop := ∃ v, Shows m x y 1 v

/-- A raster as read from a file or a stored file: all cells present, before masking. -/
inductive ReadGrid : Raster → Prop
  | file (h : Header) (data : List ℚ) (calcPos useMaskExt : Bool) (dflt : ℚ) (hr : 0 < h.rows) (hc : 0 < h.cols)
      (hlen : (data.length : Int) = h.rows * h.cols) : ReadGrid (ofFile h data calcPos useMaskExt dflt)
  | store (h : Header) (data : List (List ℚ)) (calcPos useMaskExt : Bool) (dflt : ℚ) (hr : 0 < h.rows) (hc : 0 < h.cols)
      (hl : 1 ≤ h.layers) (hlen : (data.length : Int) = h.rows * h.cols) (hrow : ∀ c ∈ data, (c.length : Int) = h.layers) :
      ReadGrid (ofStore h data calcPos useMaskExt dflt)
  | store1 (h : Header) (data : List ℚ) (calcPos useMaskExt : Bool) (dflt : ℚ) (hr : 0 < h.rows) (hc : 0 < h.cols)
      (hlen : (data.length : Int) = h.rows * h.cols) : ReadGrid (ofStore1 h data calcPos useMaskExt dflt)

/-- Both grids are parts of one grid of cells. -/
def CommonGrid (h mh : Header) : Prop :=
  0 < h.cellsize ∧ mh.cellsize = h.cellsize ∧
    ∃ a b : Int, mh.xll = h.xll + a * h.cellsize ∧ mh.yll = h.yll + b * h.cellsize

/-- If the positions of the mask have been computed already, the cells it stores are valid (no `SetValue` turned one of
them into NoData afterwards, and `SetNoDataValue`-like changes have not been made). -/
def CleanMask (m : Raster) : Prop :=
  m.posData = none ∨ ∀ row col, Stored m row col → ∃ v, m.getValue row col 1 = .ok v ∧ floatEqual v m.noData = false

/-- A valid cell of the raster (in the first layer) coincides with a valid cell of the mask. -/
def Matched (r mask : Raster) (x y : ℚ) : Prop := ValidAt mask x y ∧ ValidAt r x y

/-- Some coinciding valid cell lies in the given row of the grid `g`. -/
def MatchedInRow (r mask : Raster) (g : Grid) (row : Int) : Prop :=
  ∃ col : Int, Matched r mask (g.center row col).1 (g.center row col).2
def MatchedInCol (r mask : Raster) (g : Grid) (col : Int) : Prop :=
  ∃ row : Int, Matched r mask (g.center row col).1 (g.center row col).2

/-- The coinciding valid cells reach all four borders of the grid `g`. -/
def ReachesBorders (r mask : Raster) (g : Grid) : Prop :=
  MatchedInRow r mask g 0 ∧ MatchedInRow r mask g (g.rows - 1) ∧ MatchedInCol r mask g 0 ∧ MatchedInCol r mask g (g.cols - 1)

/-- The placements of a raster and a mask for which masking delivers a consistent raster: all if the extent of the mask is used and no
positions are computed, else those with a common valid cell, which in two cases must reach some borders (C17, C18). -/
structure Maskable (r mask : Raster) : Prop where
  overlap : ¬ (r.useMaskExt = true ∧ r.calcPos = false) → ∃ x y, Matched r mask x y
  extCalc : r.useMaskExt = true → r.calcPos = true → (∀ x y, ValidAt mask x y → ValidAt r x y) ∨
    (MatchedInRow r mask mask.hdr.grid 0 ∧ MatchedInCol r mask mask.hdr.grid 0)
  plain : r.useMaskExt = false → r.calcPos = false → ReachesBorders r mask mask.hdr.grid ∨ ¬ ReachesBorders r mask r.hdr.grid

end CCGL.Spec
