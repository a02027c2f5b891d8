import Verif.Spec.Raster
/-!
# What masking has to deliver, in terms of geographic points
-/
namespace CCGL.Spec
open Raster

/-- C17: the masked raster `r'` shows a value only at valid cells of the mask, namely the raster's own value, or the
default value where the raster has a cell without a value; and it shows every value of the raster under the mask. -/
structure MaskedRight (r mask r' : Raster) : Prop where
  only : ∀ x y lyr v, Shows r' x y lyr v → ValidAt mask x y ∧
    (Shows r x y lyr v ∨ (Covers r x y ∧ (¬ ∃ w, Shows r x y lyr w) ∧ v = r.dflt))
  all : ∀ x y lyr v, ValidAt mask x y → ValidAt r x y → Shows r x y lyr v → Shows r' x y lyr v

/-- C18: every stored cell has one row and column inside of the header's extent, which all lookups agree on. -/
structure PositionsAgree (r : Raster) : Prop where
  cell : ∀ i : Int, 0 ≤ i → i < r.nCells → ∃ row col : Int,
    r.hdr.grid.CellInside row col ∧ r.getPosition row col = .ok i ∧
    posOfCoord r.hdr (r.hdr.grid.center row col).1 (r.hdr.grid.center row col).2 = (row, col) ∧
    (floatEqual r.hdr.xll NODATA = false → floatEqual r.hdr.yll NODATA = false → floatEqual r.hdr.cellsize NODATA = false →
      r.getPositionXY (r.hdr.grid.center row col).1 (r.hdr.grid.center row col).2 = .ok i) ∧
    (∀ ps, r.posData = some ps → ps[i.toNat]? = some (row, col)) ∧
    (∀ is, r.posIdx = some is → is[i.toNat]? = some (row * r.hdr.cols + col)) ∧
    (∀ lyr, 1 ≤ lyr → lyr ≤ r.nLyrs → r.getValueByIndex i lyr = r.getValue row col lyr)

end CCGL.Spec
