import Verif.Spec.Mask
import Verif.Model.MaskSubset
/-!
# A subset of a raster as a list of points
-/
namespace CCGL.Spec
open Raster

/-- The subset `s` consists of the cells of the raster `r` with their centres at the points `pts`, in this order: the number of
cells, the row, column and index of each cell relative to the subset's rectangle, and its storage index in the raster are right,
and the rectangle is the smallest one. -/
structure SubsetAt (r : Raster) (s : Subset) (pts : List (ℚ × ℚ)) : Prop where
  n : s.nCells = pts.length
  cell : ∀ (j : Nat) (hj : j < pts.length), ∃ row col g : Int, r.hdr.grid.CellInside row col ∧
    r.hdr.grid.center row col = pts[j] ∧ readAt s.glob j = .ok g ∧ 0 ≤ g ∧ g < r.nCells ∧ r.getPosition row col = .ok g ∧
    readAt s.localPos j = .ok (row - s.srow, col - s.scol) ∧
    readAt s.localIdx j = .ok ((row - s.srow) * (s.ecol - s.scol + 1) + (col - s.scol)) ∧
    s.srow ≤ row ∧ row ≤ s.erow ∧ s.scol ≤ col ∧ col ≤ s.ecol
  top : ∃ col : Int, r.hdr.grid.center s.srow col ∈ pts
  bottom : ∃ col : Int, r.hdr.grid.center s.erow col ∈ pts
  left : ∃ row : Int, r.hdr.grid.center row s.scol ∈ pts
  right : ∃ row : Int, r.hdr.grid.center row s.ecol ∈ pts

/-- The points at which the raster has a valid value. -/
noncomputable def validPts (r : Raster) (pts : List (ℚ × ℚ)) : List (ℚ × ℚ) := by
  classical exact pts.filter (fun p => ValidAt r p.1 p.2)

end CCGL.Spec
