import Verif.Model.SetHdr
import Verif.Spec.Geotiff
import Verif.Spec.Mask
/-!
# Specifications for headers and positions set from outside (C95)
-/
namespace CCGL.Spec

/-- A count after the call: the old one, or the integer part of the entry. -/
def NewCount (e : Option ℚ) (old new : Int) : Prop := (e = none → new = old) ∧ ∀ x, e = some x → IsTrunc x new

/-- A number after the call: the old one, or the entry. -/
def NewNum (e : Option ℚ) (old new : ℚ) : Prop := (e = none → new = old) ∧ ∀ x, e = some x → new = x

/-- The header after copying the entries `p` into `h`. -/
structure Patched (p : HdrPatch) (h h' : Header) : Prop where
  rows : NewCount p.rows h.rows h'.rows
  cols : NewCount p.cols h.cols h'.cols
  cellsize : NewNum p.cellsize h.cellsize h'.cellsize
  xll : NewNum p.xll h.xll h'.xll
  yll : NewNum p.yll h.yll h'.yll
  noData : NewNum p.noData h.noData h'.noData
  layers : NewCount p.layers h.layers h'.layers
  cellsnum : NewCount p.cellsnum h.cellsnum h'.cellsnum

/-- The entries are those of the header itself (those that are there). -/
structure OwnEntries (p : HdrPatch) (h : Header) : Prop where
  rows : ∀ x, p.rows = some x → x = h.rows
  cols : ∀ x, p.cols = some x → x = h.cols
  cellsize : ∀ x, p.cellsize = some x → x = h.cellsize
  xll : ∀ x, p.xll = some x → x = h.xll
  yll : ∀ x, p.yll = some x → x = h.yll
  noData : ∀ x, p.noData = some x → x = h.noData
  layers : ∀ x, p.layers = some x → x = h.layers
  cellsnum : ∀ x, p.cellsnum = some x → x = h.cellsnum

/-- Both rasters answer every access to a cell in the same way. -/
structure SameCellAnswers (r r' : Raster) : Prop where
  value : ∀ row col lyr, r'.getValue row col lyr = r.getValue row col lyr
  byIndex : ∀ i lyr, r'.getValueByIndex i lyr = r.getValueByIndex i lyr
  position : ∀ row col, r'.getPosition row col = r.getPosition row col
  noData : ∀ row col lyr, r'.isNoData row col lyr = r.isNoData row col lyr

end CCGL.Spec
