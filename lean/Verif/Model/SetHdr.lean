import Verif.Model.Raster
/-!
# Model of `SetHeader` and `SetPositions` (src/data_raster.hpp:2772-2782, 2815-2837, src/data_raster.cpp:121-135)

The arrays handed to `SetPositions` are values here; who owns them is modelled in Model/RasterLife.lean.
-/
namespace CCGL

/-- The entries of the map handed to `SetHeader`: a key is there or not. Numbers are `double`; other keys have no effect on the cells. -/
structure HdrPatch where
  rows : Option ℚ
  cols : Option ℚ
  cellsize : Option ℚ
  xll : Option ℚ
  yll : Option ℚ
  noData : Option ℚ
  layers : Option ℚ
  cellsnum : Option ℚ
deriving DecidableEq, Repr

/-- data_raster.cpp:121-135 `CopyHeader(refers, dst)`: entries that are there replace those of `dst`. Counts are converted by `CVT_INT` when they are
read (`GetRows`, `GetCols`, data_raster.hpp:2776, 2778); here the record holds the converted number. -/
def copyHeader (p : HdrPatch) (h : Header) : Header :=
  { rows := (p.rows.map truncQ).getD h.rows, cols := (p.cols.map truncQ).getD h.cols, cellsize := p.cellsize.getD h.cellsize,
    xll := p.xll.getD h.xll, yll := p.yll.getD h.yll, noData := p.noData.getD h.noData,
    layers := (p.layers.map truncQ).getD h.layers, cellsnum := (p.cellsnum.map truncQ).getD h.cellsnum }

namespace Raster

/-- data_raster.hpp:2772-2782 `SetHeader(refers)`. The three keys are in every header (data_raster.cpp:105-119), so the members are always set. -/
def setHeader (r : Raster) (p : HdrPatch) : Raster :=
  let h := copyHeader p r.hdr
  { r with hdr := h, nCells := h.cellsnum, nLyrs := h.layers, noData := h.noData }

/-- data_raster.hpp:2815-2825 `SetPositions(len, int**)`. Releasing a two-dimensional array without rows is undefined (utils_array.h:470-478). -/
def setPositionData (r : Raster) (len : Int) (pdata : Ptr (Int × Int)) : Out (Raster × Bool) :=
  match r.posData with
  | some old =>
    if len ≠ r.nCells then .ok (r, false)
    else if old = [] then .ub
    else .ok ({ r with posData := pdata, calcPos := true, storePos := false }, true)
  | none => .ok ({ r with posData := pdata, calcPos := true, storePos := false }, true)

/-- data_raster.hpp:2827-2837 `SetPositions(len, int*)`. -/
def setPositionIdx (r : Raster) (len : Int) (pdata : Ptr Int) : Out (Raster × Bool) :=
  match r.posIdx with
  | some _ =>
    if len ≠ r.nCells then .ok (r, false)
    else .ok ({ r with posIdx := pdata, calcPos := true, storePos := false }, true)
  | none => .ok ({ r with posIdx := pdata, calcPos := true, storePos := false }, true)

end Raster
end CCGL
