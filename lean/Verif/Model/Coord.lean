import Verif.Model.Raster
/-!
# Model of the coordinate functions of `clsRasterData` and of multi-layer reading

Coordinates are exact rationals; `int` conversion of `CVT_INT` is truncation (`truncQ`).
-/
namespace CCGL

/-- data_raster.hpp:3773-3777 `GetCoordinateByRowCol`. -/
def coordOf (h : Header) (row col : Int) : ℚ × ℚ :=
  (h.xll + col * h.cellsize, h.yll + ((h.rows - row - 1 : Int) : ℚ) * h.cellsize)

/-- data_raster.hpp:3779-3799 `GetPositionByCoordinate(x, y, header)`. A cell size of 0 (floating division by
zero, then an undefined conversion) is not modelled: theorems assume a positive cell size. -/
def posOfCoord (h : Header) (x y : ℚ) : Int × Int :=
  let dx := h.cellsize
  let dy := dx
  let xMin := h.xll - dx / 2
  let xMax := xMin + dx * h.cols
  let yMin := h.yll - dy / 2
  let yMax := yMin + dy * h.rows
  if (x > xMax ∨ x < h.xll) ∨ (y > yMax ∨ y < h.yll) then (-1, -1)
  else (truncQ ((yMax - y) / dy), truncQ ((x - xMin) / dx))

namespace Raster

/-- data_raster.hpp:2578-2612 `GetPosition(double x, double y)` of an initialised raster. -/
def getPositionXY (r : Raster) (x y : ℚ) : Out Int :=
  let dx := r.hdr.cellsize
  let dy := dx
  if floatEqual r.hdr.xll NODATA || floatEqual r.hdr.yll NODATA || floatEqual dx NODATA ||
      decide (r.hdr.rows < 0) || decide (r.hdr.cols < 0) then .ok (-2)
  else
    let xMin := r.hdr.xll - dx / 2
    let xMax := xMin + dx * r.hdr.cols
    if x > xMax ∨ x < xMin then .ok (-2)
    else
      let yMin := r.hdr.yll - dy / 2
      let yMax := yMin + dy * r.hdr.rows
      if y > yMax ∨ y < yMin then .ok (-2)
      else r.getPosition (truncQ ((yMax - y) / dy)) (truncQ ((x - xMin) / dx))

/-- data_raster.hpp:3623-3638 `AddOtherLayerRasterData`: the value stored for cell (row, col) from a layer
with header `lh` and data `ld`. -/
def otherLayerValue (h : Header) (noData : ℚ) (lh : Header) (ld : Ptr ℚ) (row col : Int) : Out ℚ :=
  let xy := coordOf h row col
  let p := posOfCoord lh xy.1 xy.2
  if p.1 = -1 ∨ p.2 = -1 then .ok noData
  else do
    let v ← readAt ld (p.1 * lh.cols + p.2)
    return if floatEqual v lh.noData then noData else v

/-- One cell of the loops data_raster.hpp:3481-3490 and 3492-3502: the first layer's value and the values of
the other layers. `skipNoData` is the branch for rasters without positions. -/
def cellOfLayers (h : Header) (noData : ℚ) (skipNoData : Bool) (first : ℚ) (row col : Int) :
    List (Header × Ptr ℚ) → Out (List ℚ)
  | [] => .ok []
  | l :: ls => do
    let v ← if skipNoData && floatEqual noData first then .ok noData
            else otherLayerValue h noData l.1 l.2 row col
    let rest ← cellOfLayers h noData skipNoData first row col ls
    return v :: rest

/-- data_raster.hpp:3430-3509 `ReadFromFiles` after the first layer was read (`r`, one layer): steps 3 and the
final header update, for at least one further layer. The readers' results are given (`layers`); a reader that
fails leaves no header and is not modelled. The loops are over cells with the layers inside instead of over
layers with the cells inside; every (cell, layer) slot is written once. -/
def addLayers (r : Raster) (layers : List (Header × Ptr ℚ)) : Out Raster := do
  let n : Int := layers.length + 1
  let skip := r.posData.isNone && r.posIdx.isNone
  let cells ← (List.range r.nCells.toNat).mapM (fun (i : Nat) => do
    let first ← readAt r.raster1 i
    let idx ← if skip then .ok (i : Int) else readAt r.posIdx i
    if r.hdr.cols = 0 then .ub
    else do
      let rest ← cellOfLayers r.hdr r.noData skip first (Int.tdiv idx r.hdr.cols) (Int.tmod idx r.hdr.cols) layers
      return first :: rest)
  return { r with raster1 := none, raster2 := some cells, nLyrs := n, is2d := true,
                  hdr := { r.hdr with layers := n } }

end Raster
end CCGL
