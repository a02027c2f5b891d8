import Verif.Model.Coord
/-!
# Model of the objects delivered by the readers (data_raster.hpp:2288-2324, 3418-3619)

The decoding of the files is modelled in `Model/Asc.lean`, `Model/Geotiff.lean` and `Model/Gfs.lean`; here the decoded
header and data are given. Simplifications as in `Model/Raster.lean`.
-/
namespace CCGL
namespace Raster

/-- data_raster.hpp:1935-1939 `CheckDefaultValue`. -/
def checkDefault (dflt noData : ℚ) : ℚ := 
  if floatEqual dflt NODATA && !floatEqual noData NODATA then noData else dflt

/-- data_raster.hpp:2288-2324 `ConstructFromSingleFile` up to line 2318: the object after the reader delivered the header
and the data of a file (`n_cells_` is still -1). -/
def ofFile (h : Header) (data : List ℚ) (calcPos useMaskExt : Bool) (dflt : ℚ) : Raster :=
  { init false with
    hdr := h, raster1 := some data, noData := h.noData, nLyrs := 1, calcPos := calcPos,
    useMaskExt := useMaskExt, dflt := checkDefault dflt h.noData }

/-- data_raster.hpp:3522-3613 `ReadFromMongoDB` up to line 3613 for a stored file with NoData cells and several layers, read
into an object without header: the object before masking. `data` is given by cell. -/
def ofStore (h : Header) (data : List (List ℚ)) (calcPos useMaskExt : Bool) (dflt : ℚ) : Raster :=
  { init true with
    hdr := h, raster2 := some data, noData := h.noData, nLyrs := h.layers, nCells := h.rows * h.cols, calcPos := calcPos,
    useMaskExt := useMaskExt, dflt := checkDefault dflt h.noData }

/-- The same for a stored file with one layer. -/
def ofStore1 (h : Header) (data : List ℚ) (calcPos useMaskExt : Bool) (dflt : ℚ) : Raster :=
  { ofFile h data calcPos useMaskExt dflt with nCells := h.rows * h.cols }

/-- data_raster.hpp:3522-3611 `ReadFromMongoDB` with a mask whose valid cells are as many as the stored ones (3572-3612): the object has the header and the
numbers of the file (`data` by cell) and the positions of the mask, which it shares (`storePos`). -/
def ofDirect (h : Header) (data : List (List ℚ)) (ps : List (Int × Int)) (dflt : ℚ) : Raster :=
  { init (decide (h.layers ≠ 1)) with
    hdr := h, noData := h.noData, nLyrs := h.layers, nCells := ps.length, calcPos := true, useMaskExt := true,
    dflt := checkDefault dflt h.noData, storePos := false, posData := some ps,
    posIdx := some (ps.map (fun rc => rc.1 * h.cols + rc.2)),
    raster1 := if h.layers = 1 then some (data.map (fun c => c.headD 0)) else none,
    raster2 := if h.layers = 1 then none else some data }

end Raster
end CCGL
