import Verif.Model.Types
import Verif.Model.Raster
/-!
# Model of GeoTIFF output and input (`src/data_raster.hpp:359-575, 585-828`)

Cell values are exact rationals together with the source cell type; conversions between C++ types are modelled as the
language defines them (usual arithmetic conversions in the range checks, truncation, modular wrap for integer sources,
undefined behaviour for floating sources out of the target range). GDAL is a store: a written file is read back as it
was written; whether driver, file creation and writing succeed is a parameter. GDAL 3.7 or newer is assumed for the
type Int8, `gdal64` says whether the 64-bit integer branches are compiled (GDAL 3.5 or newer).
-/
namespace CCGL
namespace Gtiff

/-- The target types with a range check, data_raster.hpp:606-766. -/
def isIntT : RDT → Bool
  | .unknown | .float | .double => false
  | _ => true

/-- The minimum of an integer type (0 for the others). -/
def lo : RDT → Int
  | .int8 => -2 ^ 7 | .int16 => -2 ^ 15 | .int32 => -2 ^ 31 | .int64 => -2 ^ 63 | _ => 0

/-- The maximum of an integer type (0 for the others). -/
def hi : RDT → Int
  | .uint8 => 2 ^ 8 - 1 | .int8 => 2 ^ 7 - 1 | .uint16 => 2 ^ 16 - 1 | .int16 => 2 ^ 15 - 1
  | .uint32 => 2 ^ 32 - 1 | .int32 => 2 ^ 31 - 1 | .uint64 => 2 ^ 64 - 1 | .int64 => 2 ^ 63 - 1 | _ => 0

/-- Conversion of a natural number to `float` (round to nearest, ties to even; 24 significant bits). -/
def fltOfNat (n : Nat) : Nat :=
  if n < 2 ^ 24 then n
  else
    let u := 2 ^ (Nat.log2 n - 23)
    let q := n / u
    let r := n % u
    (if u < 2 * r ∨ (u = 2 * r ∧ q % 2 = 1) then q + 1 else q) * u

/-- Conversion of an integer to `double`. -/
def dblOfInt (n : Int) : ℚ := if 0 ≤ n then (dblOfNat n.toNat : ℚ) else -(dblOfNat (-n).toNat : ℚ)

/-- `CVT_DBL(values[i])` (utils_math.h:142): floating types convert exactly. -/
def asDbl (src : RDT) (v : ℚ) : ℚ := if isIntT src then dblOfInt ⌊v⌋ else v

/-- The lower limit as it is compared with a cell of type `src` (`values[i] < INT8_MIN` ..., e.g. data_raster.hpp:643):
with an unsigned 32 or 64 bit operand a negative limit is converted to that unsigned type. -/
def loEff (src out : RDT) : ℚ :=
  if src = .uint32 ∧ (out = .int8 ∨ out = .int16 ∨ out = .int32) then (lo out + 2 ^ 32 : Int)
  else if src = .uint64 ∧ lo out < 0 then (lo out + 2 ^ 64 : Int)
  else (lo out : Int)

/-- The upper limit as it is compared with a cell of type `src`: it is converted to a floating cell type. -/
def hiEff (src out : RDT) : ℚ :=
  if src = .float then fltOfNat (hi out).toNat
  else if src = .double then dblOfNat (hi out).toNat
  else (hi out : Int)

/-- The range check of a cell, e.g. data_raster.hpp:620. -/
def illegal (src out : RDT) (v : ℚ) : Bool := decide (v < loEff src out) || decide (hiEff src out < v)

/-- `static_cast` to the integer type `out`: modular for an integer source, truncation for a floating source, which is
undefined when the truncated value is not in the range of `out`. -/
def castTo (src out : RDT) (v : ℚ) : Out Int :=
  if isIntT src then .ok (lo out + (⌊v⌋ - lo out) % (hi out - lo out + 1))
  else if lo out ≤ truncQ v ∧ truncQ v ≤ hi out then .ok (truncQ v) else .ub

/-- The new NoData value when the old one does not fit: the maximum of an unsigned, the minimum of a signed type
(data_raster.hpp:610, 633, 653, 672, 691, 710, 730, 749). -/
def fallback (out : RDT) : Int := if lo out < 0 then lo out else hi out

/-- `old_nodata < MIN || old_nodata > MAX` in `double`, e.g. data_raster.hpp:609. -/
def changes (out : RDT) (old : ℚ) : Bool := decide (old < dblOfInt (lo out)) || decide (dblOfInt (hi out) < old)

/-- One iteration of the conversion loop, e.g. data_raster.hpp:615-622: the new cell and whether it is illegal. -/
def convCell (src out : RDT) (old : ℚ) (v : ℚ) : Out (Int × Bool) :=
  if floatEqual (asDbl src v) old && changes out old then .ok (fallback out, false)
  else do
    let c ← castTo src out v
    return (c, illegal src out v)

/-- The conversion to an integer type (data_raster.hpp:606-766): new cells, number of illegal cells, new NoData. The
iterations are independent and the counter is a sum, so the order in which threads execute them does not matter. -/
def convInt (src out : RDT) (old : ℚ) (cells : List ℚ) : Out (List Int × Nat × ℚ) := do
  let rs ← cells.mapM (convCell src out old)
  return (rs.map (·.1), (rs.filter (·.2)).length, if changes out old then dblOfInt (fallback out) else old)

/-- A GeoTIFF file. -/
structure GFile where
  cols : Int
  rows : Int
  type : RDT
  data : List ℚ
  noData : ℚ
  /-- GDAL geotransform: left edge, cell width, top edge, (negative) cell height. -/
  left : ℚ
  dx : ℚ
  top : ℚ
  dy : ℚ
deriving Repr, DecidableEq

/-- The cells `values[0 .. n-1]`. -/
def readCells (values : Ptr ℚ) (n : Int) : Out (List ℚ) := (List.range n.toNat).mapM (fun (i : Nat) => readAt values i)

/-- The typed array handed to GDAL with its type and NoData value, or `none` for "not allowed"
(data_raster.hpp:588-787). `optType` is the type named in the options (`unknown` if none). Converting to `float` rounds by
`rnd`. `CPLMalloc` of zero bytes returns null. -/
def convert (gdal64 : Bool) (rnd : ℚ → ℚ) (src optType : RDT) (old : ℚ) (n : Int) (values : Ptr ℚ) :
    Out (Option (RDT × List ℚ × ℚ)) :=
  if optType = .unknown then
    if src = .unknown then .ok none
    else do
      let cells ← readCells values n
      return some (src, cells, old)
  else if optType = src ∧ optType ≠ .int8 then do
    let cells ← readCells values n
    return some (optType, cells, old)
  else if n ≤ 0 then .ok none
  else if (optType = .uint64 ∨ optType = .int64) ∧ !gdal64 then .ok none
  else do
    let cells ← readCells values n
    if isIntT optType then do
      let (cs, bad, nd) ← convInt src optType old cells
      if bad > 0 then return none else return some (optType, cs.map (fun (c : Int) => (c : ℚ)), nd)
    else if optType = .float then return some (optType, cells.map rnd, old)
    else return some (optType, cells, old)

/-- data_raster.hpp:585-828 `WriteSingleGeotiff`: the file, or `none` for the result false. `io` says whether the GDAL
calls succeed (creation fails for an empty grid). -/
def writeGeotiff (gdal64 io : Bool) (rnd : ℚ → ℚ) (src optType : RDT) (hdr : Header) (values : Ptr ℚ) : Out (Option GFile) := do
  let x ← convert gdal64 rnd src optType hdr.noData (hdr.cols * hdr.rows) values
  match x with
  | none => return none
  | some (ty, data, nd) =>
    if hdr.rows ≤ 0 ∨ hdr.cols ≤ 0 ∨ !io then return none
    else return (some (
      { cols := hdr.cols
        rows := hdr.rows
        type := ty
        data := data
        noData := nd
        left := hdr.xll - 1 / 2 * hdr.cellsize
        dx := hdr.cellsize
        top := hdr.yll + (hdr.rows - 1 / 2) * hdr.cellsize
        dy := -hdr.cellsize } : GFile))

/-- Minimum and maximum of the cells that are not NoData, as GDAL's `ComputeRasterMinMax` returns them (0, 0 if there
are none). -/
def minMax (f : GFile) : ℚ × ℚ :=
  let vs := f.data.filter (fun v => v ≠ f.noData)
  match vs with
  | [] => (0, 0)
  | v :: vs => (vs.foldl min v, vs.foldl max v)

/-- data_raster.hpp:359-575 `ReadRasterFileByGdal` of a file with a NoData value: header, values and type. A byte file
may be read as signed bytes (lines 401-405); the conversion of an unsigned byte to `signed char` wraps. The cell type of
the reading raster is assumed to hold the values. -/
def readGeotiff (f : GFile) : Header × List ℚ × RDT :=
  let signed := f.type = .uint8 ∧ (((minMax f).2 ≤ 127 ∧ (minMax f).1 < 0) ∨ ((minMax f).2 ≤ 127 ∧ 0 ≤ (minMax f).1 ∧ f.noData < 0))
  ({ rows := f.rows, cols := f.cols, cellsize := f.dx, xll := f.left + 1 / 2 * f.dx,
     yll := f.top + (f.rows - 1 / 2) * f.dy, noData := f.noData, layers := 1, cellsnum := f.cols * f.rows },
   if signed then f.data.map (fun v => if v > 127 then v - 256 else v) else f.data,
   if signed then .int8 else f.type)

end Gtiff
end CCGL
