import Verif.Spec.MaskGeo
/-!
# Specifications for the cell storage of rasters
-/
namespace CCGL.Spec
open CCGL.Raster

/-- Rasters a program gets by constructing from an in-memory array of the declared size, by reading one file, one
file per layer or one stored file with NoData cells (the decoded header and data are arbitrary, of the declared size), without
mask or with a mask on the same grid of cells (which itself is such a raster), by reading a stored file that holds the values of the valid
cells of a mask (`direct`; the mask has as many rows and columns as the stored header says), and then calling any of the modelled operations any number of times. -/
inductive Built : Raster → Prop
  | grid1 (data : List ℚ) (rows cols : Nat) (nodata dx xll yll : ℚ) (hlen : data.length = cols * rows) :
      Built (ofArray1 (some data) cols rows nodata dx xll yll)
  | grid2 (data : List (List ℚ)) (rows cols lyrs : Nat) (nodata dx xll yll : ℚ)
      (hlen : data.length = cols * rows) (hl : 1 ≤ lyrs) (hrow : ∀ c ∈ data, c.length = lyrs) :
      Built (ofArray2 (some data) cols rows lyrs nodata dx xll yll)
  | file (h : Header) (data : List ℚ) (calcPos useMaskExt : Bool) (dflt : ℚ) {r' : Raster} {code : Int}
      (hr : 0 ≤ h.rows) (hc : 0 ≤ h.cols) (hl : h.layers = 1) (hlen : (data.length : Int) = h.rows * h.cols)
      (e : (ofFile h data calcPos useMaskExt dflt).calcNoMask = .ok (r', code)) : Built r'
  | store (h : Header) (data : List (List ℚ)) (calcPos useMaskExt : Bool) (dflt : ℚ) {r' : Raster} {code : Int}
      (hr : 0 ≤ h.rows) (hc : 0 ≤ h.cols) (hl : 1 ≤ h.layers) (hlen : (data.length : Int) = h.rows * h.cols)
      (hrow : ∀ c ∈ data, (c.length : Int) = h.layers)
      (e : (ofStore h data calcPos useMaskExt dflt).calcNoMask = .ok (r', code)) : Built r'
  | files {r r' : Raster} (layers : List (Header × Ptr ℚ)) : Built r → r.is2d = false → 0 < r.nCells →
      r.addLayers layers = .ok r' → Built r'
  | masked {r mask : Raster} {res : MaskRes} : ReadGrid r → Built mask → CleanMask mask →
      CommonGrid r.hdr mask.hdr → Maskable r mask → maskRaster r mask = .ok res → 0 ≤ res.code → Built res.ras
  | direct {mask m : Raster} {n : Int} {ps : List (Int × Int)} (h : Header) (data : List (List ℚ)) (dflt : ℚ) : Built mask →
      mask.getPositionData = .ok (m, n, some ps) → 0 < n → h.rows = m.hdr.rows → h.cols = m.hdr.cols → h.cellsnum = n → 1 ≤ h.layers →
      (data.length : Int) = n → (∀ c ∈ data, (c.length : Int) = h.layers) → Built (ofDirect h data ps dflt)
  | step {r r' : Raster} (op : Op) : Built r → r.step op = .ok r' → Built r'

/-- One call of `SetValue`. -/
structure Write where
  row : Int
  col : Int
  lyr : Int
  v : ℚ

/-- The value of the last write addressed to a cell and layer. -/
def lastWrite (ws : List Write) (row col lyr : Int) : Option ℚ :=
  ((ws.filter (fun w => w.row = row ∧ w.col = col ∧ w.lyr = lyr)).getLast?).map (·.v)

end CCGL.Spec
