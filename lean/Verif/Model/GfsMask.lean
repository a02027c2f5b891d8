import Verif.Model.GfsSubset
import Verif.Model.Mask
/-!
# Model of `ReadFromMongoDB` with a mask (`src/data_raster.hpp:3513-3619`)

The object read into is fresh and the mask has no subsets (copying these, lines 3567-3578, is not modelled here). The statistics of the
mask, of which line 3563 uses the number of valid cells, have not been computed before its last change.
-/
namespace CCGL
namespace Gfs

/-- data_raster.hpp:1623 `GetValidNumber()` of a raster whose statistics are up to date: the number of stored values of the first layer
that are not NoData (`C71_validNumber` relates this to the model of the statistics); the default value if there are no data. -/
def validNumber (m : Raster) : Int :=
  if !m.validData || !m.validLayer 1 then truncQ m.dflt
  else
    let vals := if m.is2d then (m.raster2.getD []).map (fun c => c.getD 0 0) else m.raster1.getD []
    ((vals.filter (fun v => !floatEqual v m.noData)).length : Int)

/-- data_raster.hpp:3583-3611 the data of the object in the direct case: the array read, or for a file with NoData cells the values
at the indexes of the positions. -/
def directData (inc : Bool) (cells : List ℚ) (n lyrs : Int) (pi : Ptr Int) : Out (Ptr ℚ × Ptr (List ℚ)) :=
  if lyrs = 1 then
    if inc then do
      let l ← (List.range n.toNat).mapM (fun (i : Nat) => do
        let j ← readAt pi i
        readAt (some cells) j)
      return ((alloc1 n (0 : ℚ)).map (fun _ => l), none)
    else .ok (some cells, none)
  else do
    let l ← (List.range n.toNat).mapM (fun (i : Nat) => do
      let j ← (if inc then readAt pi i else .ok (i : Int) : Out Int)
      (List.range lyrs.toNat).mapM (fun (k : Nat) => readAt (some cells) (j * lyrs + k)))
    return (none, some l)

/-- data_raster.hpp:3513-3619 `ReadFromMongoDB` with a mask into a fresh object: the object, or none for the result false, and the mask
afterwards. -/
def readFromMongoMask (rnd : ℚ → ℚ) (T : RDT) (ok1 : Nat → Bool) (rd : Bool) (ok2 : Nat → Bool) (st : Store) (name : Str)
    (calcPos : Bool) (mask : Raster) (useMaskExt : Bool) (dflt : ℚ) (opts : Opts) : Out (Option Raster × Raster) := do
  let x ← readGridfs rnd T ok1 rd ok2 st name initialHeader initialStr (inOpts opts)
  match x with
  | none => return (none, mask)
  | some (cells, h, s) => do
    let hdr ← headerOf h
    let inc := !stringMatch ((s kIncNodata).getD []) "FALSE".toList
    let full ← mulInt hdr.rows hdr.cols
    let nd ← conv rnd .double T hdr.noData
    if inc && decide (hdr.cellsnum ≠ full) then return (none, mask)
    else do
      let cp := calcPos || decide (hdr.cellsnum ≠ full)
      let base : Raster := { Raster.init (decide (hdr.layers ≠ 1)) with
        hdr := hdr, noData := nd, nLyrs := hdr.layers, nCells := hdr.cellsnum, calcPos := cp, useMaskExt := useMaskExt,
        dflt := Raster.checkDefault dflt nd }
      if cp && useMaskExt && decide (hdr.cellsnum = validNumber mask) then do
        let (m1, _, pd) ← mask.getPositionData
        let (m2, n, pi) ← m1.getPositionIdx
        if !inc && (pd.isNone || pi.isNone) then return (none, m2)
        else do
          let d ← directData inc cells n hdr.layers pi
          return (some { base with nCells := n, storePos := false, posData := pd, posIdx := pi, raster1 := d.1, raster2 := d.2 }, m2)
      else if !inc then return (none, mask)
      else do
        let r ← (if hdr.layers = 1 then .ok { base with raster1 := some cells }
          else do
            let rows ← interleaved cells hdr.cellsnum hdr.layers
            return { base with raster2 := some rows } : Out Raster)
        let res ← Raster.maskRaster r mask
        return (if res.code ≥ 0 then some res.ras else none, res.mask)

end Gfs
end CCGL
