import Verif.Spec.AppGfs
/-!
# Files in GridFS that hold some cells of a grid only (`INCLUDE_NODATA FALSE`)
-/
namespace CCGL
namespace App
namespace Spec
open Disk Gfs CCGL.Spec Main

/-- `ps` are the cells of the grid with the property `S`, row by row. -/
def InOrder (h : Header) (S : Int → Int → Prop) (ps : List (Int × Int)) : Prop :=
  (ps.map (fun rc => rc.1 * h.cols + rc.2)).Pairwise (· < ·) ∧ ∀ row col, (row, col) ∈ ps ↔ h.grid.CellInside row col ∧ S row col

/-- The bucket holds, under the name and the options, the values `v` of the cells `S` of the grid (header `h`, one layer), row by row and nothing
else: `ReadGridFsFile` finds them whenever the server answers. -/
structure HoldsCells (rnd : ℚ → ℚ) (st : Store) (name : Str) (opts : Opts) (h : Header) (v : Int → Int → ℚ) (S : Int → Int → Prop) : Prop where
  header : StorableHeader { h with layers := 1, cellsnum := h.rows * h.cols }
  nonempty : ∃ row col, h.grid.CellInside row col ∧ S row col
  reads : ∀ ok1 ok2, Answered ok1 → Answered ok2 → ∃ (ps : List (Int × Int)) (hm : HMap) (sm : SMap),
    readGridfs rnd .double ok1 true ok2 st name initialHeader initialStr opts = .ok (some (ps.map (fun rc => v rc.1 rc.2), hm, sm)) ∧
    HeaderIs hm { h with layers := 1, cellsnum := ps.length } ∧ sm "INCLUDE_NODATA".toList = some "FALSE".toList ∧ InOrder h S ps

/-- The options of the application for files without NoData cells. -/
def fewOpts (ty : RDT) : Opts := [("DATATYPE_OUT".toList, rdtToString ty.code), ("INCLUDE_NODATA".toList, "FALSE".toList)]

/-- As `BucketOut`, for files without NoData cells. -/
structure BucketFew (st : Store) (j : Job) (jd : JobDb) (h : Header) : Prop where
  key : GoodKey ⟨storedName j.out, outOpts .double jd.own (fewOpts j.type) false⟩
  header : StorableHeader { h with layers := 1, cellsnum := h.rows * h.cols }
  type : j.type ≠ .unknown ∧ j.type ≠ .uint64 ∧ j.type ≠ .int64
  rm : ∀ i, jd.rm i = true
  att : ∀ i, CleanAttempt (jd.att i)
  old : ∀ f ∈ st, Has f ⟨storedName j.out, fewOpts j.type⟩ → Has f ⟨storedName j.out, outOpts .double jd.own (fewOpts j.type) false⟩

/-- The cells of the grid that are not NoData. -/
def NotNoData (h : Header) (v : Int → Int → ℚ) (row col : Int) : Prop := floatEqual (v row col) h.noData = false

end Spec
end App
end CCGL
