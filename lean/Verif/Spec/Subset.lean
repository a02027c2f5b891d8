import Verif.Model.Subset
import Verif.Spec.Raster
/-!
# Specifications for subsets, in terms of the public fields of `SubsetPositions` and the cell accessors
-/
namespace CCGL.Spec

/-- The cell (row, col) of the raster is listed in the subset: its position relative to the subset's upper-left corner
is one of `local_pos_`. -/
def InSubset (s : Subset) (row col : Int) : Prop :=
  ∃ lp, s.localPos = some lp ∧ (row - s.srow, col - s.scol) ∈ lp

/-- The cell is valid (in the first layer) and holds `v`. -/
def ValidCell (r : Raster) (row col : Int) (v : ℚ) : Prop :=
  r.getValue row col 1 = .ok v ∧ floatEqual v r.noData = false

/-- The id of the subset of a value: the value (truncated to an integer), or what the table maps this to. -/
def subsetId (groups : List (Int × Int)) (v : ℚ) : Int :=
  match groups.find? (fun e => e.1 = truncQ v) with
  | some e => e.2
  | none => truncQ v

/-- Objects reached from a constructed raster by any history of raster operations and of building, rebuilding and
releasing subsets. -/
inductive SReach : RasterS → Prop
  | init (r : Raster) : Built r → SReach ⟨r, []⟩
  | raster {rs : RasterS} {r' : Raster} (op : Raster.Op) : SReach rs → rs.ras.step op = .ok r' → SReach ⟨r', rs.subs⟩
  | build {rs rs' : RasterS} {b : Bool} (g : List (Int × Int)) : SReach rs → buildSubSet rs g = .ok (rs', b) → SReach rs'
  | rebuild {rs rs' : RasterS} {b : Bool} (g : List (Int × Int)) :
      SReach rs → rebuildSubSet rs g = .ok (rs', b) → SReach rs'
  | release {rs : RasterS} : SReach rs → SReach (releaseSubset rs)

/-- Calls on the subsets of a raster. -/
inductive SubOp
  | build (g : List (Int × Int))
  | rebuild (g : List (Int × Int))
  | release

/-- One call. -/
def SubOp.run (rs : RasterS) : SubOp → Out RasterS
  | .build g => do let x ← buildSubSet rs g; return x.1
  | .rebuild g => do let x ← rebuildSubSet rs g; return x.1
  | .release => .ok (releaseSubset rs)

/-- A history of calls. -/
def runSub (rs : RasterS) : List SubOp → Out RasterS
  | [] => .ok rs
  | op :: ops => do let rs' ← op.run rs; runSub rs' ops

/-- The group table in force after a history: that of the first build after the last release, or of the last
rebuild if no release follows. -/
def tableAfter : Option (List (Int × Int)) → List SubOp → Option (List (Int × Int))
  | t, [] => t
  | none, .build g :: ops => tableAfter (some g) ops
  | some g0, .build _ :: ops => tableAfter (some g0) ops
  | _, .rebuild g :: ops => tableAfter (some g) ops
  | _, .release :: ops => tableAfter none ops

/-- Same cells and rectangle (data, layer number and usable flag may differ). -/
def SameCells (s s' : Subset) : Prop :=
  s'.nCells = s.nCells ∧ s'.srow = s.srow ∧ s'.erow = s.erow ∧ s'.scol = s.scol ∧ s'.ecol = s.ecol ∧
  s'.glob = s.glob ∧ s'.localPos = s.localPos ∧ s'.localIdx = s.localIdx

/-- The value a subset holds for its `j`-th cell and layer `l` (from 0), when it has `lyrs` layers. -/
def subsetCell (s : Subset) (lyrs j l : Int) : Out ℚ :=
  if lyrs = 1 then readAt s.data j else do
    let c ← readAt s.data2d j
    readAt (some c) l

/-- Every subset's values are taken out of the raster (as `OutputSubsetToMongoDB` with `out_origin` does) and loaded
back into the subset (as `SubsetPositions::ReadFromMongoDB` does). -/
def storeAll (rs : RasterS) (includeNoData : Bool) (dv : ℚ) : Out RasterS := do
  let subs ← rs.subs.mapM (fun (e : Int × Subset) => do
    let x ← prepareSubsetData rs.ras e.1 e.2 true includeNoData [] dv
    (match x with
      | none => .ok e
      | some y => do
        let z ← e.2.readDb (Int.tdiv y.2.1 y.2.2) y.2.2 y.1
        return (e.1, z.1) : Out (Int × Subset)))
  return ⟨rs.ras, subs⟩

/-- The last file given for subset `k` that holds exactly `n` values. -/
def lastFile (files : List (Int × (Int × Ptr ℚ))) (k n : Int) : Option (List ℚ) :=
  files.foldl (fun acc f => if f.1 = k ∧ f.2.1 = n then (match f.2.2 with | some l => some l | none => acc) else acc) none

/-- The value used where nothing better is known: the given default value, or the raster's own default value if -9999 (the
sign for "not given") is passed. -/
def fillValue (r : Raster) (dv : ℚ) : ℚ := if floatEqual dv (-9999) then r.dflt else dv

/-- The value a reclassification table gives to a key in layer `l` (from 0), `dflt` if it has none. -/
def tableValue (recls : List (Int × List ℚ)) (key l : Int) (dflt : ℚ) : ℚ :=
  match recls.find? (fun e => e.1 = key) with
  | some e => e.2.getD l.toNat dflt
  | none => dflt

/-- A reclassification table with `m` values for each key. -/
def TableOf (recls : List (Int × List ℚ)) (m : Int) : Prop :=
  recls ≠ [] ∧ 1 ≤ m ∧ ∀ e ∈ recls, (e.2.length : Int) = m

end CCGL.Spec
