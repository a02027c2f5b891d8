import Verif.Model.SubObj
/-!
# Specification of `SubsetPositions` objects without a heap

Every object is a value of its own: where its cells are, and the layers of values given to it last. A call is *allowed* when the reference
answers `some`. `refRun` is what a user of the class counts on: copies, destruction and data of one object never show in another object.
-/
namespace CCGL
namespace SubObj
namespace Spec

/-- Where the cells of a subset are: the box in the raster, and per cell the index in the raster, the local row and the local column. -/
structure Shape where
  srow : Int
  erow : Int
  scol : Int
  ecol : Int
  cells : List (Int × Int × Int)
deriving DecidableEq, Repr

/-- Rows of the box. -/
def Shape.nrows (s : Shape) : Int := s.erow - s.srow + 1
/-- Columns of the box. -/
def Shape.ncols (s : Shape) : Int := s.ecol - s.scol + 1
/-- Cells of the box. -/
def Shape.size (s : Shape) : Int := s.nrows * s.ncols
/-- Number of cells of the subset. -/
def Shape.count (s : Shape) : Nat := s.cells.length
/-- Row-major number of a cell in the box. -/
def Shape.index (s : Shape) (c : Int × Int × Int) : Int := c.2.1 * s.ncols + c.2.2

/-- At least one cell, all of them in the box, in row-major order, none twice. -/
def Shape.Ok (s : Shape) : Prop :=
  s.cells ≠ [] ∧ (∀ c ∈ s.cells, 0 ≤ c.2.1 ∧ c.2.1 < s.nrows ∧ 0 ≤ c.2.2 ∧ c.2.2 < s.ncols) ∧
    s.cells.Pairwise (fun a b => s.index a < s.index b)

instance (s : Shape) : Decidable s.Ok := by unfold Shape.Ok; infer_instance

/-- One layer as an array of the box: the value of each cell at its place, `nodata` elsewhere. -/
def Shape.full (s : Shape) (nodata : ℚ) (values : List ℚ) : List ℚ :=
  (List.range s.size.toNat).map (fun (k : Nat) => (((s.cells.map s.index).zip values).lookup (k : Int)).getD nodata)

/-- One object. `layers`: the layers given to it last, each with a value per cell. `room`: for how many layers the object has reserved
memory, if several layers have ever been given. `lender`: the object whose position arrays a shallow copy uses. -/
structure Ref where
  shape : Shape
  layers : Option (List (List ℚ))
  room : Option Nat
  lender : Option Nat
deriving DecidableEq, Repr

/-- All objects; numbers from `cnt` on are unused. -/
structure Refs where
  objs : Nat → Option Ref
  cnt : Nat

/-- No objects. -/
def Refs.start : Refs := ⟨fun _ => none, 0⟩

/-- A new object. -/
def Refs.push (R : Refs) (x : Ref) : Refs := ⟨fun k => if k = R.cnt then some x else R.objs k, R.cnt + 1⟩
/-- A change of one object. -/
def Refs.put (R : Refs) (i : Nat) (x : Option Ref) : Refs := { R with objs := fun k => if k = i then x else R.objs k }

/-- Whether `lyr` layers fit. -/
def Fits (room : Option Nat) (lyr : Int) : Prop := ∀ m ∈ room, lyr ≤ (m : Int)

instance (room : Option Nat) (lyr : Int) : Decidable (Fits room lyr) :=
  match room with
  | none => isTrue (by simp [Fits])
  | some m => decidable_of_iff (lyr ≤ (m : Int)) (by simp [Fits])

/-- The layers of an array of rows (one row of layer values per cell). -/
def ofRows (n lyr : Nat) (rows : List (List ℚ)) : List (List ℚ) :=
  (List.range lyr).map (fun j => (rows.take n).map (fun r => r.getD j 0))

/-- The layers of a stored file of `dbn` cells: all cells of the box in row-major order, or the cells of the subset. -/
def ofFile (s : Shape) (dbn : Int) (lyr : Nat) (db : List ℚ) : List (List ℚ) :=
  (List.range lyr).map (fun (j : Nat) =>
    if dbn = s.size then s.cells.map (fun c => db.getD (s.index c * lyr + j).toNat 0)
    else (List.range s.count).map (fun (k : Nat) => db.getD (k * lyr + j) 0))

/-- A new value for object `i`, with its room extended to `lyr` layers if it had none. -/
def Ref.give (x : Ref) (ls : List (List ℚ)) : Ref :=
  { x with layers := some ls, room := if 2 ≤ ls.length then some (x.room.getD ls.length) else x.room }

/-- One call: `none` if it is not allowed. -/
def refStep (R : Refs) : Op → Option (Refs × Obs)
  | .new _ _ _ _ => none
  | .build a b c d cells =>
    if (Shape.mk a b c d cells).Ok then some (R.push ⟨⟨a, b, c, d, cells⟩, none, none, none⟩, .done) else none
  | .copy s true => do
    let x ← R.objs s
    some (R.push { x with room := x.room.bind (fun _ => x.layers.map List.length), lender := none }, .done)
  | .copy s false => do
    let x ← R.objs s
    if x.layers = none then some (R.push { x with lender := some (x.lender.getD s) }, .done) else none
  | .destroy i => do
    let _ ← R.objs i
    if ∀ j < R.cnt, ∀ y ∈ R.objs j, y.lender ≠ some i then some (R.put i none, .done) else none
  | .setData i n data => do
    let x ← R.objs i
    if n ≠ (x.shape.count : Int) then some (R, .flag false)
    else match data with
      | none => some (R, .flag false)
      | some l =>
        if x.shape.count ≤ l.length then some (R.put i (some (x.give [l.take x.shape.count])), .flag true) else none
  | .set2DData i n lyr data => do
    let x ← R.objs i
    if n ≠ (x.shape.count : Int) then some (R, .flag false)
    else match data with
      | none => some (R, .flag false)
      | some l =>
        if x.shape.count ≤ l.length ∧ (∀ r ∈ l, lyr ≤ (r.length : Int)) ∧ 2 ≤ lyr ∧ Fits x.room lyr then
          some (R.put i (some (x.give (ofRows x.shape.count lyr.toNat l))), .flag true)
        else none
  | .readDb i file =>
    match file with
    | none => some (R, .flag false)
    | some (dbn, dbl, db) => do
      let x ← R.objs i
      if (x.shape.size ≠ dbn ∧ (x.shape.count : Int) ≠ dbn) ∨ dbl < 0 then some (R, .flag false)
      else if dbn * dbl ≤ (db.length : Int) ∧ 1 ≤ dbl ∧ (2 ≤ dbl → Fits x.room dbl) then
        some (R.put i (some (x.give (ofFile x.shape dbn dbl.toNat db))), .flag true)
      else none
  | .output i nodata => do
    let x ← R.objs i
    some (R, .arrays ((x.layers.getD []).map (x.shape.full nodata)))
  | .members i => do
    let x ← R.objs i
    some (R, .members true x.shape.count (match x.layers with | none => -1 | some ls => (ls.length : Int))
      x.shape.srow x.shape.erow x.shape.scol x.shape.ecol)
  | .positions i => do
    let x ← R.objs i
    some (R, .positions (x.shape.cells.map (·.1)) (x.shape.cells.map (·.2)) (x.shape.cells.map x.shape.index))

/-- A history of allowed calls and what the caller sees. -/
def refRun (R : Refs) : List Op → Option (Refs × List Obs)
  | [] => some (R, [])
  | op :: ops => do
    let x ← refStep R op
    let y ← refRun x.1 ops
    some (y.1, x.2 :: y.2)

end Spec
end SubObj
end CCGL
