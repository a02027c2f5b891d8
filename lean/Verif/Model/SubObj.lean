import Verif.Model.Subset
/-!
# Model of `SubsetPositions` objects: construction, copies, data, output, destruction

(src/data_raster.hpp:1083-1171, src/data_raster.cpp:210-334, the arrays of `BuildSubSet` src/data_raster.hpp:2384-2401.)

The objects hold addresses of blocks of a heap, so that aliasing, dangling pointers, double release and leaks can be expressed. Every array is
one block; a two-dimensional array (row pointers and pool, utils_array.h:380-425) is one block too. The arrays handed out by `Output` belong to
the caller and are returned as values. Values are rationals (`T` = double). Allocation never fails.
-/
namespace CCGL
namespace SubObj

/-- The kinds of arrays of a subset. -/
inductive Block where
  | ints (l : List Int)
  | pairs (l : List (Int × Int))
  | dbls (l : List ℚ)
  | rows (l : List (List ℚ))
deriving DecidableEq, Repr

/-- data_raster.hpp:1166-1170 the pointer members. -/
inductive Field where
  | lpos | lidx | glob | data | data2
deriving DecidableEq, Repr

/-- data_raster.hpp:1158-1170 the members of an object. -/
structure Obj where
  usable : Bool
  nCells : Int
  nLyrs : Int
  srow : Int
  erow : Int
  scol : Int
  ecol : Int
  alloc : Bool
  ptr : Field → Option Nat

/-- The heap (addresses from `next` on are unused) and the objects (numbers from `cnt` on are unused). -/
structure World where
  heap : Nat → Option Block
  next : Nat
  objs : Nat → Option Obj
  cnt : Nat

/-- The world before the first call. -/
def World.start : World := ⟨fun _ => none, 0, fun _ => none, 0⟩

/-- `f[a] = b`. -/
def upd {α β : Type} [DecidableEq α] (f : α → β) (a : α) (b : β) : α → β := fun x => if x = a then b else f x

/-- The members of an object; a use after `delete` is undefined. -/
def World.get (w : World) (i : Nat) : Out Obj :=
  match w.objs i with
  | some o => .ok o
  | none => .ub

/-- Assignment of the members of an object. -/
def World.set (w : World) (i : Nat) (o : Obj) : World := { w with objs := upd w.objs i (some o) }

/-- The block behind a pointer; null and dangling pointers are undefined. -/
def World.load (w : World) (a : Option Nat) : Out Block :=
  match a with
  | none => .ub
  | some k => match w.heap k with
    | some b => .ok b
    | none => .ub

/-- An array of integers. -/
def World.ints (w : World) (a : Option Nat) : Out (List Int) := do
  match ← w.load a with
  | .ints l => .ok l
  | _ => .ub

/-- An array of pairs of integers. -/
def World.pairs (w : World) (a : Option Nat) : Out (List (Int × Int)) := do
  match ← w.load a with
  | .pairs l => .ok l
  | _ => .ub

/-- An array of doubles. -/
def World.dbls (w : World) (a : Option Nat) : Out (List ℚ) := do
  match ← w.load a with
  | .dbls l => .ok l
  | _ => .ub

/-- A two-dimensional array of doubles. -/
def World.rows (w : World) (a : Option Nat) : Out (List (List ℚ)) := do
  match ← w.load a with
  | .rows l => .ok l
  | _ => .ub

/-- Writing the block at an address. -/
def World.store (w : World) (a : Nat) (b : Block) : World := { w with heap := upd w.heap a (some b) }

/-- `new`: the block is put at a fresh address, which is stored in member `f` of object `i`. -/
def World.place (w : World) (i : Nat) (f : Field) (b : Block) : Out World := do
  let o ← w.get i
  .ok { w with heap := upd w.heap w.next (some b), next := w.next + 1,
               objs := upd w.objs i (some { o with ptr := upd o.ptr f (some w.next) }) }

/-- Number of elements of the first dimension. -/
def Block.size : Block → Nat
  | .ints l => l.length
  | .pairs l => l.length
  | .dbls l => l.length
  | .rows l => l.length

/-- Whether the array is two-dimensional. -/
def Block.two : Block → Bool
  | .pairs _ => true
  | .rows _ => true
  | _ => false

/-- utils_array.h:460-478 `Release1DArray`, `Release2DArray` (which reads the first row pointer) on member `f` of object `i`. -/
def World.release (w : World) (i : Nat) (f : Field) : Out World := do
  let o ← w.get i
  match o.ptr f with
  | none => .ok w
  | some a => do
    let b ← w.load (some a)
    if b.two && b.size == 0 then .ub
    else .ok { w with heap := upd w.heap a none, objs := upd w.objs i (some { o with ptr := upd o.ptr f none }) }

/-- data_raster.cpp:210-237 the members set by `Initialization` and the constructor from a box. -/
def fresh (srow erow scol ecol : Int) : Obj :=
  { usable := true, nCells := 0, nLyrs := -1, srow := srow, erow := erow, scol := scol, ecol := ecol,
    alloc := false, ptr := fun _ => none }

/-- `new SubsetPositions(srow, erow, scol, ecol)`. -/
def create (w : World) (o : Obj) : World := { w with objs := upd w.objs w.cnt (some o), cnt := w.cnt + 1 }

/-- data_raster.hpp:2360-2401 the object of one group after `BuildSubSet`: box, cell count, `global_`, `local_pos_`, `local_posidx_`, `alloc_`.
`cells` lists for each cell its index in the raster and its local row and column (`BuildSubSet` itself is in Model/Subset.lean). -/
def build (w : World) (srow erow scol ecol : Int) (cells : List (Int × Int × Int)) : Out World := do
  let i := w.cnt
  let w := create w { fresh srow erow scol ecol with nCells := cells.length, alloc := true }
  let w ← w.place i .glob (.ints (cells.map (·.1)))
  let w ← w.place i .lpos (.pairs (cells.map (·.2)))
  w.place i .lidx (.ints (cells.map (fun c => c.2.1 * (ecol - scol + 1) + c.2.2)))

/-- utils_array.h:357-378 `Initialize1DArray(n, data, init_data)`: the new array; without a source it stays indeterminate. -/
def copy1 {α : Type} (n : Int) (l : List α) : Out (List α) :=
  if n < 0 then .exn else if n ≤ (l.length : Int) then .ok (l.take n.toNat) else .ub

/-- utils_array.h:413-425 `Initialize2DArray(n, 2, data, init_data)` for the pairs: `init_data[0][0]` is read first. -/
def copyPairs (n : Int) (l : List (Int × Int)) : Out (List (Int × Int)) :=
  if l = [] then .ub else copy1 n l

/-- utils_array.h:413-425 `Initialize2DArray(n, m, data, init_data)`: `init_data[0][0]` is read first. -/
def copyRows (n m : Int) (l : List (List ℚ)) : Out (List (List ℚ)) := do
  let r0 ← readAt (some l) 0
  let _ ← readAt (some r0) 0
  let rs ← copy1 n l
  rs.mapM (copy1 m)

/-- data_raster.cpp:239-268 the copy constructor. -/
def copy (w : World) (src : Nat) (deep : Bool) : Out World := do
  let s ← w.get src
  let i := w.cnt
  if deep then do
    let w := create w { s with alloc := true, ptr := fun _ => none }
    let g ← w.ints (s.ptr .glob)
    let g ← copy1 s.nCells g
    let w ← w.place i .glob (.ints g)
    let p ← w.pairs (s.ptr .lpos)
    let p ← copyPairs s.nCells p
    let w ← w.place i .lpos (.pairs p)
    let x ← w.ints (s.ptr .lidx)
    let x ← copy1 s.nCells x
    let w ← w.place i .lidx (.ints x)
    let w ← (match s.ptr .data with
      | none => .ok w
      | some a => do
        let d ← w.dbls (some a)
        let d ← copy1 s.nCells d
        w.place i .data (.dbls d) : Out World)
    match s.ptr .data2 with
    | none => .ok w
    | some a => do
      let d ← w.rows (some a)
      let d ← copyRows s.nCells s.nLyrs d
      w.place i .data2 (.rows d)
  else .ok (create w { s with alloc := false })

/-- data_raster.cpp:270-287 the destructor. -/
def destroy (w : World) (i : Nat) : Out World := do
  let o ← w.get i
  let w ← (if o.alloc then w.release i .lpos else .ok w : Out World)
  let w ← (if o.alloc then w.release i .lidx else .ok w : Out World)
  let w ← (if o.alloc then w.release i .glob else .ok w : Out World)
  let w ← w.release i .data
  let w ← w.release i .data2
  .ok { w with objs := upd w.objs i none }

/-- The loop `for (i < n) dst[i] = src[i]`. -/
def overwrite {α : Type} (n : Int) (dst src : List α) : Out (List α) :=
  if n ≤ (dst.length : Int) ∧ n ≤ (src.length : Int) then .ok (src.take n.toNat ++ dst.drop n.toNat) else .ub

/-- The loop `for (i < n) for (j < m) dst[i][j] = src[i][j]`. -/
def overwrite2 (n m : Int) (dst src : List (List ℚ)) : Out (List (List ℚ)) := do
  let rs ← (List.range n.toNat).mapM (fun (i : Nat) => do
    let d ← readAt (some dst) i
    let s ← readAt (some src) i
    overwrite m d s)
  overwrite n dst rs

/-- data_raster.hpp:1098-1110 `SetData(n, data)`. -/
def setData (w : World) (i : Nat) (n : Int) (data : Ptr ℚ) : Out (World × Bool) := do
  let o ← w.get i
  if n ≠ o.nCells then .ok (w, false)
  else match data with
    | none => .ok (w, false)
    | some l => do
      let w := w.set i { o with nLyrs := 1, usable := true }
      match o.ptr .data with
      | some a => do
        let old ← w.dbls (some a)
        let d ← overwrite o.nCells old l
        .ok (w.store a (.dbls d), true)
      | none => do
        let d ← copy1 o.nCells l
        let w ← w.place i .data (.dbls d)
        .ok (w, true)

/-- data_raster.hpp:1112-1128 `Set2DData(n, lyr, data2d)`. -/
def set2DData (w : World) (i : Nat) (n lyr : Int) (data : Ptr (List ℚ)) : Out (World × Bool) := do
  let o ← w.get i
  if n ≠ o.nCells then .ok (w, false)
  else match data with
    | none => .ok (w, false)
    | some l => do
      let w := w.set i { o with nLyrs := lyr, usable := true }
      match o.ptr .data2 with
      | some a => do
        let old ← w.rows (some a)
        let d ← overwrite2 o.nCells lyr old l
        .ok (w.store a (.rows d), true)
      | none => do
        let d ← copyRows o.nCells lyr l
        let w ← w.place i .data2 (.rows d)
        .ok (w, true)

/-- data_raster.cpp:310-316 the cells of a full-size file of one layer. -/
def pickFull (n : Int) (lidx : List Int) (db : List ℚ) : Out (List ℚ) :=
  (List.range n.toNat).mapM (fun (i : Nat) => do
    let j ← readAt (some lidx) i
    readAt (some db) j)

/-- data_raster.cpp:320-329 the cells of a file of several layers. -/
def pickLayers (n m : Int) (isFull : Bool) (lidx : List Int) (db : List ℚ) : Out (List (List ℚ)) :=
  (List.range n.toNat).mapM (fun (i : Nat) => (List.range m.toNat).mapM (fun (l : Nat) =>
    if isFull then do
      let j ← readAt (some lidx) i
      readAt (some db) (j * m + l)
    else readAt (some db) (i * m + l)))

/-- data_raster.cpp:310-312 the array `data_` is allocated if there is none. -/
def ensure1 (w : World) (i : Nat) (o : Obj) : Out World :=
  match o.ptr .data with
  | some _ => .ok w
  | none => if o.nCells ≤ 0 then .ok w else w.place i .data (.dbls (List.replicate o.nCells.toNat NODATA))

/-- data_raster.cpp:319-321 the array `data2d_` is allocated if there is none. -/
def ensure2 (w : World) (i : Nat) (o : Obj) (dbl : Int) : Out World :=
  match o.ptr .data2 with
  | some _ => .ok w
  | none => if o.nCells < 0 then .exn
      else w.place i .data2 (.rows (List.replicate o.nCells.toNat (List.replicate dbl.toNat NODATA)))

/-- data_raster.cpp:289-333 `ReadFromMongoDB`; `file` is what `ReadGridFsFile` finds (:293): nothing, or the number of cells and of layers
of the stored file and its values. -/
def readDb (w : World) (i : Nat) (file : Option (Int × Int × List ℚ)) : Out (World × Bool) :=
  match file with
  | none => .ok (w, false)
  | some (dbn, dbl, db) => do
    let o ← w.get i
    let nfull := (o.erow - o.srow + 1) * (o.ecol - o.scol + 1)
    if (nfull ≠ dbn ∧ o.nCells ≠ dbn) ∨ dbl < 0 then .ok (w, false)
    else do
      let w := w.set i { o with nLyrs := dbl }
      if dbl = 1 then
        if o.nCells = dbn then setData w i dbn (some db)
        else do
          let w ← ensure1 w i o
          let x ← w.ints (o.ptr .lidx)
          let vals ← pickFull o.nCells x db
          let o1 ← w.get i
          match o1.ptr .data with
          | none => .ub
          | some a => do
            let old ← w.dbls (some a)
            let d ← overwrite o.nCells old vals
            .ok ((w.store a (.dbls d)).set i { o1 with usable := true }, true)
      else do
        let w ← ensure2 w i o dbl
        let x ← w.ints (o.ptr .lidx)
        let vals ← pickLayers o.nCells dbl (decide (nfull = dbn)) x db
        let o1 ← w.get i
        match o1.ptr .data2 with
        | none => .ub
        | some a => do
          let old ← w.rows (some a)
          let d ← overwrite2 o.nCells dbl old vals
          .ok ((w.store a (.rows d)).set i { o1 with usable := true }, true)

/-- data_raster.hpp:1143-1153 one full-size array of `Output`. -/
def layer (w : World) (o : Obj) (nodata : ℚ) (ilyr : Nat) : Out (List ℚ) := do
  let fullsize := (o.erow - o.srow + 1) * (o.ecol - o.scol + 1)
  let items ← (List.range o.nCells.toNat).mapM (fun (vi : Nat) => do
    let x ← w.ints (o.ptr .lidx)
    let j ← readAt (some x) vi
    if o.nLyrs > 1 ∧ o.ptr .data2 ≠ none then do
      let d ← w.rows (o.ptr .data2)
      let r ← readAt (some d) vi
      let v ← readAt (some r) ilyr
      .ok [(j, v)]
    else if o.nLyrs = 1 ∧ o.ptr .data ≠ none then do
      let d ← w.dbls (o.ptr .data)
      let v ← readAt (some d) vi
      .ok [(j, v)]
    else .ok [])
  let t ← scatter (alloc1 fullsize nodata) items.flatten
  .ok (t.getD [])

/-- data_raster.hpp:1135-1156 `Output(nodata, fulldata)`: the arrays appended to the vector. -/
def output (w : World) (i : Nat) (nodata : ℚ) : Out (List (List ℚ)) := do
  let o ← w.get i
  if o.ptr .data = none ∧ o.ptr .data2 = none then .ok []
  else (List.range o.nLyrs.toNat).mapM (layer w o nodata)

/-- The calls on objects; objects are numbered in the order of their construction. -/
inductive Op where
  | new (srow erow scol ecol : Int)
  | build (srow erow scol ecol : Int) (cells : List (Int × Int × Int))
  | copy (src : Nat) (deep : Bool)
  | destroy (i : Nat)
  | setData (i : Nat) (n : Int) (data : Ptr ℚ)
  | set2DData (i : Nat) (n lyr : Int) (data : Ptr (List ℚ))
  | readDb (i : Nat) (file : Option (Int × Int × List ℚ))
  | output (i : Nat) (nodata : ℚ)
  | members (i : Nat)
  | positions (i : Nat)
deriving DecidableEq, Repr

/-- What the caller of an operation sees. -/
inductive Obs where
  | done
  | flag (b : Bool)
  | arrays (l : List (List ℚ))
  | members (usable : Bool) (nCells nLyrs srow erow scol ecol : Int)
  | positions (glob : List Int) (lpos : List (Int × Int)) (lidx : List Int)
deriving DecidableEq, Repr

/-- One call. `members` and `positions` read the public members (data_raster.hpp:1158-1168). -/
def step (w : World) : Op → Out (World × Obs)
  | .new a b c d => .ok (create w (fresh a b c d), .done)
  | .build a b c d cells => do
    let w ← build w a b c d cells
    .ok (w, .done)
  | .copy s deep => do
    let w ← copy w s deep
    .ok (w, .done)
  | .destroy i => do
    let w ← destroy w i
    .ok (w, .done)
  | .setData i n d => do
    let x ← setData w i n d
    .ok (x.1, .flag x.2)
  | .set2DData i n l d => do
    let x ← set2DData w i n l d
    .ok (x.1, .flag x.2)
  | .readDb i f => do
    let x ← readDb w i f
    .ok (x.1, .flag x.2)
  | .output i v => do
    let x ← output w i v
    .ok (w, .arrays x)
  | .members i => do
    let o ← w.get i
    .ok (w, .members o.usable o.nCells o.nLyrs o.srow o.erow o.scol o.ecol)
  | .positions i => do
    let o ← w.get i
    let g ← w.ints (o.ptr .glob)
    let p ← w.pairs (o.ptr .lpos)
    let x ← w.ints (o.ptr .lidx)
    .ok (w, .positions g p x)

/-- A history of calls and what the caller sees. -/
def run (w : World) : List Op → Out (World × List Obs)
  | [] => .ok (w, [])
  | op :: ops => do
    let x ← step w op
    let y ← run x.1 ops
    .ok (y.1, x.2 :: y.2)

end SubObj
end CCGL
