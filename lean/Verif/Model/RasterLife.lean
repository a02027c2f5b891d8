import Verif.Model.Out
/-!
# Ownership of the arrays of `clsRasterData` objects and their subsets (`src/data_raster.hpp`, `src/data_raster.cpp`)

Which arrays the objects allocate, share and release. The heap maps addresses to blocks; the rasters of a program are numbered and hold
addresses. What the numbers in the arrays decide (how many cells are valid, whether a mask fits, whether a file can be read) is a
parameter of each operation (`Sees`), so a theorem about all histories covers all data. Simplifications: a two-dimensional array (row pointers
and pool, utils_array.h:380-411) is one block with its number of rows; `new` does not fail (see C40); element bounds are not
looked at (see C05); `stats_2d_` holds its six arrays or null pointers; an object that has been deleted must not be used (`ub`). The arrays given
to the constructors from memory are new arrays that the program leaves to the object.
-/
namespace CCGL
namespace Life

abbrev Addr := Nat
abbrev Id := Nat

/-- A block: a one-dimensional array, or a two-dimensional one with this number of rows. -/
inductive Blk where
  | one
  | two (rows : Nat)
deriving DecidableEq, Repr

/-- data_raster.hpp:1166-1170 the arrays of a subset. -/
inductive SF where
  | glob | lpos | lidx | data | data2
deriving DecidableEq, Repr

/-- data_raster.hpp:1972-1990 the arrays of a raster: `raster_`, `raster_2d_`, `pos_data_`, `pos_idx_`, the six arrays of `stats_2d_`, and those of
the subsets in `subset_`. -/
inductive Field where
  | ras | ras2 | pos | idx
  | stat (n : Fin 6)
  | sub (k : Int) (f : SF)
deriving DecidableEq, Repr

/-- Is the array two-dimensional? -/
def Field.is2 : Field → Bool
  | .ras2 | .pos | .sub _ .lpos | .sub _ .data2 => true
  | _ => false

/-- Is it one of the two position arrays, which may belong to another object? -/
def Field.isPos : Field → Bool
  | .pos | .idx => true
  | _ => false

/-- data_raster.hpp:1158-1165 a subset: `n_cells` and `alloc_`. -/
structure Sub where
  cells : Nat
  alloc : Bool
deriving DecidableEq, Repr

/-- data_raster.hpp:1953-2001 a raster: its pointers, `is_2draster`, `calc_pos_`, `store_pos_`, `use_mask_ext_`, `stats_calculated_`, whether `stats_2d_` has
entries, `n_cells_`, `mask_`, and the keys of `subset_`. -/
structure Obj where
  ptr : Field → Option Addr
  is2d : Bool
  calcPos : Bool
  store : Bool
  ext : Bool
  stats : Bool
  statMap : Bool
  cells : Nat
  mask : Option Id
  subs : List (Int × Sub)

structure World where
  heap : Addr → Option Blk
  next : Addr
  objs : Id → Option Obj

/-- What the data decide in one call: the number of valid cells of the raster and of the mask if positions have to be calculated, the number of mask
cells on the raster (`masked`), whether all of them are valid (`exact`), whether they fill the extent of the mask (`within`), the number of cells
kept (`kept`), the number of cells of the cropped grid (`full`) and whether it is the old one (`same`), the groups of a new subset map and the
number of cells left in each subset. -/
structure Sees where
  valid : Nat
  maskValid : Nat
  masked : Nat
  exact : Bool
  within : Bool
  kept : Nat
  full : Nat
  same : Bool
  groups : List (Int × Nat)
  left : Int → Nat

/-! ## Heap -/

/-- A function changed at one point. -/
def upd {α β : Type} [DecidableEq α] (f : α → β) (a : α) (b : β) : α → β := fun x => if x = a then b else f x

def World.set (w : World) (i : Id) (o : Obj) : World := { w with objs := upd w.objs i (some o) }

/-- The object behind a pointer. -/
def World.get (w : World) (i : Id) : Out Obj :=
  match w.objs i with
  | some o => .ok o
  | none => .ub

/-- Assignments to members of an object that is there. -/
def modify (w : World) (i : Id) (g : Obj → Obj) : Out World := do
  let o ← w.get i
  return w.set i (g o)

def Obj.setPtr (o : Obj) (f : Field) (a : Option Addr) : Obj := { o with ptr := upd o.ptr f a }

/-- utils_array.h:460-476 `Release1DArray`, `Release2DArray` of a member: an array of the wrong kind, one released before, and a two-dimensional array
without rows are undefined. -/
def free (w : World) (i : Id) (f : Field) : Out World := do
  let o ← w.get i
  match o.ptr f with
  | none => return w
  | some a =>
    match w.heap a with
    | some .one => if f.is2 then .ub else return ({ w with heap := upd w.heap a none } : World).set i (o.setPtr f none)
    | some (.two n) => if !f.is2 || n = 0 then .ub else return ({ w with heap := upd w.heap a none } : World).set i (o.setPtr f none)
    | none => .ub

/-- A new block assigned to a member, whatever it was before. -/
def put (w : World) (i : Id) (f : Field) (b : Blk) : Out World := do
  let o ← w.get i
  return ({ w with heap := upd w.heap w.next (some b), next := w.next + 1 } : World).set i (o.setPtr f (some w.next))

/-- A new block that no member points to. -/
def leak (w : World) (b : Blk) : World := { w with heap := upd w.heap w.next (some b), next := w.next + 1 }

/-- utils_array.h:330-355 `Initialize1DArray(n, member, value)`. -/
def alloc1 (w : World) (i : Id) (f : Field) (n : Nat) : Out World := do
  let o ← w.get i
  if (o.ptr f).isSome || n = 0 then return w else put w i f .one

/-- utils_array.h:357-378 `Initialize1DArray(n, member, array)`. -/
def alloc1d (w : World) (i : Id) (f : Field) : Out World := do
  let o ← w.get i
  if (o.ptr f).isSome then return w else put w i f .one

/-- utils_array.h:380-425 `Initialize2DArray(n, _, member, value)`. -/
def alloc2 (w : World) (i : Id) (f : Field) (n : Nat) : Out World := do
  let o ← w.get i
  if (o.ptr f).isSome then return w else put w i f (.two n)

/-- Access to the array a member points to. -/
def touch (w : World) (i : Id) (f : Field) : Out Unit := do
  let o ← w.get i
  match o.ptr f with
  | none => .ub
  | some a => if (w.heap a).isSome then return () else .ub

/-- Access to the array a member points to, if the member is not null. -/
def touchOpt (w : World) (i : Id) (f : Field) : Out Unit := do
  let o ← w.get i
  match o.ptr f with
  | none => return ()
  | some a => if (w.heap a).isSome then return () else .ub

/-! ## Subsets -/

/-- data_raster.cpp:270-285 the destructor of a subset. -/
def freeSub (w : World) (i : Id) (k : Int) (s : Sub) : Out World := do
  let w ← bif s.alloc then do
      let w ← free w i (.sub k .lpos)
      let w ← free w i (.sub k .lidx)
      free w i (.sub k .glob)
    else modify w i (fun o => ((o.setPtr (.sub k .lpos) none).setPtr (.sub k .lidx) none).setPtr (.sub k .glob) none)
  let w ← free w i (.sub k .data)
  free w i (.sub k .data2)

/-- The loop of `ReleaseSubset`. -/
def freeSubs (w : World) (i : Id) : List (Int × Sub) → Out World
  | [] => .ok w
  | e :: l => do
    let w ← freeSub w i e.1 e.2
    freeSubs w i l

/-- data_raster.hpp:2401-2410 `ReleaseSubset`. -/
def releaseSubset (w : World) (i : Id) : Out World := do
  let o ← w.get i
  let w ← freeSubs w i o.subs
  modify w i (fun o => { o with subs := [] })

/-- data_raster.cpp:239-256 the deep copy of subset `k` of raster `m` as subset `k` of raster `i`. -/
def copySub (w : World) (m i : Id) (k : Int) (s : Sub) : Out World := do
  touchOpt w m (.sub k .glob)
  let w ← alloc1d w i (.sub k .glob)
  touch w m (.sub k .lpos)
  let w ← alloc2 w i (.sub k .lpos) s.cells
  touchOpt w m (.sub k .lidx)
  let w ← alloc1d w i (.sub k .lidx)
  let o ← w.get m
  let w ← bif (o.ptr (.sub k .data)).isSome then do
      touch w m (.sub k .data)
      alloc1d w i (.sub k .data)
    else .ok w
  if (o.ptr (.sub k .data2)).isSome then do
    touch w m (.sub k .data2)
    alloc2 w i (.sub k .data2) s.cells
  else .ok w

/-- data_raster.hpp:3972-3981, 3706-3716 the subsets of raster `m` copied to raster `i`, which has none. -/
def copySubs (w : World) (m i : Id) : List (Int × Sub) → Out World
  | [] => .ok w
  | e :: l => do
    let w ← copySub w m i e.1 e.2
    let w ← modify w i (fun o => { o with subs := o.subs ++ [(e.1, { e.2 with alloc := true })] })
    copySubs w m i l

/-! ## Positions -/

/-- data_raster.hpp:1765-1771 `ValidateRasterData`. -/
def Obj.valid (o : Obj) : Bool := if o.is2d then (o.ptr .ras2).isSome else (o.ptr .ras).isSome

/-- data_raster.hpp:3801-3869 `CalculateValidPositionsFromGridData` with `n` valid cells. -/
def calcPositions (w : World) (i : Id) (n : Nat) : Out World := do
  let o ← w.get i
  let w ← bif o.is2d then do
      touch w i .ras2
      let w ← modify w i (fun o => { o with cells := n })
      let w ← free w i .ras2
      alloc2 w i .ras2 n
    else do
      touch w i .ras
      let w ← modify w i (fun o => { o with cells := n })
      let w ← free w i .ras
      alloc1 w i .ras n
  let w ← alloc2 w i .pos n
  let w ← alloc1 w i .idx n
  modify w i (fun o => { o with store := true, calcPos := true })

/-- data_raster.hpp:2640-2656 `GetRasterPositionData` for the rows and columns (`f = .pos`), 2658-2674 for the indexes (`f = .idx`). -/
def getPositions (w : World) (i : Id) (f : Field) (n : Nat) : Out World := do
  let o ← w.get i
  if (o.ptr f).isSome || !o.valid then return w else calcPositions w i n

/-- data_raster.hpp:4111-4118 the positions of the mask `m`, and its number of cells, become those of raster `i`. -/
def share (w : World) (m i : Id) (n : Nat) : Out World := do
  let w ← getPositions w m .pos n
  let om ← w.get m
  let w ← modify w i (fun o => o.setPtr .pos (om.ptr .pos))
  let w ← getPositions w m .idx n
  let om ← w.get m
  modify w i (fun o => { o.setPtr .idx (om.ptr .idx) with cells := om.cells })

/-- Access to all cells and positions of a raster. -/
def touchCells (w : World) (i : Id) : Out Unit := do
  touchOpt w i .ras
  touchOpt w i .ras2
  touchOpt w i .pos
  touchOpt w i .idx

/-- data_raster.hpp:4183-4251 the copied subsets after masking: a subset without cells is deleted, the others are recalculated if `re`. The
positions of the mask are those at address `vp`. -/
def trimSubs (w : World) (i : Id) (vp : Addr) (left : Int → Nat) (re : Bool) : List (Int × Sub) → Out (World × List (Int × Sub))
  | [] => .ok (w, [])
  | e :: l => do
    touch w i (.sub e.1 .glob)
    if (w.heap vp).isNone then .ub
    else do
      touchCells w i
      if left e.1 = 0 then do
        let w ← freeSub w i e.1 e.2
        trimSubs w i vp left re l
      else do
        let w ← bif re then do
            let w ← bif e.2.alloc then do
                let w ← free w i (.sub e.1 .glob)
                let w ← free w i (.sub e.1 .lpos)
                free w i (.sub e.1 .lidx)
              else .ok w
            let w ← modify w i (fun o => ((o.setPtr (.sub e.1 .glob) none).setPtr (.sub e.1 .lpos) none).setPtr (.sub e.1 .lidx) none)
            let w ← alloc1 w i (.sub e.1 .glob) (left e.1)
            let w ← alloc2 w i (.sub e.1 .lpos) (left e.1)
            let w ← alloc1 w i (.sub e.1 .lidx) (left e.1)
            modify w i (fun o => (o.setPtr (.sub e.1 .data) none).setPtr (.sub e.1 .data2) none)
          else .ok w
        let x ← trimSubs w i vp left re l
        return (x.1, (e.1, if re then ⟨left e.1, true⟩ else e.2) :: x.2)

/-- data_raster.hpp:4119-4140 the data array is released and created again with the number of cells. -/
def renewData (w : World) (i : Id) : Out World := do
  let o ← w.get i
  if o.is2d && (o.ptr .ras2).isSome then do
    let w ← free w i .ras2
    alloc2 w i .ras2 o.cells
  else do
    let w ← free w i .ras
    alloc1 w i .ras o.cells

/-- data_raster.hpp:3963-3982 the subsets of the mask are copied. -/
def maskCopy (w : World) (i m : Id) : Out World := do
  let om ← w.get m
  bif !om.subs.isEmpty then do
    let w ← releaseSubset w i
    copySubs w m i om.subs
  else .ok w

/-- data_raster.hpp:4067-4118 new positions (`recalc`), none (`full`) or those of the mask. -/
def maskPositions (w : World) (i m : Id) (recalc full : Bool) (s : Sees) : Out World :=
  bif recalc then do
    let w ← modify w i (fun o => { o with store := true, cells := s.kept })
    let w ← free w i .pos
    let w ← free w i .idx
    let w ← alloc2 w i .pos s.kept
    alloc1 w i .idx s.kept
  else do
    let w ← free w i .pos
    let w ← free w i .idx
    let w ← bif full then .ok w else share w m i s.maskValid
    modify w i (fun o => { o with store := false })

/-- data_raster.hpp:4119-4140 the cells of a cropped grid (`full`), and the new data array. -/
def maskData (w : World) (i : Id) (full : Bool) (s : Sees) : Out World := do
  let w ← bif full then modify w i (fun o => { o with cells := s.full }) else .ok w
  bif full && s.same then .ok w else renewData w i

/-- data_raster.hpp:4180-4252 the copied subsets are checked. -/
def maskSubsets (w : World) (i : Id) (vp : Addr) (has re : Bool) (s : Sees) : Out World :=
  bif has then do
    let o ← w.get i
    let x ← trimSubs w i vp s.left re o.subs
    modify x.1 i (fun o => { o with subs := x.2 })
  else .ok w

/-- data_raster.hpp:3953-4256 the masking of raster `i` with mask `m`, after the values have been collected. The decisions 3984-4065: `recalc_pos`,
`store_fullsize`, `recalc_subset`. -/
def maskApply (w : World) (i m : Id) (vp : Addr) (s : Sees) : Out World := do
  let w ← modify w i (fun o => { o with cells := s.masked })
  let om ← w.get m
  let w ← maskCopy w i m
  let o ← w.get i
  let has := !om.subs.isEmpty
  let crop := !s.within && !o.ext
  let recalc := o.calcPos && (crop || !s.exact)
  let full := crop && !o.calcPos
  let w ← modify w i (fun o => { o with calcPos := !full })
  let w ← maskPositions w i m recalc full s
  let w ← maskData w i full s
  let w ← maskSubsets w i vp has (has && !s.exact && crop) s
  bif full || recalc then modify w i (fun o => { o with mask := none }) else .ok w

/-- data_raster.hpp:3871-4260 `MaskAndCalculateValidPosition` (`some true`: the result is not negative); 2804-2813 `SetCalcPositions` of the mask is
`calcMask`, called at line 3894. A mask that calls its own mask needs stack (`depth`). A mask without data makes a vector of negative size (throws). -/
def maskCalc : Nat → World → Id → Sees → Out (World × Bool)
  | 0, _, _, _ => .ub
  | d + 1, w, i, s => do
    let o ← w.get i
    match o.mask with
    | none =>
      if o.calcPos then
        if (o.ptr .pos).isNone || (o.ptr .idx).isNone then do
          let w ← calcPositions w i s.valid
          return (w, true)
        else return (w, true)
      else do
        let w ← modify w i (fun o => { o with cells := s.full })
        return (w, true)
    | some m => do
      let om ← w.get m
      let w ← bif om.calcPos || !om.valid then .ok w
        else do
          let w ← modify w m (fun o => { o with calcPos := true })
          let x ← maskCalc d w m { s with valid := s.maskValid }
          .ok x.1
      let w ← getPositions w m .pos s.maskValid
      let om ← w.get m
      match om.ptr .pos with
      | none => .exn
      | some vp => do
        touch w m .pos
        touchCells w i
        if s.masked = 0 then return (w, false)
        else do
          let w ← maskApply w i m vp s
          return (w, true)

/-- data_raster.hpp:2804-2813 `SetCalcPositions`. -/
def setCalc (d : Nat) (w : World) (i : Id) (s : Sees) : Out (World × Bool) := do
  let o ← w.get i
  if !o.valid then return (w, false)
  else if o.calcPos && ((o.ptr .pos).isSome || (o.ptr .idx).isSome) then return (w, false)
  else do
    let w ← modify w i (fun o => { o with calcPos := true })
    maskCalc d w i s

/-- data_raster.hpp:2839-2846 `SetUseMaskExt`. -/
def setExt (d : Nat) (w : World) (i : Id) (s : Sees) : Out (World × Bool) := do
  let o ← w.get i
  if !o.valid || o.mask.isNone || o.ext then return (w, false)
  else do
    let w ← modify w i (fun o => { o with ext := true })
    maskCalc d w i s

/-- data_raster.hpp:2815-2837 `SetPositions` with `f = .pos` or `f = .idx`; `len` says whether the length is that of the raster. The array stays with the
program: it is a block of its own. -/
def setPositions (w : World) (i : Id) (f : Field) (len : Bool) : Out (World × Bool) := do
  let o ← w.get i
  if (o.ptr f).isSome && !len then return (w, false)
  else do
    let w ← free w i f
    let w ← put w i f (if f.is2 then .two o.cells else .one)
    let w ← modify w i (fun o => { o with calcPos := true, store := false })
    return (w, true)

/-! ## Building subsets -/

/-- data_raster.hpp:2384-2408 the arrays of the new subsets. -/
def buildSubs (w : World) (i : Id) : List (Int × Nat) → Out World
  | [] => .ok w
  | e :: l => do
    let w ← alloc1 w i (.sub e.1 .glob) e.2
    let w ← alloc2 w i (.sub e.1 .lpos) e.2
    let w ← alloc1 w i (.sub e.1 .lidx) e.2
    let w ← modify w i (fun o => { o with subs := o.subs ++ [(e.1, ⟨e.2, true⟩)] })
    buildSubs w i l

/-- data_raster.hpp:2337-2399 `BuildSubSet`; the groups and their numbers of cells are given. -/
def buildSubSet (d : Nat) (w : World) (i : Id) (s : Sees) : Out (World × Bool) := do
  let o ← w.get i
  if !o.valid then return (w, false)
  else do
    let x ← bif (o.ptr .pos).isNone || (o.ptr .idx).isNone then setCalc d w i s else .ok (w, true)
    if !x.2 then return (x.1, false)
    else do
      let o ← x.1.get i
      if !o.subs.isEmpty then return (x.1, true)
      else do
        touchCells x.1 i
        let w ← buildSubs x.1 i s.groups
        return (w, true)

/-- data_raster.hpp:1098-1128 `SetData` (`f = .data`) and `Set2DData` (`f = .data2`) of subset `k` with an array of the right length; data_raster.cpp:288-334
`ReadFromMongoDB` allocates the same arrays. -/
def setData (w : World) (i : Id) (k : Int) (two : Bool) : Out World := do
  let o ← w.get i
  match o.subs.find? (fun e => decide (e.1 = k)) with
  | none => return w
  | some e =>
    if two then do
      let w ← alloc2 w i (.sub k .data2) e.2.cells
      touch w i (.sub k .data2)
      return w
    else do
      let w ← alloc1d w i (.sub k .data)
      touch w i (.sub k .data)
      return w

/-! ## Statistics -/

/-- data_raster.hpp:2467-2475 the loop of `ReleaseStatsMap2D`. -/
def freeStats (w : World) (i : Id) : List (Fin 6) → Out World
  | [] => .ok w
  | n :: l => do
    let w ← free w i (.stat n)
    freeStats w i l

/-- The six names of the statistics in the order of the map. -/
def six : List (Fin 6) := [0, 1, 2, 3, 4, 5]

/-- data_raster.hpp:2467-2475 `ReleaseStatsMap2D`. -/
def releaseStats (w : World) (i : Id) : Out World := do
  let w ← freeStats w i six
  modify w i (fun o => { o with statMap := false })

/-- utils_math.h:418-421 new arrays, assigned to the map (data_raster.hpp:2444-2449). -/
def putStats (w : World) (i : Id) : List (Fin 6) → Out World
  | [] => .ok w
  | n :: l => do
    let w ← put w i (.stat n) .one
    putStats w i l

/-- data_raster.hpp:2438-2465 `CalculateStatistics`. -/
def calcStats (w : World) (i : Id) : Out World := do
  let o ← w.get i
  if o.stats then return w
  else do
    let w ← modify w i (fun o => { o with statMap := true })
    let w ← bif o.is2d && (o.ptr .ras2).isSome then do
        touch w i .ras2
        putStats w i six
      else do
        bif decide (0 < o.cells) then touch w i .ras else .ok ()
        .ok w
    modify w i (fun o => { o with stats := true })

/-- data_raster.hpp:2484-2514 `GetStatistics` of one statistic and layer. -/
def getStat (w : World) (i : Id) (n : Fin 6) : Out World := do
  let o ← w.get i
  if !o.valid then return w
  else if o.is2d then
    if !o.statMap then return w
    else do
      let w ← bif (o.ptr (.stat n)).isNone then do
          let w ← modify w i (fun o => { o with stats := false })
          calcStats w i
        else .ok w
      touch w i (.stat n)
      return w
  else calcStats w i

/-- data_raster.hpp:2477-2482 `UpdateStatistics`. -/
def updateStats (w : World) (i : Id) : Out World := do
  let o ← w.get i
  let w ← bif o.is2d && o.stats then releaseStats w i else .ok w
  let w ← modify w i (fun o => { o with stats := false })
  calcStats w i

/-! ## Constructors, reading, copying, destruction -/

/-- data_raster.hpp:2027-2053 `InitializeRasterClass`. -/
def emptyObj (is2d : Bool) : Obj where
  ptr := fun _ => none
  is2d := is2d
  calcPos := false
  store := false
  ext := false
  stats := false
  statMap := true
  cells := 0
  mask := none
  subs := []

/-- data_raster.hpp:2074-2077 the constructor of an object without data; an object cannot be constructed twice. -/
def newEmpty (w : World) (i : Id) (is2d : Bool) : Out World :=
  match w.objs i with
  | some _ => .ub
  | none => .ok (w.set i (emptyObj is2d))

/-- data_raster.hpp:2088-2134 the constructors from an array of `n` cells with one (`two = false`) or several layers. -/
def newArray (w : World) (i : Id) (two : Bool) (n : Nat) : Out World := do
  let w ← newEmpty w i two
  let w ← modify w i (fun o => { o with cells := n })
  if two then put w i .ras2 (.two n) else put w i .ras .one

/-- data_raster.hpp:2209-2254 the constructors from a mask and values; `len`: the number of values is that of the positions. -/
def newMask (w : World) (i m : Id) (two len : Bool) (s : Sees) : Out World := do
  let w ← newEmpty w i two
  let w ← modify w i (fun o => { o with mask := some m, ext := true })
  let w ← share w m i s.maskValid
  let om ← w.get m
  let w ← modify w i (fun o => { o with cells := om.cells })
  if !len then return w
  else if two then alloc2 w i .ras2 om.cells
  else alloc1d w i .ras

/-- How reading the cells of a file ends: it fails before or after an array was allocated, or delivers the cells. -/
inductive Read where
  | none_
  | freed
  | cells
deriving DecidableEq

/-- Arguments of `ReadFromFile` and what happens: mask, `calc_pos`, `use_mask_ext`, suffix `asc`. -/
structure ReadArgs where
  mask : Option Id
  calcPos : Bool
  ext : Bool
  asc : Bool
  out : Read
  sees : Sees

/-- data_raster.hpp:2055-2071 `InitializeReadFunction`. -/
def setArgs (w : World) (i : Id) (mask : Option Id) (calcPos ext : Bool) : Out World :=
  modify w i (fun o => { o with mask := mask, calcPos := calcPos, ext := ext && mask.isSome })

/-- data_raster.hpp:2288-2324 `ConstructFromSingleFile`, 214-306 `ReadAscFile`, 359-575 `ReadRasterFileByGdal`: the GDAL reader assigns a new array, the ASCII
reader uses an array that is there. -/
def readFile (d : Nat) (w : World) (i : Id) (a : ReadArgs) : Out (World × Bool) := do
  let w ← setArgs w i a.mask a.calcPos a.ext
  match a.out with
  | .none_ => return (w, false)
  | .freed => do
    let w ← bif a.asc then free w i .ras else .ok w
    return (w, false)
  | .cells => do
    let w ← bif a.asc then do
        let w ← alloc1d w i .ras
        touch w i .ras
        .ok w
      else put w i .ras .one
    let w ← modify w i (fun o => { o with is2d := false })
    maskCalc d w i a.sees

/-- data_raster.hpp:3430-3509 `ReadFromFiles` with more than one file, all of which can be read if the first can. -/
def readFiles (d : Nat) (w : World) (i : Id) (a : ReadArgs) : Out (World × Bool) := do
  let x ← readFile d w i a
  if !x.2 then return (x.1, false)
  else do
    let o ← x.1.get i
    let w ← alloc2 x.1 i .ras2 o.cells
    touchCells w i
    let w ← free w i .ras
    let w ← modify w i (fun o => { o with is2d := true })
    return (w, true)

/-- What `ReadFromMongoDB` finds: the file can be read and fits the header (`good`), it has the cells without data (`all`), it has not as many cells as the
grid (`compact`), as many as the mask has valid ones (`fits`), several layers (`two`). -/
structure Stored where
  good : Bool
  all : Bool
  compact : Bool
  fits : Bool
  two : Bool

/-- data_raster.hpp:3559-3580 the positions and subsets of the mask are taken over if the file has as many cells as the mask has valid ones. -/
def gfsMask (w : World) (i : Id) (g : Stored) (s : Sees) : Out (World × Bool) := do
  let o ← w.get i
  match o.mask with
  | none => return (w, false)
  | some m =>
    if o.calcPos && o.ext then do
      let w ← getStat w m 0
      if !g.fits then return (w, false)
      else do
        let w ← modify w i (fun o => { o with store := false })
        let w ← share w m i s.maskValid
        let om ← w.get m
        let w ← copySubs w m i om.subs
        return (w, true)
    else return (w, false)

/-- data_raster.hpp:3583-3612 the data array. -/
def gfsData (w : World) (i : Id) (g : Stored) (direct : Bool) : Out World := do
  let o ← w.get i
  if g.two then do
    let w ← alloc2 w i .ras2 o.cells
    let w ← modify w i (fun o => { o with is2d := true })
    bif g.all && direct then touch w i .idx else .ok ()
    return w
  else do
    let w ← modify w i (fun o => { o with is2d := false })
    if g.all && direct then do
      let w ← alloc1 w i .ras o.cells
      touch w i .idx
      return w
    else put w i .ras .one

/-- data_raster.hpp:3513-3619 `ReadFromMongoDB`; the early returns at 3556 and 3581 do not release the data of the file (`leak`). -/
def readGfs (d : Nat) (w : World) (i : Id) (mask : Option Id) (calcPos ext : Bool) (g : Stored) (s : Sees) : Out (World × Bool) := do
  let w ← setArgs w i mask calcPos ext
  if !g.good then return (w, false)
  else do
    let w ← modify w i (fun o => { o with cells := s.full })
    if g.all && g.compact then return (leak w .one, false)
    else do
      let w ← modify w i (fun o => { o with calcPos := o.calcPos || g.compact })
      let x ← gfsMask w i g s
      let o ← x.1.get i
      if !g.all && ((o.ptr .pos).isNone || (o.ptr .idx).isNone) then return (leak x.1 .one, false)
      else do
        let w ← gfsData x.1 i g x.2
        if g.all && !x.2 then maskCalc d w i s else return (w, true)

/-- data_raster.hpp:3692-3697 copies of the statistics arrays. -/
def copyStats (w : World) (j i : Id) : List (Fin 6) → Out World
  | [] => .ok w
  | n :: l => do
    touchOpt w j (.stat n)
    let w ← put w i (.stat n) .one
    copyStats w j i l

/-- data_raster.hpp:3648-3667 `Copy` releases the arrays of raster `i`. -/
def copyClear (w : World) (i : Id) : Out World := do
  let o ← w.get i
  let w ← bif o.is2d && (o.ptr .ras2).isSome && decide (0 < o.cells) then free w i .ras2 else .ok w
  let w ← bif !o.is2d && (o.ptr .ras).isSome then free w i .ras else .ok w
  let w ← free w i .pos
  let w ← free w i .idx
  let w ← bif o.stats then do
      let w ← releaseStats w i
      modify w i (fun o => { o with stats := false })
    else .ok w
  releaseSubset w i

/-- data_raster.hpp:3672-3683 the cells of raster `j` are copied. -/
def copyData (w : World) (i j : Id) (oj : Obj) : Out World := do
  let w ← modify w i (fun o => { o with cells := oj.cells })
  bif oj.is2d then do
    touch w j .ras2
    let w ← modify w i (fun o => { o with is2d := true })
    alloc2 w i .ras2 oj.cells
  else do
    touchOpt w j .ras
    alloc1d w i .ras

/-- data_raster.hpp:3684-3688 the positions of raster `j` are copied. -/
def copyPos (w : World) (i j : Id) (oj : Obj) : Out World :=
  bif oj.calcPos then do
    let w ← modify w i (fun o => { o with store := true })
    touch w j .pos
    let w ← alloc2 w i .pos oj.cells
    touchOpt w j .idx
    alloc1d w i .idx
  else .ok w

/-- data_raster.hpp:3689-3704 the statistics of raster `j` are copied. -/
def copyStat (w : World) (i j : Id) (oj : Obj) : Out World := do
  let w ← modify w i (fun o => { o with stats := oj.stats })
  let o ← w.get i
  bif oj.stats && o.is2d then
    bif o.statMap then copyStats w j i six else .exn
  else .ok w

/-- data_raster.hpp:3646-3717 `Copy`: raster `i` becomes a copy of raster `j`. -/
def copy (w : World) (i j : Id) : Out World := do
  let w ← copyClear w i
  let oj ← w.get j
  let w ← setArgs w i oj.mask oj.calcPos oj.ext
  let w ← copyData w i j oj
  let w ← copyPos w i j oj
  let w ← copyStat w i j oj
  copySubs w j i oj.subs

/-- data_raster.hpp:2326-2335 the destructor: the members vanish with the object. -/
def destroy (w : World) (i : Id) : Out World := do
  let o ← w.get i
  let w ← free w i .ras
  let w ← bif o.store then free w i .pos else .ok w
  let w ← bif o.store then free w i .idx else .ok w
  let w ← bif o.is2d then free w i .ras2 else .ok w
  let w ← bif o.is2d && o.stats then releaseStats w i else .ok w
  let w ← releaseSubset w i
  return { w with objs := upd w.objs i none }

/-! ## Histories -/

/-- The calls of a program. -/
inductive Op where
  | newEmpty (i : Id) (is2d : Bool)
  | newArray (i : Id) (two : Bool) (n : Nat)
  | newMask (i m : Id) (two len : Bool) (s : Sees)
  | read (i : Id) (a : ReadArgs)
  | readFiles (i : Id) (a : ReadArgs)
  | readGfs (i : Id) (mask : Option Id) (calcPos ext : Bool) (g : Stored) (s : Sees)
  | init (i : Id) (many : Bool) (a : ReadArgs)
  | newCopy (i j : Id)
  | build (i : Id) (s : Sees)
  | rebuild (i : Id) (s : Sees)
  | releaseSubset (i : Id)
  | setData (i : Id) (k : Int) (two : Bool)
  | calcStats (i : Id)
  | updateStats (i : Id)
  | getStat (i : Id) (n : Fin 6)
  | setCalc (i : Id) (s : Sees)
  | setExt (i : Id) (s : Sees)
  | setPositions (i : Id) (f : Field) (len : Bool)
  | getPositions (i : Id) (s : Sees)
  | copy (i j : Id)
  | use (i : Id)
  | delete (i : Id)

/-- Access to all arrays of subset `k`. -/
def touchSub (w : World) (i : Id) (k : Int) : Out Unit := do
  touchOpt w i (.sub k .glob)
  touchOpt w i (.sub k .lpos)
  touchOpt w i (.sub k .lidx)
  touchOpt w i (.sub k .data)
  touchOpt w i (.sub k .data2)

def touchAll (w : World) (i : Id) : List Field → Out Unit
  | [] => .ok ()
  | f :: l => do
    touchOpt w i f
    touchAll w i l

/-- The getters, the output functions and the accessors: any of the arrays of the object is read or written. -/
def use (w : World) (i : Id) : Out Unit := do
  let o ← w.get i
  touchCells w i
  touchAll w i (six.map .stat)
  touchAll w i (o.subs.flatMap (fun e => [.sub e.1 .glob, .sub e.1 .lpos, .sub e.1 .lidx, .sub e.1 .data, .sub e.1 .data2]))

/-- One call. `init` is `Init(filename, …)`, data_raster.hpp:2150-2164, 2186-2207 with several files: construct, read, delete if that fails. `newCopy`:
3640-3643. -/
def step (d : Nat) (w : World) : Op → Out World
  | .newEmpty i b => newEmpty w i b
  | .newArray i two n => newArray w i two n
  | .newMask i m two len s => newMask w i m two len s
  | .read i a => do let x ← readFile d w i a; return x.1
  | .readFiles i a => do let x ← readFiles d w i a; return x.1
  | .readGfs i m c e g s => do let x ← readGfs d w i m c e g s; return x.1
  | .init i many a => do
    let w ← newEmpty w i false
    let x ← bif many then readFiles d w i a else readFile d w i a
    if x.2 then return x.1 else destroy x.1 i
  | .newCopy i j => do
    let w ← newEmpty w i false
    copy w i j
  | .build i s => do let x ← buildSubSet d w i s; return x.1
  | .rebuild i s => do
    let w ← releaseSubset w i
    let x ← buildSubSet d w i s
    return x.1
  | .releaseSubset i => releaseSubset w i
  | .setData i k two => setData w i k two
  | .calcStats i => calcStats w i
  | .updateStats i => updateStats w i
  | .getStat i n => getStat w i n
  | .setCalc i s => do let x ← setCalc d w i s; return x.1
  | .setExt i s => do let x ← setExt d w i s; return x.1
  | .setPositions i f len => do let x ← setPositions w i f len; return x.1
  | .getPositions i s => do
    let w ← getPositions w i .pos s.valid
    getPositions w i .idx s.valid
  | .copy i j => copy w i j
  | .use i => do use w i; return w
  | .delete i => destroy w i

/-- A program: the stack allows for `d` nested calls of the position calculation. -/
def run (d : Nat) : World → List Op → Out World
  | w, [] => .ok w
  | w, op :: l => do
    let w ← step d w op
    run d w l

/-- Before the first call. -/
def start : World := ⟨fun _ => none, 0, fun _ => none⟩

end Life
end CCGL
