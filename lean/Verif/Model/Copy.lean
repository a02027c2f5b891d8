import Verif.Model.Raster
/-!
# Model of copying rasters (data_raster.hpp:3640-3717) with an explicit heap

The arrays of the objects live in a heap and the objects hold addresses, so that aliasing can be expressed. Each array
(`raster_`, `raster_2d_` with its pool, `pos_data_` with its pool, `pos_idx_`) is one block; the heap has one address space
for each kind of array. Subsets, statistics, options and the mask pointer are not modelled here.
-/
namespace CCGL
namespace Copy

/-- The heap: blocks by address; addresses from `next` on are unused. -/
structure Heap where
  next : Nat
  d1 : Nat → Option (List ℚ)
  d2 : Nat → Option (List (List ℚ))
  pd : Nat → Option (List (Int × Int))
  pi : Nat → Option (List Int)

/-- An object: its plain data members (the arrays in `base` are not used) and the addresses of its arrays, data_raster.hpp:1946-2001. -/
structure Obj where
  base : Raster
  a1 : Option Nat
  a2 : Option Nat
  ap : Option Nat
  ai : Option Nat

/-- The array at an address; a dangling pointer is undefined behaviour. -/
def deref {α : Type} (m : Nat → Option (List α)) : Option Nat → Out (Ptr α)
  | none => .ok none
  | some a => match m a with
    | some l => .ok (some l)
    | none => .ub

/-- The object with the contents of its arrays. -/
def view (h : Heap) (o : Obj) : Out Raster := do
  let x1 ← deref h.d1 o.a1
  let x2 ← deref h.d2 o.a2
  let xp ← deref h.pd o.ap
  let xi ← deref h.pi o.ai
  return { o.base with raster1 := x1, raster2 := x2, posData := xp, posIdx := xi }

/-- `m[a] = x` for one address. -/
def upd {α : Type} (m : Nat → Option (List α)) (a : Nat) (x : Option (List α)) : Nat → Option (List α) :=
  fun b => if b = a then x else m b

/-- Release of an array (utils_array.h:460-487); a null pointer is skipped. -/
def free {α : Type} (m : Nat → Option (List α)) : Option Nat → Out (Nat → Option (List α))
  | none => .ok m
  | some a => match m a with
    | some _ => .ok (upd m a none)
    | none => .ub

/-- The array of a member after a call: written in place, or released and allocated anew (at address `next`). -/
def put {α : Type} (m : Nat → Option (List α)) (next : Nat) (a : Option Nat) (new : Ptr α) (realloc : Bool) :
    (Nat → Option (List α)) × Option Nat :=
  match a, new with
  | none, none => (m, none)
  | some k, none => (upd m k none, none)
  | none, some l => (upd m next (some l), some next)
  | some k, some l => if realloc then (upd (upd m k none) next (some l), some next) else (upd m k (some l), some k)

/-- The calls that may compact the arrays (data_raster.hpp:3801-3869 releases and allocates the data array). -/
def compacts : Raster.Op → Bool
  | .setCalcPositions => true
  | .getPositionIdx => true
  | .getPositionData => true
  | _ => false

/-- A call on one object: the members change as in `Raster.step`, the arrays are written at the addresses the object
holds. -/
def exec (h : Heap) (o : Obj) (op : Raster.Op) : Out (Heap × Obj) := do
  let r ← view h o
  let r' ← r.step op
  let re := compacts op && decide (r' ≠ r)
  let x1 := put h.d1 h.next o.a1 r'.raster1 re
  let x2 := put h.d2 h.next o.a2 r'.raster2 re
  let xp := put h.pd h.next o.ap r'.posData false
  let xi := put h.pi h.next o.ai r'.posIdx false
  return (⟨h.next + 1, x1.1, x2.1, xp.1, xi.1⟩, ⟨r', x1.2, x2.2, xp.2, xi.2⟩)

/-- utils_array.h:357-378 `Initialize1DArray(n, data, init_data)`: the new array. Without a source the array is left
indeterminate; a negative length fails. -/
def copy1 {α : Type} (n : Int) (src : Ptr α) : Out (Ptr α) :=
  if n < 0 then .ok none
  else match src with
    | none => if n = 0 then .ok (some []) else .ub
    | some s => if n ≤ (s.length : Int) then .ok (some (s.take n.toNat)) else .ub

/-- utils_array.h:413-425 `Initialize2DArray(n, m, data, init_data)`: the first row is read before anything is allocated. -/
def copy2 (n m : Int) (src : Ptr (List ℚ)) : Out (Ptr (List ℚ)) :=
  match src with
  | some (x :: s) =>
    if x = [] then .ub
    else if n < 0 ∨ m < 0 then .ok none
    else if n ≤ ((x :: s).length : Int) ∧ ∀ c ∈ (x :: s).take n.toNat, m ≤ (c.length : Int) then
      .ok (some (((x :: s).take n.toNat).map (fun c => c.take m.toNat)))
    else .ub
  | _ => .ub

/-- The same for the position pairs (n rows of 2). -/
def copyPos (n : Int) (src : Ptr (Int × Int)) : Out (Ptr (Int × Int)) :=
  match src with
  | some (x :: s) =>
    if n < 0 then .ok none else if n ≤ ((x :: s).length : Int) then .ok (some ((x :: s).take n.toNat)) else .ub
  | _ => .ub

/-- Storing a new array: nothing happens if the pointer is not null (utils_array.h:359, 383). -/
def place {α : Type} (m : Nat → Option (List α)) (next : Nat) (a : Option Nat) (new : Ptr α) :
    (Nat → Option (List α)) × Option Nat :=
  match a, new with
  | some k, _ => (m, some k)
  | none, none => (m, none)
  | none, some l => (upd m next (some l), some next)

/-- data_raster.hpp:3647-3717 `Copy(orgraster)` into the object `dst`: lines 3649-3667 release the arrays of `dst`, the rest
copies. `is_2draster` is set for a 2D source but not reset for a 1D source (lines 3677-3683). -/
def copyInto (h : Heap) (dst src : Obj) : Out (Heap × Obj) := do
  let d2 ← (if dst.base.is2d && dst.a2.isSome && decide (dst.base.nCells > 0) then free h.d2 dst.a2 else .ok h.d2)
  let a2 := if dst.base.is2d && dst.a2.isSome && decide (dst.base.nCells > 0) then none else dst.a2
  let d1 ← (if !dst.base.is2d then free h.d1 dst.a1 else .ok h.d1)
  let a1 := if !dst.base.is2d then none else dst.a1
  let pd ← free h.pd dst.ap
  let pi ← free h.pi dst.ai
  let h1 : Heap := ⟨h.next, d1, d2, pd, pi⟩
  let s ← view h1 src
  let b := { dst.base with
    calcPos := s.calcPos, useMaskExt := s.useMaskExt, dflt := s.dflt, nCells := s.nCells, nLyrs := s.nLyrs,
    noData := s.noData, is2d := dst.base.is2d || s.is2d, hdr := s.hdr,
    storePos := if s.calcPos then true else dst.base.storePos }
  let x2 ← (if s.is2d then do
      let l ← copy2 s.nCells s.nLyrs s.raster2
      return place h1.d2 h.next a2 l
    else return (h1.d2, a2) : Out ((Nat → Option (List (List ℚ))) × Option Nat))
  let x1 ← (if s.is2d then return (h1.d1, a1) else do
      let l ← copy1 s.nCells s.raster1
      return place h1.d1 h.next a1 l : Out ((Nat → Option (List ℚ)) × Option Nat))
  let xp ← (if s.calcPos then do
      let l ← copyPos s.nCells s.posData
      return place h1.pd h.next none l
    else return (h1.pd, none) : Out ((Nat → Option (List (Int × Int))) × Option Nat))
  let xi ← (if s.calcPos then do
      let l ← copy1 s.nCells s.posIdx
      return place h1.pi h.next none l
    else return (h1.pi, none) : Out ((Nat → Option (List Int)) × Option Nat))
  return (⟨h.next + 1, x1.1, x2.1, xp.1, xi.1⟩, ⟨b, x1.2, x2.2, xp.2, xi.2⟩)

/-- data_raster.hpp:2027-2053 a new object. -/
def newObj : Obj := ⟨Raster.init false, none, none, none, none⟩

/-- data_raster.hpp:3640-3644 the constructor from another raster. -/
def copyCtor (h : Heap) (src : Obj) : Out (Heap × Obj) := copyInto h newObj src

/-- A history of calls on two objects; `false` is the first, `true` the second. -/
def runPair (h : Heap) (s c : Obj) : List (Bool × Raster.Op) → Out (Heap × Obj × Obj)
  | [] => .ok (h, s, c)
  | (false, op) :: ops => do
    let (h', s') ← exec h s op
    runPair h' s' c ops
  | (true, op) :: ops => do
    let (h', c') ← exec h c op
    runPair h' s c' ops

end Copy
end CCGL
