import Verif.Model.Read
import Verif.Model.Subset
/-!
# Model of `MaskAndCalculateValidPosition` with a mask (data_raster.hpp:3871-4260)

Simplifications as in `Model/Raster.lean`: exact rationals, unbounded `int`. A failing `assert` is represented by `ub`.
The mask has no mask of its own. The position arrays shared with the mask are values here; where the code would release
arrays that belong to the mask the model says `ub`.
-/
namespace CCGL
namespace Raster

/-- data_raster.hpp:3896-3897 the position data of the mask: the mask afterwards, the number and the positions. -/
def maskPositions (mask : Raster) : Out (Raster × Int × Ptr (Int × Int)) := do
  let m1 ← (if !mask.calcPos then do let x ← mask.setCalcPositions; return x.1 else .ok mask : Out Raster)
  m1.getPositionData

/-- The variables of the loop data_raster.hpp:3904-3950. -/
structure MaskAcc where
  ras : Raster
  cells : List ((Int × Int) × List ℚ)
  maxRow : Int
  minRow : Int
  maxCol : Int
  minCol : Int
  masked : Int
  matched : Int
deriving Repr, DecidableEq

/-- data_raster.hpp:3936-3947 the other layers of one cell (from layer `lyr`, counted from 0, on). Line 3943 writes to layer
`lyr - 1`, which counts from 1. -/
def maskLayers (r : Raster) (p : Int × Int) (lyr : Int) : Nat → Out (Raster × List ℚ)
  | 0 => .ok (r, [])
  | n + 1 => do
    let v ← r.getValue p.1 p.2 (lyr + 1)
    let (r', v') ← (if floatEqual v r.noData && !floatEqual r.dflt r.noData then do
        let r' ← r.setValue p.1 p.2 r.dflt (lyr - 1)
        return (r', r.dflt)
      else .ok (r, v) : Out (Raster × ℚ))
    let (r'', vs) ← maskLayers r' p (lyr + 1) n
    return (r'', v' :: vs)

/-- data_raster.hpp:3906-3950 one position of the mask. -/
def maskCell (mh : Header) (a : MaskAcc) (rc : Int × Int) : Out MaskAcc := do
  let xy := coordOf mh rc.1 rc.2
  let p := posOfCoord a.ras.hdr xy.1 xy.2
  let others := if a.ras.is2d && decide (a.ras.nLyrs > 1) then (a.ras.nLyrs - 1).toNat else 0
  if p.1 = -1 ∨ p.2 = -1 then
    return { a with cells := a.cells ++ [(rc, a.ras.noData :: List.replicate others a.ras.noData)] }
  else do
    let v ← a.ras.getValue p.1 p.2 1
    if floatEqual v a.ras.noData then do
      let (r', v') ← (if !floatEqual a.ras.dflt a.ras.noData then do
          let r' ← a.ras.setValue p.1 p.2 a.ras.dflt 1
          return (r', a.ras.dflt)
        else .ok (a.ras, v) : Out (Raster × ℚ))
      let (r'', vs) ← maskLayers r' p 1 others
      return { a with ras := r'', cells := a.cells ++ [(rc, v' :: vs)], masked := a.masked + 1 }
    else do
      let (r'', vs) ← maskLayers a.ras p 1 others
      return { a with
        ras := r'', cells := a.cells ++ [(rc, v :: vs)], masked := a.masked + 1, matched := a.matched + 1,
        maxRow := if a.maxRow < rc.1 then rc.1 else a.maxRow,
        minRow := if a.minRow > rc.1 then rc.1 else a.minRow,
        maxCol := if a.maxCol < rc.2 then rc.2 else a.maxCol,
        minCol := if a.minCol > rc.2 then rc.2 else a.minCol }

/-- The loop data_raster.hpp:3906-3950 over the positions of the mask. -/
def maskLoop (mh : Header) : List (Int × Int) → MaskAcc → Out MaskAcc
  | [], a => .ok a
  | rc :: rest, a => do
    let a' ← maskCell mh a rc
    maskLoop mh rest a'

/-- The flags of data_raster.hpp:3995-4061. -/
structure MaskFlags where
  updRowCol : Bool
  recalcPos : Bool
  updNum : Bool
  storeFull : Bool
  calcPos : Bool
deriving Repr, DecidableEq

/-- data_raster.hpp:4002-4061 the decision. -/
def maskFlags (withinExt useMaskExt calcPos matchExactly : Bool) : MaskFlags :=
  if withinExt then
    if useMaskExt then
      if calcPos then ⟨false, !matchExactly, !matchExactly, false, true⟩ else ⟨false, false, false, false, true⟩
    else
      if calcPos then ⟨false, !matchExactly, !matchExactly, false, true⟩ else ⟨false, false, true, false, true⟩
  else
    if useMaskExt then
      if calcPos then ⟨false, !matchExactly, !matchExactly, false, true⟩ else ⟨false, false, false, false, true⟩
    else
      if calcPos then ⟨true, true, true, false, true⟩ else ⟨true, false, true, true, false⟩

/-- The new data array of data_raster.hpp:4130-4163, `cells` by storage index. -/
def withCells (r : Raster) (cells : List (List ℚ)) : Raster :=
  if r.is2d then { r with raster2 := some cells }
  else { r with raster1 := if cells = [] then none else some (cells.map (fun c => c.headD 0)) }

/-- An array that must have been allocated (data_raster.hpp:4138-4163 writes to it). -/
def nonNull {α : Type} (p : Ptr α) : Out (List α) :=
  match p with
  | some l => .ok l
  | none => .ub

/-- What the call leaves: the raster, the mask, the returned code, whether `mask_` is still set, and what the treatment of
the subsets needs (`valid_pos`, `match_exactly`, `upd_header_rowcol`). -/
structure MaskRes where
  ras : Raster
  mask : Raster
  code : Int
  keepMask : Bool
  validPos : List (Int × Int)
  matchExactly : Bool
  updRowCol : Bool
deriving Repr, DecidableEq

/-- data_raster.hpp:3964-4170 and 4255-4257: everything after the loop but the subsets. `old` is the raster before the call,
`mask` the mask with positions `ps`. -/
def maskFinish (old mask : Raster) (ps : List (Int × Int)) (a : MaskAcc) : Out MaskRes :=
  let r := a.ras
  let newRows := a.maxRow - a.minRow + 1
  let newCols := a.maxCol - a.minCol + 1
  let matchExactly := decide (a.matched = (ps.length : Int))
  let within := decide (newRows = mask.hdr.rows) && decide (newCols = mask.hdr.cols)
  let fl := maskFlags within r.useMaskExt r.calcPos matchExactly
  let hdr0 : Header := { mask.hdr with noData := r.noData, layers := r.nLyrs }
  let hdr1 : Header := if fl.updRowCol then
      { hdr0 with
        rows := newRows, cols := newCols, xll := hdr0.xll + a.minCol * mask.hdr.cellsize,
        yll := hdr0.yll + ((mask.hdr.rows - a.maxRow - 1 : Int) : ℚ) * mask.hdr.cellsize,
        cellsize := mask.hdr.cellsize }
    else hdr0
  if within && decide (a.masked ≠ (ps.length : Int)) then .ub
  else if (r.posData.isSome || r.posIdx.isSome) && !r.storePos then .ub
  else if !r.validData then .ub
  else
    let inBox (rc : Int × Int) : Bool :=
      !(decide (rc.1 > a.maxRow) || decide (rc.1 < a.minRow) || decide (rc.2 > a.maxCol) || decide (rc.2 < a.minCol))
    if fl.recalcPos then
      let kept := (a.cells.filter (fun c => inBox c.1 && !floatEqual (c.2.headD 0) r.noData)).map
        (fun c => ((c.1.1 - a.minRow, c.1.2 - a.minCol), c.2))
      let n : Int := kept.length
      let w := if fl.updRowCol then newCols else mask.hdr.cols
      let r1 : Raster := { r with
        hdr := if fl.updNum then { hdr1 with cellsnum := n } else hdr1, calcPos := fl.calcPos, nCells := n,
        storePos := true,
        posData := (alloc2 n 2 (0 : Int)).map (fun _ => kept.map (·.1)),
        posIdx := (alloc1 n (0 : Int)).map (fun _ => kept.map (fun c => c.1.1 * w + c.1.2)) }
      .ok ⟨r1.withCells (kept.map (·.2)), mask, 2, false, ps, matchExactly, fl.updRowCol⟩
    else if fl.storeFull then
      let n := hdr1.cols * hdr1.rows
      let r1 : Raster := { r with
        hdr := if fl.updNum then { hdr1 with cellsnum := n } else hdr1, calcPos := fl.calcPos, nCells := n,
        storePos := false, posData := none, posIdx := none }
      if old.hdr.rows * old.hdr.cols = n then
        .ok ⟨r1, mask, 2, false, ps, matchExactly, fl.updRowCol⟩
      else do
        let items := (a.cells.filter (fun c => inBox c.1)).map
          (fun c => ((c.1.1 - a.minRow) * hdr1.cols + c.1.2 - a.minCol, c.2))
        let d ← scatter (some (List.replicate n.toNat (List.replicate r.nLyrs.toNat r.noData)))
          (items.filter (fun it => !decide (it.1 > n - 1)))
        let l ← nonNull d
        .ok ⟨r1.withCells l, mask, 2, false, ps, matchExactly, fl.updRowCol⟩
    else
      let r1 : Raster := { r with
        hdr := if fl.updNum then { hdr1 with cellsnum := mask.nCells } else hdr1, calcPos := fl.calcPos,
        nCells := mask.nCells, storePos := false, posData := mask.posData, posIdx := mask.posIdx }
      .ok ⟨r1.withCells (a.cells.map (·.2)), mask, 2, true, ps, matchExactly, fl.updRowCol⟩

/-- data_raster.hpp:3871-4260 `MaskAndCalculateValidPosition` with a mask, without the subsets. A mask without data has -1
positions and the vectors cannot be constructed (line 3899: exception). -/
def maskRaster (r mask : Raster) : Out MaskRes := do
  let (m, n, pd) ← mask.maskPositions
  if n < 0 then .exn
  else do
    let ps ← (match pd with
      | some ps => if (ps.length : Int) = n then .ok ps else .ub
      | none => if n = 0 then .ok [] else .ub : Out (List (Int × Int)))
    let a ← maskLoop m.hdr ps ⟨r, [], -1, m.hdr.rows, -1, m.hdr.cols, 0, 0⟩
    if a.masked = 0 then .ok ⟨a.ras, m, -1, true, ps, false, false⟩
    else maskFinish r m ps a

/-- data_raster.hpp:2839-2846 `SetUseMaskExt`: `none` if nothing is done (the result is `false`). -/
def setUseMaskExt (r : Raster) (mask : Option Raster) : Out (Option MaskRes) :=
  if !r.validData then .ok none
  else match mask with
    | none => .ok none
    | some m =>
      if r.useMaskExt then .ok none
      else do
        let x ← maskRaster { r with useMaskExt := true } m
        return some x

end Raster
end CCGL
