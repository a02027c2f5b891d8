import Verif.Model.Mask
/-!
# Model of the subsets of the mask in `MaskAndCalculateValidPosition` (data_raster.hpp:3968-3982, 4183-4251)

Simplifications as in `Model/Mask.lean`. The arrays of the copied subsets are values (the copy is deep, data_raster.hpp:3973).
-/
namespace CCGL
namespace Raster

/-- data_raster.hpp:4191-4206 the loop over the cells `is` of a subset: the row, column and storage index of each cell that is
still valid in the masked raster `r`. `mh` is the header of the mask, `vp` its positions. -/
def maskSubLoop (r : Raster) (mh : Header) (vp : List (Int × Int)) (s : Subset) : List Nat → Out (List ((Int × Int) × Int))
  | [] => .ok []
  | i :: rest => do
    let gi ← readAt s.glob i
    let rc ← readAt (some vp) gi
    let xy := coordOf mh rc.1 rc.2
    let g ← r.getPositionXY xy.1 xy.2
    if g < 0 then maskSubLoop r mh vp s rest
    else do
      let p := posOfCoord r.hdr xy.1 xy.2
      let nd ← r.isNoData p.1 p.2 1
      if nd then maskSubLoop r mh vp s rest
      else do
        let gp ← r.getPosition p.1 p.2
        let l ← maskSubLoop r mh vp s rest
        return (p, gp) :: l

/-- data_raster.hpp:4228-4239 the local row and column of a stored cell. -/
def localRC (r : Raster) (srow scol gp : Int) : Out (Int × Int) :=
  if r.posData.isNone || r.posIdx.isNone then
    if r.hdr.cols = 0 then .ub else .ok (Int.tdiv gp r.hdr.cols - srow, Int.tmod gp r.hdr.cols - scol)
  else do
    let x ← readAt r.posIdx gp
    (if r.hdr.cols = 0 then .ub else .ok (Int.tdiv x r.hdr.cols - srow, Int.tmod x r.hdr.cols - scol) : Out (Int × Int))

/-- data_raster.hpp:4184-4249 one subset: dropped if none of its cells is valid in the masked raster, recomputed if `recalc`,
else kept with its number of layers set (line 3974). -/
def maskSub (r : Raster) (mh : Header) (vp : List (Int × Int)) (recalc : Bool) (s : Subset) : Out (Option Subset) := do
  let l ← maskSubLoop r mh vp s (List.range s.nCells.toNat)
  if l = [] then return none
  else if recalc then do
    let srow := l.foldl (fun (a : Int) x => if x.1.1 < a then x.1.1 else a) r.hdr.rows
    let erow := l.foldl (fun (a : Int) x => if x.1.1 > a then x.1.1 else a) (-1)
    let scol := l.foldl (fun (a : Int) x => if x.1.2 < a then x.1.2 else a) r.hdr.cols
    let ecol := l.foldl (fun (a : Int) x => if x.1.2 > a then x.1.2 else a) (-1)
    let w := ecol - scol + 1
    let lp ← l.mapM (fun (x : (Int × Int) × Int) => r.localRC srow scol x.2)
    return some { s with
      srow := srow, erow := erow, scol := scol, ecol := ecol, nCells := l.length, nLyrs := r.nLyrs,
      glob := some (l.map (·.2)), localPos := some lp, localIdx := some (lp.map (fun rc => rc.1 * w + rc.2)),
      data := none, data2d := none }
  else return some { s with nLyrs := r.nLyrs }

/-- All subsets; the loop erases the dropped ones. -/
def maskSubs (r : Raster) (mh : Header) (vp : List (Int × Int)) (recalc : Bool) : IMap Subset → Out (IMap Subset)
  | [] => .ok []
  | e :: rest => do
    let x ← maskSub r mh vp recalc e.2
    let l ← maskSubs r mh vp recalc rest
    return match x with
      | some s => (e.1, s) :: l
      | none => l

/-- data_raster.hpp:3871-4260 `MaskAndCalculateValidPosition` with the subsets: `own` are those of the raster before. They are
replaced only if the mask has subsets (line 3970-3971). -/
def maskRasterS (r : Raster) (own : IMap Subset) (mask : RasterS) : Out (MaskRes × IMap Subset) := do
  let res ← maskRaster r mask.ras
  if res.code < 0 ∨ mask.subs = [] then return (res, own)
  else do
    let subs ← maskSubs res.ras res.mask.hdr res.validPos (!res.matchExactly && res.updRowCol) mask.subs
    return (res, subs)

end Raster
end CCGL
