import Verif.Model.Gfs
import Verif.Model.Subset
/-!
# Model of subsets in GridFS: `OutputSubsetToMongoDB` (`src/data_raster.hpp:3348-3413`) and
`SubsetPositions::ReadFromMongoDB` (`src/data_raster.cpp:288-334`)

The raster is valid and the handle of the bucket is not null. `rms i`, `atts i` are the outcomes of the driver's removals and writes
for the `i`-th subset.
-/
namespace CCGL
namespace Gfs

/-- data_raster.hpp:3407 the name of the file of subset `k`. -/
def subFile (k : Int) (name : Str) : Str := intToDec k ++ '_' :: name

/-- data_raster.hpp:3360-3371 the options of the object when its subsets are stored. -/
def subOpts (T : RDT) (own opts : Opts) (inc : Bool) : Opts :=
  let o1 := Opts.set (Opts.copyInto opts own) kIncNodata (if inc then "TRUE".toList else "FALSE".toList)
  match Opts.get o1 kTypeOut with
  | none => Opts.set o1 kTypeOut (rdtToString T.code)
  | some s => if stringMatch "Unknown".toList s then Opts.set o1 kTypeOut (rdtToString T.code) else o1

/-- data_raster.hpp:3396-3406 the header, the array and the length for one subset; none if `PrepareSubsetData` returns false;
zero layers are a division by zero. -/
def subPayload (T : RDT) (r : Raster) (k : Int) (s : Subset) (outOrigin inc : Bool) (recls : IMap (List ℚ)) (dv : ℚ) :
    Out (Option (Header × Ptr ℚ × Int)) := do
  let x ← prepareSubsetData r k s outOrigin inc recls dv
  match x with
  | none => return none
  | some y =>
    if y.2.2 = 0 then .ub
    else return some ({ s.getHeader r.hdr.xll r.hdr.yll r.hdr.rows r.hdr.cellsize (Gtiff.asDbl T r.noData) with
      layers := y.2.2, cellsnum := Int.tdiv y.2.1 y.2.2 }, y.1, y.2.1)

/-- data_raster.hpp:3394-3411 the loop over the subsets, from subset number `i` on: `flag && WriteStreamDataAsGridfs(...)` does not
call the writer any more once a write has failed. -/
noncomputable def outSubLoop (rnd : ℚ → ℚ) (T : RDT) (rms : Nat → Nat → Bool) (atts : Nat → Nat → Attempt) (r : Raster) (name : Str) (o : Opts)
    (outOrigin inc : Bool) (recls : IMap (List ℚ)) (dv : ℚ) : Nat → Bool → IMap Subset → Store → Out (Store × Bool)
  | _, flag, [], st => .ok (st, flag)
  | i, flag, e :: l, st =>
    if !e.2.usable then outSubLoop rnd T rms atts r name o outOrigin inc recls dv (i + 1) flag l st
    else do
      let x ← subPayload T r e.1 e.2 outOrigin inc recls dv
      match x with
      | none => outSubLoop rnd T rms atts r name o outOrigin inc recls dv (i + 1) flag l st
      | some y =>
        if flag then do
          let w ← writeGridfs rnd T (rms i) (atts i) st (subFile e.1 name) (headerMap y.1) y.2.1 y.2.2 o
          outSubLoop rnd T rms atts r name o outOrigin inc recls dv (i + 1) w.2.1 l w.1
        else outSubLoop rnd T rms atts r name o outOrigin inc recls dv (i + 1) false l st

/-- data_raster.hpp:3348-3413 `OutputSubsetToMongoDB`: the options of the object, the bucket and the result (the flag of the loop is
not used). In the combined mode a failing `PrepareCombSubsetData` may leave `sublyrs`, by which is divided, uninitialised. -/
noncomputable def outputSubsets (rnd : ℚ → ℚ) (T : RDT) (rms : Nat → Nat → Bool) (atts : Nat → Nat → Attempt) (st : Store) (rs : RasterS)
    (own : Opts) (core name : Str) (opts : Opts) (inc outOrigin comb : Bool) (recls : IMap (List ℚ)) (dv : ℚ) :
    Out (Opts × Store × Bool) :=
  if !rs.ras.validData then .ok (own, st, false)
  else if rs.subs = [] then .ok (own, st, false)
  else
    let o := subOpts T own opts inc
    let act := if name = [] then core else name
    if comb then do
      let x ← prepareComb rs outOrigin inc recls dv
      match x with
      | none => .ub
      | some y =>
        if y.2.2 = 0 then .ub
        else do
          let w ← writeGridfs rnd T (rms 0) (atts 0) st ("0_".toList ++ act)
            (headerMap { rs.ras.hdr with layers := y.2.2, cellsnum := Int.tdiv y.2.1 y.2.2 }) y.1 y.2.1 o
          return (o, w.1, w.2.1)
    else do
      let w ← outSubLoop rnd T rms atts rs.ras act o outOrigin inc recls dv 0 true rs.subs st
      return (o, w.1, true)

/-- data_raster.cpp:288-334 `SubsetPositions::ReadFromMongoDB` (cells are read as `double`). -/
def readSubset (rnd : ℚ → ℚ) (ok1 : Nat → Bool) (rd : Bool) (ok2 : Nat → Bool) (st : Store) (s : Subset) (name : Str) (opts : Opts) :
    Out (Subset × Bool) := do
  let x ← readGridfs rnd .double ok1 rd ok2 st name initialHeader initialStr opts
  match x with
  | none => return (s, false)
  | some y => do
    let n ← intAt y.2.1 kCellsnum
    let l ← intAt y.2.1 kLayers
    s.readDb n l (some y.1)

end Gfs
end CCGL
