import Verif.Model.Raster
/-!
# Model of the subsets of a raster (`SubsetPositions`, `BuildSubSet`, decomposition and combination)

Simplifications as in `Model/Raster.lean`. A `std::map<int, β>` is an association list kept in the order of the keys.
-/
namespace CCGL

/-- `std::map<int, β>`. -/
abbrev IMap (β : Type) := List (Int × β)

/-- `map::find`/`map::at`. -/
def IMap.get {β : Type} (m : IMap β) (k : Int) : Option β := (m.find? (fun e => e.1 = k)).map (·.2)

/-- `map::operator[]` assignment or insertion, in key order. -/
def IMap.set {β : Type} : IMap β → Int → β → IMap β
  | [], k, v => [(k, v)]
  | e :: m, k, v => if k < e.1 then (k, v) :: e :: m else if k = e.1 then (k, v) :: m else e :: IMap.set m k v

/-- Writing a list of values at given indexes, one after the other. -/
def scatter {α : Type} (p : Ptr α) : List (Int × α) → Out (Ptr α)
  | [] => .ok p
  | it :: items => do
    let p' ← writeAt p it.1 it.2
    scatter p' items

/-- data_raster.hpp:1087-1176 the public fields of `SubsetPositions` (without `alloc_`). -/
structure Subset where
  usable : Bool
  nCells : Int
  nLyrs : Int
  srow : Int
  erow : Int
  scol : Int
  ecol : Int
  glob : Ptr Int
  localPos : Ptr (Int × Int)
  localIdx : Ptr Int
  data : Ptr ℚ
  data2d : Ptr (List ℚ)
deriving Repr, DecidableEq

/-- data_raster.cpp:210-237 the constructor `SubsetPositions(srow, erow, scol, ecol)`. -/
def Subset.new (srow erow scol ecol : Int) : Subset :=
  { usable := true, nCells := 0, nLyrs := -1, srow := srow, erow := erow, scol := scol, ecol := ecol,
    glob := none, localPos := none, localIdx := none, data := none, data2d := none }

/-- A raster with its `subset_` map (data_raster.hpp:1994). -/
structure RasterS where
  ras : Raster
  subs : IMap Subset
deriving Repr, DecidableEq

/-- data_raster.hpp:2352-2355 the group of a value. -/
def groupOf (groups : IMap Int) (v : ℚ) : Int :=
  match groups.get (truncQ v) with
  | some g => g
  | none => truncQ v

/-- data_raster.hpp:2360-2382 one cell is added to its subset; the vector `global_idx[groupv]` is kept beside the
subset. -/
def addCell (m : IMap (Subset × List Int)) (gv row col vi : Int) : IMap (Subset × List Int) :=
  let e := match m.get gv with
    | some e => e
    | none => (Subset.new row row col col, [])
  let s := e.1
  m.set gv ({ s with
    erow := if row > s.erow then row else s.erow,
    srow := if row < s.srow then row else s.srow,
    ecol := if col > s.ecol then col else s.ecol,
    scol := if col < s.scol then col else s.scol,
    nCells := s.nCells + 1 }, e.2 ++ [vi])

/-- data_raster.hpp:2348-2383 the first loop of `BuildSubSet`; division by zero columns is undefined. -/
def buildLoop (r : Raster) (groups : IMap Int) : List Nat → IMap (Subset × List Int) →
    Out (IMap (Subset × List Int))
  | [], m => .ok m
  | vi :: rest, m => do
    let v ← r.getValueByIndex vi 1
    if floatEqual v r.noData then buildLoop r groups rest m
    else do
      let p ← readAt r.posIdx vi
      let m' := addCell m (groupOf groups v) (Int.tdiv p r.hdr.cols) (Int.tmod p r.hdr.cols) vi
      if r.hdr.cols = 0 then .ub else buildLoop r groups rest m'

/-- data_raster.hpp:2384-2409 the arrays of one subset. -/
def finishSubset (r : Raster) (e : Subset × List Int) : Out Subset := do
  let s := e.1
  let g ← Raster.storeInto (alloc1 s.nCells (0 : Int)) none e.2
  let ncols := s.ecol - s.scol + 1
  let lp ← (List.range s.nCells.toNat).mapM (fun (k : Nat) => do
    let gi ← readAt g k
    let p ← readAt r.posIdx gi
    (if r.hdr.cols = 0 then .ub
      else .ok (Int.tdiv p r.hdr.cols - s.srow, Int.tmod p r.hdr.cols - s.scol) : Out (Int × Int)))
  return { s with
    glob := g,
    localPos := (alloc2 s.nCells 2 (-1 : Int)).map (fun _ => lp),
    localIdx := (alloc1 s.nCells (-1 : Int)).map (fun _ => lp.map (fun rc => rc.1 * ncols + rc.2)) }

/-- data_raster.hpp:2337-2412 `BuildSubSet(groups)`. -/
def buildSubSet (rs : RasterS) (groups : IMap Int) : Out (RasterS × Bool) :=
  if !rs.ras.validData then .ok (rs, false)
  else do
    let (r, ok) ← (if rs.ras.posData.isNone || rs.ras.posIdx.isNone then rs.ras.setCalcPositions
      else .ok (rs.ras, true) : Out (Raster × Bool))
    if !ok then .ok ({ rs with ras := r }, false)
    else if rs.subs ≠ [] then .ok ({ rs with ras := r }, true)
    else do
      let m ← buildLoop r groups (List.range r.nCells.toNat) []
      let subs ← m.mapM (fun (e : Int × (Subset × List Int)) => do
        let s ← finishSubset r e.2
        return (e.1, s))
      return ({ ras := r, subs := subs }, true)

/-- data_raster.hpp:2406-2416 `ReleaseSubset`. -/
def releaseSubset (rs : RasterS) : RasterS := { rs with subs := [] }

/-- data_raster.hpp:2418-2421 `RebuildSubSet(groups)`. -/
def rebuildSubSet (rs : RasterS) (groups : IMap Int) : Out (RasterS × Bool) := buildSubSet (releaseSubset rs) groups

/-- data_raster.hpp:1098-1110 `SubsetPositions::SetData(n, data)`; the array has `data.length` elements. -/
def Subset.setData (s : Subset) (n : Int) (data : Ptr ℚ) : Out (Subset × Bool) :=
  if n ≠ s.nCells then .ok (s, false)
  else match data with
    | none => .ok (s, false)
    | some l =>
      if (l.length : Int) < s.nCells then .ub
      else match s.data with
        | some old =>
          let d : Ptr ℚ := some (l.take s.nCells.toNat ++ old.drop s.nCells.toNat)
          if (old.length : Int) < s.nCells then .ub else .ok ({ s with nLyrs := 1, usable := true, data := d }, true)
        | none =>
          let d : Ptr ℚ := (alloc1 s.nCells (0 : ℚ)).map (fun _ => l.take s.nCells.toNat)
          .ok ({ s with nLyrs := 1, usable := true, data := d }, true)

/-- data_raster.hpp:1112-1128 `SubsetPositions::Set2DData(n, lyr, data2d)`, for rows of exactly `lyr` elements (an old
array must have the same number of layers, else its rows are overrun). `Initialize2DArray` with a source reads
`data2d[0][0]` first. -/
def Subset.set2DData (s : Subset) (n lyr : Int) (data : Ptr (List ℚ)) : Out (Subset × Bool) :=
  if n ≠ s.nCells then .ok (s, false)
  else match data with
    | none => .ok (s, false)
    | some l =>
      if (l.length : Int) ≠ s.nCells ∨ l.any (fun c => decide ((c.length : Int) ≠ lyr)) then .ub
      else match s.data2d with
        | some old => if old.any (fun c => decide ((c.length : Int) ≠ lyr)) ∨ (old.length : Int) ≠ s.nCells then .ub
            else .ok ({ s with nLyrs := lyr, usable := true, data2d := some l }, true)
        | none => if s.nCells ≤ 0 ∨ lyr ≤ 0 then .ub
            else .ok ({ s with nLyrs := lyr, usable := true, data2d := some l }, true)

/-- data_raster.hpp:2929-2938, 3037-3046 the common length of the value vectors of a reclassification table: `-1`
for the empty table, `none` if the lengths differ. -/
def reclsLyrs (recls : IMap (List ℚ)) : Option Int :=
  recls.foldl (fun acc e => match acc with
    | none => none
    | some n => if n < 0 then some (e.2.length : Int) else if n ≠ (e.2.length : Int) then none else some n) (some (-1))

/-- data_raster.hpp:2989-3003, 3071-3084 the value of a cell from the reclassification table. -/
def reclsValue (r : Raster) (recls : IMap (List ℚ)) (subId : Int) (outOrigin : Bool) (dflt : ℚ) (gidx : Int)
    (ilyr : Int) : Out ℚ := do
  let key ← (if outOrigin then
      if r.raster1.isSome then do let v ← readAt r.raster1 gidx; return truncQ v
      else if r.raster2.isSome then do
        let c ← readAt r.raster2 gidx
        let v ← readAt (some c) ilyr
        return truncQ v
      else .ok subId
    else .ok subId : Out Int)
  match recls.get key with
  | some l => if (l.length : Int) > ilyr then readAt (some l) ilyr else .ok dflt
  | none => .ok dflt

/-- The default value: `default_value_` of the raster if `NODATA_VALUE` is given (data_raster.hpp:2966-2968,
3059-3061). -/
def defaultOf (r : Raster) (dv : ℚ) : ℚ := if floatEqual dv NODATA then r.dflt else dv

/-- The value written for cell `vi`, layer `ilyr` by `PrepareSubsetData` (data_raster.hpp:3071-3103); `none` is the
failure branch. -/
def subValue (r : Raster) (subId : Int) (s : Subset) (outOrigin : Bool) (recls : IMap (List ℚ)) (dflt : ℚ)
    (lyrs : Int) (vi ilyr : Int) : Out (Option ℚ) := do
  let gidx ← readAt s.glob vi
  if recls ≠ [] then do
    let v ← reclsValue r recls subId outOrigin dflt gidx ilyr
    return some v
  else if outOrigin && decide (lyrs > 1) && r.raster2.isSome then do
    let c ← readAt r.raster2 gidx
    let v ← readAt (some c) ilyr
    return some v
  else if outOrigin && decide (lyrs = 1) && r.raster1.isSome then do
    let v ← readAt r.raster1 gidx
    return some v
  else if !outOrigin && decide (lyrs > 1) && s.data2d.isSome then do
    let c ← readAt s.data2d vi
    let v ← readAt (some c) ilyr
    return some v
  else if !outOrigin && decide (lyrs = 1) && s.data.isSome then do
    let v ← readAt s.data vi
    return some v
  else return none

/-- Collect (index, value) pairs until the first failure. The code writes each value at once; the destination is
never read, so collecting first makes no difference. -/
def collectItems {α β : Type} (f : β → Out (Option (Int × α))) : List β → Out (Option (List (Int × α)))
  | [] => .ok (some [])
  | b :: bs => do
    let x ← f b
    match x with
    | none => .ok none
    | some it => do
      let rest ← collectItems f bs
      return rest.map (it :: ·)

/-- data_raster.hpp:3031-3111 `PrepareSubsetData`: the array, its length and the number of layers; `none` for a
false return. -/
def prepareSubsetData (r : Raster) (subId : Int) (s : Subset) (outOrigin includeNoData : Bool)
    (recls : IMap (List ℚ)) (dv : ℚ) : Out (Option (Ptr ℚ × Int × Int)) :=
  match reclsLyrs recls with
  | none => .ok none
  | some lr =>
    let lyrs := if outOrigin then (if lr > 0 then lr else r.nLyrs) else s.nLyrs
    if lyrs < 0 then .ok none
    else
      let nrows := s.erow - s.srow + 1
      let ncols := s.ecol - s.scol + 1
      let ncells := if includeNoData then nrows * ncols else s.nCells
      do
        let items ← collectItems (fun (x : Int × Int) => do
          let j ← readAt s.localIdx x.1
          let v ← subValue r subId s outOrigin recls (defaultOf r dv) lyrs x.1 x.2
          let j' := if includeNoData then j else x.1
          return v.map (fun v => (j' * lyrs + x.2, v))) (Raster.gridCells s.nCells lyrs)
        match items with
        | none => return none
        | some items => do
          let d ← scatter (alloc1 (ncells * lyrs) r.noData) items
          return some (d, ncells * lyrs, lyrs)

/-- The value written for cell `vi`, layer `ilyr` of a subset by `PrepareCombSubsetData`
(data_raster.hpp:2989-3019). -/
def combValue (r : Raster) (subId : Int) (s : Subset) (outOrigin useDefault : Bool) (recls : IMap (List ℚ))
    (dflt : ℚ) (lyrs : Int) (vi ilyr : Int) : Out (Option ℚ) := do
  let gidx ← readAt s.glob vi
  if recls ≠ [] then do
    let v ← reclsValue r recls subId outOrigin dflt gidx ilyr
    return some v
  else if useDefault then return some dflt
  else if !outOrigin && decide (lyrs > 1) && s.data2d.isSome then do
    let c ← readAt s.data2d vi
    let v ← readAt (some c) ilyr
    return some v
  else if !outOrigin && decide (lyrs = 1) && s.data.isSome then do
    let v ← readAt s.data vi
    return some v
  else return none

/-- data_raster.hpp:2940-2951 one subset in the check of the usable subsets. -/
def subsetLyrsStep (reclsEmpty : Bool) (acc : Option Int) (e : Int × Subset) : Option Int :=
  match acc with
  | none => none
  | some n =>
    if !e.2.usable then some n
    else if !(e.2.data.isSome || e.2.data2d.isSome || !reclsEmpty) then none
    else if n < 0 then some e.2.nLyrs
    else if e.2.nLyrs ≠ n then none else some n

/-- data_raster.hpp:2939-2952 the check of the usable subsets: their common number of layers (`-1`: no usable
subset), `none` for a false return. -/
def subsetLyrs (subs : IMap Subset) (reclsEmpty : Bool) : Option Int :=
  subs.foldl (subsetLyrsStep reclsEmpty) (some (-1))

/-- All (subset, cell, layer) triples visited by the loops of `PrepareCombSubsetData`, with the flag
`use_defaultv_directly` (data_raster.hpp:2972-2985). -/
def combCells (subs : IMap Subset) (noData dflt : ℚ) (lyrs : Int) : List ((Int × Subset × Bool) × (Int × Int)) :=
  subs.flatMap (fun (e : Int × Subset) =>
    if e.2.usable then (Raster.gridCells e.2.nCells lyrs).map (fun (x : Int × Int) => ((e.1, e.2, false), x))
    else if floatEqual noData dflt then []
    else (Raster.gridCells e.2.nCells lyrs).map (fun (x : Int × Int) => ((e.1, e.2, true), x)))

/-- data_raster.hpp:2923-3029 `PrepareCombSubsetData`. -/
def prepareComb (rs : RasterS) (outOrigin includeNoData : Bool) (recls : IMap (List ℚ)) (dv : ℚ) :
    Out (Option (Ptr ℚ × Int × Int)) :=
  if rs.subs = [] then .ok none
  else match reclsLyrs recls with
  | none => .ok none
  | some lr => match subsetLyrs rs.subs (decide (recls = [])) with
    | none => .ok none
    | some ls =>
      let lyrs := if outOrigin then (if lr > 0 then lr else rs.ras.nLyrs)
        else (if ls < 0 ∧ lr > 0 then lr else ls)
      if lyrs < 0 then .ok none
      else
        let r := rs.ras
        let gncells := if includeNoData then r.hdr.rows * r.hdr.cols else r.nCells
        do
          let items ← collectItems (fun (x : (Int × Subset × Bool) × (Int × Int)) => do
            let gidx ← readAt x.1.2.1.glob x.2.1
            let p ← readAt r.posIdx gidx
            let v ← combValue r x.1.1 x.1.2.1 outOrigin x.1.2.2 recls (defaultOf r dv) lyrs x.2.1 x.2.2
            let j := if includeNoData then p else gidx
            return v.map (fun v => (j * lyrs + x.2.2, v))) (combCells rs.subs r.noData (defaultOf r dv) lyrs)
          match items with
          | none => return none
          | some items => do
            let d ← scatter (alloc1 (gncells * lyrs) r.noData) items
            return some (d, gncells * lyrs, lyrs)

/-- data_raster.cpp:337-347 `SubsetPositions::GetHeader`. -/
def Subset.getHeader (s : Subset) (gxll gyll : ℚ) (gnrows : Int) (cellsize nodata : ℚ) : Header :=
  { rows := s.erow - s.srow + 1, cols := s.ecol - s.scol + 1, cellsize := cellsize,
    xll := s.scol * cellsize + gxll, yll := (gnrows - s.erow - 1 : Int) * cellsize + gyll,
    noData := nodata, layers := -1, cellsnum := -1 }

/-- data_raster.cpp:289-333 `SubsetPositions::ReadFromMongoDB` after the file has been read (`ReadGridFsFile` at :293
succeeded) into an array of `dbn` cells and `dbl` layers. A `data2d_` array allocated earlier must have the same shape,
else its rows are overrun. -/
def Subset.readDb (s : Subset) (dbn dbl : Int) (db : Ptr ℚ) : Out (Subset × Bool) :=
  let nfull := (s.erow - s.srow + 1) * (s.ecol - s.scol + 1)
  if (nfull ≠ dbn ∧ s.nCells ≠ dbn) ∨ dbl < 0 then .ok (s, false)
  else
    let s1 : Subset := { s with nLyrs := dbl }
    if dbl = 1 then
      if s.nCells = dbn then s1.setData dbn db
      else do
        let vals ← (List.range s.nCells.toNat).mapM (fun (i : Nat) => do
          let j ← readAt s.localIdx i
          readAt db j)
        match s.data with
        | some old =>
          let d : Ptr ℚ := some (vals ++ old.drop s.nCells.toNat)
          if (old.length : Int) < s.nCells then .ub else .ok ({ s1 with usable := true, data := d }, true)
        | none =>
          let d : Ptr ℚ := (alloc1 s.nCells NODATA).map (fun _ => vals)
          .ok ({ s1 with usable := true, data := d }, true)
    else do
      let vals ← (List.range s.nCells.toNat).mapM (fun (i : Nat) => (List.range dbl.toNat).mapM (fun (l : Nat) => do
        if nfull = dbn then do
          let j ← readAt s.localIdx i
          readAt db (j * dbl + l)
        else readAt db (i * dbl + l)))
      match s.data2d with
      | some old =>
        if old.any (fun c => decide ((c.length : Int) ≠ dbl)) ∨ (old.length : Int) ≠ s.nCells then .ub
        else .ok ({ s1 with usable := true, data2d := some vals }, true)
      | none =>
        let d : Ptr (List ℚ) := (alloc2 s.nCells dbl NODATA).map (fun _ => vals)
        .ok ({ s1 with usable := true, data2d := d }, true)

/-- apps/mask_rasterio.cpp:614-634 the combine mode: the values of the file of subset `id` (`GetRasterData` of the file
read as a raster with valid positions) are set by `SetData`, whose return value is ignored. -/
def comFile (subs : IMap Subset) (f : Int × (Int × Ptr ℚ)) : Out (IMap Subset) :=
  match subs.get f.1 with
  | none => .ok subs
  | some s => do
    let x ← s.setData f.2.1 f.2.2
    return subs.set f.1 x.1

/-- apps/mask_rasterio.cpp:609-634: all subsets are made unusable, then the files are loaded. -/
def comLoad (subs : IMap Subset) (files : List (Int × (Int × Ptr ℚ))) : Out (IMap Subset) :=
  files.foldlM comFile (subs.map (fun e => (e.1, { e.2 with usable := false })))

end CCGL
