import Verif.Model.Bytes
import Verif.Model.Bson
import Verif.Model.Asc
import Verif.Model.Output
import Verif.Model.Mask
/-!
# Model of the GridFS file store (`src/db_mongoc.cpp:308-471`) and of raster files in it (`src/data_raster.hpp:869-1078,
3268-3346, 3513-3619`)

The server and the driver are modelled by their documented behaviour: a bucket is the list of its files in the order in which
they were inserted (the natural order, in which `find_one` looks for a match); a filter is a conjunction of equalities, where
numbers of different BSON types compare by value; every driver call may fail. Cells are exact rationals that their type can
represent; their bytes are those of `Model/Bytes.lean`. The bucket is used by one client at a time.
-/
namespace CCGL
namespace Gfs

/-- A GridFS file: name, metadata document, contents. -/
structure File where
  name : Str
  info : BDoc
  data : List Byte
deriving Repr, DecidableEq

/-- A bucket, oldest file first. -/
abbrev Store := List File

/-- A `STRING_MAP` (the order of `std::map` is not represented, it is not observable here). -/
abbrev Opts := List (Str × Str)

/-- `opts.find(key)`. -/
def Opts.get (o : Opts) (k : Str) : Option Str := (o.find? (fun e => e.1 = k)).map (·.2)

/-- utils_string.cpp:94-104 `UpdateStringMap`. -/
def Opts.set (o : Opts) (k v : Str) : Opts :=
  if (o.get k).isSome then o.map (fun e => if e.1 = k then (k, v) else e) else o ++ [(k, v)]

/-- `data_raster.hpp:90-105` keys. -/
def kNoData : Str := "NODATA_VALUE".toList
def kXll : Str := "XLLCENTER".toList
def kYll : Str := "YLLCENTER".toList
def kRows : Str := "NROWS".toList
def kCols : Str := "NCOLS".toList
def kCellsize : Str := "CELLSIZE".toList
def kLayers : Str := "LAYERS".toList
def kCellsnum : Str := "CELLSNUM".toList
def kTypeOut : Str := "DATATYPE_OUT".toList
def kIncNodata : Str := "INCLUDE_NODATA".toList

/-- The prefix of filter keys, db_mongoc.cpp:319. -/
def metaPrefix : Str := "metadata.".toList

/-- The field of a file that a filter key addresses. A dot in the rest of the key addresses an embedded document; the
metadata written by the library have none. -/
def field (f : File) (key : Str) : Option BVal :=
  if key = "filename".toList then some (.utf8 f.name)
  else if metaPrefix.isPrefixOf key then
    let k := key.drop metaPrefix.length
    if k.contains '.' then none else f.info.find k
  else none

/-- The number in a BSON value. -/
def bnum : BVal → Option DVal
  | .int32 i => some (.fin i)
  | .int64 i => some (.fin i)
  | .double d => some d
  | _ => none

/-- Equality in a MongoDB filter. -/
def valueEq (a b : BVal) : Bool :=
  match bnum a, bnum b with
  | some x, some y => decide (x = y)
  | none, none => decide (a = b)
  | _, _ => false

/-- The file satisfies all equalities of the filter. -/
def matchesF (flt : BDoc) (f : File) : Bool :=
  flt.all (fun e => match field f e.1 with
    | some b => valueEq b e.2
    | none => false)

/-- db_mongoc.cpp:317-319, 344-346 the filter. -/
def mkFilter (name : Str) (opts : Opts) : Out BDoc :=
  appendOptions [("filename".toList, .utf8 (cstr name))] opts metaPrefix

/-- db_mongoc.cpp:320-328 the retry loop, from attempt `count` on with `n` attempts left; `ok i` says that query `i` reached
the server. -/
def findLoop (ok : Nat → Bool) (st : Store) (flt : BDoc) (count : Nat) : Nat → Option File
  | 0 => none
  | n + 1 =>
    match (if ok count then st.find? (matchesF flt) else none) with
    | some f => some f
    | none => findLoop ok st flt (count + 1) n

/-- db_mongoc.cpp:308-334 `GetFile`. -/
def getFile (ok : Nat → Bool) (st : Store) (name : Str) (opts : Opts) : Out (Option File) := do
  let flt ← mkFilter name opts
  return findLoop ok st flt 0 5

/-- db_mongoc.cpp:391-409 `GetFileMetadata` (null: `none`). -/
def getFileMetadata (ok : Nat → Bool) (st : Store) (name : Str) (opts : Opts) : Out (Option BDoc) := do
  let f ← getFile ok st name opts
  return f.map (·.info)

/-- db_mongoc.cpp:411-440 `GetStreamData`: the bytes, or none for the result false; `rd` says whether reading the chunks
succeeded. -/
def getStreamData (ok : Nat → Bool) (rd : Bool) (st : Store) (name : Str) (opts : Opts) : Out (Option (List Byte)) := do
  let f ← getFile ok st name opts
  match f with
  | none => return none
  | some f => return if rd then some f.data else none

/-- The loop db_mongoc.cpp:354-365; `rm i` says whether removing the `i`-th matching file succeeded. -/
def removeLoop (rm : Nat → Bool) (flt : BDoc) : Nat → Store → Store
  | _, [] => []
  | i, f :: st =>
    if matchesF flt f then
      if rm i then removeLoop rm flt (i + 1) st else f :: removeLoop rm flt (i + 1) st
    else f :: removeLoop rm flt i st

/-- db_mongoc.cpp:336-370 `RemoveFile`; it returns true in any case. -/
def removeFile (rm : Nat → Bool) (st : Store) (name : Str) (opts : Opts) : Out (Store × Bool) := do
  let flt ← mkFilter name opts
  return (removeLoop rm flt 0 st, true)

/-- What is visible of a file in the bucket after an attempt to write it: nothing, its first bytes, or the file. -/
inductive Visible where
  | nothing
  | first (n : Nat)
  | whole
deriving Repr, DecidableEq

/-- The outcome of an attempt to write a file and whether it is reported as a success. A write error (`writev`) followed by
a successful `save` leaves a shorter file and is reported as a failure (db_mongoc.cpp:460-463). -/
structure Attempt where
  visible : Visible
  reported : Bool
deriving Repr, DecidableEq

/-- db_mongoc.cpp:442-471 `WriteStreamData` with the given outcome. -/
def writeStreamData (a : Attempt) (st : Store) (name : Str) (data : List Byte) (info : BDoc) : Store × Bool :=
  match a.visible with
  | .whole => (st ++ [{ name := cstr name, info := info, data := data }], a.reported)
  | .first n => (st ++ [{ name := cstr name, info := info, data := data.take n }], a.reported)
  | .nothing => (st, a.reported)

/-- The retry loop data_raster.hpp:1068-1074 from attempt `t` on with `n` attempts left: the bucket, the result and the
number of attempts made so far. -/
def writeLoop (att : Nat → Attempt) (name : Str) (data : List Byte) (info : BDoc) (t : Nat) : Nat → Store → Store × Bool × Nat
  | 0, st => (st, false, t)
  | n + 1, st =>
    let r := writeStreamData (att t) st name data info
    if r.2 then (r.1, true, t + 1) else writeLoop att name data info (t + 1) n r.1

/-- A `STRDBL_MAP` with its keys in order. -/
abbrev NumMap := List (Str × DVal)

/-- data_raster.hpp:1001-1011 one header number: `CVT_INT` of a number outside `int` or of an infinity is undefined. -/
def headerVal (k : Str) (x : DVal) : Out BVal :=
  if stringMatch kNoData k then .ok (.double x)
  else match x with
    | .fin q => if q.den = 1 then (if -(2 ^ 31) ≤ q ∧ q < 2 ^ 31 then .ok (.int32 q.num) else .ub) else .ok (.double x)
    | .inf _ => .ub
    | .nan => .ok (.double x)

/-- data_raster.hpp:1000-1011 the header in the metadata document. -/
def headerDoc : NumMap → Out BDoc
  | [] => .ok []
  | (k, x) :: h => do
    let b ← headerVal k x
    let d ← headerDoc h
    return (cstr k, b) :: d

/-- `static_cast` between cell types; `rnd` rounds to `float`. -/
def conv (rnd : ℚ → ℚ) (src dst : RDT) (v : ℚ) : Out ℚ :=
  if src = dst then .ok v
  else if Gtiff.isIntT dst then do
    let n ← Gtiff.castTo src dst v
    return (n : ℚ)
  else if dst = .float then .ok (rnd v)
  else .ok (Gtiff.asDbl src v)

/-- data_raster.hpp:1013-1062 the bytes to be written. No branch for an unknown type and for 64-bit integers of another
cell type: the buffer stays null with length -1. A negative length would be converted to a huge one. -/
noncomputable def streamBytes (rnd : ℚ → ℚ) (T opt : RDT) (values : Ptr ℚ) (n : Int) : Out (List Byte) :=
  if n < 0 then .ub
  else if opt = T then do
    let vs ← Gtiff.readCells values n
    return vs.flatMap (encode T)
  else if opt = .unknown ∨ opt = .uint64 ∨ opt = .int64 then .ub
  else do
    let vs ← Gtiff.readCells values n
    let cs ← vs.mapM (conv rnd T opt)
    return cs.flatMap (encode opt)

/-- data_raster.hpp:991-996 the options with the type of the cells added. -/
def curOpts (T : RDT) (opts : Opts) : Opts :=
  if (opts.get kTypeOut).isNone then opts ++ [(kTypeOut, rdtToString T.code)] else opts

/-- data_raster.hpp:988-1078 `WriteStreamDataAsGridfs`: the bucket, the result and the number of attempts. -/
noncomputable def writeGridfs (rnd : ℚ → ℚ) (T : RDT) (rm : Nat → Bool) (att : Nat → Attempt) (st : Store) (name : Str) (hdr : NumMap)
    (values : Ptr ℚ) (n : Int) (opts : Opts) : Out (Store × Bool × Nat) := do
  let cur := curOpts T opts
  let (st1, _) ← removeFile rm st name cur
  let hd ← headerDoc hdr
  match cur.get kTypeOut with
  | none => .exn
  | some ty => do
    let bytes ← streamBytes rnd T (stringToRdt ty) values n
    let info ← appendOptions hd cur []
    return writeLoop att name bytes info 0 4 st1

/-! ## Reading -/

/-- Header numbers and texts while reading, as maps. -/
abbrev HMap := Str → Option DVal
abbrev SMap := Str → Option Str

def upd {β : Type} (m : Str → Option β) (k : Str) (v : β) : Str → Option β := fun x => if x = k then some v else m x

/-- data_raster.hpp:886-896 one element of the metadata. -/
def readElem (hs : HMap × SMap) (e : Str × BVal) : HMap × SMap :=
  if (hs.1 e.1).isSome then
    match bsonNumeric e.2 with
    | some x => (upd hs.1 e.1 x, hs.2)
    | none => hs
  else (hs.1, upd hs.2 e.1 (bsonString e.2))

/-- `CVT_INT(header.at(key))`. -/
def intAt (h : HMap) (k : Str) : Out Int :=
  match h k with
  | none => .exn
  | some (.fin q) => if -(2 ^ 31) ≤ truncQ q ∧ truncQ q < 2 ^ 31 then .ok (truncQ q) else .ub
  | some _ => .ub

/-- data_raster.hpp:910-975 the cells: `length / value_count` is undefined for no values; a type whose size differs is
refused. -/
def readCellsAs (rnd : ℚ → ℚ) (T : RDT) (bytes : List Byte) (count : Int) (ty : RDT) : Out (Option (List ℚ)) :=
  if count = 0 then .ub
  else if ty = .unknown then .ok none
  else if count > 0 ∧ (bytes.length : Int) / count = size ty then do
    let cs ← (decodeAll ty count.toNat bytes).mapM (conv rnd ty T)
    return some cs
  else .ok none

/-- data_raster.hpp:869-976 `ReadGridFsFile`: cells, header numbers and header texts, or none for the result false. `ok1`, `ok2`
say which of the queries reach the server, `rd` whether the chunks could be read. -/
def readGridfs (rnd : ℚ → ℚ) (T : RDT) (ok1 : Nat → Bool) (rd : Bool) (ok2 : Nat → Bool) (st : Store) (name : Str) (hdr : HMap)
    (hstr : SMap) (opts : Opts) : Out (Option (List ℚ × HMap × SMap)) := do
  let s ← getStreamData ok1 rd st name opts
  match s with
  | none => return none
  | some bytes => do
    let m ← getFileMetadata ok2 st name opts
    let hs := (m.getD []).foldl readElem (hdr, hstr)
    let rows ← intAt hs.1 kRows
    let cols ← intAt hs.1 kCols
    let lyrs ← intAt hs.1 kLayers
    let cells ← intAt hs.1 kCellsnum
    if rows < 0 ∨ cols < 0 ∨ lyrs < 0 then return none
    else do
      let count ← mulInt cells lyrs
      let ty := match hs.2 kTypeOut with
        | some s => stringToRdt s
        | none => .unknown
      let cs ← readCellsAs rnd T bytes count ty
      return cs.map (fun l => (l, hs))

/-- data_raster.cpp:105-119 `InitialHeader`. -/
def headerKeys : List Str := [kCellsize, kCellsnum, kLayers, kCols, kNoData, kRows, kXll, kYll]
def initialHeader : HMap := fun k => if k ∈ headerKeys then some (.fin NODATA) else none

/-- data_raster.cpp:137-153 `InitialStrHeader`. -/
def strKeys : List Str := ["SRS".toList, "DATATYPE".toList, kTypeOut, kIncNodata, "MASK_NAME".toList]
def initialStr : SMap := fun k => if k ∈ strKeys then some [] else none

/-! ## Rasters -/

/-- The header of a raster as a map in key order. -/
def headerMap (h : Header) : NumMap :=
  [ (kCellsize, .fin h.cellsize), (kCellsnum, .fin h.cellsnum), (kLayers, .fin h.layers), (kCols, .fin h.cols),
    (kNoData, .fin h.noData), (kRows, .fin h.rows), (kXll, .fin h.xll), (kYll, .fin h.yll) ]

/-- utils_string.cpp:78-92 `CopyStringMap(src, dst)`. -/
def Opts.copyInto (src dst : Opts) : Opts := src.foldl (fun d kv => Opts.set d kv.1 kv.2) dst

/-- data_raster.hpp:3277-3282, 3299-3303 the metadata options of the object when it is stored. -/
def outOpts (T : RDT) (own opts : Opts) (inc : Bool) : Opts :=
  let o1 := Opts.copyInto opts own
  let o2 := match Opts.get o1 kTypeOut with
    | none => Opts.set o1 kTypeOut (rdtToString T.code)
    | some s => if stringMatch "Unknown".toList s then Opts.set o1 kTypeOut (rdtToString T.code) else o1
  Opts.set o2 kIncNodata (if inc then "TRUE".toList else "FALSE".toList)

/-- data_raster.hpp:3268-3346 `OutputToMongoDB` with `out_origin`: the object, its options, the bucket and the result. `own` are the
options of the object before. -/
noncomputable def outputToMongo (rnd : ℚ → ℚ) (T : RDT) (rm : Nat → Bool) (att : Nat → Attempt) (st : Store) (r : Raster) (own : Opts)
    (core name : Str) (opts : Opts) (inc : Bool) : Out (Raster × Opts × Store × Bool) := do
  let s ← r.outputStream inc
  let o := outOpts T own opts inc
  let res ← writeGridfs rnd T rm att st (if name = [] then core else name) (headerMap s.hdr) s.data s.len o
  return (s.raster, o, res.1, res.2.1)

/-- A finite header number (the others are not modelled). -/
def finAt (h : HMap) (k : Str) : Out ℚ :=
  match h k with
  | some (.fin q) => .ok q
  | some _ => .ub
  | none => .exn

/-- The header of the object, data_raster.hpp:3532-3543 for an object that was not given one before. -/
def headerOf (h : HMap) : Out Header := do
  let rows ← intAt h kRows
  let cols ← intAt h kCols
  let cellsize ← finAt h kCellsize
  let xll ← finAt h kXll
  let yll ← finAt h kYll
  let nd ← finAt h kNoData
  let lyrs ← intAt h kLayers
  let n ← intAt h kCellsnum
  return { rows := rows, cols := cols, cellsize := cellsize, xll := xll, yll := yll, noData := nd, layers := lyrs, cellsnum := n }

/-- data_raster.hpp:3600-3611 the interleaved data as rows of a 2D array. -/
def interleaved (cells : List ℚ) (n lyrs : Int) : Out (List (List ℚ)) :=
  (List.range n.toNat).mapM (fun (i : Nat) => (List.range lyrs.toNat).mapM (fun (j : Nat) => readAt (some cells) (i * lyrs + j)))

/-- data_raster.hpp:3525-3528 the options of the query: stored files include NoData cells unless stated otherwise. -/
def inOpts (opts : Opts) : Opts := if (Opts.get opts kIncNodata).isNone then opts ++ [(kIncNodata, "TRUE".toList)] else opts

/-- data_raster.hpp:3513-3619 `ReadFromMongoDB` without a mask into a fresh object: the object, or none for the result false. -/
def readFromMongo (rnd : ℚ → ℚ) (T : RDT) (ok1 : Nat → Bool) (rd : Bool) (ok2 : Nat → Bool) (st : Store) (name : Str) (calcPos : Bool)
    (dflt : ℚ) (opts : Opts) : Out (Option Raster) := do
  let x ← readGridfs rnd T ok1 rd ok2 st name initialHeader initialStr (inOpts opts)
  match x with
  | none => return none
  | some (cells, h, s) => do
    let hdr ← headerOf h
    let inc := !stringMatch ((s kIncNodata).getD []) "FALSE".toList
    let full ← mulInt hdr.rows hdr.cols
    let nd ← conv rnd .double T hdr.noData
    if inc && decide (hdr.cellsnum ≠ full) then return none
    else if !inc then return none
    else do
      let base : Raster := { Raster.init (decide (hdr.layers ≠ 1)) with
        hdr := hdr, noData := nd, nLyrs := hdr.layers, nCells := hdr.cellsnum, calcPos := calcPos,
        dflt := Raster.checkDefault dflt nd }
      let r ← (if hdr.layers = 1 then .ok { base with raster1 := some cells }
        else do
          let rows ← interleaved cells hdr.cellsnum hdr.layers
          return { base with raster2 := some rows } : Out Raster)
      let (r', _) ← r.calcNoMask
      return some r'

end Gfs
end CCGL
