import Verif.Model.Time
import Verif.Model.Dec
/-!
# Model of `IsIpAddress` (`src/basic.cpp`) and of the option parsing of `apps/mask_rasterio.cpp`
-/
namespace CCGL

/-- `sscanf("%d")` into an `int` (glibc): the number is converted by `strtol` (saturating) and truncated. -/
def scanStore (v : Int) : Int :=
  wrapInt32 (if v < longMin then longMin else if longMax < v then longMax else v)

/-- basic.cpp:50-76 `IsIpAddress(ip)`. `cstr` is the text up to the terminating NUL. -/
def isIpAddress (ip : Str) : Bool :=
  let s := cstr ip
  match (sscanf [.int 0, .lit '.', .int 0, .lit '.', .int 0, .lit '.', .int 0] s).map scanStore with
  | [a, b, c, d] =>
    if a > 255 ∨ b > 255 ∨ c > 255 ∨ d > 255 ∨ a < 0 ∨ b < 0 ∨ c < 0 ∨ d < 0 then false
    else s.all (fun c => c = '.' || !(decide (c.toNat < '0'.toNat) || decide (c.toNat > '9'.toNat)))
  | _ => false

/-- mask_rasterio.h `IOMODE`. -/
inductive IOMode where
  | dec | com | maskdec | mask | unknown
deriving Repr, DecidableEq

/-- mask_rasterio.h `DATAFMT`. -/
inductive DataFmt where
  | sfile | gfs | unknown
deriving Repr, DecidableEq

/-- apps/mask_rasterio.cpp:19-26 `StringToIOMode`. -/
def stringToIOMode (s : Str) : IOMode :=
  let m := getUpper s
  if m = "DEC".toList ∨ m = "DECOMPOSE".toList then .dec
  else if m = "COM".toList ∨ m = "COMBINE".toList then .com
  else if m = "MASK&DEC".toList ∨ m = "MASKDEC".toList then .maskdec
  else if m = "MASK".toList then .mask
  else .unknown

/-- apps/mask_rasterio.cpp:28-33 `StringToDataFormat`. -/
def stringToDataFormat (s : Str) : DataFmt :=
  let m := getUpper s
  if m = "SFILE".toList ∨ m = "FILE".toList then .sfile
  else if m = "GFS".toList ∨ m = "GRIDFS".toList then .gfs
  else .unknown

/-- `map<vint, vector<double>>`: `emplace` keeps an existing entry. -/
abbrev KvMap := List (Int × List DVal)
def KvMap.get (m : KvMap) (k : Int) : Option (List DVal) := (m.find? (fun e => e.1 = k)).map (·.2)
def KvMap.emplace (m : KvMap) (k : Int) (v : List DVal) : KvMap :=
  if (m.get k).isSome then m else m ++ [(k, v)]

/-- The values loop apps/mask_rasterio.cpp:138-142: stops at the first text that is no number. -/
def kvValues : List Str → List DVal
  | [] => []
  | t :: ts => if (isDouble t).2 then (isDouble t).1 :: kvValues ts else []

/-- One iteration of apps/mask_rasterio.cpp:131-152 on the flag and the map. -/
def kvEntry (st : Bool × KvMap) (e : Str) : Bool × KvMap :=
  if e = [] then st
  else match splitDelim ':' e with
    | [kt, vt] =>
      if (isInt kt).2 then
        let vts := splitDelim '|' vt
        let v := kvValues vts
        if vts.length = v.length then (st.1, st.2.emplace (isInt kt).1 v) else (false, st.2)
      else st
    | _ => st

/-- apps/mask_rasterio.cpp:125-154 `parse_key_values(kvstrs, kv)`: result and map, starting from `kv`. -/
def parseKeyValues (s : Str) (kv : KvMap) : Bool × KvMap :=
  if s = [] then (false, kv)
  else
    let es := splitDelim ',' s
    if es = [] then (false, kv) else es.foldl kvEntry (true, kv)

/-- apps/mask_rasterio.cpp:82-123 `parse_fmt_paths(tag, strs, fmt, paths)`; `exist` is `FilesExist`. Result:
the flag, the format and the appended paths. `file_paths.at(0)` throws if there is no path (line 103). -/
def parseFmtPaths (exist : List Str → Bool) (tag : Str) (strs : List Str) (fmt : DataFmt) (paths : List Str) :
    Out (Bool × DataFmt × List Str) :=
  match strs with
  | [] => .ok (false, fmt, paths)
  | s0 :: rest =>
    let src := match rest with
      | [] => s0
      | s1 :: _ => s1
    let tmpfmt := stringToDataFormat s0
    let fps := splitDelim ',' src
    if !stringMatch tag "OUT".toList && exist fps then .ok (true, .sfile, paths ++ fps)
    else if rest = [] then
      if tmpfmt = .gfs ∨ tmpfmt = .sfile then .ok (true, tmpfmt, paths ++ fps)
      else match fps with
        | [] => .exn
        | p :: _ => if '/' ∈ p then .ok (true, .sfile, paths ++ fps) else .ok (true, .gfs, paths ++ fps)
    else if tmpfmt = .gfs ∨ tmpfmt = .sfile then .ok (true, tmpfmt, paths ++ fps)
    else .ok (false, fmt, paths)

end CCGL
