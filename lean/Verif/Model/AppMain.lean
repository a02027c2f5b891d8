import Verif.Model.App
import Verif.Model.Asc
import Verif.Model.Types
import Verif.Model.Fs
/-!
# The configuration of `apps/mask_rasterio.cpp` (`main`, lines 165-476)

The command line is the list of the arguments after the program name (texts without NUL, none of them null, `argv[argc]` is null).
Messages are not modelled. `USE_MONGODB` and `USE_GDAL` are defined.
-/
namespace CCGL
namespace Main

/-- The world: files, contents of the text files that can be opened, and what becomes of the connection to the database named by the
four texts (`none`: no client; `some b`: a client, and whether the GridFS could be obtained). -/
structure World where
  fs : Fs.FS
  text : Str → Option Str
  mongo : List Str → Option Bool

/-- The local variables of `main`, lines 166-198. -/
structure Cfg where
  mode : IOMode := .mask
  thread : Int := 1
  incNodata : Bool := true
  useMongo : Bool := false
  maskFmt : DataFmt := .unknown
  maskPath : Str := []
  inFmt : DataFmt := .unknown
  inFmts : List DataFmt := []
  inPaths : List (List Str) := []
  outFmt : DataFmt := .unknown
  outFmts : List DataFmt := []
  outPaths : List Str := []
  defv : DVal := .fin (-9999)
  updNodata : Bool := false
  nodata : DVal := .fin (-9999)
  defaults : List DVal := []
  updates : List Bool := []
  nodatas : List DVal := []
  outType : RDT := .unknown
  outTypes : List RDT := []
  recls : Bool := false
  reclsData : List Bool := []
  tables : List KvMap := []

/-- A result or the exit code. -/
inductive Res (α : Type) where
  | go (a : α)
  | exit (code : Nat)
deriving DecidableEq

/-- apps/mask_rasterio.cpp:207-216: an argument that starts with '-' and is no number. -/
def isOpt (a : Str) : Bool := decide (a.head? = some '-') && !(isDouble a).2

/-- apps/mask_rasterio.cpp:209-211, `config_path`: the argument after `-configfile` unless it starts with '-' (the last one wins); `argv[argc]` is
dereferenced if there is none. -/
def configPath : List Str → Str → Out Str
  | [], p => .ok p
  | a :: rest, p =>
    if a.head? = some '-' ∧ stringMatchC a "-configfile".toList then
      match rest with
      | [] => .ub
      | b :: _ => configPath rest (if b.head? = some '-' then p else b)
    else configPath rest p

/-- apps/mask_rasterio.cpp:207-217 and 233: every option with the arguments up to the next option. -/
def groups : List Str → List (Str × List Str)
  | [] => []
  | a :: rest => if isOpt a then (a, rest.takeWhile (fun x => !isOpt x)) :: groups rest else groups rest

/-- `std::map<string, vector<string>>`, in the order of the keys. -/
abbrev Args := List (Str × List Str)

/-- `std::string::operator<` (the characters of the model are bytes). -/
def strLt : Str → Str → Bool
  | [], [] => false
  | [], _ :: _ => true
  | _ :: _, [] => false
  | a :: s, b :: t => if a.toNat < b.toNat then true else if b.toNat < a.toNat then false else strLt s t

/-- `find`. -/
def Args.get (m : Args) (k : Str) : Option (List Str) := (m.find? (fun e => e.1 = k)).map (·.2)

/-- `insert`: nothing happens if the key is present. -/
def Args.insert (m : Args) (k : Str) (v : List Str) : Args :=
  match m with
  | [] => [(k, v)]
  | e :: m => if k = e.1 then e :: m else if strLt k e.1 then (k, v) :: e :: m else e :: Args.insert m k v

/-- apps/mask_rasterio.cpp:232-238: one option of the command line. -/
def putOption (m : Args) (g : Str × List Str) : Args :=
  if g.2 = [] then m
  else if stringMatch g.1 "-configfile".toList then m
  else m.insert (getUpper (g.1.drop 1)) g.2

/-- apps/mask_rasterio.cpp:219-239 (`arg_sep` is never empty). -/
def commandArgs (args : List Str) : Args := (groups args).foldl putOption []

/-- apps/mask_rasterio.cpp:254-276: one line of the configuration file. -/
def putLine (st : Args × List (List Str)) (line : Str) : Args × List (List Str) :=
  let t := trimSpaces line
  if t = [] then st
  else if t.head? = some '#' then st
  else if t.head? = some '-' then
    let c := splitDelim '\t' t
    if c.length < 2 then st
    else (st.1.insert (getUpper ((c.headD []).drop 1)) c.tail, st.2)
  else
    let c := splitDelim ';' t
    if c = [] then st else (st.1, st.2 ++ [c])

/-- apps/mask_rasterio.cpp:199-276: all settings and the data items of the configuration file, or the exit code. -/
def readArgs (w : World) (args : List Str) : Out (Res (Args × List (List Str))) :=
  if args = [] then .ok (.exit 1)
  else do
    let path ← configPath args []
    let m := commandArgs args
    if path = [] then return .go (m, [])
    else if !Fs.fileExists w.fs path then return .exit 2
    else
      let r := loadPlainTextFile (w.text path) []
      if !r.1 then return .exit 3
      else return .go (r.2.foldl putLine (m, []))

/-- `vector::at(0)`. -/
def at0 {α : Type} (l : List α) : Out α :=
  match l with
  | [] => .exn
  | a :: _ => .ok a

/-- apps/mask_rasterio.cpp:286-295 `-in`. -/
def tagIn (w : World) (c : Cfg) (v : List Str) : Out (Res Cfg) := do
  let r ← parseFmtPaths (Fs.filesExist w.fs) "IN".toList v c.inFmt []
  if !r.1 then return .exit 2
  else if r.2.2 ≠ [] then
    let c' : Cfg := { c with inFmt := r.2.1, inPaths := c.inPaths ++ [r.2.2], inFmts := c.inFmts ++ [r.2.1] }
    return .go c'
  else
    let c' : Cfg := { c with inFmt := r.2.1 }
    return .go c'

/-- apps/mask_rasterio.cpp:296-303 `-mask`. -/
def tagMask (w : World) (c : Cfg) (v : List Str) : Out (Res Cfg) := do
  let r ← parseFmtPaths (Fs.filesExist w.fs) "MASK".toList v c.maskFmt []
  if !r.1 && r.2.2.isEmpty then return .exit 2
  else
    let p ← readAt (some r.2.2) 0
    let c' : Cfg := { c with maskFmt := r.2.1, maskPath := p }
    return .go c'

/-- apps/mask_rasterio.cpp:304-312 `-out`. -/
def tagOut (w : World) (c : Cfg) (v : List Str) : Out (Res Cfg) := do
  let r ← parseFmtPaths (Fs.filesExist w.fs) "OUT".toList v c.outFmt []
  let c1 : Cfg := { c with outFmt := r.2.1 }
  if !r.1 then return .go c1
  else match r.2.2 with
    | [] => return .go c1
    | p :: _ =>
      let c2 : Cfg := { c1 with outPaths := c.outPaths ++ [p], outFmts := c.outFmts ++ [r.2.1] }
      return .go c2

/-- apps/mask_rasterio.cpp:330-356 `-mongo` (a later failing connection leaves the flag of an earlier one). -/
def tagMongo (w : World) (c : Cfg) (v : List Str) : Out (Res Cfg) :=
  if v.length < 4 then .ok (.exit 1)
  else match w.mongo (v.take 4) with
    | none => .ok (.go c)
    | some b =>
      let c' : Cfg := { c with useMongo := b }
      .ok (.go c')

/-- `IsDouble(text, flag)`, the value replaced by -9999 if it is no number (apps/mask_rasterio.cpp:317-318, 321-323, 441-442, 446-448). -/
def numOr (s : Str) : DVal := if (isDouble s).2 then (isDouble s).1 else .fin (-9999)

/-- apps/mask_rasterio.cpp:282-373: one setting. -/
def tag (w : World) (c : Cfg) (k : Str) (v : List Str) : Out (Res Cfg) :=
  if k = "MODE".toList then do
    let s ← at0 v
    if stringToIOMode s = .unknown then return .exit 1
    else
      let c' : Cfg := { c with mode := stringToIOMode s }
      return .go c'
  else if k = "IN".toList ∨ k = "INPUT".toList then tagIn w c v
  else if k = "MASK".toList then tagMask w c v
  else if k = "OUT".toList ∨ k = "OUTPUT".toList then tagOut w c v
  else if k = "OUTDATATYPE".toList then do
    let s ← at0 v
    let c' : Cfg := { c with outType := stringToRdt s }
    return .go c'
  else if k = "DEFAULT".toList ∨ k = "DEFAULTVALUE".toList then do
    let s ← at0 v
    let c' : Cfg := { c with defv := numOr s }
    return .go c'
  else if k = "NODATA".toList ∨ k = "NODATAVALUE".toList then do
    let s ← at0 v
    let c' : Cfg := { c with nodata := numOr s, updNodata := true }
    return .go c'
  else if k = "RECLASS".toList then do
    let s ← at0 v
    let r := parseKeyValues s []
    let c' : Cfg := { c with recls := r.1, tables := c.tables ++ [r.2] }
    return .go c'
  else if k = "MONGO".toList ∨ k = "MONGODB".toList then tagMongo w c v
  else if k = "THREAD".toList then do
    let s ← at0 v
    let c' : Cfg := { c with thread := if (isInt s).2 then (isInt s).1 else 1 }
    return .go c'
  else if k = "INCLUDE_NODATA".toList then do
    let s ← at0 v
    let c' : Cfg := { c with incNodata := if (isInt s).2 then decide ((isInt s).1 > 0) else true }
    return .go c'
  else .ok (.go c)

/-- apps/mask_rasterio.cpp:281-374: all settings in the order of the keys. -/
def tags (w : World) : Cfg → Args → Out (Res Cfg)
  | c, [] => .ok (.go c)
  | c, e :: m =>
    match tag w c e.1 e.2 with
    | .ok (.go c') => tags w c' m
    | .ok (.exit n) => .ok (.exit n)
    | .ub => .ub
    | .exn => .exn

/-- apps/mask_rasterio.cpp:384-396: the output path made from the first input path. -/
def derivedOut (w : World) (paths : List Str) : Str :=
  let p := paths.headD []
  if paths.length = 1 then Fs.appendCoreFileName w.fs p "masked".toList '_'
  else
    let core := Fs.getCoreFileName w.fs p
    let n := match Fs.findLastOf '_' core with
      | none => core.length
      | some i => i
    Fs.getPathFromFullName w.fs p ++ substr core 0 n ++ "_masked.".toList ++ Fs.getSuffix w.fs p

/-- `if (v.empty()) v.emplace_back(x)`. -/
def orOne {α : Type} (l : List α) (x : α) : List α := if l = [] then [x] else l

/-- apps/mask_rasterio.cpp:375-416: one entry for the input given by `-in`. -/
def normalise (w : World) (c : Cfg) : Res Cfg :=
  let f1 := if !c.useMongo && decide (c.outFmt = .gfs) then .sfile else c.outFmt
  let f2 := if f1 = .unknown then c.inFmt else f1
  match c.inPaths with
  | [] => .go { c with outFmt := f2, outPaths := [], defaults := [], updates := [], nodatas := [], outTypes := [], outFmts := [],
                       reclsData := [], tables := [] }
  | [p] => .go { c with
      outFmt := f2
      outPaths := if c.outPaths = [] then [derivedOut w p] else c.outPaths
      defaults := orOne c.defaults c.defv
      updates := orOne c.updates c.updNodata
      nodatas := orOne c.nodatas c.nodata
      outTypes := orOne c.outTypes c.outType
      outFmts := if c.outFmts = [] then [f2] else c.outFmts.set 0 f2
      reclsData := orOne c.reclsData c.recls
      tables := orOne c.tables [] }
  | _ => .exit 1

/-- Field `i` of a data item, if there is one (apps/mask_rasterio.cpp:420-425). -/
def fieldOf (item : List Str) (i : Nat) : Option Str := item[i]?

/-- apps/mask_rasterio.cpp:434-437: the formats in force for a data item. -/
def itemFmts (w : World) (c : Cfg) (ins : List Str) : DataFmt × DataFmt :=
  let f1 := if c.inFmt = .unknown ∧ Fs.filesExist w.fs ins then .sfile else c.inFmt
  let f2 := if f1 = .unknown ∧ ins ≠ [] ∧ c.useMongo then .gfs else f1
  let g1 := if c.outFmt ≠ .gfs ∧ c.useMongo then .gfs else c.outFmt
  let g2 := if g1 = .unknown then .sfile else g1
  (f2, g2)

/-- apps/mask_rasterio.cpp:439-443 the default value. -/
def itemDefault (item : List Str) : DVal :=
  match fieldOf item 2 with
  | none => .fin (-9999)
  | some s => if s = [] then .fin (-9999) else numOr s

/-- apps/mask_rasterio.cpp:444-450 the NoData value and whether it is to be changed. -/
def itemNodata (item : List Str) : Bool × DVal :=
  match fieldOf item 3 with
  | none => (false, .fin (-9999))
  | some s => if s = [] then (false, .fin (-9999)) else ((isDouble s).2, numOr s)

/-- apps/mask_rasterio.cpp:451-455 the output type. -/
def itemType (c : Cfg) (item : List Str) : RDT :=
  match fieldOf item 4 with
  | none => .unknown
  | some s => if stringToRdt s = .unknown then c.outType else stringToRdt s

/-- apps/mask_rasterio.cpp:456-460 the table. -/
def itemTable (item : List Str) : Bool × KvMap :=
  match fieldOf item 5 with
  | none => (false, [])
  | some s => parseKeyValues s []

/-- apps/mask_rasterio.cpp:418-476: one data item. -/
def putItem (w : World) (c : Cfg) (item : List Str) : Cfg :=
  if item.length = 1 ∧ item.headD [] = [] then c
  else
    let ins := splitDelim ',' (item.headD [])
    let out := (fieldOf item 1).getD []
    if ins.length = 1 ∧ ins.headD [] = [] ∧ out = [] then c
    else
      let f := itemFmts w c ins
      let c1 : Cfg := { c with inFmt := f.1, outFmt := f.2 }
      let t := itemTable item
      if (!Fs.filesExist w.fs ins && t.1) || (decide (f.1 = .sfile) && Fs.filesExist w.fs ins) || decide (f.1 = .gfs) then
        { c1 with
          inPaths := c.inPaths ++ [ins], inFmts := c.inFmts ++ [f.1], outPaths := c.outPaths ++ [out], outFmts := c.outFmts ++ [f.2],
          defaults := c.defaults ++ [itemDefault item], updates := c.updates ++ [(itemNodata item).1],
          nodatas := c.nodatas ++ [(itemNodata item).2], outTypes := c.outTypes ++ [itemType c item],
          reclsData := c.reclsData ++ [t.1], tables := c.tables ++ [t.2] }
      else c1

/-- apps/mask_rasterio.cpp:165-476: the configuration, or the exit code. -/
def configure (w : World) (args : List Str) : Out (Res Cfg) := do
  let r ← readArgs w args
  match r with
  | .exit n => return .exit n
  | .go x =>
    let t ← tags w {} x.1
    match t with
    | .exit n => return .exit n
    | .go c =>
      match normalise w c with
      | .exit n => return .exit n
      | .go c' => return .go (x.2.foldl (putItem w) c')

/-- What is done for one input (apps/mask_rasterio.cpp:518-645): all the settings used. -/
structure Job where
  inputs : List Str
  inFmt : DataFmt
  out : Str
  outFmt : DataFmt
  default : DVal
  update : Bool
  nodata : DVal
  type : RDT
  recls : Bool
  table : KvMap
deriving DecidableEq

/-- `vector::at(i)`. -/
def vecAt {α : Type} (l : List α) (i : Nat) : Out α :=
  match l[i]? with
  | some a => .ok a
  | none => .exn

/-- apps/mask_rasterio.cpp:518-645: the settings of input number `i`, all read by `at(i)`; 520-525: an unknown output type means `double`. -/
def jobAt (c : Cfg) (i : Nat) : Out Job := do
  let ins ← vecAt c.inPaths i
  let ty ← vecAt c.outTypes i
  let f ← vecAt c.inFmts i
  let d ← vecAt c.defaults i
  let u ← vecAt c.updates i
  let n ← vecAt c.nodatas i
  let r ← vecAt c.reclsData i
  let g ← vecAt c.outFmts i
  let o ← vecAt c.outPaths i
  let t ← vecAt c.tables i
  return ⟨ins, f, o, g, d, u, n, if ty = .unknown then .double else ty, r, t⟩

/-- apps/mask_rasterio.cpp:518-519: the jobs of a configuration. -/
def jobs (c : Cfg) : Out (List Job) := (List.range c.inPaths.length).mapM (jobAt c)

end Main
end CCGL
