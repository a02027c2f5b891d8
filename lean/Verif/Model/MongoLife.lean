import Verif.Model.Out
/-!
# Lifetimes of the driver objects of the Mongo client (`src/db_mongoc.cpp`)

The driver's objects (clients, databases, collections, GridFS, cursors, files, lists of files, streams, BSON documents, buffers) live in a heap of numbered objects;
an object knows the objects it depends on. The wrapper objects of the library (`MongoClient`, `MongoDatabase`, `MongoCollection`, `MongoGridFs`) hold
one driver object. What the driver answers (connection refused, collection missing, number of failed attempts, number of files …) is part of the call.

Assumed of the driver: its functions need `mongoc_init` before and no `mongoc_cleanup` after; an object may be used and destroyed only while it and the objects it
depends on exist; destroy functions accept `NULL`; all other functions fail (abort) on `NULL`. Documents and buffers only need to exist themselves. `bson_init` of
a document from `bson_new` makes `bson_destroy` keep the structure (flag STATIC). Names, contents and messages are left out; they are modelled in `Gfs` and `MongoDb`.
-/
namespace CCGL
namespace MLife

inductive Kind
  | client | database | collection | gridfs | cursor | file | fileList | stream | bson | buffer
deriving DecidableEq, Repr

/-- Documents and buffers are independent of connections. -/
def Kind.plain : Kind → Bool
  | .bson => true
  | .buffer => true
  | _ => false

/-- A driver object: its kind, whether it exists, and the objects it depends on. -/
structure Obj where
  kind : Kind
  alive : Bool
  above : List Nat
deriving DecidableEq, Repr

/-- A handle: `NULL` or a number. -/
abbrev H := Option Nat

/-- A wrapper object of the library. -/
structure Wrap where
  kind : Kind
  h : H
  alive : Bool
deriving DecidableEq, Repr

structure World where
  heap : List Obj
  wraps : List Wrap
  ready : Bool
  ended : Bool
deriving DecidableEq, Repr

def World.start : World := ⟨[], [], false, false⟩

def World.isAlive (w : World) (i : Nat) : Bool :=
  match w.heap[i]? with
  | some o => o.alive
  | none => false

/-- May the driver work with object `i` as a `k`? -/
def World.usable (w : World) (k : Kind) (i : Nat) : Bool :=
  match w.heap[i]? with
  | some o => o.kind == k && o.alive && (k.plain || (w.ready && !w.ended && o.above.all (fun a => w.isAlive a)))
  | none => false

/-- A driver function that works on a handle. -/
def use (k : Kind) (h : H) (w : World) : Out Nat :=
  match h with
  | none => .ub
  | some i => if w.usable k i then .ok i else .ub

/-- A new driver object that depends on `p` and what `p` depends on. -/
def new (k : Kind) (p : Option Nat) (w : World) : Nat × World :=
  let above := match p with
    | none => []
    | some i => i :: (match w.heap[i]? with | some o => o.above | none => [])
  (w.heap.length, { w with heap := w.heap ++ [⟨k, true, above⟩] })

/-- A destroy function of the driver. -/
def destroy (k : Kind) (h : H) (w : World) : Out World :=
  match h with
  | none => .ok w
  | some i =>
    if w.usable k i then
      match w.heap[i]? with
      | some o => .ok { w with heap := w.heap.set i { o with alive := false } }
      | none => .ub
    else .ub

/-- A new wrapper object. -/
def wrap (k : Kind) (h : H) (w : World) : Nat × World := (w.wraps.length, { w with wraps := w.wraps ++ [⟨k, h, true⟩] })

/-- A wrapper object that is used. -/
def getWrap (k : Kind) (i : Nat) (w : World) : Out H :=
  match w.wraps[i]? with
  | some o => if o.kind = k && o.alive then .ok o.h else .ub
  | none => .ub

def endWrap (i : Nat) (w : World) : World :=
  match w.wraps[i]? with
  | some o => { w with wraps := w.wraps.set i { o with alive := false } }
  | none => w

/-! ## MongoClient -/

/-- db_mongoc.cpp:47-54 `MongoClient(host, port)`: the URI is a temporary; `c` says whether the connection was made. -/
def clientCtor (c : Bool) (w : World) : Out (World × Nat) :=
  if !w.ready || w.ended then .ub
  else
    let u := new .buffer none w
    let x : H × World := if c then (let y := new .client none u.2; (some y.1, y.2)) else (none, u.2)
    do
      let w2 ← destroy .buffer (some u.1) x.2
      let y := wrap .client x.1 w2
      return (y.2, y.1)

/-- db_mongoc.cpp:78-97 `MongoClient::Init`: `c1` the first connection, `c2` that of the constructor. The result is a wrapper object or `NULL`. -/
def init (c1 c2 : Bool) (w : World) : Out (World × Option Nat) := do
  let w := { w with ready := true }
  let u := new .buffer none w
  let x : H × World := if c1 then (let y := new .client none u.2; (some y.1, y.2)) else (none, u.2)
  let w1 ← destroy .buffer (some u.1) x.2
  let w2 ← destroy .client x.1 w1
  bif c1 then do
    let r ← clientCtor c2 w2
    return (r.1, some r.2)
  else return (w2, none)

/-- db_mongoc.cpp:103-111 `Destroy`. The pointer is kept. -/
def destroyClient (c : Nat) (w : World) : Out World := do
  let h ← getWrap .client c w
  let w ← destroy .client h w
  if !w.ready || w.ended then .ub else return { w with ended := true }

/-- db_mongoc.cpp:116-136 `GetDatabaseNames`; `ok`: the driver returned names. -/
def databaseNames (c : Nat) (ok : Bool) (w : World) : Out World := do
  let h ← getWrap .client c w
  let _ ← use .client h w
  bif ok then do
    let s := new .buffer none w
    destroy .buffer (some s.1) s.2
  else return w

/-- db_mongoc.cpp:146-151 `GetDatabase`. -/
def getDatabase (c : Nat) (w : World) : Out (World × H) := do
  let h ← getWrap .client c w
  let i ← use .client h w
  let d := new .database (some i) w
  return (d.2, some d.1)

/-- db_mongoc.cpp:153-165 `GetCollection`; `has`: the collection exists. Otherwise the database object is not released. -/
def getCollection (c : Nat) (has : Bool) (w : World) : Out (World × H) := do
  let h ← getWrap .client c w
  let i ← use .client h w
  let d := new .database (some i) w
  let _ ← use .database (some d.1) d.2
  bif has then do
    let w ← destroy .database (some d.1) d.2
    let i ← use .client h w
    let k := new .collection (some i) w
    return (k.2, some k.1)
  else return (d.2, none)

/-- db_mongoc.cpp:167-181 `GetGridFs`; `a`, `b`: the first and the second attempt succeed. -/
def getGridFs (c : Nat) (a b : Bool) (w : World) : Out (World × H) := do
  let h ← getWrap .client c w
  let i ← use .client h w
  bif a then do
    let g := new .gridfs (some i) w
    return (g.2, some g.1)
  else do
    let d := new .database (some i) w
    let x : H × World := if b then (let g := new .gridfs (some i) d.2; (some g.1, g.2)) else (none, d.2)
    let w ← destroy .database (some d.1) x.2
    return (w, x.1)

/-! ## MongoDatabase -/

/-- db_mongoc.cpp:200-202 `MongoDatabase(db)`: asks for the name. -/
def databaseCtor (db : H) (w : World) : Out (World × Nat) := do
  let _ ← use .database db w
  let x := wrap .database db w
  return (x.2, x.1)

/-- db_mongoc.cpp:204-206 `MongoDatabase(conn, dbname)`. -/
def databaseCtor2 (conn : H) (w : World) : Out (World × Nat) := do
  let i ← use .client conn w
  let d := new .database (some i) w
  let x := wrap .database (some d.1) d.2
  return (x.2, x.1)

/-- db_mongoc.cpp:208-210 `~MongoDatabase`. -/
def databaseDtor (b : Nat) (w : World) : Out World := do
  let h ← getWrap .database b w
  let w ← destroy .database h w
  return endWrap b w

/-- db_mongoc.cpp:215-262 `MongoDatabase::GetCollectionNames`. -/
def collectionNames (b : Nat) (ok : Bool) (w : World) : Out World := do
  let h ← getWrap .database b w
  let _ ← use .database h w
  bif ok then do
    let s := new .buffer none w
    destroy .buffer (some s.1) s.2
  else return w

/-- db_mongoc.cpp:142-144 `MongoClient::GetCollectionNames`: a temporary `MongoDatabase`. -/
def clientCollectionNames (c : Nat) (ok : Bool) (w : World) : Out World := do
  let d ← getDatabase c w
  let b ← databaseCtor d.2 d.1
  let w ← collectionNames b.2 ok b.1
  databaseDtor b.2 w

/-! ## MongoCollection -/

/-- db_mongoc.cpp:267-269 `MongoCollection(coll)`; also the implicit copy constructor. -/
def collectionCtor (coll : H) (w : World) : World × Nat :=
  let x := wrap .collection coll w
  (x.2, x.1)

/-- db_mongoc.cpp:271-273 `~MongoCollection`. -/
def collectionDtor (b : Nat) (w : World) : Out World := do
  let h ← getWrap .collection b w
  let w ← destroy .collection h w
  return endWrap b w

/-- db_mongoc.cpp:275-279 `ExecuteQuery`: the cursor belongs to the caller. -/
def executeQuery (b : Nat) (w : World) : Out (World × H) := do
  let h ← getWrap .collection b w
  let i ← use .collection h w
  let c := new .cursor (some i) w
  return (c.2, some c.1)

/-- db_mongoc.cpp:281-295 `QueryRecordsCount`: the empty document is not released. -/
def queryCount (b : Nat) (w : World) : Out World := do
  let h ← getWrap .collection b w
  let q := new .bson none w
  let _ ← use .collection h q.2
  return q.2

/-! ## MongoGridFs -/

/-- db_mongoc.cpp:300-302 `MongoGridFs(gfs)`; also the implicit copy constructor. -/
def gridFsCtor (g : H) (w : World) : World × Nat :=
  let x := wrap .gridfs g w
  (x.2, x.1)

/-- db_mongoc.cpp:304-306 `~MongoGridFs`. -/
def gridFsDtor (b : Nat) (w : World) : Out World := do
  let h ← getWrap .gridfs b w
  let w ← destroy .gridfs h w
  return endWrap b w

/-- db_mongoc.cpp:310, 338, 373, 394, 414, 445 `if (gfs_ != NULL) gfs = gfs_`. -/
def pick (own g : H) : H :=
  match own with
  | some i => some i
  | none => g

/-- db_mongoc.cpp:318-334 `GetFile` with a GridFS: the filter is a local document; up to five attempts, the first `n` of which fail. -/
def getFileIn (g : Nat) (n : Nat) (w : World) : Out (World × H) := do
  let f := new .bson none w
  let i ← use .gridfs (some g) f.2
  let x : H × World := if n < 5 then (let y := new .file (some i) f.2; (some y.1, y.2)) else (none, f.2)
  let w ← destroy .bson (some f.1) x.2
  return (w, x.1)

/-- db_mongoc.cpp:308-334 `GetFile(gfilename, gfs, opts)`. -/
def getFile (b : Nat) (g : H) (n : Nat) (w : World) : Out (World × H) := do
  let own ← getWrap .gridfs b w
  match pick own g with
  | none => return (w, none)
  | some i => getFileIn i n w

/-- db_mongoc.cpp:354-367, 383-386 the loop over a list of `k` files; each is released. -/
def eachFile (l : Nat) : Nat → World → Out World
  | 0, w => do
    let _ ← use .fileList (some l) w
    return w
  | k + 1, w => do
    let i ← use .fileList (some l) w
    let f := new .file (some i) w
    let _ ← use .file (some f.1) f.2
    let w ← destroy .file (some f.1) f.2
    eachFile l k w

/-- db_mongoc.cpp:336-370 `RemoveFile`; `k`: the number of matching files. -/
def removeFile (b : Nat) (g : H) (k : Nat) (w : World) : Out World := do
  let own ← getWrap .gridfs b w
  match pick own g with
  | none => return w
  | some i => do
    let f := new .bson none w
    let i ← use .gridfs (some i) f.2
    let l := new .fileList (some i) f.2
    let w ← eachFile l.1 k l.2
    let w ← destroy .fileList (some l.1) w
    destroy .bson (some f.1) w

/-- db_mongoc.cpp:372-389 `GetFileNames`: goes on without a GridFS; `bson_destroy` does not free the document (see above). -/
def fileNames (b : Nat) (g : H) (k : Nat) (w : World) : Out World := do
  let own ← getWrap .gridfs b w
  let f := new .bson none w
  let i ← use .gridfs (pick own g) f.2
  let l := new .fileList (some i) f.2
  let w ← eachFile l.1 k l.2
  destroy .fileList (some l.1) w

/-- db_mongoc.cpp:192-195 `MongoClient::GetGridFsFileNames`: a temporary `MongoGridFs`. -/
def clientFileNames (c : Nat) (a b : Bool) (k : Nat) (w : World) : Out World := do
  let g ← getGridFs c a b w
  let t := gridFsCtor g.2 g.1
  let w ← fileNames t.2 none k t.1
  gridFsDtor t.2 w

/-- db_mongoc.cpp:391-409 `GetFileMetadata`; `has`: the file has metadata (otherwise the driver returns `NULL`, which `bson_copy` does not accept). The copy
belongs to the caller. -/
def metadata (b : Nat) (g : H) (n : Nat) (has : Bool) (w : World) : Out (World × H) := do
  let own ← getWrap .gridfs b w
  match pick own g with
  | none => return (w, none)
  | some i => do
    let f ← getFileIn i n w
    match f.2 with
    | none => return (f.1, none)
    | some j => do
      let _ ← use .file (some j) f.1
      bif has then do
        let m := new .bson none f.1
        let w ← destroy .file (some j) m.2
        return (w, some m.1)
      else .ub

/-- db_mongoc.cpp:411-440 `GetStreamData`: the buffer belongs to the caller, also when reading fails. -/
def streamData (b : Nat) (g : H) (n : Nat) (w : World) : Out (World × H) := do
  let own ← getWrap .gridfs b w
  match pick own g with
  | none => return (w, none)
  | some i => do
    let f ← getFileIn i n w
    match f.2 with
    | none => return (f.1, none)
    | some j => do
      let _ ← use .file (some j) f.1
      let m := new .buffer none f.1
      let j ← use .file (some j) m.2
      let s := new .stream (some j) m.2
      let _ ← use .stream (some s.1) s.2
      let w ← destroy .stream (some s.1) s.2
      let w ← destroy .file (some j) w
      return (w, some m.1)

/-- db_mongoc.cpp:442-471 `WriteStreamData`. -/
def writeStream (b : Nat) (g : H) (w : World) : Out World := do
  let own ← getWrap .gridfs b w
  match pick own g with
  | none => return w
  | some i => do
    let i ← use .gridfs (some i) w
    let f := new .file (some i) w
    let _ ← use .file (some f.1) f.2
    destroy .file (some f.1) f.2

/-! ## Programs -/

/-- A call of a program, with the answers of the driver. -/
inductive Call
  | init (c1 c2 : Bool)
  | wrapClient (conn : H)
  | destroyClient (c : Nat)
  | deleteClient (c : Nat)
  | databaseNames (c : Nat) (ok : Bool)
  | clientCollectionNames (c : Nat) (ok : Bool)
  | getDatabase (c : Nat)
  | getCollection (c : Nat) (has : Bool)
  | getGridFs (c : Nat) (a b : Bool)
  | gridFs (c : Nat) (a b : Bool)
  | clientFileNames (c : Nat) (a b : Bool) (k : Nat)
  | newDatabase (db : H)
  | newDatabase2 (conn : H)
  | deleteDatabase (b : Nat)
  | collectionNames (b : Nat) (ok : Bool)
  | newCollection (coll : H)
  | copyCollection (b : Nat)
  | deleteCollection (b : Nat)
  | executeQuery (b : Nat)
  | queryCount (b : Nat)
  | newGridFs (g : H)
  | copyGridFs (b : Nat)
  | deleteGridFs (b : Nat)
  | getFile (b : Nat) (g : H) (n : Nat)
  | removeFile (b : Nat) (g : H) (k : Nat)
  | fileNames (b : Nat) (g : H) (k : Nat)
  | metadata (b : Nat) (g : H) (n : Nat) (has : Bool)
  | streamData (b : Nat) (g : H) (n : Nat)
  | writeStream (b : Nat) (g : H)
  | release (k : Kind) (h : H)
deriving DecidableEq, Repr

/-- What a call gives back: nothing, a driver object or `NULL`, a wrapper object. -/
inductive Res
  | unit
  | obj (h : H)
  | wrapper (i : Nat)
deriving DecidableEq, Repr

/-- One call. db_mongoc.cpp:56-58 `MongoClient(conn)`, 99-101 `~MongoClient` (does nothing), 183-185 `GridFs`; the caller releases objects with the driver's functions. -/
def step (w : World) : Call → Out (World × Res)
  | .init c1 c2 => do
    let r ← init c1 c2 w
    return (r.1, match r.2 with | some i => .wrapper i | none => .unit)
  | .wrapClient conn =>
    let x := wrap .client conn w
    .ok (x.2, .wrapper x.1)
  | .destroyClient c => do let w ← destroyClient c w; return (w, .unit)
  | .deleteClient c => do let _ ← getWrap .client c w; return (endWrap c w, .unit)
  | .databaseNames c ok => do let w ← databaseNames c ok w; return (w, .unit)
  | .clientCollectionNames c ok => do let w ← clientCollectionNames c ok w; return (w, .unit)
  | .getDatabase c => do let r ← getDatabase c w; return (r.1, .obj r.2)
  | .getCollection c has => do let r ← getCollection c has w; return (r.1, .obj r.2)
  | .getGridFs c a b => do let r ← getGridFs c a b w; return (r.1, .obj r.2)
  | .gridFs c a b => do
    let r ← getGridFs c a b w
    let x := gridFsCtor r.2 r.1
    return (x.1, .wrapper x.2)
  | .clientFileNames c a b k => do let w ← clientFileNames c a b k w; return (w, .unit)
  | .newDatabase db => do let r ← databaseCtor db w; return (r.1, .wrapper r.2)
  | .newDatabase2 conn => do let r ← databaseCtor2 conn w; return (r.1, .wrapper r.2)
  | .deleteDatabase b => do let w ← databaseDtor b w; return (w, .unit)
  | .collectionNames b ok => do let w ← collectionNames b ok w; return (w, .unit)
  | .newCollection coll => let x := collectionCtor coll w; .ok (x.1, .wrapper x.2)
  | .copyCollection b => do
    let h ← getWrap .collection b w
    let x := collectionCtor h w
    return (x.1, .wrapper x.2)
  | .deleteCollection b => do let w ← collectionDtor b w; return (w, .unit)
  | .executeQuery b => do let r ← executeQuery b w; return (r.1, .obj r.2)
  | .queryCount b => do let w ← queryCount b w; return (w, .unit)
  | .newGridFs g => let x := gridFsCtor g w; .ok (x.1, .wrapper x.2)
  | .copyGridFs b => do
    let h ← getWrap .gridfs b w
    let x := gridFsCtor h w
    return (x.1, .wrapper x.2)
  | .deleteGridFs b => do let w ← gridFsDtor b w; return (w, .unit)
  | .getFile b g n => do let r ← getFile b g n w; return (r.1, .obj r.2)
  | .removeFile b g k => do let w ← removeFile b g k w; return (w, .unit)
  | .fileNames b g k => do let w ← fileNames b g k w; return (w, .unit)
  | .metadata b g n has => do let r ← metadata b g n has w; return (r.1, .obj r.2)
  | .streamData b g n => do let r ← streamData b g n w; return (r.1, .obj r.2)
  | .writeStream b g => do let w ← writeStream b g w; return (w, .unit)
  | .release k h => do let w ← destroy k h w; return (w, .unit)

/-- A whole program. -/
def run (w : World) : List Call → Out (World × List Res)
  | [] => .ok (w, [])
  | c :: cs => do
    let x ← step w c
    let y ← run x.1 cs
    return (y.1, x.2 :: y.2)

end MLife
end CCGL
