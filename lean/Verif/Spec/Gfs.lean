import Verif.Model.Gfs
import Verif.Spec.Bson
import Verif.Spec.Geotiff
/-!
# Specifications for the GridFS store
-/
namespace CCGL.Spec
open Gfs

/-- The BSON value is the number `x`. -/
inductive NumIn : BVal → DVal → Prop
  | int32 (i : Int) : NumIn (.int32 i) (.fin i)
  | int64 (i : Int) : NumIn (.int64 i) (.fin i)
  | double (x : DVal) : NumIn (.double x) x

/-- The option text `v` and the BSON value mean the same: the same number if `v` is a number text, the same text otherwise. -/
def SameValue (v : List Char) (b : BVal) : Prop :=
  (∃ x, NumText v x ∧ NumIn b x) ∨ ((∀ x, ¬ NumText v x) ∧ b = .utf8 v)

/-- Two option texts mean the same. -/
def SameOpt (v w : List Char) : Prop :=
  (∃ x, NumText v x ∧ NumText w x) ∨ ((∀ x, ¬ NumText v x) ∧ (∀ x, ¬ NumText w x) ∧ v = w)

/-- What addresses a file: a name and options. -/
structure Key where
  name : List Char
  opts : List (List Char × List Char)

/-- The file has the name and all the options. -/
def Has (f : File) (K : Key) : Prop :=
  f.name = K.name ∧ ∀ k v, (k, v) ∈ K.opts → ∃ b, f.info.find k = some b ∧ SameValue v b

/-- No file can have both keys: the names differ, or an option with different meanings occurs in both. -/
def Apart (K L : Key) : Prop :=
  K.name ≠ L.name ∨ ∃ k v w, (k, v) ∈ K.opts ∧ (k, w) ∈ L.opts ∧ ¬ SameOpt v w

/-- Usable keys: names and texts without NUL, option names distinct, without dots and not those of the raster header,
values that can be stored (C29). -/
structure GoodKey (K : Key) : Prop where
  name : Char.ofNat 0 ∉ K.name
  nodup : (K.opts.map (·.1)).Nodup
  key : ∀ k v, (k, v) ∈ K.opts → Char.ofNat 0 ∉ k ∧ '.' ∉ k ∧ k ∉ headerKeys
  val : ∀ k v, (k, v) ∈ K.opts → Char.ofNat 0 ∉ v ∧ ¬ Unstorable v

open Classical in
/-- The files with the key, oldest first. -/
noncomputable def filesOf (st : Store) (K : Key) : List File := st.filter (fun f => decide (Has f K))

/-- The attempt either stores the file and reports success or stores nothing and reports failure. -/
def CleanAttempt (a : Attempt) : Prop :=
  (a.reported = true ∧ a.visible = .whole) ∨ (a.reported = false ∧ a.visible = .nothing)

/-- Calls that change the bucket. `rm` and `att` are the outcomes of the driver's removals and writes. -/
inductive StoreOp where
  | write (T : RDT) (name : List Char) (hdr : NumMap) (values : Ptr ℚ) (n : Int) (opts : List (List Char × List Char))
      (rm : Nat → Bool) (att : Nat → Attempt)
  | remove (name : List Char) (opts : List (List Char × List Char)) (rm : Nat → Bool)

open Classical in
/-- The option that names the type of the stored cells is added when it is not given. -/
noncomputable def withType (T : RDT) (opts : List (List Char × List Char)) : List (List Char × List Char) :=
  if ∃ v, ("DATATYPE_OUT".toList, v) ∈ opts then opts else opts ++ [("DATATYPE_OUT".toList, rdtToString T.code)]

/-- The key a call is about. -/
noncomputable def StoreOp.about : StoreOp → Key
  | .write T name _ _ _ opts _ _ => ⟨name, withType T opts⟩
  | .remove name opts _ => ⟨name, opts⟩

/-- The call on the bucket: the bucket afterwards and the returned flag. -/
noncomputable def StoreOp.exec (rnd : ℚ → ℚ) (st : Store) : StoreOp → Out (Store × Bool)
  | .write T name hdr values n opts rm att => do
    let r ← writeGridfs rnd T rm att st name hdr values n opts
    return (r.1, r.2.1)
  | .remove name opts rm => removeFile rm st name opts

/-- A history of calls: the bucket afterwards and the returned flags. -/
noncomputable def execAll (rnd : ℚ → ℚ) : Store → List StoreOp → Out (Store × List Bool)
  | st, [] => .ok (st, [])
  | st, op :: ops => do
    let (st1, b) ← op.exec rnd st
    let (st2, bs) ← execAll rnd st1 ops
    return (st2, b :: bs)

/-- The cells a call writes, as the bytes of their stored type. -/
def Stores (rnd : ℚ → ℚ) (op : StoreOp) (d : List Byte) : Prop :=
  match op with
  | .write T _ _ values n opts _ _ => ∃ ty, ("DATATYPE_OUT".toList, ty) ∈ withType T opts ∧
      streamBytes rnd T (stringToRdt ty) values n = .ok d
  | .remove _ _ _ => False

/-- `now` are the contents of the files with the key `K` after the calls `ops` with the results `bs`, if `old` were the contents
before: a call about another key changes nothing, a successful write leaves exactly its own contents, a removal
or a failed write leaves nothing. -/
inductive ExpectedFiles (rnd : ℚ → ℚ) (K : Key) : List (List Byte) → List StoreOp → List Bool → List (List Byte) → Prop
  | done (old) : ExpectedFiles rnd K old [] [] old
  | other (old op ops b bs now) : op.about ≠ K → ExpectedFiles rnd K old ops bs now → ExpectedFiles rnd K old (op :: ops) (b :: bs) now
  | written (old op d ops bs now) : op.about = K → Stores rnd op d → ExpectedFiles rnd K [d] ops bs now →
      ExpectedFiles rnd K old (op :: ops) (true :: bs) now
  | lost (old T name hdr values n opts rm att ops bs now) : (StoreOp.write T name hdr values n opts rm att).about = K →
      ExpectedFiles rnd K [] ops bs now → ExpectedFiles rnd K old (.write T name hdr values n opts rm att :: ops) (false :: bs) now
  | removed (old name opts rm ops b bs now) : (StoreOp.remove name opts rm).about = K → ExpectedFiles rnd K [] ops bs now →
      ExpectedFiles rnd K old (.remove name opts rm :: ops) (b :: bs) now

/-- The driver calls of the operation do what they report: every removal succeeds, every attempt to write is clean. -/
def StoreOp.Clean : StoreOp → Prop
  | .write _ _ _ _ _ _ rm att => (∀ i, rm i = true) ∧ ∀ i, CleanAttempt (att i)
  | .remove _ _ rm => ∀ i, rm i = true

end CCGL.Spec

namespace CCGL.Spec
open Gfs

/-- The header handed to a writing call has the keys of a raster header. -/
def StoreOp.HeaderOk : StoreOp → Prop
  | .write _ _ hdr _ _ _ _ _ => ∀ e ∈ hdr, e.1 ∈ headerKeys
  | .remove _ _ _ => True

/-- Headers the file format can hold: sizes and integral numbers fit in 32 bits (a number with a fraction is stored as
a double). -/
structure StorableHeader (h : Header) : Prop where
  rows : 0 ≤ h.rows ∧ h.rows < 2 ^ 31
  cols : 0 ≤ h.cols ∧ h.cols < 2 ^ 31
  layers : 0 < h.layers ∧ h.layers < 2 ^ 31
  cellsnum : 0 < h.cellsnum ∧ h.cellsnum < 2 ^ 31
  count : h.cellsnum * h.layers < 2 ^ 31
  cellsize : ∀ z : Int, h.cellsize = z → -(2 ^ 31) ≤ z ∧ z < 2 ^ 31
  xll : ∀ z : Int, h.xll = z → -(2 ^ 31) ≤ z ∧ z < 2 ^ 31
  yll : ∀ z : Int, h.yll = z → -(2 ^ 31) ≤ z ∧ z < 2 ^ 31

/-- The header numbers in the map are those of `h`. -/
def HeaderIs (m : List Char → Option DVal) (h : Header) : Prop :=
  m "NROWS".toList = some (.fin h.rows) ∧ m "NCOLS".toList = some (.fin h.cols) ∧ m "LAYERS".toList = some (.fin h.layers) ∧
  m "CELLSNUM".toList = some (.fin h.cellsnum) ∧ m "CELLSIZE".toList = some (.fin h.cellsize) ∧
  m "XLLCENTER".toList = some (.fin h.xll) ∧ m "YLLCENTER".toList = some (.fin h.yll) ∧
  m "NODATA_VALUE".toList = some (.fin h.noData)

/-- `O` is a type in which cells of type `T` can be stored (the writer has no branch for the others, C28_false_type64). -/
def StorableAs (T O : RDT) : Prop := O = T ∨ (O ≠ .unknown ∧ O ≠ .uint64 ∧ O ≠ .int64)

end CCGL.Spec
