import Verif.Model.Dec
import Verif.Model.Time
import Verif.Model.Raster
/-!
# Model of the BSON option codec of `src/db_mongoc.cpp` / `.h`

A BSON document is the list of its elements in order; the driver's `bson_append_*` add an element at the end,
`bson_iter_find` stops at the first element with exactly this key.
-/
namespace CCGL

/-- A BSON value (the types the code looks at; `other` for any further type, including BSON booleans). -/
inductive BVal where
  | utf8 (s : Str)
  | int32 (i : Int)
  | int64 (i : Int)
  | double (d : DVal)
  | datetime (ms : Int)
  | bool (b : Bool)
  | other
deriving Repr, DecidableEq

abbrev BDoc := List (Str × BVal)

/-- libbson `bson_iter_init` and `bson_iter_find`. -/
def BDoc.find (d : BDoc) (key : Str) : Option BVal := (d.find? (fun e => e.1 = key)).map (·.2)

/-- db_mongoc.cpp:489-499: the element value for one option text. `CVT_INT` of a value outside `int` (also of an
infinity, whose fractional part is 0) is undefined. -/
def encodeOption (v : Str) : Out BVal :=
  let d := isDouble v
  if stringMatch [] v || !d.2 then .ok (.utf8 (cstr v))
  else match d.1 with
    | .fin q => if q.den = 1 then (if -(2 ^ 31) ≤ q ∧ q < 2 ^ 31 then .ok (.int32 q.num) else .ub)
                else .ok (.double (.fin q))
    | .inf _ => .ub
    | .nan => .ok (.double .nan)

/-- db_mongoc.cpp:481-501 `AppendStringOptionsToBson(bson_opts, opts, prefix)`; the options in map order. -/
def appendOptions : BDoc → List (Str × Str) → Str → Out BDoc
  | d, [], _ => .ok d
  | d, (k, v) :: rest, prefix_ => do
    let b ← encodeOption v
    appendOptions (d ++ [(cstr (prefix_ ++ k), b)]) rest prefix_

/-- Stream output of a `double` (default precision). The sign of a NaN is not modelled. -/
def dvalText : DVal → Str
  | .fin q => fmtG q
  | .inf true => "-inf".toList
  | .inf false => "inf".toList
  | .nan => "nan".toList

/-- db_mongoc.cpp:503-519 `GetStringFromBsonIterator` (`ValueToString`, utils_string.h:88-92, streams the value). -/
def bsonString : BVal → Str
  | .utf8 s => s
  | .int32 i => intToDec i
  | .int64 i => intToDec i
  | .double d => dvalText d
  | _ => []

/-- db_mongoc.cpp:521-528 `GetStringFromBson(bmeta, key)`. -/
def getStringFromBson (d : BDoc) (key : Str) : Str :=
  match d.find (cstr key) with
  | some v => bsonString v
  | none => []

/-- db_mongoc.h:191-212 `GetNumericFromBsonIterator`: the number before `static_cast<T>`, none on failure. -/
def bsonNumeric : BVal → Option DVal
  | .int32 i => some (.fin i)
  | .int64 i => some (.fin i)
  | .double d => some d
  | .utf8 s => if s.any isDigitC then some (strtod s).1 else none
  | _ => none

/-- db_mongoc.h:222-230 `GetNumericFromBson`. -/
def getNumericFromBson (d : BDoc) (key : Str) : Option DVal :=
  match d.find (cstr key) with
  | some v => bsonNumeric v
  | none => none

/-- `FloatEqual(CVT_FLT(x), 0.f)` (utils_math.h:140-143); the rounding of `CVT_FLT` is not modelled. -/
def dvalIsZero : DVal → Bool
  | .fin q => floatEqual q 0
  | _ => false

/-- db_mongoc.cpp:530-547 `GetBoolFromBsonIterator`. -/
def bsonBool : BVal → Bool
  | .int32 i => dvalIsZero (.fin i)
  | .int64 i => dvalIsZero (.fin i)
  | .double d => dvalIsZero d
  | .utf8 s => stringMatch s "TRUE".toList
  | _ => false

/-- db_mongoc.cpp:549-556 `GetBoolFromBson`. -/
def getBoolFromBson (d : BDoc) (key : Str) : Bool :=
  match d.find (cstr key) with
  | some v => bsonBool v
  | none => false

/-- libc `atoi`: `strtol` truncated to `int`. -/
def atoi (s : Str) : Int := wrapInt32 (strtol s).1

/-- db_mongoc.cpp:561-564: milliseconds to seconds through the decimal text. `length() - 3` is unsigned: for a text
of fewer than three characters it wraps and the whole text is kept. -/
def datetimeSeconds (ms : Int) : Int :=
  let t := intToDec ms
  atoi (if t.length < 3 then t else t.take (t.length - 3))

/-- `"%4d-%2d-%2d"`. -/
def dateFmt : List Fmt := [.int 4, .lit '-', .int 2, .lit '-', .int 2]
/-- `"%4d-%2d-%2d %2d:%2d:%2d"`. -/
def dateTimeFmt : List Fmt := [.int 4, .lit '-', .int 2, .lit '-', .int 2, .ws, .int 2, .lit ':', .int 2, .lit ':', .int 2]

/-- db_mongoc.cpp:558-575 `GetDatetimeFromBsonIterator`. -/
def bsonDatetime : BVal → Out Int
  | .datetime ms => .ok (datetimeSeconds ms)
  | .utf8 s => if s.length > 12 then convertToTime s dateTimeFmt true else convertToTime s dateFmt false
  | _ => .ok (-1)

/-- db_mongoc.cpp:577-584 `GetDatetimeFromBson`. -/
def getDatetimeFromBson (d : BDoc) (key : Str) : Out Int :=
  match d.find (cstr key) with
  | some v => bsonDatetime v
  | none => .ok (-1)

end CCGL
