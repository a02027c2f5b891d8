import Verif.Model.Str
import Verif.Model.Out
/-!
# Model of `MongoDatabase::GetCollectionNames` (`src/db_mongoc.cpp:215-262`)

The driver delivers the list of collection names (C strings) or fails.
-/
namespace CCGL
namespace MongoDb

/-- `find(v.begin(), v.end(), x) == v.end()` followed by `emplace_back` (db_mongoc.cpp:229-232, 247-249). -/
def addNew (v : List Str) (x : Str) : List Str := if x ∈ v then v else v ++ [x]

/-- `std::vector::back()`: undefined for an empty vector. -/
def back (v : List Str) : Out Str :=
  match v.getLast? with
  | some x => .ok x
  | none => .ub

/-- db_mongoc.cpp:236-250 one collection name: the bucket names found so far. `splitstrs` without its last piece is joined
without separator. -/
def bucketStep (coll : List Str) (real : List Str) (name : Str) : Out (List Str) := do
  let pieces := splitDelim '.' name
  let last ← back pieces
  if last = "files".toList ∨ last = "chunks".toList then
    let r := pieces.dropLast.flatten
    let other := if last = "files".toList then r ++ ".chunks".toList else r ++ ".files".toList
    if other ∉ coll then .ok real else .ok (addNew real r)
  else .ok real

/-- db_mongoc.cpp:215-262 `GetCollectionNames(collnames)`: the vector after the call. -/
def getCollectionNames (driver : Option (List Str)) (old : List Str) : Out (List Str) :=
  match driver with
  | none => .ok old
  | some l => do
    let coll := l.foldl addNew []
    let real ← coll.foldlM (bucketStep coll) []
    return coll ++ real

end MongoDb
end CCGL
