import Verif.Model.MongoLife
import Mathlib.Data.Set.Basic
/-!
# Lifetimes of driver objects: contract of the program and what it is responsible for

Stated over the observable state (which objects exist, what the wrapper objects hold), without the functions of the model.
-/
namespace CCGL
namespace MLife

/-- The driver object `i` exists. -/
def Existing (w : World) (i : Nat) : Prop := ∃ o, w.heap[i]? = some o ∧ o.alive = true

/-- Object `i` is a `k` and may be used: it exists and, unless it is a document or a buffer, the driver is running and everything it depends on exists. -/
def Sound (w : World) (k : Kind) (i : Nat) : Prop :=
  ∃ o, w.heap[i]? = some o ∧ o.kind = k ∧ o.alive = true ∧
    (k = .bson ∨ k = .buffer ∨ (w.ready = true ∧ w.ended = false ∧ ∀ a ∈ o.above, Existing w a))

/-- Wrapper object `b` exists, is of class `k` and holds `h`. -/
def Holds (w : World) (b : Nat) (k : Kind) (h : H) : Prop := w.wraps[b]? = some ⟨k, h, true⟩

/-- Wrapper object `c` is a client with a connection that can be used. -/
def Client (w : World) (c : Nat) : Prop := ∃ i, Holds w c .client (some i) ∧ Sound w .client i

/-- `j` is `i` or depends on it. -/
def DependsOn (w : World) (j i : Nat) : Prop := j = i ∨ ∃ o, w.heap[j]? = some o ∧ i ∈ o.above

/-- No wrapper object other than clients holds `i` or something that depends on `i`. -/
def Unheld (w : World) (i : Nat) : Prop :=
  ∀ b k j, Holds w b k (some j) → k ≠ .client → ¬ DependsOn w j i

/-- The GridFS a call of wrapper object `b` with argument `g` works on is `NULL` or can be used. -/
def GridArg (w : World) (b : Nat) (g : H) : Prop :=
  ∃ own, Holds w b .gridfs own ∧ (own = none → g = none ∨ ∃ i, g = some i ∧ Sound w .gridfs i)

/-- As before, and it is not `NULL`. -/
def GridArg' (w : World) (b : Nat) (g : H) : Prop :=
  ∃ own, Holds w b .gridfs own ∧ (own = none → ∃ i, g = some i ∧ Sound w .gridfs i)

/-- The contract of a program: wrapper objects are not used after their destructor, a driver object is given to one wrapper object only and that wrapper is not
copied, arguments can be used, the connection of a client and objects of the program are released when nothing else that is still held needs them, `Destroy`
is called once, at the end; GridFS files asked for their metadata have some. -/
def Allowed (w : World) : Call → Prop
  | .init _ _ => w.ended = false
  | .wrapClient conn => conn = none ∨ ∃ i, conn = some i ∧ Sound w .client i
  | .destroyClient c => w.ready = true ∧ w.ended = false ∧ (∃ h, Holds w c .client h ∧ (h = none ∨ ∃ i, h = some i ∧ Sound w .client i)) ∧
      ∀ b k j, Holds w b k (some j) → k = .client
  | .deleteClient c => ∃ h, Holds w c .client h
  | .databaseNames c _ => Client w c
  | .clientCollectionNames c _ => Client w c
  | .getDatabase c => Client w c
  | .getCollection c _ => Client w c
  | .getGridFs c _ _ => Client w c
  | .gridFs c _ _ => Client w c
  | .clientFileNames c a b _ => Client w c ∧ (a = true ∨ b = true)
  | .newDatabase db => ∃ i, db = some i ∧ Sound w .database i ∧ Unheld w i
  | .newDatabase2 conn => ∃ i, conn = some i ∧ Sound w .client i
  | .deleteDatabase b => ∃ h, Holds w b .database h
  | .collectionNames b _ => ∃ i, Holds w b .database (some i)
  | .newCollection coll => coll = none ∨ ∃ i, coll = some i ∧ Sound w .collection i ∧ Unheld w i
  | .copyCollection b => Holds w b .collection none
  | .deleteCollection b => ∃ h, Holds w b .collection h
  | .executeQuery b => ∃ i, Holds w b .collection (some i)
  | .queryCount b => ∃ i, Holds w b .collection (some i)
  | .newGridFs g => g = none ∨ ∃ i, g = some i ∧ Sound w .gridfs i ∧ Unheld w i
  | .copyGridFs b => Holds w b .gridfs none
  | .deleteGridFs b => ∃ h, Holds w b .gridfs h
  | .getFile b g _ => GridArg w b g
  | .removeFile b g _ => GridArg w b g
  | .fileNames b g _ => GridArg' w b g
  | .metadata b g _ has => GridArg w b g ∧ has = true
  | .streamData b g _ => GridArg w b g
  | .writeStream b g => GridArg w b g
  | .release k h => h = none ∨ ∃ i, h = some i ∧ Sound w k i ∧ Unheld w i

/-- A program that keeps to the contract, call by call. -/
inductive Keeps : World → List Call → Prop
  | nil (w) : Keeps w []
  | cons (w c cs) (ha : Allowed w c) (hs : ∀ w' r, step w c = .ok (w', r) → Keeps w' cs) : Keeps w (c :: cs)

/-- The object that a call releases. -/
def Released (w : World) (i : Nat) : Call → Prop
  | .destroyClient c => Holds w c .client (some i)
  | .deleteDatabase b => Holds w b .database (some i)
  | .deleteCollection b => Holds w b .collection (some i)
  | .deleteGridFs b => Holds w b .gridfs (some i)
  | .release _ h => h = some i
  | _ => False

/-- The object that the program has after a call with this result: it got the object itself or a wrapper object that holds it. -/
def Gained (w' : World) (i : Nat) : Res → Prop
  | .unit => False
  | .obj h => h = some i
  | .wrapper b => ∃ k, Holds w' b k (some i)

/-- The calls that forget an object: a collection that does not exist, counting records, listing files. -/
def Leaks : Call → Res → Option Kind
  | .getCollection _ _, .obj none => some .database
  | .queryCount _, _ => some .bson
  | .clientFileNames _ _ _ _, _ => some .bson
  | .fileNames _ _ _, _ => some .bson
  | _, _ => none

/-- A history of allowed calls without the forgetful ones, and the objects the program is responsible for. -/
inductive History : World → Set Nat → Prop
  | start : History World.start ∅
  | call (w own c w' r) (h : History w own) (ha : Allowed w c) (hs : step w c = .ok (w', r)) (hl : Leaks c r = none) :
      History w' {i | (i ∈ own ∧ ¬ Released w i c) ∨ Gained w' i r}

end MLife
end CCGL
