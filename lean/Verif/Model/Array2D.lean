import Verif.Model.Array
import Verif.Spec.Array2D
/-!
# Model of the class template `Array2D` (`src/utils_array.h:228-326`)

The objects of a program are numbered; `obj i = none` when object `i` is not alive. The heap is the one of
`Model/Array.lean`. Using an object that is not alive, or starting one twice, is undefined (the language forbids it).
Only the operation and reply names are taken from the specification. Element type: any type whose assignment copies the
value (`T()` of the copy constructor is overwritten by `std::copy`; it is `dv` here).
-/
namespace CCGL.Arr2
open CCGL.Arr
open CCGL.Spec.Arr2 (Op Reply)

variable {τ : Type}

/-- utils_array.h:230-232 the members. -/
structure Obj where
  data : Option Nat
  rows : Nat
  cols : Nat
deriving DecidableEq

/-- Heap and objects. -/
structure St (τ : Type) where
  mem : Mem τ
  obj : Nat → Option Obj

/-- No object, empty heap. -/
def St.init : St τ := ⟨Mem.init, fun _ => none⟩

/-- utils_array.h:244-246 `ptr[i] = pool; pool += ncols`: moving the pointer beyond the end of the pool is undefined. -/
def linkRows (pool col len : Nat) : Nat → Nat → Out (List (Option (Nat × Nat)))
  | _, 0 => .ok []
  | off, n + 1 =>
    if off + col ≤ len then do
      let ps ← linkRows pool col len (off + col) n
      .ok (some (pool, off) :: ps)
    else .ub

/-- utils_array.h:234-252 `create2DArray(nrows, ncols, val)`. The product is computed with 32 bits. `new(nothrow)` returns null
on failure (`ok = false`), and the null pointer is then written to. -/
def create2D (m : Mem τ) (r c : Nat) (x : τ) (ok : Bool) : Out (Nat × Mem τ) :=
  if !ok then .ub
  else do
    let n := (r * c) % 2 ^ 32
    let ps ← linkRows (m.next + 1) c n 0 r
    .ok (m.next, (m.push (.ptrs ps)).push (filled n x))

/-- The address of `data_ptr[i][j]`. -/
def addr (m : Mem τ) (p : Option Nat) (i j : Nat) : Out (Nat × Nat) :=
  match p with
  | none => .ub
  | some b => match m.heap b with
    | some (.ptrs ps) => (match ps[i]? with | some (some (q, off)) => .ok (q, off + j) | _ => .ub)
    | _ => .ub

/-- `std::copy` of the first `n` elements. -/
def copyElems (src dst : Nat × Nat) : Nat → Mem τ → Out (Mem τ)
  | 0, m => .ok m
  | n + 1, m => do
    let m ← copyElems src dst n m
    let x ← m.load src.1 (src.2 + n)
    m.store dst.1 (dst.2 + n) x

/-- utils_array.h:282-285 the copy constructor: the new object and the memory. -/
def copyCtor (m : Mem τ) (o : Obj) (dv : τ) (ok : Bool) : Out (Obj × Mem τ) := do
  let (p, m) ← create2D m o.rows o.cols dv ok
  let a ← addr m o.data 0 0
  let b ← addr m o.data (o.rows - 1) o.cols
  let d ← addr m (some p) 0 0
  if a.1 ≠ b.1 then .ub
  else do
    let m ← copyElems a d (b.2 - a.2) m
    .ok (⟨some p, o.rows, o.cols⟩, m)

/-- utils_array.h:275-280 the destructor. -/
def destroy (m : Mem τ) (o : Obj) : Out (Mem τ) :=
  match o.data with
  | none => .ok m
  | some b => do
    let a ← addr m (some b) 0 0
    if a.2 ≠ 0 then .ub
    else do
      let m ← m.free a.1
      m.free b

/-- One object changed. -/
def putObj (f : Nat → Option Obj) (i : Nat) (o : Option Obj) : Nat → Option Obj := fun k => if k = i then o else f k

/-- The operations. `dv` is `T()`, `ok` whether the allocations of this step succeed. -/
def step (dv : τ) (ok : Bool) (s : St τ) : Op τ → Out (St τ × Reply τ)
  -- utils_array.h:264
  | .dflt i => match s.obj i with
    | none => .ok ({ s with obj := putObj s.obj i (some ⟨none, 0, 0⟩) }, .done)
    | some _ => .ub
  -- utils_array.h:265-273
  | .make i r c x => match s.obj i with
    | none =>
      if r ≤ 0 then .ok (s, .threw)
      else if c ≤ 0 then .ok (s, .threw)
      else do
        let (p, m) ← create2D s.mem r c x ok
        .ok (⟨m, putObj s.obj i (some ⟨some p, r, c⟩)⟩, .done)
    | some _ => .ub
  -- utils_array.h:282-285
  | .copy i j => match s.obj i, s.obj j with
    | none, some o => do
      let (o', m) ← copyCtor s.mem o dv ok
      .ok (⟨m, putObj s.obj i (some o')⟩, .done)
    | _, _ => .ub
  -- utils_array.h:287-292
  | .move i j => match s.obj i, s.obj j with
    | none, some o => .ok ({ s with obj := putObj (putObj s.obj j (some { o with data := none })) i (some o) }, .done)
    | _, _ => .ub
  -- utils_array.h:307-313: the old data goes with the temporary
  | .assign i j => match s.obj i, s.obj j with
    | some o, some o' =>
      if i = j then .ok (s, .done)
      else do
        let (temp, m) ← copyCtor s.mem o' dv ok
        let m ← destroy m o
        .ok (⟨m, putObj s.obj i (some temp)⟩, .done)
    | _, _ => .ub
  -- utils_array.h:294-305
  | .moveAssign i j => match s.obj i, s.obj j with
    | some o, some o' =>
      if i = j then .ok (s, .done)
      else .ok ({ s with obj := putObj (putObj s.obj j (some o)) i (some o') }, .done)
    | _, _ => .ub
  -- utils_array.h:323-325: move-assigned from a temporary, which takes the old data
  | .create i r c x => match s.obj i with
    | some o =>
      if r ≤ 0 then .ok (s, .threw)
      else if c ≤ 0 then .ok (s, .threw)
      else do
        let (p, m) ← create2D s.mem r c x ok
        let m ← destroy m o
        .ok (⟨m, putObj s.obj i (some ⟨some p, r, c⟩)⟩, .done)
    | none => .ub
  -- utils_array.h:275-280
  | .destroy i => match s.obj i with
    | some o => do
      let m ← destroy s.mem o
      .ok (⟨m, putObj s.obj i none⟩, .done)
    | none => .ub
  -- utils_array.h:315-321
  | .get i r c => match s.obj i with
    | some o => do
      let a ← addr s.mem o.data r c
      let x ← s.mem.load a.1 a.2
      .ok (s, .val x)
    | none => .ub
  | .set i r c x => match s.obj i with
    | some o => do
      let a ← addr s.mem o.data r c
      let m ← s.mem.store a.1 a.2 x
      .ok ({ s with mem := m }, .done)
    | none => .ub
  -- utils_array.h:260
  | .rows i => match s.obj i with
    | some o => .ok (s, .num o.rows)
    | none => .ub
  -- utils_array.h:262
  | .cols i => match s.obj i with
    | some o => .ok (s, .num o.cols)
    | none => .ub

/-- A history; `ok` says which steps' allocations succeed. -/
def run (dv : τ) (ok : Nat → Bool) (s : St τ) : List (Op τ) → Out (St τ × List (Reply τ))
  | [] => .ok (s, [])
  | o :: os => do
    let (s, r) ← step dv (ok 0) s o
    let (s, rs) ← run dv (fun k => ok (k + 1)) s os
    .ok (s, r :: rs)

end CCGL.Arr2
