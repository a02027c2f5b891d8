import Verif.Model.Asc
/-!
# Model of `src/utils_array.h` on an explicit heap

Memory is a finite set of live blocks with addresses never reused (a block of numbers, or a block of row pointers).
Elements that were allocated but not written are indeterminate (`none`): reading one is undefined. `new(nothrow)`
may fail whenever the environment says so (`ok = false`); a negative size gives a null pointer (the C++14 rule).
Pointer variables of the caller are numbered; `p1` holds the `T*`, `p2` the `T**` variables.
-/
namespace CCGL.Arr

variable {τ σ : Type}

/-- A live block. -/
inductive Block (τ : Type) where
  | vals (xs : List (Option τ))
  | ptrs (xs : List (Option (Nat × Nat)))

/-- The heap and the caller's pointer variables. -/
structure Mem (τ : Type) where
  heap : Nat → Option (Block τ)
  next : Nat
  p1 : Nat → Option Nat
  p2 : Nat → Option Nat

/-- No block, all pointers null. -/
def Mem.init : Mem τ := ⟨fun _ => none, 0, fun _ => none, fun _ => none⟩

/-- A function changed at one place. -/
def upd {β : Type} (f : Nat → β) (i : Nat) (x : β) : Nat → β := fun j => if j = i then x else f j

/-- A fresh block. -/
def Mem.push (m : Mem τ) (b : Block τ) : Mem τ := { m with heap := upd m.heap m.next (some b), next := m.next + 1 }

/-- `delete[]` of a block. -/
def Mem.free (m : Mem τ) (b : Nat) : Out (Mem τ) :=
  match m.heap b with
  | none => .ub
  | some _ => .ok { m with heap := upd m.heap b none }

/-- Write into a number block. -/
def Mem.store (m : Mem τ) (b i : Nat) (x : τ) : Out (Mem τ) :=
  match m.heap b with
  | some (.vals xs) => if i < xs.length then .ok { m with heap := upd m.heap b (some (.vals (xs.set i (some x)))) } else .ub
  | _ => .ub

/-- Read from a number block. -/
def Mem.load (m : Mem τ) (b i : Nat) : Out τ :=
  match m.heap b with
  | some (.vals xs) => (match xs[i]? with | some (some x) => .ok x | _ => .ub)
  | _ => .ub

/-- The loop `data[i] = init` (utils_array.h:349-353, 399-402): every element is written. -/
def filled (n : Nat) (x : τ) : Block τ := .vals (List.replicate n (some x))

/-- utils_array.h:330-355 `Initialize1DArray(row, data, init_value)` for variable `v`. -/
def init1 (m : Mem τ) (v : Nat) (row : Int) (x : τ) (ok : Bool) : Bool × Mem τ :=
  match m.p1 v with
  | some _ => (false, m)
  | none =>
    if row ≤ 0 then (false, { m with p1 := upd m.p1 v none })
    else if ok then (true, { m.push (filled row.toNat x) with p1 := upd m.p1 v (some m.next) })
    else (false, { m with p1 := upd m.p1 v none })

/-- The loop utils_array.h:373-376: `data[i] = static_cast<T>(init_data[i])`. -/
def copied (cast : σ → τ) (src : List σ) : Nat → Out (List (Option τ))
  | 0 => .ok []
  | n + 1 => do
    let xs ← copied cast src n
    let y ← readAt (some src) n
    .ok (xs ++ [some (cast y)])

/-- utils_array.h:357-378 `Initialize1DArray(row, data, init_data)`; `src` is the caller's array. -/
def init1Copy (cast : σ → τ) (m : Mem τ) (v : Nat) (row : Int) (src : Ptr σ) (ok : Bool) : Out (Bool × Mem τ) :=
  match m.p1 v with
  | some _ => .ok (false, m)
  | none =>
    if row < 0 ∨ !ok then .ok (false, { m with p1 := upd m.p1 v none })
    else match src with
      | none => .ok (false, { m.push (.vals (List.replicate row.toNat none)) with p1 := upd m.p1 v (some m.next) })
      | some s => do
        let xs ← copied cast s row.toNat
        .ok (true, { m.push (.vals xs) with p1 := upd m.p1 v (some m.next) })

/-- The loop utils_array.h:406-408: `data[i] = pool; pool += col`. -/
def rowPtrs (pool : Nat) (col : Nat) : Nat → Nat → List (Option (Nat × Nat))
  | _, 0 => []
  | off, n + 1 => some (pool, off) :: rowPtrs pool col (off + col) n

/-- utils_array.h:380-411 `Initialize2DArray(row, col, data, init_value)`. `okRows`, `okPool`: the two allocations.
If the pool is missing (also for a negative `row * col`), the row pointers stay indeterminate. -/
def init2 (m : Mem τ) (v : Nat) (row col : Int) (x : τ) (okRows okPool : Bool) : Out (Bool × Mem τ) :=
  match m.p2 v with
  | some _ => .ok (false, m)
  | none =>
    if row < 0 ∨ !okRows then .ok (false, { m with p2 := upd m.p2 v none })
    else do
      let n ← mulInt row col
      let rows := m.next
      if n < 0 ∨ !okPool then
        .ok (false, { m.push (.ptrs (List.replicate row.toNat none)) with p2 := upd m.p2 v (some rows) })
      else
        let m1 := m.push (.ptrs (rowPtrs (rows + 1) col.toNat 0 row.toNat))
        let m2 := m1.push (filled n.toNat x)
        .ok (true, { m2 with p2 := upd m.p2 v (some rows) })

/-- The address of `data[i][j]` for a `T**` variable. -/
def addr2 (m : Mem τ) (v i j : Nat) : Out (Nat × Nat) :=
  match m.p2 v with
  | none => .ub
  | some b => match m.heap b with
    | some (.ptrs ps) => (match ps[i]? with | some (some (q, off)) => .ok (q, off + j) | _ => .ub)
    | _ => .ub

/-- `data[i][j]`. -/
def get2 (m : Mem τ) (v i j : Nat) : Out τ := do
  let a ← addr2 m v i j
  m.load a.1 a.2

/-- `data[i][j] = x`. -/
def set2 (m : Mem τ) (v i j : Nat) (x : τ) : Out (Mem τ) := do
  let a ← addr2 m v i j
  m.store a.1 a.2 x

/-- `data[i]` for a `T*` variable. -/
def get1 (m : Mem τ) (v i : Nat) : Out τ :=
  match m.p1 v with
  | none => .ub
  | some b => m.load b i

/-- `data[i] = x`. -/
def set1 (m : Mem τ) (v i : Nat) (x : τ) : Out (Mem τ) :=
  match m.p1 v with
  | none => .ub
  | some b => m.store b i x

/-- The inner loop utils_array.h:419-422 for row `i`, columns below the bound. -/
def copyRow (cast : σ → τ) (v i : Nat) (src : List σ) : Nat → Mem τ → Out (Mem τ)
  | 0, m => .ok m
  | n + 1, m => do
    let m ← copyRow cast v i src n m
    let y ← readAt (some src) n
    set2 m v i n (cast y)

/-- The outer loop utils_array.h:418-423 for rows below the bound. -/
def copyRows (cast : σ → τ) (v : Nat) (src : List (List σ)) (col : Nat) : Nat → Mem τ → Out (Mem τ)
  | 0, m => .ok m
  | n + 1, m => do
    let m ← copyRows cast v src col n m
    let row ← readAt (some src) n
    copyRow cast v n row col m

/-- utils_array.h:413-425 `Initialize2DArray(row, col, data, init_data)`: `init_data[0][0]` is read first. -/
def init2Copy (cast : σ → τ) (m : Mem τ) (v : Nat) (row col : Int) (src : Ptr (List σ)) (okRows okPool : Bool) :
    Out (Bool × Mem τ) := do
  let r0 ← readAt src 0
  let x0 ← readAt (some r0) 0
  let (flag, m) ← init2 m v row col (cast x0) okRows okPool
  if !flag then .ok (false, m)
  else do
    let m ← copyRows cast v (src.getD []) col.toNat row.toNat m
    .ok (true, m)

/-- The loop utils_array.h:441-445: row lengths, position after the last row and the longest row. -/
def irrCols (toInt : σ → Int) (src : List σ) : Nat → Int → Int → Out (List Int × Int × Int)
  | 0, idx, mx => .ok ([], idx, mx)
  | n + 1, idx, mx => do
    let x ← readAt (some src) idx
    let c := toInt x
    let (cs, idx', mx') ← irrCols toInt src n (idx + (c + 1)) (if c > mx then c else mx)
    .ok (c :: cs, idx', mx')

/-- The loop utils_array.h:451-454: `data[i] = pool + pos; pos += cols[i] + 1`. A pointer outside the pool is
undefined behaviour. -/
def irrPtrs (pool : Nat) (len : Int) : Int → List Int → Out (List (Option (Nat × Nat)))
  | _, [] => .ok []
  | pos, c :: cs =>
    if 0 ≤ pos ∧ pos ≤ len then do
      let ps ← irrPtrs pool len (pos + (c + 1)) cs
      .ok (some (pool, pos.toNat) :: ps)
    else .ub

/-- utils_array.h:427-457 `Initialize2DArray(init_data, rows, max_cols, data)` for irregular arrays. Result: flag,
rows, max_cols, memory. The old value of `data` is overwritten without a test. `src` holds at least `init_data[0]`.
The pool's allocation is the copying `Initialize1DArray` (its result is ignored: on failure the pool is null and the
row pointers are offsets from null, undefined for a non-zero offset; here undefined in general). -/
def init2Irr (cast : σ → τ) (toInt : σ → Int) (m : Mem τ) (v : Nat) (src : List σ) (okRows okPool : Bool) :
    Out (Bool × Int × Int × Mem τ) := do
  let r ← readAt (some src) 0
  let rows := toInt r
  if rows < 0 ∨ !okRows then .ok (false, rows, 0, { m with p2 := upd m.p2 v none })
  else
    let (cs, idx, mx) ← irrCols toInt src rows.toNat 1 (-1)
    let length := idx - 1
    if length < 0 ∨ !okPool then .ub
    else do
      let xs ← copied cast (src.drop 1) length.toNat
      let ps ← irrPtrs (m.next + 1) length 0 cs
      let m1 := m.push (.ptrs ps)
      let m2 := m1.push (.vals xs)
      .ok (true, rows, mx, { m2 with p2 := upd m.p2 v (some m.next) })

/-- utils_array.h:459-465 `Release1DArray(data)`. -/
def rel1 (m : Mem τ) (v : Nat) : Out (Mem τ) :=
  match m.p1 v with
  | none => .ok m
  | some b => do
    let m ← m.free b
    .ok { m with p1 := upd m.p1 v none }

/-- utils_array.h:467-475 `Release2DArray(data)`: deletes `data[0]`, then `data`. -/
def rel2 (m : Mem τ) (v : Nat) : Out (Mem τ) :=
  match m.p2 v with
  | none => .ok m
  | some b => match m.heap b with
    | some (.ptrs ps) => (match ps[0]? with
      | some (some (q, 0)) => do
        let m ← m.free q
        let m ← m.free b
        .ok { m with p2 := upd m.p2 v none }
      | _ => .ub)
    | _ => .ub

/-- utils_array.h:477-488 `BatchRelease1DArray(data, ..., nullptr)`: the first pointer is passed by reference, the
others by value (the caller's variables keep the stale address); stops at the first null one. -/
def batchRel1 (m : Mem τ) (v : Nat) (ws : List Nat) : Out (Mem τ) := do
  let m ← rel1 m v
  let rec go (m : Mem τ) : List Nat → Out (Mem τ)
    | [] => .ok m
    | w :: ws => match m.p1 w with
      | none => .ok m
      | some b => do
        let m ← m.free b
        go m ws
  go m ws

/-- utils_array.cpp:57-72 `Read2DArrayFromString(s, rows, data)` (same loop: `Read2DArrayFromTxtFile`, 39-55) on the
integers that follow the first word: every row is its own block. -/
def readRows (m : Mem Int) : List Int → Nat → Out (List (Option (Nat × Nat)) × Mem Int)
  | _, 0 => .ok ([], m)
  | [], _ + 1 => .ub
  | n :: ts, k + 1 =>
    if n < 0 ∨ ts.length < n.toNat then .ub
    else do
      let row := n :: ts.take n.toNat
      let b := m.next
      let (ps, m') ← readRows (m.push (.vals (row.map some))) (ts.drop n.toNat) k
      .ok (some (b, 0) :: ps, m')

/-- utils_array.cpp:57-72. -/
def read2D (m : Mem Int) (v : Nat) (ts : List Int) : Out (Int × Mem Int) :=
  match ts with
  | [] => .ub
  | rows :: ts =>
    if rows < 0 then .exn
    else do
      let (ps, m') ← readRows m ts rows.toNat
      let m2 := m'.push (.ptrs ps)
      .ok (rows, { m2 with p2 := upd m2.p2 v (some m'.next) })

/-! ## Vectors -/

/-- utils_array.h:503-512 `ValueInVector`: `std::find`. -/
def valueInVector [DecidableEq τ] (x : τ) (vec : List τ) : Bool :=
  if vec = [] then false else (vec.find? (fun y => y = x)).isSome

/-- utils_array.h:514-523 `RemoveValueInVector`: the iterator as the split of the vector into the kept part before
it and the rest. -/
def removeLoop [DecidableEq τ] (x : τ) : List τ → List τ → List τ
  | before, [] => before
  | before, y :: rest => if y = x then removeLoop x before rest else removeLoop x (before ++ [y]) rest

def removeValueInVector [DecidableEq τ] (x : τ) (vec : List τ) : List τ := removeLoop x [] vec

end CCGL.Arr
