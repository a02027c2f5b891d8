/-!
# Specification: `Array2D` objects as values

An object holds nothing or a grid. The operations are those of an ordinary value type.
-/
namespace CCGL.Spec.Arr2

/-- A grid of `rows` times `cols` elements. -/
structure Grid (τ : Type) where
  rows : Nat
  cols : Nat
  cell : Nat → Nat → τ

/-- What a program does with its (numbered) `Array2D` objects. -/
inductive Op (τ : Type)
  | dflt (i : Nat)                        -- Array2D a;
  | make (i r c : Nat) (x : τ)            -- Array2D a(r, c, x);
  | copy (i j : Nat)                      -- Array2D a(b);
  | move (i j : Nat)                      -- Array2D a(std::move(b));
  | assign (i j : Nat)                    -- a = b;
  | moveAssign (i j : Nat)                -- a = std::move(b);
  | create (i r c : Nat) (x : τ)          -- a.create(r, c, x);
  | destroy (i : Nat)                     -- a goes out of scope
  | get (i r c : Nat)                     -- a[r][c]
  | set (i r c : Nat) (x : τ)             -- a[r][c] = x;
  | rows (i : Nat)                        -- a.get_rows()
  | cols (i : Nat)                        -- a.get_cols()

/-- What the program sees. -/
inductive Reply (τ : Type)
  | done
  | threw
  | val (x : τ)
  | num (n : Nat)
deriving DecidableEq

/-- The objects: not alive, alive and holding nothing, or holding a grid. -/
abbrev State (τ : Type) := Nat → Option (Option (Grid τ))

/-- One object changed. -/
def put {τ : Type} (s : State τ) (i : Nat) (o : Option (Option (Grid τ))) : State τ := fun k => if k = i then o else s k

/-- A new grid: refused when it has no cell, `none` when it has 2^32 cells or more. -/
def newGrid {τ : Type} (r c : Nat) (x : τ) : Option (Option (Grid τ)) :=
  if r = 0 ∨ c = 0 then some none else if r * c < 2 ^ 32 then some (some ⟨r, c, fun _ _ => x⟩) else none

/-- The meaning of an operation; `none`: the program is outside the contract (an object that is not alive or alive twice, a copy
of an object that holds nothing, an element outside the grid, the size of an object that holds nothing). -/
def step {τ : Type} (s : State τ) : Op τ → Option (State τ × Reply τ)
  | .dflt i => if s i = none then some (put s i (some none), .done) else none
  | .make i r c x => match s i, newGrid r c x with
    | none, some none => some (s, .threw)
    | none, some (some g) => some (put s i (some (some g)), .done)
    | _, _ => none
  | .copy i j => match s i, s j with
    | none, some (some g) => some (put s i (some (some g)), .done)
    | _, _ => none
  | .move i j => match s i, s j with
    | none, some v => some (put (put s j (some none)) i (some v), .done)
    | _, _ => none
  | .assign i j => match s i, s j with
    | some _, some v =>
      if i = j then some (s, .done)
      else (match v with | some g => some (put s i (some (some g)), .done) | none => none)
    | _, _ => none
  | .moveAssign i j => match s i, s j with
    | some u, some v => if i = j then some (s, .done) else some (put (put s j (some u)) i (some v), .done)
    | _, _ => none
  | .create i r c x => match s i, newGrid r c x with
    | some _, some none => some (s, .threw)
    | some _, some (some g) => some (put s i (some (some g)), .done)
    | _, _ => none
  | .destroy i => if s i = none then none else some (put s i none, .done)
  | .get i r c => match s i with
    | some (some g) => if r < g.rows ∧ c < g.cols then some (s, .val (g.cell r c)) else none
    | _ => none
  | .set i r c x => match s i with
    | some (some g) => if r < g.rows ∧ c < g.cols then
        some (put s i (some (some { g with cell := fun a b => if a = r ∧ b = c then x else g.cell a b })), .done) else none
    | _ => none
  | .rows i => match s i with
    | some (some g) => some (s, .num g.rows)
    | _ => none
  | .cols i => match s i with
    | some (some g) => some (s, .num g.cols)
    | _ => none

/-- A history. -/
def run {τ : Type} (s : State τ) : List (Op τ) → Option (State τ × List (Reply τ))
  | [] => some (s, [])
  | o :: os => do
    let (s, r) ← step s o
    let (s, rs) ← run s os
    some (s, r :: rs)

end CCGL.Spec.Arr2
