import Verif.Model.Array
/-!
# Specifications for the array helpers
-/
namespace CCGL.Arr.Spec
variable {τ : Type}

/-- Calls a program may make, on any variables, with any sizes and any failures of allocation, except: a
two-dimensional array is requested with at least one row and no negative size, and its data block can be allocated.
`Reachable m`: memory `m` is reached from null pointers by such calls (that return) and by writes into cells. -/
inductive Reachable : Mem τ → Prop where
  | start : Reachable Mem.init
  | init1 {m m'} (h : Reachable m) (v : Nat) (row : Int) (x : τ) (ok f : Bool)
      (e : Arr.init1 m v row x ok = (f, m')) : Reachable m'
  | init1Copy {σ : Type} {m m'} (h : Reachable m) (cast : σ → τ) (v : Nat) (row : Int) (src : Ptr σ) (ok f : Bool)
      (e : Arr.init1Copy cast m v row src ok = .ok (f, m')) : Reachable m'
  | init2 {m m'} (h : Reachable m) (v : Nat) (row col : Int) (x : τ) (ok f : Bool) (hr : 0 < row) (hc : 0 ≤ col)
      (e : Arr.init2 m v row col x ok true = .ok (f, m')) : Reachable m'
  | init2Copy {σ : Type} {m m'} (h : Reachable m) (cast : σ → τ) (v : Nat) (row col : Int) (src : Ptr (List σ))
      (ok f : Bool) (hr : 0 < row) (hc : 0 ≤ col)
      (e : Arr.init2Copy cast m v row col src ok true = .ok (f, m')) : Reachable m'
  | init2Irr {σ : Type} {m m'} (h : Reachable m) (cast : σ → τ) (toInt : σ → Int) (v : Nat) (src : List σ)
      (ok f : Bool) (rows mx : Int) (hnull : m.p2 v = none) (hr : rows ≠ 0)
      (e : Arr.init2Irr cast toInt m v src ok true = .ok (f, rows, mx, m')) : Reachable m'
  | rel1 {m m'} (h : Reachable m) (v : Nat) (e : Arr.rel1 m v = .ok m') : Reachable m'
  | rel2 {m m'} (h : Reachable m) (v : Nat) (e : Arr.rel2 m v = .ok m') : Reachable m'
  | set1 {m m'} (h : Reachable m) (v i : Nat) (x : τ) (e : Arr.set1 m v i x = .ok m') : Reachable m'
  | set2 {m m'} (h : Reachable m) (v i j : Nat) (x : τ) (e : Arr.set2 m v i j x = .ok m') : Reachable m'

/-- Block `b` can be found from the caller's pointers. -/
def Found (m : Mem τ) (b : Nat) : Prop :=
  (∃ v, m.p1 v = some b) ∨ (∃ v, m.p2 v = some b) ∨
  ∃ v r ps, ∃ i off : Nat, m.p2 v = some r ∧ m.heap r = some (.ptrs ps) ∧ ps[i]? = some (some (b, off))

/-- No block is lost. -/
def NoLeak (m : Mem τ) : Prop := ∀ b, m.heap b ≠ none → Found m b

/-- No pointer variable and no row pointer is stale. -/
def NoDangling (m : Mem τ) : Prop := ∀ b, Found m b → m.heap b ≠ none

/-- A two-dimensional array of `r` rows and `c` columns with all its cells in one block, row after row. -/
def Grid (m : Mem τ) (v r c : Nat) : Prop :=
  ∃ q xs, m.heap q = some (.vals xs) ∧ xs.length = r * c ∧ ∀ i, i < r → ∀ j, addr2 m v i j = .ok (q, i * c + j)

/-- The flat form of irregular rows: their number `n`, then each row preceded by its length. -/
def flat {σ : Type} (n : σ) (rs : List (σ × List σ)) : List σ := n :: rs.flatMap (fun p => p.1 :: p.2)

/-- Where row `i` starts in the flat form without its first element. -/
def rowStart {σ : Type} (rs : List (σ × List σ)) (i : Nat) : Nat := ((rs.take i).map (fun p => p.2.length + 1)).sum

end CCGL.Arr.Spec
