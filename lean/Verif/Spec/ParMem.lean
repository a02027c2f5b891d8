import Verif.Model.ParMem
/-!
# Specification: data races, and loops whose result does not depend on the execution
-/
namespace CCGL.Par.Spec
open CCGL.Par

/-- Two threads access the same element, and one of them writes. Nothing synchronises the threads of a region, so this is a data race. -/
def Race (tr : List Event) : Prop :=
  ∃ e1 ∈ tr, ∃ e2 ∈ tr, e1.thread ≠ e2.thread ∧ e1.addr = e2.addr ∧ (e1.isWrite = true ∨ e2.isWrite = true)

/-- All threads have arrived at the end of the region. -/
def Finished (c : Conf) : Prop := ∀ t, c.prog t = .done

/-- Whatever the interleaving: no data race, no infinite execution, some thread can go on until all are finished, and then the memory
is `result`. -/
structure Deterministic (progs : Nat → Prog) (mem result : Mem) : Prop where
  norace : ∀ tr c, Steps ⟨progs, mem⟩ tr c → ¬ Race tr
  finite : ∃ N, ∀ tr c, Steps ⟨progs, mem⟩ tr c → tr.length ≤ N
  live : ∀ tr c, Steps ⟨progs, mem⟩ tr c → ¬ Finished c → ∃ e c', Step c e c'
  result : ∀ tr c, Steps ⟨progs, mem⟩ tr c → Finished c → c.mem = result

end CCGL.Par.Spec

namespace CCGL.Par.Spec
open CCGL.Par

/-- Memory after a loop that gives element `(i, j)` of array `o` the value `f i j`, for `i < n` and `j < k`, and changes nothing else. -/
def put2 (o : Obj) (n k : Nat) (f : Nat → Nat → ℚ) (m : Mem) : Mem := fun a =>
  if a.obj = o ∧ (0 ≤ a.row ∧ a.row < n) ∧ 0 ≤ a.col ∧ a.col < k then f a.row.toNat a.col.toNat else m a

/-- The same for a one-dimensional array. -/
def put (o : Obj) (n : Nat) (f : Nat → ℚ) (m : Mem) : Mem := put2 o n 1 (fun i _ => f i) m

/-- The same for one column (layer) of a two-dimensional array. -/
def putCol (o : Obj) (n j : Nat) (f : Nat → ℚ) (m : Mem) : Mem := fun a =>
  if a.obj = o ∧ (0 ≤ a.row ∧ a.row < n) ∧ a.col = j then f a.row.toNat else m a

/-- The value of a cell in another layer: NoData where the layer does not reach or has NoData. -/
def otherVal (look : Int → Int → Option Int) (nd lnd : ℚ) (m : Mem) (row col : Int) : ℚ :=
  match look row col with
  | none => nd
  | some k => if floatEqual (m ⟨.layer, k, 0⟩) lnd then nd else m ⟨.layer, k, 0⟩

/-- What the runtime adds up after a reduction: the private copies of the threads. -/
def total (threads : Nat) (m : Mem) : ℚ := ((List.range threads).map fun t => m (privAt t)).sum

/-- The positions of the stored cells. -/
def putPos (n : Nat) (ncols : ℚ) (mem m : Mem) : Mem :=
  put .posRow n (fun i => mem ⟨.rows, i, 0⟩) (put .posCol n (fun i => mem ⟨.cols, i, 0⟩)
    (put .posIdx n (fun i => mem ⟨.rows, i, 0⟩ * ncols + mem ⟨.cols, i, 0⟩) m))

/-- Whether a cell is counted as not fitting the integer type of a GeoTIFF. -/
def misfit (lo hi nd : ℚ) (chg : Bool) (v : ℚ) : Bool := !(floatEqual v nd && chg) && decide (v < lo ∨ v > hi)

end CCGL.Par.Spec
