import Verif.Model.Raster
/-!
# Fine-grained model of OpenMP loops whose iterations own their data

`#pragma omp parallel for` over cells (e.g. data_raster.hpp:3721-3732 `ReplaceNoData`, 3852-3867 copy loop of the
position calculation, utils_array.h:350, 373, 402, 418 array fills): iteration `i` only accesses element `i` of
the arrays and its private variables. An execution is any interleaving of the atomic actions of the
iterations; `σ` is what iteration `i` owns (its array elements and private variables).
-/
namespace CCGL

/-- One atomic action: the iteration performing it and its effect on what this iteration owns. -/
abbrev ParAct (σ : Type) := Nat × (σ → σ)

/-- Execution of an interleaving. -/
def parRun {σ : Type} : List (ParAct σ) → (Nat → σ) → (Nat → σ)
  | [], mem => mem
  | (i, f) :: tr, mem => parRun tr (fun k => if k = i then f (mem i) else mem k)

/-- `tr` is an interleaving of the programs of the iterations `0 .. n-1`: restricted to an iteration it is
this iteration's program, and no other iteration takes part. -/
def Interleaving {σ : Type} (n : Nat) (prog : Nat → List (σ → σ)) (tr : List (ParAct σ)) : Prop :=
  (∀ a ∈ tr, a.1 < n) ∧ ∀ i < n, (tr.filter (fun a => a.1 = i)).map (·.2) = prog i

/-- What an iteration of `ReplaceNoData` owns: the layers of its cell and the result of the last test. -/
structure ReplCell where
  row : List ℚ
  hit : Bool
deriving Repr, DecidableEq

/-- data_raster.hpp:3724-3731: the test of layer `l` and the conditional store, as two atomic actions. -/
def replTest (nd : ℚ) (l : Nat) (c : ReplCell) : ReplCell := { c with hit := floatEqual (c.row.getD l 0) nd }
def replStore (v : ℚ) (l : Nat) (c : ReplCell) : ReplCell := if c.hit then { c with row := c.row.set l v } else c

/-- The program of one iteration: all layers in order (data_raster.hpp:3723). -/
def replProg (nd v : ℚ) (lyrs : Nat) : List (ReplCell → ReplCell) :=
  (List.range lyrs).flatMap (fun l => [replTest nd l, replStore v l])

end CCGL
