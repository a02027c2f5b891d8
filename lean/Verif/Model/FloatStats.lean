import Verif.Model.Float
import Verif.Model.Stats
/-!
# Statistics in double arithmetic (`src/utils_math.h`)

The same functions as in `Model/Stats.lean`, with every operation rounded to `double`. Simplification: the element type is one
whose values are doubles (`float`, `double`, integers up to 53 bits); a conversion of larger integers is not modelled. Loops
with an OpenMP reduction run under an arbitrary plan: which thread executes which iterations, and in which order and grouping
the partial results are combined.
-/
open Classical
noncomputable section
namespace CCGL.Flt

/-- utils_math.h:141-143 `FloatEqual(v1, v2)`; the literal is rounded by the compiler. -/
def floatEqualF (R : Rounding) (v1 v2 : ℝ) : Bool := decide (|R.sub v1 v2| < R.fl (1 / 10 ^ 32))

/-- A `reduction(+:tmp)` loop: the iterations of one thread in order, or two partial results that are combined. The
combination with the shared variable's value 0 before the loop adds nothing. -/
inductive Plan where
  | thread (is : List Nat)
  | join (a b : Plan)

/-- The iterations executed by a plan. -/
def Plan.iters : Plan → List Nat
  | .thread is => is
  | .join a b => a.iters ++ b.iters

/-- The plan executes every iteration `0 .. n-1` exactly once. -/
def Plan.Of (p : Plan) (n : Nat) : Prop := p.iters.Perm (List.range n)

/-- One thread: private copy starting at 0; an iteration without contribution (`none`) leaves it alone. -/
def threadSumF (R : Rounding) (f : Nat → Out (Option ℝ)) : List Nat → ℝ → Out ℝ
  | [], acc => .ok acc
  | i :: is, acc => do
    let v ← f i
    match v with
    | some x => threadSumF R f is (R.add acc x)
    | none => threadSumF R f is acc

/-- The whole loop. -/
def ompSumF (R : Rounding) (f : Nat → Out (Option ℝ)) : Plan → Out ℝ
  | .thread is => threadSumF R f is 0
  | .join a b => do
    let x ← ompSumF R f a
    let y ← ompSumF R f b
    return R.add x y

/-- utils_math.h:360-368 `Sum(row, data)`. -/
def sumArrF (R : Rounding) (p : Plan) (data : Ptr ℝ) : Out ℝ :=
  ompSumF R (fun i => do let v ← readAt data i; return some v) p

/-- utils_math.h:385-389: the running values of the first loop of `BasicStatistics`. -/
structure FAcc where
  mx : ℝ
  mn : ℝ
  num : ℝ
  sum : ℝ

/-- utils_math.h:385-388 (and 421-428 per layer). -/
def FAcc.start : FAcc := ⟨-(fltMax : ℝ), (fltMax : ℝ), 0, 0⟩

/-- utils_math.h:391-395 (and 433-437 per layer). The number of values is an `int` in the one-dimensional version (`inc` is exact)
and a `double` in the other. -/
def FAcc.push (R : Rounding) (inc : ℝ → ℝ) (ex : ℝ) (a : FAcc) (v : ℝ) : FAcc :=
  if floatEqualF R v ex then a
  else ⟨if a.mx < v then v else a.mx, if a.mn > v then v else a.mn, inc a.num, R.add a.sum v⟩

/-- utils_math.h:390-396. -/
def statLoopF (R : Rounding) (inc : ℝ → ℝ) (vals : Ptr ℝ) (ex : ℝ) : List Nat → FAcc → Out FAcc
  | [], a => .ok a
  | i :: is, a => do
    let v ← readAt vals i
    statLoopF R inc vals ex is (a.push R inc ex v)

/-- Division of doubles where a zero divisor only meets a zero dividend (NaN). -/
def divF (R : Rounding) (a b : ℝ) : Dbl := if b = 0 then none else some (R.div a b)

/-- utils_math.h:401-403: the contribution of a value to the sum of squares. A NaN mean (no valid value) is never used. -/
def sqDevF (R : Rounding) (ex : ℝ) (mean : Dbl) (v : ℝ) : Option ℝ :=
  if floatEqualF R v ex then none
  else match mean with
    | some m => some (R.mul (R.sub v m) (R.sub v m))
    | none => none

/-- utils_math.h:397-398 and 405-410. -/
def finishF (R : Rounding) (a : FAcc) (sq : ℝ) : Stats :=
  { num := some a.num
    mean := divF R a.sum a.num
    mx := some a.mx
    mn := some a.mn
    std := (divF R sq a.num).map R.sqrt
    range := some (R.sub a.mx a.mn) }

/-- utils_math.h:381-412 `BasicStatistics(values, num, derivedvalues, exclude)`. -/
def basicStats1F (R : Rounding) (p : Plan) (vals : Ptr ℝ) (n : Int) (ex : ℝ) : Out Stats := do
  let a ← statLoopF R (· + 1) vals ex (List.range n.toNat) FAcc.start
  let sq ← ompSumF R (fun i => do let v ← readAt vals i; return sqDevF R ex (divF R a.sum a.num) v) p
  return finishF R a sq

/-- `values[i][j]`. -/
def read2F (vals : Ptr (List ℝ)) (i j : Int) : Out ℝ := do
  let row ← readAt vals i
  readAt (some row) j

/-- utils_math.h:432-438: the layers of one cell. -/
def stat2InnerF (R : Rounding) (vals : Ptr (List ℝ)) (ex : ℝ) (i : Nat) : List Nat → Ptr FAcc → Out (Ptr FAcc)
  | [], accs => .ok accs
  | j :: js, accs => do
    let v ← read2F vals i j
    let a ← readAt accs j
    let accs' ← writeAt accs j (a.push R (fun x => R.add x 1) ex v)
    stat2InnerF R vals ex i js accs'

/-- utils_math.h:431-439. -/
def stat2LoopF (R : Rounding) (vals : Ptr (List ℝ)) (ex : ℝ) (lyrs : Nat) : List Nat → Ptr FAcc → Out (Ptr FAcc)
  | [], accs => .ok accs
  | i :: is, accs => do
    let accs' ← stat2InnerF R vals ex i (List.range lyrs) accs
    stat2LoopF R vals ex lyrs is accs'

/-- utils_math.h:441-457: the loops over the layers after the first pass; `plan j` is the plan of layer `j`. -/
def stat2FinishF (R : Rounding) (plan : Nat → Plan) (vals : Ptr (List ℝ)) (ex : ℝ) (accs : Ptr FAcc) :
    List Nat → Out (List Stats)
  | [] => .ok []
  | j :: js => do
    let a ← readAt accs j
    let sq ← ompSumF R (fun i => do let v ← read2F vals i j; return sqDevF R ex (divF R a.sum a.num) v) (plan j)
    let rest ← stat2FinishF R plan vals ex accs js
    return finishF R a sq :: rest

/-- utils_math.h:414-460 `BasicStatistics` of a two-dimensional array; element `j` of the result stands for
`derivedvalues[0..5][j]`. -/
def basicStats2F (R : Rounding) (plan : Nat → Plan) (vals : Ptr (List ℝ)) (n lyrs : Int) (ex : ℝ) : Out (List Stats) := do
  let accs ← stat2LoopF R vals ex lyrs.toNat (List.range n.toNat) (some (List.replicate lyrs.toNat FAcc.start))
  stat2FinishF R plan vals ex accs (List.range lyrs.toNat)

end CCGL.Flt
