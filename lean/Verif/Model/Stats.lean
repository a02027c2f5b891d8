import Verif.Model.Raster
import Verif.Model.Str
import Mathlib.Analysis.Real.Sqrt
/-!
# Model of the array statistics (`src/utils_math.h`) and of the statistics cache of `clsRasterData`

Values are exact rationals, `double` results are real numbers or NaN (`0/0`); rounding is not modelled.
An OpenMP `parallel for` loop runs under an arbitrary schedule: a list of threads, each with the list of
iterations it executes, in the order in which the private results are combined.
-/
namespace CCGL

/-- A `double`: `none` is NaN. -/
abbrev Dbl := Option ℝ

/-- Distribution of the iterations of a parallel loop over threads. -/
abbrev Sched := List (List Nat)

/-- The schedule executes every iteration `0 .. n-1` exactly once. -/
def Sched.Of (s : Sched) (n : Nat) : Prop := s.flatten.Perm (List.range n)

/-- The schedules chosen by the OpenMP runtime: one for each layer and trip count. -/
structure Schedule where
  plan : Nat → Nat → Sched
  ok : ∀ l n, (plan l n).Of n

/-- One thread of a `reduction(+:tmp)` loop: private copy starting at 0, `tmp += f(i)`. -/
def threadSum (f : Nat → Out ℚ) : List Nat → ℚ → Out ℚ
  | [], acc => .ok acc
  | i :: is, acc => do
    let v ← f i
    threadSum f is (acc + v)

/-- A `reduction(+:tmp)` loop: the private results are added to the shared variable. -/
def ompSum (f : Nat → Out ℚ) : Sched → ℚ → Out ℚ
  | [], acc => .ok acc
  | t :: ts, acc => do
    let p ← threadSum f t 0
    ompSum f ts (acc + p)

/-- utils_math.h:360-368 `Sum(row, data)`. -/
def sumArr (s : Sched) (data : Ptr ℚ) : Out ℚ := ompSum (fun i => readAt data i) s 0

/-- utils_math.h:370-379 `Sum(row, idx, data)`. -/
def sumIdx (s : Sched) (idx : Ptr Int) (data : Ptr ℚ) : Out ℚ :=
  ompSum (fun i => do let j ← readAt idx i; readAt data j) s 0

/-- utils_math.h:338-347 `MaxInArray`. -/
def maxLoop (a : Ptr ℚ) : List Nat → ℚ → Out ℚ
  | [], m => .ok m
  | i :: is, m => do
    let v ← readAt a i
    maxLoop a is (if v > m then v else m)

def maxInArray (a : Ptr ℚ) (n : Int) : Out ℚ := do
  let m ← readAt a 0
  maxLoop a (List.range' 1 (n - 1).toNat) m

/-- utils_math.h:349-358 `MinInArray`. -/
def minLoop (a : Ptr ℚ) : List Nat → ℚ → Out ℚ
  | [], m => .ok m
  | i :: is, m => do
    let v ← readAt a i
    minLoop a is (if v < m then v else m)

def minInArray (a : Ptr ℚ) (n : Int) : Out ℚ := do
  let m ← readAt a 0
  minLoop a (List.range' 1 (n - 1).toNat) m

/-- `FLT_MAX`; basic.h: `MAXIMUMFLOAT = FLT_MAX`, `MISSINGFLOAT = -FLT_MAX`. -/
def fltMax : ℚ := (2 ^ 24 - 1) * 2 ^ 104

/-- The running values of the first loop of `BasicStatistics` (utils_math.h:385-388). -/
structure Acc where
  mx : ℚ
  mn : ℚ
  num : Nat
  sum : ℚ
deriving Repr, DecidableEq

/-- utils_math.h:385-388 (and 421-428 per layer). -/
def Acc.start : Acc := ⟨-fltMax, fltMax, 0, 0⟩

/-- Loop body utils_math.h:391-395 (and 434-438 per layer). -/
def Acc.push (ex : ℚ) (a : Acc) (v : ℚ) : Acc :=
  if floatEqual v ex then a
  else ⟨if a.mx < v then v else a.mx, if a.mn > v then v else a.mn, a.num + 1, a.sum + v⟩

/-- First loop utils_math.h:390-396. -/
def statLoop (vals : Ptr ℚ) (ex : ℚ) : List Nat → Acc → Out Acc
  | [], a => .ok a
  | i :: is, a => do
    let v ← readAt vals i
    statLoop vals ex is (a.push ex v)

/-- The six results (utils_math.h:397-410). -/
structure Stats where
  num : Dbl
  mean : Dbl
  mx : Dbl
  mn : Dbl
  std : Dbl
  range : Dbl

/-- Division of `double`s where a zero divisor only meets a zero dividend (`0/0`). -/
def divD (a b : ℚ) : Option ℚ := if b = 0 then none else some (a / b)

/-- Square root of a quotient of `double`s. -/
noncomputable def sqrtD : Option ℚ → Dbl
  | none => none
  | some q => some (Real.sqrt (q : ℝ))

/-- `(v - mean) * (v - mean)` where `mean` may be NaN; only added for values that are not excluded, so
a NaN mean (no valid value) is never used: represented by 0 then. -/
def sqDev (ex : ℚ) (mean : Option ℚ) (v : ℚ) : ℚ :=
  if floatEqual v ex then 0 else
    match mean with
    | some m => (v - m) * (v - m)
    | none => 0

/-- utils_math.h:397-410: the final results from the first loop's values and the sum of squares. -/
noncomputable def finishStats (a : Acc) (sq : ℚ) : Stats :=
  { num := some (a.num : ℝ)
    mean := (divD a.sum a.num).map (fun (q : ℚ) => (q : ℝ))
    mx := some (a.mx : ℝ)
    mn := some (a.mn : ℝ)
    std := sqrtD (divD sq a.num)
    range := some ((a.mx - a.mn : ℚ) : ℝ) }

/-- utils_math.h:381-412 `BasicStatistics(values, num, derivedvalues, exclude)`. -/
noncomputable def basicStats1 (s : Sched) (vals : Ptr ℚ) (n : Int) (ex : ℚ) : Out Stats := do
  let a ← statLoop vals ex (List.range n.toNat) Acc.start
  let mean := divD a.sum a.num
  let sq ← ompSum (fun i => do let v ← readAt vals i; return sqDev ex mean v) s 0
  return finishStats a sq

/-- `values[i][j]`. -/
def read2 (vals : Ptr (List ℚ)) (i j : Int) : Out ℚ := do
  let row ← readAt vals i
  readAt (some row) j

/-- Inner loop utils_math.h:432-439 over the layers of cell `i`; `accs` are the slots
`tmpstats[0..3][j]`, `sumv[j]`. -/
def stat2Inner (vals : Ptr (List ℚ)) (ex : ℚ) (i : Nat) : List Nat → Ptr Acc → Out (Ptr Acc)
  | [], accs => .ok accs
  | j :: js, accs => do
    let v ← read2 vals i j
    let a ← readAt accs j
    let accs' ← writeAt accs j (a.push ex v)
    stat2Inner vals ex i js accs'

/-- Outer loop utils_math.h:431-440. -/
def stat2Loop (vals : Ptr (List ℚ)) (ex : ℚ) (lyrs : Nat) : List Nat → Ptr Acc → Out (Ptr Acc)
  | [], accs => .ok accs
  | i :: is, accs => do
    let accs' ← stat2Inner vals ex i (List.range lyrs) accs
    stat2Loop vals ex lyrs is accs'

/-- Loops utils_math.h:442-457 over the layers: mean, squared deviations, results. -/
noncomputable def stat2Finish (s : Schedule) (vals : Ptr (List ℚ)) (n : Nat) (ex : ℚ) (accs : Ptr Acc) :
    List Nat → Out (List Stats)
  | [] => .ok []
  | j :: js => do
    let a ← readAt accs j
    let mean := divD a.sum a.num
    let sq ← ompSum (fun i => do let v ← read2 vals i j; return sqDev ex mean v) (s.plan j n) 0
    let rest ← stat2Finish s vals n ex accs js
    return finishStats a sq :: rest

/-- utils_math.h:414-460 `BasicStatistics` of a two-dimensional array; element `j` of the result stands for
`derivedvalues[0..5][j]`. A negative number of layers (`new double[lyrs]` throws) is not modelled. -/
noncomputable def basicStats2 (s : Schedule) (vals : Ptr (List ℚ)) (n lyrs : Int) (ex : ℚ) :
    Out (List Stats) := do
  let accs ← stat2Loop vals ex lyrs.toNat (List.range n.toNat) (some (List.replicate lyrs.toNat Acc.start))
  stat2Finish s vals n.toNat ex accs (List.range lyrs.toNat)

/-! ## The statistics cache -/

/-- A raster together with its statistics cache: `stats_` (data_raster.hpp:1980), `stats_2d_` (1982;
`none` = empty map, `some none` = six null pointers, `some (some l)` = six arrays indexed by layer, here one
record for each layer) and `stats_calculated_` (1998). -/
structure StatObj where
  r : Raster
  st1 : Stats
  st2 : Option (Ptr Stats)
  done : Bool

/-- data_raster.cpp:173-187 `InitialStatsMap`: all values -9999. -/
noncomputable def Stats.initial : Stats :=
  ⟨some (-9999), some (-9999), some (-9999), some (-9999), some (-9999), some (-9999)⟩

/-- Lookup in the map by (upper-case) name, data_raster.hpp:106-111. -/
def Stats.find (st : Stats) (name : Str) : Option Dbl :=
  if name = "VALID_CELLNUMBER".toList then some st.num
  else if name = "MEAN".toList then some st.mean
  else if name = "MIN".toList then some st.mn
  else if name = "MAX".toList then some st.mx
  else if name = "STD".toList then some st.std
  else if name = "RANGE".toList then some st.range
  else none

namespace StatObj

/-- A freshly constructed raster (data_raster.hpp:2048-2051 in `InitializeRasterClass`). -/
noncomputable def fresh (r : Raster) : StatObj := ⟨r, Stats.initial, some none, false⟩

/-- data_raster.hpp:2438-2465 `CalculateStatistics`. `InitialStatsMap` (2441) re-creates the null pointers of
an empty `stats_2d_`; the entries of `stats_` exist since construction and are kept. -/
noncomputable def calculate (s : Schedule) (o : StatObj) : Out StatObj :=
  if o.done then .ok o
  else
    let st2 := match o.st2 with
      | none => some none
      | some p => some p
    if o.r.is2d && o.r.raster2.isSome then do
      let l ← basicStats2 s o.r.raster2 o.r.nCells o.r.nLyrs o.r.noData
      return { o with st2 := some (some l), done := true }
    else do
      let st ← basicStats1 (s.plan 0 o.r.nCells.toNat) o.r.raster1 o.r.nCells o.r.noData
      return { o with st1 := st, st2 := st2, done := true }

/-- data_raster.hpp:2477-2482 `UpdateStatistics`; `ReleaseStatsMap2D` (2467-2475) empties the map. -/
noncomputable def update (s : Schedule) (o : StatObj) : Out StatObj :=
  let o1 := if o.r.is2d && o.done then { o with st2 := none } else o
  calculate s { o1 with done := false }

/-- `FloatEqual` with `NODATA_VALUE`; false for NaN. -/
def isNodataD (d : Dbl) : Prop := ∃ x : ℝ, d = some x ∧ |x - (-9999)| < 1 / 10 ^ 32

/-- The value of entry `name` in layer `lyr` of `stats_2d_` after line 2495-2499. -/
def find2 (o : StatObj) (name : Str) (lyr : Int) : Out Dbl :=
  match o.st2 with
  | none => .exn
  | some p => do
    let st ← readAt p (lyr - 1)
    match st.find name with
    | some d => .ok d
    | none => .exn

open Classical in
/-- data_raster.hpp:2484-2514 `GetStatistics(sindex, lyr)`: new object and returned value. -/
noncomputable def getStatistics (s : Schedule) (o : StatObj) (sindex : Str) (lyr : Int) :
    Out (StatObj × Dbl) :=
  let name := getUpper sindex
  if !o.r.validData || !o.r.validLayer lyr then .ok (o, some (o.r.dflt : ℝ))
  else if o.r.is2d && o.r.raster2.isSome then
    match o.st2 with
    | none => .ok (o, some (o.r.dflt : ℝ))
    | some p =>
      if (Stats.initial.find name).isNone then .ok (o, some (o.r.dflt : ℝ))
      else do
        let o' ← if p.isNone then calculate s { o with done := false } else .ok o
        let d ← o'.find2 name lyr
        return (o', d)
  else
    match o.st1.find name with
    | none => .ok (o, some (o.r.dflt : ℝ))
    | some d => do
      let o' ← if isNodataD d ∨ o.done = false then calculate s o else .ok o
      match o'.st1.find name with
      | some d' => return (o', d')
      | none => .exn

/-- data_raster.hpp:2516-2539 `GetStatistics(sindex, lyrnum, values)`: the returned array (`none` is
`nullptr`). The test in line 2517 rejects every raster *with* data; for a two-dimensional raster without
data the cached array is returned. -/
noncomputable def getStatisticsArr (s : Schedule) (o : StatObj) (sindex : Str) : Out (StatObj × Option (List Dbl)) :=
  if !o.r.is2d || o.r.raster2.isSome then .ok (o, none)
  else
    let name := getUpper sindex
    match o.st2 with
    | none => .ok (o, none)
    | some p =>
      if (Stats.initial.find name).isNone then .ok (o, none)
      else do
        let o' ← if p.isNone || !o.done then calculate s o else .ok o
        match o'.st2 with
        | some (some l) => return (o', some (l.map (fun st => (st.find name).getD none)))
        | _ => return (o', none)

/-- Calls on a raster: modelled raster operations, statistics queries and updates. -/
inductive Call where
  | op (o : Raster.Op)
  | query (s : Schedule) (sindex : Str) (lyr : Int)
  | update (s : Schedule)

/-- One call with its returned value, if it is a query. -/
noncomputable def step (o : StatObj) : Call → Out (StatObj × Option Dbl)
  | .op x => do
    let r' ← o.r.step x
    return ({ o with r := r' }, none)
  | .query s n l => do
    let x ← o.getStatistics s n l
    return (x.1, some x.2)
  | .update s => do
    let o' ← o.update s
    return (o', none)

/-- A history of calls and the values returned by its queries. -/
noncomputable def run (o : StatObj) : List Call → Out (StatObj × List Dbl)
  | [] => .ok (o, [])
  | c :: cs => do
    let x ← o.step c
    let y ← run x.1 cs
    return (y.1, x.2.toList ++ y.2)

end StatObj
end CCGL
