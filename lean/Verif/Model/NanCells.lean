import Verif.Model.Stats
import Verif.Model.Dec
/-!
# Rasters whose cells or whose NoData value are NaN or infinite

The other models of rasters use rational cells. Here the cells are IEEE 754 values with NaN and infinities; the arithmetic of finite numbers is exact
(rounding is the subject of `Model/Float.lean`). One layer, no mask.
-/
namespace CCGL
namespace Nan

/-- `a - b` of IEEE 754 (without rounding and overflow). -/
def sub : DVal → DVal → DVal
  | .fin a, .fin b => .fin (a - b)
  | .inf s, .fin _ => .inf s
  | .fin _, .inf t => .inf (!t)
  | .inf s, .inf t => if s = t then .nan else .inf s
  | .nan, _ => .nan
  | _, .nan => .nan

/-- `a + b` of IEEE 754 (without rounding and overflow). -/
def add : DVal → DVal → DVal
  | .fin a, .fin b => .fin (a + b)
  | .inf s, .fin _ => .inf s
  | .fin _, .inf t => .inf t
  | .inf s, .inf t => if s = t then .inf s else .nan
  | .nan, _ => .nan
  | _, .nan => .nan

/-- utils_math.h:131 `Abs(x)`: `(x) >= 0 ? (x) : -(x)`. -/
def abs : DVal → DVal
  | .fin a => .fin |a|
  | .inf _ => .inf false
  | .nan => .nan

/-- `a < b` of IEEE 754. -/
def lt : DVal → DVal → Bool
  | .fin a, .fin b => decide (a < b)
  | .inf s, .fin _ => s
  | .fin _, .inf t => !t
  | .inf s, .inf t => s && !t
  | .nan, _ => false
  | _, .nan => false

/-- utils_math.h:141-143 `FloatEqual`. -/
def floatEqual (a b : DVal) : Bool := lt (abs (sub a b)) (.fin (1 / 10 ^ 32))

/-- data_raster.hpp:3810-3832, inner loop: the valid cells of row `i` among the columns: value, row, column. -/
def validRow (ncols : Int) (nd : DVal) (cells : Ptr DVal) (i : Nat) : List Nat → Out (List (DVal × Int × Int))
  | [] => .ok []
  | j :: js => do
    let v ← readAt cells (i * ncols + j)
    let rest ← validRow ncols nd cells i js
    return if floatEqual v nd then rest else (v, (i : Int), (j : Int)) :: rest

/-- data_raster.hpp:3810-3832, both loops of `CalculateValidPositionsFromGridData`. -/
def validRows (ncols : Int) (nd : DVal) (cells : Ptr DVal) : List Nat → Out (List (DVal × Int × Int))
  | [] => .ok []
  | i :: is => do
    let row ← validRow ncols nd cells i (List.range ncols.toNat)
    let rest ← validRows ncols nd cells is
    return row ++ rest

/-- data_raster.hpp:3801-3866 `CalculateValidPositionsFromGridData` (one layer): the compacted cells, `pos_data_` and `pos_idx_`. -/
def calcValid (nrows ncols : Int) (nd : DVal) (cells : Ptr DVal) : Out (List DVal × List (Int × Int) × List Int) := do
  let l ← validRows ncols nd cells (List.range nrows.toNat)
  return (l.map (·.1), l.map (·.2), l.map (fun x => x.2.1 * ncols + x.2.2))

/-- data_raster.hpp:3719-3738 `ReplaceNoData` (one layer): cells and NoData value afterwards. -/
def replaceNoData (nd new : DVal) (cells : List DVal) : List DVal × DVal := (cells.map (fun v => if floatEqual v nd then new else v), new)

/-- data_raster.hpp:1751-1753 `IsNoData`, given the value of the cell. -/
def isNoData (nd v : DVal) : Bool := floatEqual v nd

/-- The accumulators of `BasicStatistics` (utils_math.h:385-389). -/
structure Acc where
  mx : DVal
  mn : DVal
  num : Nat
  sum : DVal

/-- utils_math.h:385-388. -/
def Acc.start : Acc := ⟨.fin (-fltMax), .fin fltMax, 0, .fin 0⟩

/-- Loop body utils_math.h:391-395. -/
def Acc.push (ex : DVal) (a : Acc) (v : DVal) : Acc :=
  if floatEqual v ex then a
  else ⟨if lt a.mx v then v else a.mx, if lt v a.mn then v else a.mn, a.num + 1, add a.sum v⟩

/-- `a / n` for a number of cells. -/
def divN : DVal → Nat → DVal
  | .fin q, n => if n = 0 then (if q = 0 then .nan else .inf (decide (q < 0))) else .fin (q / n)
  | .inf s, _ => .inf s
  | .nan, _ => .nan

/-- `x * x`. -/
def square : DVal → DVal
  | .fin q => .fin (q * q)
  | .inf _ => .inf false
  | .nan => .nan

/-- The six results (utils_math.h:397-411). -/
structure Result where
  num : Nat
  mean : DVal
  mx : DVal
  mn : DVal
  std : DVal
  range : DVal

/-- utils_math.h:381-412 `BasicStatistics` of one array with the square root of the library; the parallel loop 399-404 in the order of the cells (with
NaN the order does not matter for what is proved). -/
def basicStats (sqrt : DVal → DVal) (vals : List DVal) (ex : DVal) : Result :=
  let a := vals.foldl (Acc.push ex) Acc.start
  let mean := divN a.sum a.num
  let sq := vals.foldl (fun s v => if floatEqual v ex then s else add s (square (sub v mean))) (.fin 0)
  ⟨a.num, mean, a.mx, a.mn, sqrt (divN sq a.num), sub a.mx a.mn⟩

end Nan
end CCGL
