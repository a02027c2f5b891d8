import Verif.Model.Float
/-!
# The coordinate functions of `clsRasterData` in double arithmetic

The same functions as in `Model/Coord.lean`, with every operation rounded to `double`. Headers hold doubles; the numbers of rows and
columns are of type `int` and converted exactly.
-/
open Classical
noncomputable section
namespace CCGL.Flt

/-- The geometry part of a raster header (`HEADER_RS_*`, data_raster.hpp:1960). -/
structure Geo where
  rows : Int
  cols : Int
  dx : ℝ
  xll : ℝ
  yll : ℝ

/-- basic.h `CVT_INT` of a double: truncation towards zero. The conversion of a number beyond `int` is undefined and not modelled; the
theorems show that the numbers converted are row and column numbers. -/
def truncR (x : ℝ) : Int := if 0 ≤ x then ⌊x⌋ else ⌈x⌉

/-- data_raster.hpp:3773-3777 `GetCoordinateByRowCol`. -/
def coordF (R : Rounding) (g : Geo) (row col : Int) : ℝ × ℝ :=
  (R.add g.xll (R.mul col g.dx), R.add g.yll (R.mul ((g.rows - row - 1 : Int) : ℝ) g.dx))

/-- data_raster.hpp:3790 (and 2594): the left border as computed. -/
def lowF (R : Rounding) (ll dx : ℝ) : ℝ := R.sub ll (R.div dx 2)
/-- data_raster.hpp:3791 (and 2595): the right border as computed. -/
def highF (R : Rounding) (ll dx : ℝ) (n : Int) : ℝ := R.add (lowF R ll dx) (R.mul dx n)

/-- data_raster.hpp:3779-3799 `GetPositionByCoordinate(x, y, header)`, cell size not zero. -/
def posOfCoordF (R : Rounding) (g : Geo) (x y : ℝ) : Int × Int :=
  if (x > highF R g.xll g.dx g.cols ∨ x < g.xll) ∨ (y > highF R g.yll g.dx g.rows ∨ y < g.yll) then (-1, -1)
  else (truncR (R.div (R.sub (highF R g.yll g.dx g.rows) y) g.dx), truncR (R.div (R.sub x (lowF R g.xll g.dx)) g.dx))

/-- data_raster.hpp:2578-2612 `GetPosition(double x, double y)` of an initialised raster up to the call of `GetPosition(row, col)`:
`none` is the result -2 (outside). The test for missing header numbers (-9999) is not repeated here. -/
def cellOfXYF (R : Rounding) (g : Geo) (x y : ℝ) : Option (Int × Int) :=
  if x > highF R g.xll g.dx g.cols ∨ x < lowF R g.xll g.dx then none
  else if y > highF R g.yll g.dx g.rows ∨ y < lowF R g.yll g.dx then none
  else some (truncR (R.div (R.sub (highF R g.yll g.dx g.rows) y) g.dx), truncR (R.div (R.sub x (lowF R g.xll g.dx)) g.dx))

end CCGL.Flt
