import Mathlib.Data.Rat.Floor
/-!
# Geometry of a grid, independent of the model

A grid has `rows × cols` square cells of size `dx`; the centre of the lower-left cell is `(xll, yll)`; row 0 is
the top row. The square of a cell includes its left and its upper border.
-/
namespace CCGL.Spec

structure Grid where
  rows : Int
  cols : Int
  dx : ℚ
  xll : ℚ
  yll : ℚ

namespace Grid
variable (g : Grid)

def left : ℚ := g.xll - g.dx / 2
def right : ℚ := g.left + g.cols * g.dx
def bottom : ℚ := g.yll - g.dx / 2
def top : ℚ := g.bottom + g.rows * g.dx

/-- The centre of a cell. -/
def center (row col : Int) : ℚ × ℚ := (g.left + (col + 1 / 2) * g.dx, g.top - (row + 1 / 2) * g.dx)

/-- The point lies in the square of the cell. -/
def InCell (row col : Int) (x y : ℚ) : Prop :=
  g.left + col * g.dx ≤ x ∧ x < g.left + (col + 1) * g.dx ∧
  g.top - (row + 1) * g.dx < y ∧ y ≤ g.top - row * g.dx

def CellInside (row col : Int) : Prop := 0 ≤ row ∧ row < g.rows ∧ 0 ≤ col ∧ col < g.cols

end Grid
end CCGL.Spec
