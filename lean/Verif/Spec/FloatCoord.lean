import Verif.Model.FloatCoord
/-!
# Specification: the exact geometry of a grid, and how far from a border a point has to be
-/
noncomputable section
namespace CCGL.Flt.Spec

def left (g : Geo) : ℝ := g.xll - g.dx / 2
def right (g : Geo) : ℝ := left g + g.cols * g.dx
def bottom (g : Geo) : ℝ := g.yll - g.dx / 2
def top (g : Geo) : ℝ := bottom g + g.rows * g.dx

/-- The cell exists. -/
def Inside (g : Geo) (row col : Int) : Prop := 0 ≤ row ∧ row < g.rows ∧ 0 ≤ col ∧ col < g.cols

/-- The exact centre of a cell. -/
def centre (g : Geo) (row col : Int) : ℝ × ℝ := (left g + (col + 1 / 2) * g.dx, top g - (row + 1 / 2) * g.dx)

/-- The point lies in the square of the cell, at least `m` away from its borders. -/
def WellInside (g : Geo) (m : ℝ) (row col : Int) (x y : ℝ) : Prop :=
  left g + col * g.dx + m ≤ x ∧ x ≤ left g + (col + 1) * g.dx - m ∧
  top g - (row + 1) * g.dx + m ≤ y ∧ y ≤ top g - row * g.dx - m

/-- The largest magnitude that occurs in coordinates of the grid. -/
def extent (g : Geo) : ℝ := max (|g.xll| + (g.cols + 1) * g.dx) (|g.yll| + (g.rows + 1) * g.dx)

/-- A usable header: doubles, a positive cell size in the normal range, sizes that fit in an `int`. -/
structure Proper (g : Geo) : Prop where
  dx : IsDouble g.dx
  xll : IsDouble g.xll
  yll : IsDouble g.yll
  pos : (2 : ℝ) ^ (-1000 : ℤ) ≤ g.dx
  rows : g.rows < 2 ^ 31
  cols : g.cols < 2 ^ 31

/-- The cells are large enough compared with the coordinates: 2⁴⁷ (about 1.4e14) cells fit between the origin and the farthest corner. -/
def FineEnough (g : Geo) : Prop := extent g ≤ 2 ^ 47 * g.dx

end CCGL.Flt.Spec
