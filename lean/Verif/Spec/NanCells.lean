import Verif.Model.Dec
/-!
# Cells that are NaN or infinite: what is expected

`SameNumber a b`: two finite numbers closer than 1e-32, what the library means by equal numbers.
-/
namespace CCGL
namespace Nan
namespace Spec

/-- Two finite numbers that the library regards as equal. -/
def SameNumber (a b : DVal) : Prop := ∃ x y : ℚ, a = .fin x ∧ b = .fin y ∧ |x - y| < 1 / 10 ^ 32

/-- What a user calls a NoData cell: the same number as NoData, or the same NaN or infinity. -/
def IsMissing (nd v : DVal) : Prop := SameNumber v nd ∨ ((∀ x, nd ≠ .fin x) ∧ v = nd)

/-- Cell (row, column) of a grid stored row by row. -/
def cell (ncols : Int) (cells : List DVal) (row col : Int) : Option DVal := cells[(row * ncols + col).toNat]?

/-- The order of the numbers with the two infinities (never with NaN). -/
def AtMost : DVal → DVal → Prop
  | .fin a, .fin b => a ≤ b
  | .inf true, .fin _ => True
  | .inf true, .inf _ => True
  | .fin _, .inf false => True
  | .inf false, .inf false => True
  | _, _ => False

end Spec
end Nan
end CCGL
