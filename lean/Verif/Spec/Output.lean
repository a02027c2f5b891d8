import Verif.Model.Output
/-!
# Specifications for full-size output
-/
namespace CCGL.Spec

/-- `g` is layer `lyr` of the raster as seen through `GetValue`. -/
def GridOf (r : Raster) (lyr : Int) (g : Int → Int → ℚ) : Prop :=
  ∀ row col, 0 ≤ row → row < r.hdr.rows → 0 ≤ col → col < r.hdr.cols → r.getValue row col lyr = .ok (g row col)

/-- The text of an ASCII grid file holding `g`: the header lines, then each row on its own line, each value
followed by a blank. -/
def gridFile (pr : ℚ → Str) (h : Header) (g : Int → Int → ℚ) : Str :=
  ascHeaderText h ++ (List.range h.rows.toNat).flatMap (fun (i : Nat) =>
    (List.range h.cols.toNat).flatMap (fun (j : Nat) => pr (g i j) ++ [' ']) ++ ['\n'])

/-- The row-major array `d` of one layer holds exactly `g`. -/
def IsFullArray (h : Header) (d : Ptr ℚ) (g : Int → Int → ℚ) : Prop :=
  ∃ l : List ℚ, d = some l ∧ (l.length : Int) = h.rows * h.cols ∧
    ∀ row col, 0 ≤ row → row < h.rows → 0 ≤ col → col < h.cols →
      l[(row * h.cols + col).toNat]? = some (g row col)

end CCGL.Spec
