import Verif.Spec.Dec
import Verif.Spec.Str
import Verif.Lemmas.DecFmt
import Verif.Model.Bson
/-!
# Specifications for options and metadata in BSON
-/
namespace CCGL.Spec

/-- `out` has the meaning of the option text `v`: the same text if `v` is no number, a text of the same number if
`v` is an integer or has at most six significant digits, and a text of a number within 5e-6 (relative)
otherwise. -/
structure SameMeaning (v out : List Char) : Prop where
  text : (∀ x, ¬ NumText v x) → out = v
  int : ∀ z : Int, NumText v (.fin z) → NumText out (.fin z)
  six : ∀ q, NumText v (.fin q) → SixSig q → NumText out (.fin q)
  near : ∀ q, NumText v (.fin q) → ∃ q', NumText out (.fin q') ∧ |q' - q| ≤ |q| / 200000

/-- Texts the encoder cannot store: integers beyond 32 bits and infinities. -/
def Unstorable (v : List Char) : Prop :=
  (∃ b, NumText v (.inf b)) ∨ ∃ z : Int, NumText v (.fin z) ∧ ¬ (-(2 ^ 31) ≤ z ∧ z < 2 ^ 31)

/-- A zero in a BSON document. -/
def IsNumber (b : BVal) (q : ℚ) : Prop :=
  (∃ i : Int, (b = .int32 i ∨ b = .int64 i) ∧ q = i) ∨ b = .double (.fin q)

end CCGL.Spec
