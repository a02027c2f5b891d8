import Verif.Model.Ftoa
import Verif.Model.Float
import Verif.Spec.Dec
/-!
# Specifications for numbers and strings converted to text (C96, C97)
-/
namespace CCGL.Spec

/-- The number of a finite argument. -/
def signed (neg : Bool) (a : ℚ) : ℚ := if neg then -a else a

/-- The shortest plain decimal text of a number with at most six decimals: sign, whole part without superfluous zeros, and a point and decimals
only if there are some that do not end in 0. -/
structure Plain (neg : Bool) (s : List Char) : Prop where
  parts : ∃ ip fr : List Char, s = (if neg then ['-'] else []) ++ ip ++ (if fr = [] then [] else '.' :: fr) ∧
    Digits ip ∧ ip ≠ [] ∧ (ip.head? = some '0' → ip = ['0']) ∧ Digits fr ∧ fr.length ≤ 6 ∧ fr.getLast? ≠ some '0'

/-- `v` is a number with six decimals nearest to `x`, an even one in the middle between two. -/
def Nearest6 (x v : ℚ) : Prop :=
  ∃ z : Int, v = z / 10 ^ 6 ∧ |v - x| ≤ 1 / 2 / 10 ^ 6 ∧ (|v - x| = 1 / 2 / 10 ^ 6 → z % 2 = 0)

/-- Both directions of the locale are inverse to each other and keep NUL out. -/
structure Inverse (L : FText.Locale) : Prop where
  back : ∀ s w, L.toWide s = some w → L.toNarrow w = some s
  nul : ∀ s w, L.toWide s = some w → Char.ofNat 0 ∉ s → Char.ofNat 0 ∉ w

end CCGL.Spec
