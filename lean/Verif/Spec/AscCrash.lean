import Verif.Spec.Asc
/-!
# A text cut off in the middle, specified independently of the model
-/
namespace CCGL.Spec

/-- The words of `body` are the first `k` of `all`, followed by `w` if that is not empty; `w` is a beginning of the
next word of `all` (possibly all of it) and empty if there is none. -/
def CutWords (all : List (List Char)) (body : List Char) (k : Nat) (w : List Char) : Prop :=
  k ≤ all.length ∧ w <+: all.getD k [] ∧ IsWords body (all.take k ++ if w = [] then [] else [w])

end CCGL.Spec
