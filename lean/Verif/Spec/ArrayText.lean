import Verif.Model.ArrayText
import Verif.Spec.Asc
/-!
# Arrays in text files, specified independently of the code

Words, lines and decimal numbers are those of `Spec.Str`, `Spec.Asc` and `Spec.Num`.
-/
namespace CCGL
namespace ArrText
open Spec

variable {τ : Type}

/-- The array has at least `n` elements and `vs` are the first `n` of them. -/
def Holds (data : Ptr τ) (n : Int) (vs : List τ) : Prop :=
  ∃ rest, data = some (vs ++ rest) ∧ (vs.length : Int) = n

/-- The extraction operator `>>` reads the word `w` as the value `v`: whatever white space stands before, it stops right behind the word and does not fail. -/
def Extracts (get : In → Option τ → Option τ × In) (w : Str) (v : τ) : Prop :=
  ∀ (pre rest : Str) (old : Option τ), (∀ c ∈ pre, White c) → (∀ c, rest.head? = some c → White c) →
    get ⟨pre ++ w ++ rest, false⟩ old = (some v, ⟨rest, false⟩)

/-- At the end of the text the extraction operator assigns nothing and fails, and a stream that has failed stays as it is. -/
structure StopsAtEnd (get : In → Option τ → Option τ × In) : Prop where
  white : ∀ (s : Str) (old : Option τ), (∀ c ∈ s, White c) → get ⟨s, false⟩ old = (old, ⟨[], true⟩)
  failed : ∀ (s : Str) (old : Option τ), get ⟨s, true⟩ old = (old, ⟨s, true⟩)

/-- `ws` are the words of the rows: for each row the number of its values and then the values. -/
inductive RowWords (get : In → Option τ → Option τ × In) : List Str → List (List τ) → Prop
  | nil : RowWords get [] []
  | cons (k : Str) (ts ws : List Str) (vs : List τ) (rows : List (List τ)) (hk : IsDecInt k vs.length)
      (hl : vs.length < 2 ^ 31 - 1) (ht : List.Forall₂ (Extracts get) ts vs) (hw : RowWords get ws rows) :
      RowWords get (k :: ts ++ ws) (vs :: rows)

end ArrText
end CCGL

namespace CCGL
namespace ArrText
open Spec

/-- `w` is the text of a number equal to `v` up to six significant digits: exact for numbers that have no more, otherwise with a relative error of at most
`1/200000`. -/
def Denotes (w : Str) (v : ℚ) : Prop :=
  ∃ r, NumText w (.fin r) ∧ |r - v| ≤ |v| / 200000 ∧ ((∃ (n k : Int), n.natAbs < 10 ^ 6 ∧ v = (n : ℚ) * (10 : ℚ) ^ k) → r = v)

/-- The array of rows has at least as many rows as `rs`, and each of them at least `cols` values. -/
def HoldsRows (data : Ptr (Ptr ℚ)) (rows cols : Int) (rs : List (List ℚ)) : Prop :=
  ∃ ps, Holds data rows ps ∧ List.Forall₂ (fun p r => Holds p cols r) ps rs

end ArrText
end CCGL
