/-!
# Specifications for strings, independent of the model
-/
namespace CCGL.Spec

/-- Blanks that the trim functions remove. -/
def Blank (c : Char) : Prop := c ∈ [' ', '\n', '\r', '\t']

/-- `r` is `s` without its maximal blank prefix and suffix. -/
def IsTrimmed (s r : List Char) : Prop :=
  ∃ pre suf, s = pre ++ r ++ suf ∧ (∀ c ∈ pre, Blank c) ∧ (∀ c ∈ suf, Blank c) ∧
    (∀ c, r.head? = some c → ¬ Blank c) ∧ (∀ c, r.getLast? = some c → ¬ Blank c)

/-- The fields joined by a delimiter. -/
def join (d : Char) : List (List Char) → List Char
  | [] => []
  | [f] => f
  | f :: g :: fs => f ++ d :: join d (g :: fs)

/-- White space of the C locale: blank, HT, LF, VT, FF, CR. -/
def White (c : Char) : Prop := c.toNat = 32 ∨ (9 ≤ c.toNat ∧ c.toNat ≤ 13)

/-- `ws` is the list of the maximal runs of non-white characters of a text, in order. -/
inductive IsWords : List Char → List (List Char) → Prop
  | nil (s) : (∀ c ∈ s, White c) → IsWords s []
  | cons (pre w rest ws) : (∀ c ∈ pre, White c) → w ≠ [] → (∀ c ∈ w, ¬ White c) →
      (∀ c, rest.head? = some c → White c) → IsWords rest ws → IsWords (pre ++ w ++ rest) (w :: ws)

/-- Two characters are equal up to ASCII letter case. -/
def SameLetter (a b : Char) : Prop :=
  a = b ∨ (97 ≤ a.toNat ∧ a.toNat ≤ 122 ∧ b.toNat + 32 = a.toNat) ∨
    (97 ≤ b.toNat ∧ b.toNat ≤ 122 ∧ a.toNat + 32 = b.toNat)

/-- Equal up to ASCII letter case, position by position. -/
def SameText (s t : List Char) : Prop :=
  s.length = t.length ∧ ∀ (i : Nat) (a b : Char), s[i]? = some a → t[i]? = some b → SameLetter a b

end CCGL.Spec
