/-!
# Decimal notation, specified independently of the printing and parsing code
-/
namespace CCGL.Spec

/-- `s` is the decimal notation of the natural number `n`: at least one digit, only digits, no leading zero
(except for the single digit `0`), and the weighted digit sum is `n`. -/
def IsDecNat (s : List Char) (n : Nat) : Prop :=
  s ≠ [] ∧ (∀ c ∈ s, 48 ≤ c.toNat ∧ c.toNat ≤ 57) ∧ (s.head? = some '0' → s.length = 1) ∧
  s.foldl (fun a c => 10 * a + (c.toNat - 48)) 0 = n

/-- `s` is the decimal notation of the integer `i`: with a leading minus sign exactly for negative numbers. -/
def IsDecInt (s : List Char) (i : Int) : Prop :=
  (0 ≤ i ∧ IsDecNat s i.toNat) ∨ (i < 0 ∧ ∃ t, s = '-' :: t ∧ IsDecNat t (-i).toNat)

end CCGL.Spec
