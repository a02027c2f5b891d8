import Mathlib.Tactic.Ring
/-!
# The proleptic Gregorian calendar, independent of the model
-/
namespace CCGL.Spec

structure Date where
  y : Int
  m : Int
  d : Int
deriving DecidableEq, Repr

/-- Leap years: divisible by 4, but not by 100 unless by 400. -/
def Leap (y : Int) : Prop := 4 ∣ y ∧ (¬ 100 ∣ y ∨ 400 ∣ y)

instance (y : Int) : Decidable (Leap y) := by unfold Leap; infer_instance

def monthLen (y m : Int) : Int :=
  if m = 2 then (if Leap y then 29 else 28)
  else if m = 4 ∨ m = 6 ∨ m = 9 ∨ m = 11 then 30 else 31

def Date.Valid (t : Date) : Prop := 1 ≤ t.m ∧ t.m ≤ 12 ∧ 1 ≤ t.d ∧ t.d ≤ monthLen t.y t.m

instance (t : Date) : Decidable t.Valid := by unfold Date.Valid; infer_instance

/-- The next calendar day. -/
def Date.next (t : Date) : Date :=
  if t.d < monthLen t.y t.m then ⟨t.y, t.m, t.d + 1⟩
  else if t.m < 12 then ⟨t.y, t.m + 1, 1⟩ else ⟨t.y + 1, 1, 1⟩

/-- Calendar order. -/
def Date.Before (s t : Date) : Prop :=
  s.y < t.y ∨ (s.y = t.y ∧ (s.m < t.m ∨ (s.m = t.m ∧ s.d < t.d)))

end CCGL.Spec
