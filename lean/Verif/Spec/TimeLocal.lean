import Verif.Model.TimeLocal
import Verif.Spec.Time
/-! Local times in which the texts are exceptional. -/
namespace CCGL.Spec

/-- The wall clock shows the first hour of a day, and daylight saving is in force. -/
def HourAfterMidnight (z : TZ) (t : Int) : Prop := z.dst t = true ∧ (t + z.offset t) % 86400 < 3600

/-- The wall clock shows the first hour of a month (on the date `D`), and daylight saving is in force. -/
def FirstHour (z : TZ) (t : Int) (D : Date) : Prop := HourAfterMidnight z t ∧ D.d = 1

/-- The months `m` of a year `y` whose first hour is treated correctly, by accident of the table of month lengths being
indexed one too low and of the leap year being decided on the years since 1900. -/
def RightMonth (y m : Int) : Prop :=
  (m = 9 ∧ ¬ Leap (y - 1900)) ∨ ((m = 6 ∨ m = 8 ∨ m = 11) ∧ Leap (y - 1900))

instance (y m : Int) : Decidable (RightMonth y m) := by unfold RightMonth; infer_instance

end CCGL.Spec
