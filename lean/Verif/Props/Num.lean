import Verif.Lemmas.Num
/-!
# Properties of the integer recognisers and printers (C35, C36)
-/
namespace CCGL
open Spec

/-- C35: `IsInt` succeeds with value `v` exactly for the decimal notation of `v`, a 32-bit integer. -/
theorem C35_isInt (s : Str) (v : Int) :
    isInt s = (v, true) ↔ IsDecInt s v ∧ -(2^31) ≤ v ∧ v < 2^31 := isInt_iff s v

/-- C35: `IsInt64` likewise for 64-bit integers. -/
theorem C35_isInt64 (s : Str) (v : Int) :
    isInt64 s = (v, true) ↔ IsDecInt s v ∧ -(2^63) ≤ v ∧ v ≤ 2^63 - 1 := isInt64_iff s v

/-- C35: `IsUInt64` (and `IsUInt`) likewise for unsigned 64-bit integers. -/
theorem C35_isUInt64 (s : Str) (v : Nat) :
    isUInt64 s = (v, true) ↔ IsDecNat s v ∧ v ≤ 2^64 - 1 := isUInt64_iff s v

/-- C36: parsing a printed number gives the number back. -/
theorem C36_itoa (v : Int) (h : -(2^31) ≤ v) (h' : v < 2^31) : isInt (intToDec v) = (v, true) :=
  (isInt_iff _ _).2 ⟨(isDecInt_iff _ _).2 rfl, h, h'⟩

theorem C36_i64toa (v : Int) (h : -(2^63) ≤ v) (h' : v ≤ 2^63 - 1) : isInt64 (intToDec v) = (v, true) :=
  (isInt64_iff _ _).2 ⟨(isDecInt_iff _ _).2 rfl, h, h'⟩

theorem C36_u64toa (v : Nat) (h : v ≤ 2^64 - 1) : isUInt64 (natToDec v) = (v, true) :=
  (isUInt64_iff _ _).2 ⟨natToDec_isDec v, h⟩

/-- C36: the printed text is the decimal notation. -/
theorem C36_decimal (v : Int) : IsDecInt (intToDec v) v := (isDecInt_iff _ _).2 rfl

/-- C36: distinct numbers have distinct texts. -/
theorem C36_injective (i j : Int) (h : intToDec i = intToDec j) : i = j := intToDec_inj h

example : isInt "-42".toList = (-42, true) := by decide +kernel
example : (isInt "2147483648".toList).2 = false := by decide +kernel
example : (isInt "007".toList).2 = false := by decide +kernel
example : IsDecInt "-42".toList (-42) := (isInt_iff _ _).1 (by decide +kernel) |>.1
example : (-(2^31) : Int) ≤ -42 ∧ (-42 : Int) < 2^31 := by decide
example : (isUInt64 "-1".toList).2 = false := by decide +kernel

end CCGL
