import Verif.Model.Geotiff
import Verif.Spec.Types
/-!
# Specifications for GeoTIFF output
-/
namespace CCGL.Spec

/-- The smallest and the largest number of each integer type. -/
def typeMin : RDT → ℚ
  | .int8 => -128 | .int16 => -32768 | .int32 => -2147483648 | .int64 => -9223372036854775808 | _ => 0
def typeMax : RDT → ℚ
  | .uint8 => 255 | .int8 => 127 | .uint16 => 65535 | .int16 => 32767 | .uint32 => 4294967295 | .int32 => 2147483647
  | .uint64 => 18446744073709551615 | .int64 => 9223372036854775807 | _ => 0

/-- The integer types. -/
def IsIntType (t : RDT) : Prop := t ≠ .unknown ∧ t ≠ .float ∧ t ≠ .double

/-- The number lies in the range of the type. -/
def InRange (t : RDT) (v : ℚ) : Prop := typeMin t ≤ v ∧ v ≤ typeMax t

/-- The library's notion of "the value is the NoData value": equal up to 10^-32. -/
def IsNoData (nd v : ℚ) : Prop := |v - nd| < 1 / 10 ^ 32

/-- `v` without its fractional part. -/
def IsTrunc (v : ℚ) (n : Int) : Prop := (0 ≤ v ∧ (n : ℚ) ≤ v ∧ v < n + 1) ∨ (v < 0 ∧ v ≤ n ∧ (n : ℚ) < v + 1)

/-- A source cell: representable in the cell type and, for 64-bit integers, exactly convertible to `double`. -/
def SourceCell (src : RDT) (v : ℚ) : Prop := Representable src v ∧ (src = .uint64 ∨ src = .int64 → |v| < 2 ^ 53)

end CCGL.Spec
