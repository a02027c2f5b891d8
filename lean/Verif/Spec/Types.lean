import Verif.Model.Types
import Verif.Spec.Str
/-!
# Specifications for raster data types
-/
namespace CCGL.Spec

/-- The names of each type: the CCGL name, the GDAL name and, for bytes, the C name. -/
def typeNames : RDT → List (List Char)
  | .unknown => []
  | .uint8 => ["UINT8".toList, "GDT_Byte".toList, "UCHAR".toList]
  | .int8 => ["INT8".toList, "GDT_Int8".toList, "CHAR".toList]
  | .uint16 => ["UINT16".toList, "GDT_UInt16".toList]
  | .int16 => ["INT16".toList, "GDT_Int16".toList]
  | .uint32 => ["UINT32".toList, "GDT_UInt32".toList]
  | .int32 => ["INT32".toList, "GDT_Int32".toList]
  | .uint64 => ["UINT64".toList, "GDT_UInt64".toList]
  | .int64 => ["INT64".toList, "GDT_Int64".toList]
  | .float => ["FLOAT".toList, "GDT_Float32".toList]
  | .double => ["DOUBLE".toList, "GDT_Float64".toList]

/-- `lo ≤ n ≤ hi` and integer. -/
def IntIn (lo hi : Int) (q : ℚ) : Prop := ∃ n : Int, q = n ∧ lo ≤ n ∧ n ≤ hi

/-- Binary floating point numbers with `p` significant bits and exponents from `emin` to `emax`. -/
def IsBinary (p : Nat) (emin emax : Int) (q : ℚ) : Prop :=
  ∃ (m : Int) (e : Int), m.natAbs < 2 ^ p ∧ emin ≤ e ∧ e ≤ emax ∧ q = (m : ℚ) * (2 : ℚ) ^ e

/-- The numbers a cell of each type can hold. -/
def Representable : RDT → ℚ → Prop
  | .unknown => fun _ => False
  | .uint8 => IntIn 0 255
  | .int8 => IntIn (-128) 127
  | .uint16 => IntIn 0 65535
  | .int16 => IntIn (-32768) 32767
  | .uint32 => IntIn 0 4294967295
  | .int32 => IntIn (-2147483648) 2147483647
  | .uint64 => IntIn 0 18446744073709551615
  | .int64 => IntIn (-9223372036854775808) 9223372036854775807
  | .float => IsBinary 24 (-149) 104
  | .double => IsBinary 53 (-1074) 971

/-- Size in bytes and signedness of the C++ types (Linux, 64 bit) and what each raster type stores. -/
def ctypeValues : CType → Option RDT
  | .char => some .int8 | .schar => some .int8 | .uchar => some .uint8
  | .short => some .int16 | .ushort => some .uint16
  | .int => some .int32 | .uint => some .uint32
  | .long => some .int64 | .ulong => some .uint64
  | .longlong => some .int64 | .ulonglong => some .uint64
  | .float => some .float | .double => some .double | .bool => none

end CCGL.Spec
