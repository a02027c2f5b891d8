import Verif.Base
import Verif.Model.Str
/-!
# Raster data types (`src/data_raster.hpp:121-133`, `src/data_raster.cpp:16-77`)
-/
namespace CCGL

/-- data_raster.hpp:121-133 `RasterDataType`. -/
inductive RDT where
  | unknown | uint8 | int8 | uint16 | int16 | uint32 | int32 | uint64 | int64 | float | double
deriving Repr, DecidableEq

/-- The enumerators' values. -/
def RDT.code : RDT → Int
  | .unknown => 0 | .uint8 => 1 | .int8 => 2 | .uint16 => 3 | .int16 => 4 | .uint32 => 5 | .int32 => 6
  | .uint64 => 7 | .int64 => 8 | .float => 9 | .double => 10

/-- data_raster.cpp:16-30 `RasterDataTypeToString(int)`. -/
def rdtToString (type : Int) : Str :=
  if type = RDT.int8.code then "INT8".toList
  else if type = RDT.uint8.code then "UINT8".toList
  else if type = RDT.uint16.code then "UINT16".toList
  else if type = RDT.int16.code then "INT16".toList
  else if type = RDT.uint32.code then "UINT32".toList
  else if type = RDT.int32.code then "INT32".toList
  else if type = RDT.uint64.code then "UINT64".toList
  else if type = RDT.int64.code then "INT64".toList
  else if type = RDT.float.code then "FLOAT".toList
  else if type = RDT.double.code then "DOUBLE".toList
  else "Unknown".toList

/-- data_raster.cpp:32-46 `StringToRasterDataType`. -/
def stringToRdt (s : Str) : RDT :=
  if stringMatch s "UCHAR".toList || stringMatch s "UINT8".toList || stringMatch s "GDT_Byte".toList then .uint8
  else if stringMatch s "CHAR".toList || stringMatch s "INT8".toList || stringMatch s "GDT_Int8".toList then .int8
  else if stringMatch s "UINT16".toList || stringMatch s "GDT_UInt16".toList then .uint16
  else if stringMatch s "INT16".toList || stringMatch s "GDT_Int16".toList then .int16
  else if stringMatch s "UINT32".toList || stringMatch s "GDT_UInt32".toList then .uint32
  else if stringMatch s "INT32".toList || stringMatch s "GDT_Int32".toList then .int32
  else if stringMatch s "UINT64".toList || stringMatch s "GDT_UInt64".toList then .uint64
  else if stringMatch s "INT64".toList || stringMatch s "GDT_Int64".toList then .int64
  else if stringMatch s "FLOAT".toList || stringMatch s "GDT_Float32".toList then .float
  else if stringMatch s "DOUBLE".toList || stringMatch s "GDT_Float64".toList then .double
  else .unknown

/-- The arithmetic types of C++ (Linux, 64 bit) that can instantiate a raster. -/
inductive CType where
  | char | schar | uchar | short | ushort | int | uint | long | ulong | longlong | ulonglong | float | double | bool
deriving Repr, DecidableEq

/-- data_raster.cpp:48-60 `TypeToRasterDataType(typeid(T))`: `int8_t` is `signed char`, `int64_t` is `long`. -/
def typeToRdt : CType → RDT
  | .uchar => .uint8
  | .char => .int8
  | .schar => .int8
  | .ushort => .uint16
  | .short => .int16
  | .uint => .uint32
  | .int => .int32
  | .ulong => .uint64
  | .long => .int64
  | .float => .float
  | .double => .double
  | _ => .unknown

/-- Conversion of a natural number to `double` (round to nearest, ties to even; 53 significant bits). -/
def dblOfNat (n : Nat) : Nat :=
  if n < 2 ^ 53 then n
  else
    let u := 2 ^ (Nat.log2 n - 52)
    let q := n / u
    let r := n % u
    (if u < 2 * r ∨ (u = 2 * r ∧ q % 2 = 1) then q + 1 else q) * u

/-- basic.h `MISSINGFLOAT`: `-FLT_MAX = -(2^24 - 1) * 2^104`. -/
def MISSINGFLOAT : ℚ := -((2 ^ 24 - 1) * 2 ^ 104)

/-- data_raster.cpp:62-77 `DefaultNoDataByType`: the integer limits are converted to the return type `double`. -/
def defaultNoData : RDT → ℚ
  | .unknown => -9999
  | .uint8 => dblOfNat (2 ^ 8 - 1)
  | .int8 => -(dblOfNat (2 ^ 7) : ℚ)
  | .uint16 => dblOfNat (2 ^ 16 - 1)
  | .int16 => -(dblOfNat (2 ^ 15) : ℚ)
  | .uint32 => dblOfNat (2 ^ 32 - 1)
  | .int32 => -(dblOfNat (2 ^ 31) : ℚ)
  | .uint64 => dblOfNat (2 ^ 64 - 1)
  | .int64 => -(dblOfNat (2 ^ 63) : ℚ)
  | .float => MISSINGFLOAT
  | .double => MISSINGFLOAT

end CCGL
