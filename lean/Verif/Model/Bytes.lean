import Verif.Model.Geotiff
/-!
# Cells as bytes

The arrays handed to and read from GridFS (`reinterpret_cast<char*>`, `src/data_raster.hpp:924-973, 1020-1066`): little-endian
two's complement integers and IEEE 754 numbers, as on all supported platforms. NaN and infinities are not modelled (they
decode to 0).
-/
namespace CCGL
namespace Gfs

/-- A byte. -/
abbrev Byte := Fin 256

/-- `sizeof` of the cell types (basic.h:85-94). -/
def size : RDT → Nat
  | .unknown => 0
  | .uint8 | .int8 => 1
  | .uint16 | .int16 => 2
  | .uint32 | .int32 | .float => 4
  | .uint64 | .int64 | .double => 8

/-- Little-endian bytes as a natural number. -/
def leNat : List Byte → Nat
  | [] => 0
  | b :: bs => b.val + 256 * leNat bs

/-- The `k` lowest bytes of a natural number. -/
def leBytes : Nat → Nat → List Byte
  | 0, _ => []
  | k + 1, n => Fin.ofNat 256 n :: leBytes k (n / 256)

/-- The IEEE 754 number with `p` stored mantissa bits, `w` exponent bits and smallest exponent `emin` of the mantissa's unit. -/
def ieee (p w : Nat) (emin : Int) (n : Nat) : ℚ :=
  let m := n % 2 ^ p
  let e := n / 2 ^ p % 2 ^ w
  let s := n / 2 ^ (p + w)
  let a : ℚ := if e = 2 ^ w - 1 then 0
    else if e = 0 then (m : ℚ) * (2 : ℚ) ^ emin
    else ((2 ^ p + m : Nat) : ℚ) * (2 : ℚ) ^ (emin + e - 1)
  if s = 0 then a else -a

/-- The cell of type `t` stored in the bytes. -/
def decode (t : RDT) (bs : List Byte) : ℚ :=
  let n := leNat bs
  match t with
  | .float => ieee 23 8 (-149) n
  | .double => ieee 52 11 (-1074) n
  | .int8 | .int16 | .int32 | .int64 => if 2 * n < 2 ^ (8 * size t) then (n : ℚ) else (n : ℚ) - 2 ^ (8 * size t)
  | _ => n

open Classical in
/-- The bytes of a floating cell: those that mean the value (for 0 one of the two zeros). -/
noncomputable def encodeF (t : RDT) (v : ℚ) : List Byte :=
  if h : ∃ bs : List Byte, bs.length = size t ∧ decode t bs = v then h.choose else List.replicate (size t) 0

/-- The bytes of a cell of type `t`. -/
noncomputable def encode (t : RDT) (v : ℚ) : List Byte :=
  if Gtiff.isIntT t then leBytes (size t) (⌊v⌋ % 2 ^ (8 * size t)).toNat else encodeF t v

/-- The cells `0 .. n-1` of an array of type `t` in the bytes. -/
def decodeAll (t : RDT) : Nat → List Byte → List ℚ
  | 0, _ => []
  | n + 1, bs => decode t (bs.take (size t)) :: decodeAll t n (bs.drop (size t))

end Gfs
end CCGL
