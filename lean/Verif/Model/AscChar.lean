import Verif.Model.Asc
/-!
# Cells of the character types in ASCII grids
-/
namespace CCGL

/-- data_raster.hpp:339 `raster_file << values[i * cols + j]` for cells of the type `vuint8_t` (`unsigned char`, basic.h): `operator<<` writes the
character with this code, not the decimal number. -/
def charCell (v : Nat) : Str := [Char.ofNat v]

/-- data_raster.hpp:287 `static_cast<T>(tmpv)` for `unsigned char` and a number between 0 and 255 (other numbers are not used here). -/
def toChar8 (d : DVal) : Nat := ⌊d.toQ⌋.toNat

end CCGL
