import Verif.Spec.AppGfsDec
import Verif.Spec.AppReclsL
/-!
# What jobs of `mask_rasterio` with several input files and a table have to store in GridFS (C98)
-/
namespace CCGL
namespace App
namespace Spec
open Disk Gfs CCGL.Spec Main

/-- The outputs in the bucket of a reclassifying job with several files. There are numbers `u` (layer, row, column): at every cell of a group and in every
column of the table the table's value in that column for a number allowed by `N l` (the number of input file `l` at the cell). The files of the groups and the one of
the whole grid have them (see `DbDone`). -/
def DbLayers (rnd : ℚ → ℚ) (st : Store) (mode : IOMode) (j : Job) (V : View) (N : Nat → Int → Int → ℚ → Prop) (fill : ℚ) (m : Int) : Prop :=
  ∃ u : Nat → Int → Int → ℚ,
    (∀ k row col (l : Nat), V.grp k row col → (l : Int) < m → ∃ x, N l row col x ∧ u l row col = tableValue (numTable j) (truncQ x) l fill) ∧
    (WantsSingle mode → ∀ k, Present V.grp k → (WantsAll mode → k ≠ 0) →
      DbSingle rnd st (subsetFile k j.out) (wholeOpts j.type) V.hdr m u (V.grp k)) ∧
    (WantsAll mode → (∃ k, Present V.grp k) → DbWhole rnd st (storedName j.out) (wholeOpts j.type) V.hdr m u V.grp)

end Spec
end App
end CCGL
