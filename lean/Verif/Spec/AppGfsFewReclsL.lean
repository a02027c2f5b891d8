import Verif.Spec.AppGfsFewDec
import Verif.Spec.AppReclsL
/-!
# What jobs of `mask_rasterio` with several input files and a table have to store in GridFS without the NoData cells (C98)
-/
namespace CCGL
namespace App
namespace Spec
open Disk Gfs CCGL.Spec Main

/-- As `DbLayers`, for files without NoData cells; `C` are the cells the object of the job stores. There are numbers `u` (layer, row, column): at every cell of a
group and in every column of the table the table's value in that column for a number allowed by `N l` (the number of input file `l` at the cell). -/
def DbLayersFew (rnd : ℚ → ℚ) (st : Store) (mode : IOMode) (j : Job) (V : View) (N : Nat → Int → Int → ℚ → Prop) (fill : ℚ) (m : Int) (C : Int → Int → Prop) : Prop :=
  ∃ u : Nat → Int → Int → ℚ,
    (∀ k row col (l : Nat), V.grp k row col → (l : Int) < m → ∃ x, N l row col x ∧ u l row col = tableValue (numTable j) (truncQ x) l fill) ∧
    (WantsSingle mode → ∀ k, Present V.grp k → (WantsAll mode → k ≠ 0) →
      FewSingle rnd st (subsetFile k j.out) (fewOpts j.type) V.hdr m u (V.grp k)) ∧
    (WantsAll mode → (∃ k, Present V.grp k) → FewWhole rnd st (storedName j.out) (fewOpts j.type) V.hdr m u V.grp C)

end Spec
end App
end CCGL
