import Verif.Spec.AppLayers
/-!
# What reclassification jobs of `mask_rasterio` with several input files have to deliver

As in `Verif/Spec/AppRecls.lean`, but column `l` of the table is looked up with the number of file `l` at the cell.
-/
namespace CCGL
namespace App
namespace Spec
open Disk Disk.Spec CCGL.Spec Main

/-- One file per column of the table on the whole grid: a cell of a group has, in file `l`, the table's value in column `l` for a number `x` allowed by `V l`
(the number of input file `l` at the cell), the others have NoData. -/
def CombinedL (d : Disk) (name : Nat → Str) (m : Int) (h : Header) (V : Nat → Int → Int → ℚ → Prop) (g : Groups) (T : List (Int × List ℚ)) (fill : ℚ) : Prop :=
  ∀ l : Nat, (l : Int) < m → ∃ w, ReadsAs d (name l) h w ∧ ∀ row col, h.grid.CellInside row col →
    ((∃ k, g k row col) → ∃ x, V l row col x ∧ w row col = tableValue T (truncQ x) l fill) ∧ ((¬ ∃ k, g k row col) → w row col = h.noData)

/-- One file per column of the table on the smallest rectangle around the cells `c`. -/
def SingleL (d : Disk) (name : Nat → Str) (m : Int) (h : Header) (V : Nat → Int → Int → ℚ → Prop) (c : Int → Int → Prop) (T : List (Int × List ℚ)) (fill : ℚ) : Prop :=
  ∃ r0 r1 c0 c1, IsBox c r0 r1 c0 c1 ∧ ∀ l : Nat, (l : Int) < m → ∃ w, ReadsAs d (name l) (boxHeader h r0 r1 c0 c1) w ∧
    ∀ row col, r0 ≤ row → row ≤ r1 → c0 ≤ col → col ≤ c1 →
      (c row col → ∃ x, V l row col x ∧ w (row - r0) (col - c0) = tableValue T (truncQ x) l fill) ∧ (¬ c row col → w (row - r0) (col - c0) = h.noData)

/-- The outputs of the job: the combined files and those of the groups, if the mode asks for them (see `ReclsOutput`). -/
structure ReclsOutputL (d : Disk) (mode : IOMode) (j : Job) (h : Header) (V : Nat → Int → Int → ℚ → Prop) (g : Groups) (fill : ℚ) (dt core suf : Str) (m : Int) : Prop where
  all : WantsAll mode → (∃ k, Present g k) → CombinedL d (outFile dt core suf m 0) m h V g (numTable j) fill
  single : WantsSingle mode → ∀ k, Present g k → (WantsAll mode → k ≠ 0) →
    SingleL d (outFile dt core suf m k) m h V (g k) (numTable j) fill

/-- The number of file `l` at a cell, NoData renamed if asked for: without mask and with a mask. -/
def plainNum (j : Job) (hR : Header) (vR : Int → Int → ℚ) (rest : List LayerFile) (l : Nat) (row col : Int) (x : ℚ) : Prop :=
  ∃ w, PlainLayers hR vR rest l row col w ∧ x = renamed j.update hR.noData j.nodata.toQ w
def maskNum (j : Job) (hM : Header) (vM : Int → Int → ℚ) (hR : Header) (vR : Int → Int → ℚ) (rest : List LayerFile) (l : Nat) (row col : Int) (x : ℚ) : Prop :=
  ∃ w, MaskedLayers hM vM hR vR j.default.toQ rest l row col w ∧ x = renamed j.update hR.noData j.nodata.toQ w

end Spec
end App
end CCGL
