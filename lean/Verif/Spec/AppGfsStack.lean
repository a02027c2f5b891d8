import Verif.Spec.AppGfsReclsL
/-!
# What jobs of `mask_rasterio` with several input files and no table have to store in GridFS in the modes DEC and MASKDEC (C98)
-/
namespace CCGL
namespace App
namespace Spec
open Disk Gfs CCGL.Spec Main

/-- The bucket can take the outputs of a job with `n` files and no table: as `DbOut`; every number allowed by `N l` for a cell of layer `l` fits the type. -/
structure StackOut (st : Store) (mode : IOMode) (j : Job) (jd : JobDb) (V : View) (N : Nat → Int → Int → ℚ → Prop) (n : Nat) : Prop where
  name : j.out ≠ []
  key : GoodKey ⟨j.out, outOpts .double jd.own (wholeOpts j.type) true⟩
  type : j.type ≠ .unknown ∧ j.type ≠ .uint64 ∧ j.type ≠ .int64
  rm : ∀ i, jd.rm i = true
  rms : ∀ i k, jd.rms i k = true
  att : ∀ i, CleanAttempt (jd.att i)
  atts : ∀ i k, CleanAttempt (jd.atts i k)
  done : (∃ i, i < 4 ∧ (jd.att i).reported = true) ∧ ∀ n, ∃ i, i < 4 ∧ (jd.atts n i).reported = true
  whole : WantsAll mode → StorableHeader { V.hdr with layers := n, cellsnum := V.hdr.rows * V.hdr.cols }
  single : WantsSingle mode → ∀ k, Present V.grp k → ∀ r0 r1 c0 c1, IsBox (V.grp k) r0 r1 c0 c1 →
    StorableHeader { boxHeader V.hdr r0 r1 c0 c1 with layers := n, cellsnum := (r1 - r0 + 1) * (c1 - c0 + 1) }
  cells : ∀ row col, V.hdr.grid.CellInside row col → ∀ l : Nat, l < n → ∀ x, N l row col x → Fits j.type x
  nodata : Fits j.type V.hdr.noData
  old : ∀ name, DbTargets mode j V.grp name → ∀ f ∈ st, Has f ⟨name, wholeOpts j.type⟩ →
    Has f ⟨name, outOpts .double jd.own (wholeOpts j.type) true⟩

/-- The outputs: there are numbers `w` (layer, row, column) allowed by `N`. The file of a group (if the mode asks for such files) has them in the cells of the
group and NoData in the rest of its rectangle; the file of the whole grid has all of them. -/
def DbStack (rnd : ℚ → ℚ) (st : Store) (mode : IOMode) (j : Job) (V : View) (N : Nat → Int → Int → ℚ → Prop) (n : Nat) : Prop :=
  ∃ w : Nat → Int → Int → ℚ,
    (∀ row col, V.hdr.grid.CellInside row col → ∀ l : Nat, l < n → N l row col (w l row col)) ∧
    (WantsSingle mode → ∀ k, Present V.grp k → (WantsAll mode → k ≠ 0) →
      DbSingle rnd st (subsetFile k j.out) (wholeOpts j.type) V.hdr n w (V.grp k)) ∧
    (WantsAll mode → HoldsLayers rnd st (storedName j.out) (wholeOpts j.type) V.hdr n w)

/-- The number of layer `l` of a raster that is its own mask: that of the files (`plainNum`), or NoData in all layers where the first file (NoData renamed) has no value. -/
def ownNum (j : Job) (hR : Header) (vR : Int → Int → ℚ) (rest : List LayerFile) (l : Nat) (row col : Int) (x : ℚ) : Prop :=
  plainNum j hR vR rest l row col x ∨ (¬ HasValue (plainHdr j hR) (plainVal j hR vR) row col ∧ x = (plainHdr j hR).noData)

end Spec
end App
end CCGL
