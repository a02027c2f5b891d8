import Verif.Spec.Raster
/-!
# Specification: sizes that fit into 32 bits
-/
namespace CCGL.Spec

/-- A value of the type `int`. -/
def IsInt (x : Int) : Prop := -2147483648 ≤ x ∧ x ≤ 2147483647

/-- Two numbers per cell of the grid, and one per cell and layer, can be counted by an `int`. -/
def FitsInt (r : Raster) : Prop :=
  r.hdr.rows * r.hdr.cols * 2 ≤ 2147483647 ∧ r.hdr.rows * r.hdr.cols * r.nLyrs ≤ 2147483647

/-- The keys of the tables of `Reclassify` are `int`s (their C++ type). -/
def IntKeys : Raster.Op → Prop
  | .reclassify m => ∀ e ∈ m, IsInt e.1
  | _ => True

/-- Calls other than `Reclassify`. -/
def NoReclass : Raster.Op → Prop
  | .reclassify _ => False
  | _ => True

end CCGL.Spec
