import Verif.Spec.AppGfsReclsLRun
import Verif.Spec.AppGfsFewReclsL
import Verif.Spec.AppGfsStackFew
/-!
# What runs of `mask_rasterio` have to store in GridFS without the NoData cells, jobs with several input files among them (C98)
-/
namespace CCGL
namespace App
namespace Spec
open Disk Gfs CCGL.Spec Main

/-- The job reads one or several files and can be carried out with output to the bucket without NoData cells (as `FullJob`). -/
structure FewFullJob (d : Disk) (st : Store) (mode : IOMode) (jj : Job × JobDb) (p : FullPlan) (V : View) (S : Nat → Int → Int → ℚ → Prop) : Prop where
  fmt : jj.1.inFmt = .sfile ∧ jj.1.outFmt = .gfs
  inputs : (∃ s, jj.1.inputs = s :: p.rest.map (·.path) ∧ RasterFile d s p.hdr p.val) ∧ ∀ l ∈ p.rest, RasterFile d l.path l.hdr l.val
  single : p.rest = [] → (jj.1.recls = false → p.lyrs = 1) ∧ FewOut st mode jj.1 jj.2 V (jobFill jj.1 p.hdr) p.lyrs
  table : p.rest ≠ [] → jj.1.recls = true → p.lyrs ≤ p.rest.length + 1 ∧ FewOut st mode jj.1 jj.2 V (jobFill jj.1 p.hdr) p.lyrs
  stack : p.rest ≠ [] → jj.1.recls = false → StackFewOut st mode jj.1 jj.2 V S (p.rest.length + 1)

/-- The outputs of the job are in the bucket; `C` are the cells that its object stores. -/
structure FewFullOut (rnd : ℚ → ℚ) (st : Store) (mode : IOMode) (j : Job) (p : FullPlan) (V : View) (N S : Nat → Int → Int → ℚ → Prop)
    (C : Int → Int → Prop) : Prop where
  single : p.rest = [] → FewDone rnd st mode j V (jobFill j p.hdr) p.lyrs C
  table : p.rest ≠ [] → j.recls = true → DbLayersFew rnd st mode j V N (jobFill j p.hdr) p.lyrs C
  stack : p.rest ≠ [] → j.recls = false → DbStackFew rnd st mode j V S (p.rest.length + 1) C

/-- After all jobs: the files no job writes as before, and the outputs of every job. -/
def FewFullDone (sys : Sys) (mode : IOMode) (V : Job → FullPlan → View) (N S : Job → FullPlan → Nat → Int → Int → ℚ → Prop)
    (C : Job → FullPlan → Int → Int → Prop) (xs : List ((Job × JobDb) × FullPlan)) (st st' : Store) : Prop :=
  (∀ R : CCGL.Spec.Key, (∀ x ∈ xs, ¬ DbTargets mode x.1.1 (V x.1.1 x.2).grp R.name) → CCGL.Spec.filesOf st' R = CCGL.Spec.filesOf st R) ∧
  ∀ x ∈ xs, FewFullOut sys.rnd st' mode x.1.1 x.2 (V x.1.1 x.2) (N x.1.1 x.2) (S x.1.1 x.2) (C x.1.1 x.2)

end Spec
end App
end CCGL
