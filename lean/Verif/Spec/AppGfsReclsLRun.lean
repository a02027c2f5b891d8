import Verif.Spec.AppGfsStack
import Verif.Props.AppGfsDecJobs
/-!
# What runs of `mask_rasterio` have to store in GridFS if jobs with several input files are among the jobs (C98)
-/
namespace CCGL
namespace App
namespace Spec
open Disk Gfs CCGL.Spec Main

/-- What is known about a job in advance: header and values of the first input, number of layers of its output, the other input files. -/
structure FullPlan where
  hdr : Header
  val : Int → Int → ℚ
  lyrs : Int
  rest : List LayerFile

def FullPlan.dec (p : FullPlan) : DecPlan := ⟨p.hdr, p.val, p.lyrs⟩

/-- The job can be carried out with output to the bucket: with one input as in C90; or with several readable files and a table with at most as many
columns as there are files; or with several readable files and no table (`S`: the numbers of the layers). Without mask and table, if single groups and the
whole grid are asked for, some cell has a value. -/
structure FullJob (sys : Sys) (d : Disk) (st : Store) (mode : IOMode) (own : Bool) (jj : Job × JobDb) (p : FullPlan) (V : View)
    (S : Nat → Int → Int → ℚ → Prop) : Prop where
  single : p.rest = [] → DecJob sys d st mode own jj p.dec V
  several : p.rest ≠ [] → jj.1.inFmt = .sfile ∧ jj.1.outFmt = .gfs ∧
    (∃ s, jj.1.inputs = s :: p.rest.map (·.path) ∧ RasterFile d s p.hdr p.val) ∧ ∀ l ∈ p.rest, RasterFile d l.path l.hdr l.val
  table : p.rest ≠ [] → jj.1.recls = true → p.lyrs ≤ p.rest.length + 1 ∧ DbOut st mode jj.1 jj.2 V (jobFill jj.1 p.hdr) p.lyrs
  stack : p.rest ≠ [] → jj.1.recls = false → StackOut st mode jj.1 jj.2 V S (p.rest.length + 1) ∧
    (own = true → WantsSingle mode → WantsAll mode → ∃ row col, HasValue V.hdr V.val row col)

/-- The outputs of the job are in the bucket. -/
structure FullOut (rnd : ℚ → ℚ) (st : Store) (mode : IOMode) (j : Job) (p : FullPlan) (V : View) (N S : Nat → Int → Int → ℚ → Prop) : Prop where
  single : p.rest = [] → DbDone rnd st mode j V (jobFill j p.hdr) p.lyrs
  table : p.rest ≠ [] → j.recls = true → DbLayers rnd st mode j V N (jobFill j p.hdr) p.lyrs
  stack : p.rest ≠ [] → j.recls = false → DbStack rnd st mode j V S (p.rest.length + 1)

/-- The first job stores no file that the second one reads or stores. -/
def FullApart (mode : IOMode) (V : Job → FullPlan → View) (a b : (Job × JobDb) × FullPlan) : Prop :=
  ∀ name, DbTargets mode a.1.1 (V a.1.1 a.2).grp name →
    ¬ DbTargets mode b.1.1 (V b.1.1 b.2).grp name ∧ (b.1.1.inFmt = .gfs → name ∉ b.1.1.inputs)

/-- What the jobs leave in the bucket: the files no job writes as before, and the outputs of every job. -/
def FullDone (sys : Sys) (mode : IOMode) (V : Job → FullPlan → View) (N S : Job → FullPlan → Nat → Int → Int → ℚ → Prop)
    (xs : List ((Job × JobDb) × FullPlan)) (st st' : Store) : Prop :=
  (∀ R : CCGL.Spec.Key, (∀ x ∈ xs, ¬ DbTargets mode x.1.1 (V x.1.1 x.2).grp R.name) → CCGL.Spec.filesOf st' R = CCGL.Spec.filesOf st R) ∧
  ∀ x ∈ xs, FullOut sys.rnd st' mode x.1.1 x.2 (V x.1.1 x.2) (N x.1.1 x.2) (S x.1.1 x.2)

end Spec
end App
end CCGL
