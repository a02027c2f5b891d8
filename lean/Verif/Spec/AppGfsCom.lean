import Verif.Spec.AppCom
import Verif.Spec.AppGfs
/-!
# What a job of the mode COM of `mask_rasterio` has to deliver if the pieces are files in GridFS
-/
namespace CCGL
namespace App
namespace Spec
open Disk Gfs CCGL.Spec Main

/-- All cells of `c`, row by row. -/
def Listing (c : Int → Int → Prop) (cs : List (Int × Int)) : Prop := cs.Pairwise Before ∧ ∀ a, a ∈ cs ↔ c a.1 a.2

/-- The bucket holds the numbers (one layer) under the name and the options: `ReadGridFsFile` finds them whenever the server answers. -/
structure HoldsNumbers (rnd : ℚ → ℚ) (st : Store) (name : Str) (opts : Opts) (cells : List ℚ) : Prop where
  count : cells.length < 2 ^ 31
  reads : ∀ ok1 ok2, Answered ok1 → Answered ok2 → ∃ hm sm,
    readGridfs rnd .double ok1 true ok2 st name initialHeader initialStr opts = .ok (some (cells, hm, sm)) ∧
    hm "CELLSNUM".toList = some (.fin (cells.length : Int)) ∧ hm "LAYERS".toList = some (.fin (1 : Int))

/-- `core` is the name in the bucket without its suffix, if it has one. -/
def BucketName (s core : Str) : Prop :=
  Char.ofNat 0 ∉ s ∧ '/' ∉ s ∧ s ≠ ['.'] ∧ s ≠ ['.', '.'] ∧ ((s = core ∧ '.' ∉ core) ∨ ∃ suf, '.' ∉ suf ∧ s = core ++ '.' :: suf)

/-- What the file `s` in the bucket contributes to a job of the mode COM with groups `g` and options `opts`: values for the cells of the
group in its name, listed cell after cell or for the whole box of the group, or nothing: if there is no number in its name, no such
group, no such file, no answer of the server or if the number of values is neither that of the cells nor that of the box. -/
inductive DbGives (rnd : ℚ → ℚ) (st : Store) (opts : Opts) (g : Groups) (ok1 ok2 : Nat → Bool) (rd : Bool) (s core : Str) :
    Option (Int × (Int → Int → ℚ)) → Prop
  | values {k cells cs w} : NumberOf core k → Present g k → Answered ok1 → Answered ok2 → rd = true → HoldsNumbers rnd st s opts cells →
      Listing (g k) cs → cells = cs.map (fun a => w a.1 a.2) → DbGives rnd st opts g ok1 ok2 rd s core (some (k, w))
  | box {k cells r0 r1 c0 c1 w} : NumberOf core k → Present g k → Answered ok1 → Answered ok2 → rd = true → HoldsNumbers rnd st s opts cells →
      IsBox (g k) r0 r1 c0 c1 → (cells.length : Int) = (r1 - r0 + 1) * (c1 - c0 + 1) →
      (∀ row col, g k row col → cells[((row - r0) * (c1 - c0 + 1) + (col - c0)).toNat]? = some (w row col)) →
      DbGives rnd st opts g ok1 ok2 rd s core (some (k, w))
  | unnumbered : (∀ k, ¬ NumberOf core k) → DbGives rnd st opts g ok1 ok2 rd s core none
  | nogroup {k} : NumberOf core k → ¬ Present g k → DbGives rnd st opts g ok1 ok2 rd s core none
  | missing : (∀ f ∈ st, ¬ Has f ⟨s, opts⟩) → DbGives rnd st opts g ok1 ok2 rd s core none
  | lost : (¬ Answered ok1 ∨ rd = false ∨ ¬ Answered ok2) → DbGives rnd st opts g ok1 ok2 rd s core none
  | unfit {k cells cs r0 r1 c0 c1} : NumberOf core k → Answered ok1 → Answered ok2 → rd = true → HoldsNumbers rnd st s opts cells →
      Listing (g k) cs → IsBox (g k) r0 r1 c0 c1 → cells.length ≠ cs.length → (cells.length : Int) ≠ (r1 - r0 + 1) * (c1 - c0 + 1) →
      DbGives rnd st opts g ok1 ok2 rd s core none

/-- The inputs of the job (name, name without suffix, contribution) are files in the bucket. -/
structure DbIns (rnd : ℚ → ℚ) (st : Store) (inc : Bool) (g : Groups) (j : Job) (jd : JobDb)
    (ins : List (Str × Str × Option (Int × (Int → Int → ℚ)))) : Prop where
  fmt : j.inFmt = .gfs
  inputs : j.inputs = ins.map (·.1)
  name : ∀ x ∈ ins, BucketName x.1 x.2.1
  gives : ∀ i x, ins[i]? = some x → DbGives rnd st (jobOpts inc j.type) g (jd.cok1 i) (jd.cok2 i) (jd.crd i) x.1 x.2.1 x.2.2

/-- The contributions. -/
def piecesOf (ins : List (Str × Str × Option (Int × (Int → Int → ℚ)))) : List (Option (Int × (Int → Int → ℚ))) := ins.map (fun x => x.2.2)

end Spec
end App
end CCGL
