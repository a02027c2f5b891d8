import Verif.Spec.AppRecls
import Verif.Spec.App
/-!
# What a job of the mode COM of `mask_rasterio` has to deliver: pieces put together on the grid of the mask
-/
namespace CCGL
namespace App
namespace Spec
open Disk Disk.Spec CCGL.Spec Main

/-- Cell `a` comes before cell `b`, row by row. -/
def Before (a b : Int × Int) : Prop := a.1 < b.1 ∨ (a.1 = b.1 ∧ a.2 < b.2)

/-- The values of the grid (`h`, `v`) fit the cells `c`: there are as many, and `w` gives them out in their order. -/
def Fills (h : Header) (v : Int → Int → ℚ) (c : Int → Int → Prop) (w : Int → Int → ℚ) : Prop :=
  ∃ f : Int × Int → Int × Int, (∀ a, c a.1 a.2 → HasValue h v (f a).1 (f a).2 ∧ w a.1 a.2 = v (f a).1 (f a).2) ∧
    (∀ b, HasValue h v b.1 b.2 → ∃ a, c a.1 a.2 ∧ f a = b) ∧ ∀ a b, c a.1 a.2 → c b.1 b.2 → Before a b → Before (f a) (f b)

/-- The text before the first underscore of a file name without suffix is the decimal notation of the number `k` (of 32 bits). -/
def NumberOf (core : Str) (k : Int) : Prop := ∃ pre rest, Fields '_' core (pre :: rest) ∧ IsDecInt pre k ∧ -(2 ^ 31) ≤ k ∧ k < 2 ^ 31

/-- `s` names the file at `q`, whose name without suffix is `core`. -/
def Names (fs : Fs.FS) (s : Str) (q : Fs.Path) (core : Str) : Prop :=
  ∃ p dt suf, NameIn fs p dt core suf ∧ s = dt ++ core ++ '.' :: suf ∧ q = p ++ [core ++ '.' :: suf]

/-- What the file `s` (at path `q`) contributes to a job of the mode COM with groups `g`: values for the cells of the group in its name, or
nothing: if there is no number in its name, no such group, no such file, no raster in it or if the number of values does not fit. -/
inductive Gives (d : Disk) (g : Groups) (s : Str) (q : Fs.Path) : Option (Int × (Int → Int → ℚ)) → Prop
  | piece {core k h v w} : Names d.fs s q core → NumberOf core k → Present g k → d.fs.resolve s = some q → RasterFile d s h v →
      Fills h v (g k) w → Gives d g s q (some (k, w))
  | unnumbered {core} : Names d.fs s q core → (∀ k, ¬ NumberOf core k) → Gives d g s q none
  | nogroup {core k} : Names d.fs s q core → NumberOf core k → ¬ Present g k → Gives d g s q none
  | missing {core} : Names d.fs s q core → d.fs.kindOf q = none → Gives d g s q none
  | refused {core} : Names d.fs s q core → d.fs.resolve s = some q → (∀ b x, readFromFile d s b x = .ok none) → Gives d g s q none
  | unfit {core k h v} : Names d.fs s q core → NumberOf core k → d.fs.resolve s = some q → RasterFile d s h v →
      (∀ w, ¬ Fills h v (g k) w) → Gives d g s q none

/-- The last of the pieces for group `k`. -/
def lastPiece (ps : List (Option (Int × (Int → Int → ℚ)))) (k : Int) : Option (Int → Int → ℚ) :=
  ps.foldl (fun acc x => match x with
    | some y => if y.1 = k then some y.2 else acc
    | none => acc) none

open Classical in
/-- The result of putting the pieces together: where the mask has a value, the value of the last piece for the group of the cell; the default value if
there is no piece for the group (NoData if that is what it equals); NoData where the mask has no value. -/
noncomputable def comVal (hM : Header) (vM : Int → Int → ℚ) (ps : List (Option (Int × (Int → Int → ℚ)))) (dflt : ℚ) (row col : Int) : ℚ :=
  if HasValue hM vM row col then
    match lastPiece ps (truncQ (vM row col)) with
    | some w => w row col
    | none => if floatEqual hM.noData dflt = true then hM.noData else dflt
  else hM.noData

/-- What is known about a job of the mode COM in advance: its inputs (name, path, contribution) and the parts of the name of its output. -/
structure ComPlan where
  ins : List (Str × Fs.Path × Option (Int × (Int → Int → ℚ)))
  dir : Fs.Path
  dt : Str
  core : Str
  suf : Str

def ComPlan.pieces (pl : ComPlan) : List (Option (Int × (Int → Int → ℚ))) := pl.ins.map (fun x => x.2.2)

/-- Some file contributes. -/
def ComPlan.Any (pl : ComPlan) : Prop := ∃ x ∈ pl.ins, x.2.2 ≠ none

/-- The output of the job can be written. It has the number 0 before its name. -/
structure ComOut (sys : Sys) (d : Disk) (hM : Header) (vM : Int → Int → ℚ) (j : Job) (pl : ComPlan) : Prop where
  out : j.out = pl.dt ++ pl.core ++ '.' :: pl.suf
  name : NameIn d.fs pl.dir pl.dt pl.core pl.suf
  kind : IsAscSuffix pl.suf ∨ (IsTifSuffix pl.suf ∧ SameType (sys.fmt j.type))
  nodir : d.fs.kindOf (pl.dir ++ [pl.core ++ '.' :: pl.suf]) ≠ some .dir
  write : Writable sys.env d.fs (pl.dir ++ [subsetCore 0 pl.core ++ '.' :: pl.suf])
  hdr : CarriesHeader pl.suf hM
  vals : ∀ row col, hM.grid.CellInside row col → CarriesValue (sys.fmt j.type) pl.suf (comVal hM vM pl.pieces j.default.toQ row col)
  nodata : CarriesValue (sys.fmt j.type) pl.suf hM.noData

/-- The job can be carried out: what its inputs contribute, and the output can be written. -/
structure ComOk (sys : Sys) (d : Disk) (hM : Header) (vM : Int → Int → ℚ) (j : Job) (pl : ComPlan) : Prop extends ComOut sys d hM vM j pl where
  fmts : j.inFmt = .sfile ∧ j.outFmt = .sfile
  ins : j.inputs = pl.ins.map (·.1)
  gives : ∀ x ∈ pl.ins, Gives d (byValue hM vM) x.1 x.2.1 x.2.2

/-- The file the job writes: none if no file contributes. -/
def ComTarget (pl : ComPlan) (q : Fs.Path) : Prop := pl.Any ∧ q = pl.dir ++ [subsetCore 0 pl.core ++ '.' :: pl.suf]

/-- What it holds afterwards. -/
def ComDone (d : Disk) (hM : Header) (vM : Int → Int → ℚ) (j : Job) (pl : ComPlan) : Prop :=
  pl.Any → ReadsAs d (pl.dt ++ subsetCore 0 pl.core ++ '.' :: pl.suf) hM (comVal hM vM pl.pieces j.default.toQ)

/-- No job writes to an input or the output of a later job. -/
def ApartCom (xs : List (Job × ComPlan)) : Prop :=
  xs.Pairwise (fun a b => ∀ q, ComTarget a.2 q → (∀ x ∈ b.2.ins, q ≠ x.2.1) ∧ ¬ ComTarget b.2 q)

end Spec
end App
end CCGL
