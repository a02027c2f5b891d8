import Verif.Model.RasterLife
/-!
# Specification: who may do what with the rasters of a program

The discipline `Allowed` says, with what the public getters tell (`GetMask`, `PositionsCalculated`, `PositionsAllocated`, `ValidateRasterData`, the pointers), when a
call is within the contract; `Owner` says to whom an array belongs.
-/
namespace CCGL
namespace Life
namespace Spec

/-- Array `a` belongs to raster `i`, as its member `f`: position arrays belong to it only if `PositionsAllocated()`. -/
def Owner (w : World) (i : Id) (f : Field) (a : Addr) : Prop :=
  ∃ o, w.objs i = some o ∧ o.ptr f = some a ∧ (f.isPos = true → o.store = true)

/-- No array is lost: each belongs to a raster that has not been deleted. -/
def NoLeak (w : World) : Prop := ∀ a, w.heap a ≠ none → ∃ i f, Owner w i f a

/-- No array belongs to two rasters, or twice to one. -/
def Separate (w : World) : Prop := ∀ i f j g a, Owner w i f a → Owner w j g a → i = j ∧ f = g

/-- No raster has a pointer to an array that has been released. -/
def NoDangling (w : World) : Prop := ∀ i o f a, w.objs i = some o → o.ptr f = some a → w.heap a ≠ none

/-- `GetMask()` of no raster is `i`. -/
def NoMaskOf (w : World) (i : Id) : Prop := ∀ j o, w.objs j = some o → o.mask ≠ some i

/-- A raster without data, positions and subsets, as the default constructor makes it. -/
def Empty (o : Obj) : Prop := (∀ f, o.ptr f = none) ∧ o.store = false ∧ o.subs = []

/-- No subset of the raster carries data. -/
def NoSubsetData (o : Obj) : Prop := ∀ k, o.ptr (.sub k .data) = none ∧ o.ptr (.sub k .data2) = none

/-- The mask `m` may be used to read raster `i`: another raster with data, with positions of its own or no mask, without data in its subsets. -/
def MaskOk (w : World) (i : Id) (mask : Option Id) : Prop :=
  ∀ m, mask = some m → m ≠ i ∧ ∃ o, w.objs m = some o ∧ o.valid = true ∧ (o.mask = none ∨ (o.calcPos = true ∧ (o.ptr .pos).isSome = true)) ∧
    NoSubsetData o

/-- The position arrays are not those of the mask. -/
def OwnPos (o : Obj) : Prop := o.store = true ∨ o.ptr .pos = none

/-- There are valid cells, and the groups of a subset map are different. -/
def Sound (s : Sees) : Prop :=
  1 ≤ s.valid ∧ 1 ≤ s.maskValid ∧ 1 ≤ s.kept ∧ 1 ≤ s.full ∧ (s.groups.map Prod.fst).Nodup ∧ ∀ e ∈ s.groups, 1 ≤ e.2

/-- Positions of raster `i` may be calculated anew with its mask. -/
def Remask (w : World) (i : Id) (o : Obj) : Prop := o.mask ≠ none → MaskOk w i o.mask ∧ NoMaskOf w i ∧ OwnPos o

/-- Raster `o` may be overwritten with a copy of raster `oj`. -/
def CopyOk (o oj : Obj) : Prop :=
  oj.valid = true ∧ 1 ≤ oj.cells ∧ (oj.calcPos = true → (oj.ptr .pos).isSome = true) ∧ (o.is2d = true → oj.is2d = true) ∧
    (oj.stats = true → oj.is2d = true → o.statMap = true ∧ o.stats = false)

/-- The contract of each call. -/
def Allowed (w : World) : Op → Prop
  | .newEmpty i _ => w.objs i = none
  | .newArray i _ n => w.objs i = none ∧ 1 ≤ n
  | .newMask i m _ _ s => w.objs i = none ∧ Sound s ∧ ∃ o, w.objs m = some o ∧ o.valid = true
  | .read i a => (∃ o, w.objs i = some o ∧ Empty o) ∧ NoMaskOf w i ∧ MaskOk w i a.mask ∧ Sound a.sees
  | .readFiles i a => (∃ o, w.objs i = some o ∧ Empty o) ∧ NoMaskOf w i ∧ MaskOk w i a.mask ∧ Sound a.sees
  | .readGfs i mask c e g s => (∃ o, w.objs i = some o ∧ Empty o) ∧ NoMaskOf w i ∧ MaskOk w i mask ∧ Sound s ∧
      (g.good = true → ¬ (g.all = true ∧ g.compact = true) ∧
        (g.all = true ∨ (mask ≠ none ∧ (c = true ∨ g.compact = true) ∧ e = true ∧ g.fits = true)))
  | .init i _ a => w.objs i = none ∧ MaskOk w i a.mask ∧ Sound a.sees
  | .newCopy i j => w.objs i = none ∧ ∃ oj, w.objs j = some oj ∧ CopyOk (emptyObj false) oj
  | .build i s => Sound s ∧ ∃ o, w.objs i = some o ∧ (o.valid = true → o.ptr .pos = none → Remask w i o)
  | .rebuild i s => Sound s ∧ ∃ o, w.objs i = some o ∧ (o.valid = true → o.ptr .pos = none → Remask w i o)
  | .releaseSubset i => w.objs i ≠ none
  | .setData i _ _ => w.objs i ≠ none
  | .calcStats i => ∃ o, w.objs i = some o ∧ o.valid = true
  | .updateStats i => ∃ o, w.objs i = some o ∧ o.valid = true
  | .getStat i _ => w.objs i ≠ none
  | .setCalc i s => Sound s ∧ ∃ o, w.objs i = some o ∧ (o.valid = true → ¬ (o.calcPos = true ∧ (o.ptr .pos).isSome = true) → Remask w i o)
  | .setExt i s => Sound s ∧ ∃ o, w.objs i = some o ∧ (o.valid = true → o.ext = false → Remask w i o)
  | .setPositions _ _ _ => False
  | .getPositions i s => Sound s ∧ w.objs i ≠ none
  | .copy i j => i ≠ j ∧ NoMaskOf w i ∧ ∃ o oj, w.objs i = some o ∧ w.objs j = some oj ∧ OwnPos o ∧ CopyOk o oj
  | .use i => w.objs i ≠ none
  | .delete i => w.objs i ≠ none ∧ NoMaskOf w i

/-- The raster a call is made on. -/
def _root_.CCGL.Life.Op.target : Op → Id
  | .newEmpty i _ | .newArray i _ _ | .newMask i _ _ _ _ | .read i _ | .readFiles i _ | .readGfs i _ _ _ _ _ | .init i _ _ | .newCopy i _ | .build i _
  | .rebuild i _ | .releaseSubset i | .setData i _ _ | .calcStats i | .updateStats i | .getStat i _ | .setCalc i _ | .setExt i _ | .setPositions i _ _
  | .getPositions i _ | .copy i _ | .use i | .delete i => i

/-- The mask a call consults: the one it is given, or the one of its raster. -/
def _root_.CCGL.Life.Op.maskIn (w : World) : Op → Option Id
  | .newMask _ m _ _ _ => some m
  | .read _ a | .readFiles _ a | .init _ _ a => a.mask
  | .readGfs _ m _ _ _ _ => m
  | .build i _ | .rebuild i _ | .setCalc i _ | .setExt i _ => (w.objs i).bind (·.mask)
  | _ => none

/-- Each call of the history is within its contract in the state it meets. -/
def Disciplined (d : Nat) : World → List Op → Prop
  | _, [] => True
  | w, op :: l => Allowed w op ∧ ∀ w', step d w op = .ok w' → Disciplined d w' l

end Spec
end Life
end CCGL
