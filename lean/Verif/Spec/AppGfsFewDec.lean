import Verif.Spec.AppGfsFew
import Verif.Spec.AppGfsDec
/-!
# Files in GridFS that hold some cells of a grid only, in one or several layers
-/
namespace CCGL
namespace App
namespace Spec
open Disk Gfs CCGL.Spec Main

/-- The numbers of the cells `ps`, cell by cell; the `m` numbers of one cell stand together. -/
def cellByCell (ps : List (Int × Int)) (m : Int) (w : Nat → Int → Int → ℚ) : List ℚ :=
  ps.flatMap (fun rc => (List.range m.toNat).map (fun l => w l rc.1 rc.2))

/-- The bucket holds, under the name and the options, the values `w` (`m` layers, counted from 0) of the cells `S` of the grid (header `h`), row by
row and nothing else: `ReadGridFsFile` finds them whenever the server answers. -/
structure HoldsSome (rnd : ℚ → ℚ) (st : Store) (name : Str) (opts : Opts) (h : Header) (m : Int) (w : Nat → Int → Int → ℚ)
    (S : Int → Int → Prop) : Prop where
  header : StorableHeader { h with layers := m, cellsnum := h.rows * h.cols }
  nonempty : ∃ row col, h.grid.CellInside row col ∧ S row col
  reads : ∀ ok1 ok2, Answered ok1 → Answered ok2 → ∃ (ps : List (Int × Int)) (hm : HMap) (sm : SMap),
    readGridfs rnd .double ok1 true ok2 st name initialHeader initialStr opts = .ok (some (cellByCell ps m w, hm, sm)) ∧
    HeaderIs hm { h with layers := m, cellsnum := ps.length } ∧ sm "INCLUDE_NODATA".toList = some "FALSE".toList ∧ InOrder h S ps

/-- The file of one group without NoData cells: the values of its cells, row by row; the header is that of the smallest rectangle around them. -/
def FewSingle (rnd : ℚ → ℚ) (st : Store) (name : Str) (opts : Opts) (h : Header) (m : Int) (u : Nat → Int → Int → ℚ) (c : Int → Int → Prop) : Prop :=
  ∃ r0 r1 c0 c1, IsBox c r0 r1 c0 c1 ∧ HoldsSome rnd st name opts (boxHeader h r0 r1 c0 c1) m (fun l row col => u l (row + r0) (col + c0))
    (fun row col => c (row + r0) (col + c0))

/-- The file of all groups without the cells that are not in `C`: the values at cells of groups, NoData at the others. -/
def FewWhole (rnd : ℚ → ℚ) (st : Store) (name : Str) (opts : Opts) (h : Header) (m : Int) (u : Nat → Int → Int → ℚ) (g : Groups)
    (C : Int → Int → Prop) : Prop :=
  ∃ w, HoldsSome rnd st name opts h m w C ∧ ∀ row col (l : Nat), h.grid.CellInside row col → C row col → (l : Int) < m →
    ((∃ k, g k row col) → w l row col = u l row col) ∧ ((¬ ∃ k, g k row col) → w l row col = h.noData)

/-- The file of a grid that is not reclassified, without the cells that are not in `C`: where the grid has a value, the file has it; at the other
cells of `C` it has NoData. -/
def FewPlain (rnd : ℚ → ℚ) (st : Store) (name : Str) (opts : Opts) (h : Header) (v : Int → Int → ℚ) (C : Int → Int → Prop) : Prop :=
  ∃ w, HoldsCells rnd st name opts h w C ∧ ∀ row col, h.grid.CellInside row col → C row col →
    (HasValue h v row col → w row col = v row col) ∧ (¬ HasValue h v row col → floatEqual (w row col) h.noData = true)

/-- As `DbOut`, for files without NoData cells. -/
structure FewOut (st : Store) (mode : IOMode) (j : Job) (jd : JobDb) (V : View) (fill : ℚ) (m : Int) : Prop where
  name : j.out ≠ []
  key : GoodKey ⟨j.out, outOpts .double jd.own (fewOpts j.type) false⟩
  type : j.type ≠ .unknown ∧ j.type ≠ .uint64 ∧ j.type ≠ .int64
  rm : ∀ i, jd.rm i = true
  rms : ∀ i k, jd.rms i k = true
  att : ∀ i, CleanAttempt (jd.att i)
  atts : ∀ i k, CleanAttempt (jd.atts i k)
  done : (∃ i, i < 4 ∧ (jd.att i).reported = true) ∧ ∀ n, ∃ i, i < 4 ∧ (jd.atts n i).reported = true
  table : j.recls = true → TableOf (numTable j) m ∧ ((numTable j).map (·.1)).Nodup
  one : j.recls = false → m = 1
  whole : WantsAll mode → StorableHeader { V.hdr with layers := m, cellsnum := V.hdr.rows * V.hdr.cols }
  single : WantsSingle mode → ∀ k, Present V.grp k → ∀ r0 r1 c0 c1, IsBox (V.grp k) r0 r1 c0 c1 →
    StorableHeader { boxHeader V.hdr r0 r1 c0 c1 with layers := m, cellsnum := (r1 - r0 + 1) * (c1 - c0 + 1) }
  vals : j.recls = true → ∀ key l, Fits j.type (tableValue (numTable j) key l fill)
  cells : j.recls = false → ∀ row col, V.hdr.grid.CellInside row col → Fits j.type (V.val row col)
  nodata : Fits j.type V.hdr.noData
  old : ∀ name, DbTargets mode j V.grp name → ∀ f ∈ st, Has f ⟨name, fewOpts j.type⟩ →
    Has f ⟨name, outOpts .double jd.own (fewOpts j.type) false⟩

/-- The outputs in the bucket without NoData cells; `C` are the cells the object of the job stores. The file of a group with number 0 is replaced if
the whole grid is asked for too. -/
structure FewDone (rnd : ℚ → ℚ) (st : Store) (mode : IOMode) (j : Job) (V : View) (fill : ℚ) (m : Int) (C : Int → Int → Prop) : Prop where
  single : WantsSingle mode → ∀ k, Present V.grp k → (WantsAll mode → k ≠ 0) →
    FewSingle rnd st (subsetFile k j.out) (fewOpts j.type) V.hdr m (cellOut j V.val fill) (V.grp k)
  all : j.recls = true → WantsAll mode → (∃ k, Present V.grp k) →
    FewWhole rnd st (storedName j.out) (fewOpts j.type) V.hdr m (cellOut j V.val fill) V.grp C
  plain : j.recls = false → WantsAll mode → FewPlain rnd st (storedName j.out) (fewOpts j.type) V.hdr V.val C

end Spec
end App
end CCGL
