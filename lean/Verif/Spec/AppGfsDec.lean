import Verif.Spec.AppGfs
import Verif.Spec.AppRecls
/-!
# What jobs of `mask_rasterio` have to deliver that store groups of cells or reclassified grids in GridFS
-/
namespace CCGL
namespace App
namespace Spec
open Disk Gfs CCGL.Spec Main

/-- The bucket holds the grid of `h` with `m` layers (values `w`, layer by layer counted from 0) under the name and the options: `ReadGridFsFile` finds it
whenever the server answers, with all its cells; the numbers of one cell stand together. -/
structure HoldsLayers (rnd : ℚ → ℚ) (st : Store) (name : Str) (opts : Opts) (h : Header) (m : Int) (w : Nat → Int → Int → ℚ) : Prop where
  header : StorableHeader { h with layers := m, cellsnum := h.rows * h.cols }
  reads : ∀ ok1 ok2, Answered ok1 → Answered ok2 → ∃ cells hm sm,
    readGridfs rnd .double ok1 true ok2 st name initialHeader initialStr opts = .ok (some (cells, hm, sm)) ∧
    HeaderIs hm { h with layers := m, cellsnum := h.rows * h.cols } ∧ sm "INCLUDE_NODATA".toList = some "TRUE".toList ∧
    (cells.length : Int) = h.rows * h.cols * m ∧
    ∀ row col (l : Nat), h.grid.CellInside row col → (l : Int) < m → cells[((row * h.cols + col) * m + l).toNat]? = some (w l row col)

/-- The number a job stores in layer `l` for a cell of a group: the value of the raster or, if it reclassifies, the entry of the table for it. -/
noncomputable def cellOut (j : Job) (v : Int → Int → ℚ) (fill : ℚ) (l : Nat) (row col : Int) : ℚ :=
  if j.recls then tableValue (numTable j) (truncQ (v row col)) l fill else v row col

/-- The file of one group: the smallest rectangle around its cells, NoData at the other cells of the rectangle. -/
def DbSingle (rnd : ℚ → ℚ) (st : Store) (name : Str) (opts : Opts) (h : Header) (m : Int) (u : Nat → Int → Int → ℚ) (c : Int → Int → Prop) : Prop :=
  ∃ r0 r1 c0 c1, IsBox c r0 r1 c0 c1 ∧ ∃ w, HoldsLayers rnd st name opts (boxHeader h r0 r1 c0 c1) m w ∧
    ∀ row col (l : Nat), r0 ≤ row → row ≤ r1 → c0 ≤ col → col ≤ c1 → (l : Int) < m →
      (c row col → w l (row - r0) (col - c0) = u l row col) ∧ (¬ c row col → w l (row - r0) (col - c0) = h.noData)

/-- The file of all groups on the whole grid, NoData at the other cells. -/
def DbWhole (rnd : ℚ → ℚ) (st : Store) (name : Str) (opts : Opts) (h : Header) (m : Int) (u : Nat → Int → Int → ℚ) (g : Groups) : Prop :=
  ∃ w, HoldsLayers rnd st name opts h m w ∧ ∀ row col (l : Nat), h.grid.CellInside row col → (l : Int) < m →
    ((∃ k, g k row col) → w l row col = u l row col) ∧ ((¬ ∃ k, g k row col) → w l row col = h.noData)

/-- The file of the raster itself: its values, NoData (up to 1e-32) at cells without value. -/
def DbPlain (rnd : ℚ → ℚ) (st : Store) (name : Str) (opts : Opts) (h : Header) (v : Int → Int → ℚ) : Prop :=
  ∃ w, HoldsGrid rnd st name opts h w ∧ ∀ row col, h.grid.CellInside row col →
    (HasValue h v row col → w row col = v row col) ∧ (¬ HasValue h v row col → floatEqual (w row col) h.noData = true)

/-- The names of the files a job stores: one for each group, if the mode asks for single files; the one of the whole grid. -/
def DbTargets (mode : IOMode) (j : Job) (g : Groups) (name : Str) : Prop :=
  (WantsSingle mode ∧ ∃ k, Present g k ∧ name = subsetFile k j.out) ∨
  (WantsAll mode ∧ (j.recls = true → ∃ k, Present g k) ∧ name = storedName j.out)

/-- The bucket can take the outputs of a job (`m` layers; 1 if it does not reclassify): usable name and options, headers that fit, a type the writer knows
and in which the numbers fit, a driver that does what it reports and reports success at the latest in the fourth attempt, removals that work. Older
files with these names and the two options of the job have the other options of the object too (else they would be found instead). -/
structure DbOut (st : Store) (mode : IOMode) (j : Job) (jd : JobDb) (V : View) (fill : ℚ) (m : Int) : Prop where
  name : j.out ≠ []
  key : GoodKey ⟨j.out, outOpts .double jd.own (wholeOpts j.type) true⟩
  type : j.type ≠ .unknown ∧ j.type ≠ .uint64 ∧ j.type ≠ .int64
  rm : ∀ i, jd.rm i = true
  rms : ∀ i k, jd.rms i k = true
  att : ∀ i, CleanAttempt (jd.att i)
  atts : ∀ i k, CleanAttempt (jd.atts i k)
  done : (∃ i, i < 4 ∧ (jd.att i).reported = true) ∧ ∀ n, ∃ i, i < 4 ∧ (jd.atts n i).reported = true
  table : j.recls = true → TableOf (numTable j) m ∧ ((numTable j).map (·.1)).Nodup
  one : j.recls = false → m = 1
  whole : WantsAll mode → StorableHeader { V.hdr with layers := m, cellsnum := V.hdr.rows * V.hdr.cols }
  single : WantsSingle mode → ∀ k, Present V.grp k → ∀ r0 r1 c0 c1, IsBox (V.grp k) r0 r1 c0 c1 →
    StorableHeader { boxHeader V.hdr r0 r1 c0 c1 with layers := m, cellsnum := (r1 - r0 + 1) * (c1 - c0 + 1) }
  vals : j.recls = true → ∀ key l, Fits j.type (tableValue (numTable j) key l fill)
  cells : j.recls = false → ∀ row col, V.hdr.grid.CellInside row col → Fits j.type (V.val row col)
  nodata : Fits j.type V.hdr.noData
  old : ∀ name, DbTargets mode j V.grp name → ∀ f ∈ st, Has f ⟨name, wholeOpts j.type⟩ →
    Has f ⟨name, outOpts .double jd.own (wholeOpts j.type) true⟩

/-- The outputs in the bucket. If the mode asks for single files and for the whole grid, the file of a group with number 0 has the name of the whole
grid, which is stored last. -/
structure DbDone (rnd : ℚ → ℚ) (st : Store) (mode : IOMode) (j : Job) (V : View) (fill : ℚ) (m : Int) : Prop where
  single : WantsSingle mode → ∀ k, Present V.grp k → (WantsAll mode → k ≠ 0) →
    DbSingle rnd st (subsetFile k j.out) (wholeOpts j.type) V.hdr m (cellOut j V.val fill) (V.grp k)
  all : j.recls = true → WantsAll mode → (∃ k, Present V.grp k) →
    DbWhole rnd st (storedName j.out) (wholeOpts j.type) V.hdr m (cellOut j V.val fill) V.grp
  plain : j.recls = false → WantsAll mode → DbPlain rnd st (storedName j.out) (wholeOpts j.type) V.hdr V.val

end Spec
end App
end CCGL
