import Verif.Props.AppGfsFew
/-!
# Files without NoData cells as inputs of `mask_rasterio` (C87)
-/
namespace CCGL
namespace App
open Fs Disk Main Raster Gfs Disk.Spec App.Spec

/-- A mask without subsets. -/
theorem readS_nil (rnd : ℚ → ℚ) (T : RDT) (ok1 : Nat → Bool) (rd : Bool) (ok2 : Nat → Bool) (st : Store) (name : Str)
    (calcPos : Bool) (m : Raster) (ume : Bool) (dflt : ℚ) (opts : Opts) :
    readFromMongoMaskS rnd T ok1 rd ok2 st name calcPos ⟨m, []⟩ ume dflt opts =
      (do let x ← readFromMongoMask rnd T ok1 rd ok2 st name calcPos m ume dflt opts
          return (x.1.map (fun r => (⟨r, []⟩ : RasterS)), (⟨x.2, []⟩ : RasterS)) : Out (Option RasterS × RasterS)) := by
  unfold readFromMongoMaskS readFromMongoMask
  rw [bind_assoc]
  congr 1
  funext x
  rcases x with _ | ⟨cells, h, s⟩
  · rfl
  · dsimp only
    rw [bind_assoc]
    congr 1
    funext hdr
    rw [bind_assoc]
    congr 1
    funext full
    rw [bind_assoc]
    congr 1
    funext nd
    split
    · rfl
    · split
      · rw [bind_assoc]
        congr 1
        funext x1
        rw [bind_assoc]
        congr 1
        funext x2
        split
        · rfl
        · rw [bind_assoc]
          rfl
      · split
        · rfl
        · rw [bind_assoc]
          congr 1
          funext r
          unfold maskRasterS
          rw [bind_assoc, bind_assoc]
          congr 1
          funext res
          dsimp only
          rw [if_pos (.inr rfl)]
          simp only [Out.pure_eq, Out.ok_bind]
          split <;> rfl

/-- The mask of a run without subsets: it shows which cells have a value. -/
structure Spec.FullMask (m : Raster) (hM : Header) (vM : Int → Int → ℚ) : Prop where
  built : CCGL.Spec.Built m
  clean : CCGL.Spec.CleanMask m
  grid : m.hdr.grid = hM.grid
  nodata : m.noData = hM.noData
  val : ∀ row col, hM.grid.CellInside row col → ∃ x, m.getValue row col 1 = .ok x ∧ floatEqual x m.noData = floatEqual (vM row col) hM.noData

theorem Spec.FullMask.isMask {m : Raster} {hM : Header} {vM : Int → Int → ℚ} (h : FullMask m hM vM) : IsMask m hM vM :=
  ⟨m, h.built, h.clean, h.grid, h.nodata, h.val, rfl⟩

theorem Spec.FullMask.valid {m : Raster} {hM : Header} {vM : Int → Int → ℚ} (h : FullMask m hM vM) {row col : Int} (hin : hM.grid.CellInside row col) :
    FirstValid m row col ↔ HasValue hM vM row col := by
  obtain ⟨x, x1, x2⟩ := h.val row col hin
  unfold FirstValid HasValue
  rw [x1]
  constructor
  · rintro ⟨y, e, hy⟩
    injection e with e
    rw [← e, x2] at hy
    exact ⟨hin, hy⟩
  · rintro ⟨-, hy⟩
    exact ⟨x, rfl, by rw [x2]; exact hy⟩

/-- The positions of the mask. -/
theorem Spec.FullMask.positions {m : Raster} {hM : Header} {vM : Int → Int → ℚ} (h : FullMask m hM vM)
    (hne : ∃ row col, HasValue hM vM row col) :
    ∃ (m' : Raster) (ls : List (List ℚ)) (ps : List (Int × Int)), m'.Compact ls ps ∧ m.getPositionData = .ok (m', ps.length, some ps) ∧
      m'.hdr.rows = hM.rows ∧ m'.hdr.cols = hM.cols ∧ validNumber m = ps.length ∧
      (∀ row col, (row, col) ∈ ps ↔ HasValue hM vM row col) ∧ FullMask m' hM vM := by
  have hgr := h.grid
  unfold Header.grid at hgr
  injection hgr with g1 g2 g3 g4 g5
  obtain ⟨m', ls, ps, c1, c2, c3, c4, c5, c6, c7, c8, c9⟩ := clean_positions h.built h.clean (by
    obtain ⟨row, col, q⟩ := hne
    exact ⟨row, col, by rw [h.grid]; exact q.1, (h.valid q.1).2 q⟩)
  have hmem : ∀ row col, (row, col) ∈ ps ↔ HasValue hM vM row col := by
    intro row col
    rw [c8, h.grid]
    constructor
    · rintro ⟨a, b⟩; exact (h.valid a).1 b
    · intro q; exact ⟨q.1, (h.valid q.1).2 q⟩
  have hr : m'.hdr.rows = hM.rows := by rw [c4]; exact g1
  have hc : m'.hdr.cols = hM.cols := by rw [c4]; exact g2
  have hgrid : m'.hdr.grid = hM.grid := by rw [c4]; exact h.grid
  have hl1 : 1 ≤ m.nLyrs := by rw [← c6]; exact c1.holds.1
  refine ⟨m', ls, ps, c1, c2, hr, hc, c7, hmem, ?_, ?_, hgrid, by rw [c5]; exact h.nodata, ?_⟩
  · exact h.built.step .getPositionData (by simp only [Raster.step, c2, Out.ok_bind]; rfl)
  · right
    rintro row col ⟨i, hi⟩
    have hin : 0 ≤ row ∧ row < m'.hdr.rows ∧ 0 ≤ col ∧ col < m'.hdr.cols := by
      by_contra hno
      rw [← validRowCol_iff] at hno
      have hv := c1.holds.valid
      unfold Raster.getPosition at hi
      simp [hv, hno] at hi
    rcases c1.getPosition row col hin with ⟨k, hk, q1, q2⟩ | ⟨q1, -⟩
    · have hrc : (row, col) ∈ ps := by rw [← q2]; exact List.getElem_mem hk
      have hv := (hmem row col).1 hrc
      obtain ⟨x, x1, x2⟩ := h.val row col hv.1
      refine ⟨x, ?_, ?_⟩
      · rw [c9 row col 1 hrc le_rfl hl1]; exact x1
      · rw [c5, x2]; exact hv.2
    · rw [q1] at hi
      injection hi with hi
      omega
  · intro row col hin
    by_cases hv : HasValue hM vM row col
    · obtain ⟨x, x1, x2⟩ := h.val row col hin
      refine ⟨x, ?_, by rw [c5, x2]⟩
      rw [c9 row col 1 ((hmem row col).2 hv) le_rfl hl1]; exact x1
    · refine ⟨m'.noData, ?_, ?_⟩
      · exact (c1.getValue_miss row col 1 (by rw [hr, hc]; exact hin) (fun q => hv ((hmem row col).1 q))).2
      · rw [floatEqual_self]
        by_contra hno
        have : floatEqual (vM row col) hM.noData = false := by
          cases hq : floatEqual (vM row col) hM.noData
          · rfl
          · rw [hq] at hno; exact absurd rfl hno
        exact hv ⟨hin, this⟩

/-- Reading a file that holds the cells of a mask, given the positions of the mask. -/
theorem few_read_core {rnd : ℚ → ℚ} {st : Store} {name : Str} {ty : RDT} {h hM : Header} {v vM : Int → Int → ℚ} {m m' : Raster}
    {lsM : List (List ℚ)} {psM : List (Int × Int)}
    (H : HoldsCells rnd st name (fewOpts ty) h v (HasValue hM vM)) (hb : CCGL.Spec.Built m)
    (k1 : m'.Compact lsM psM) (k2 : m.getPositionData = .ok (m', psM.length, some psM)) (k3 : m'.hdr.rows = hM.rows) (k4 : m'.hdr.cols = hM.cols)
    (k5 : validNumber m = psM.length) (k6 : ∀ row col, (row, col) ∈ psM ↔ HasValue hM vM row col) (hrows : h.rows = hM.rows) (hcols : h.cols = hM.cols)
    (hgap : ∃ row col, hM.grid.CellInside row col ∧ ¬ HasValue hM vM row col) {ok1 ok2 : Nat → Bool} (h1 : Answered ok1) (h2 : Answered ok2) (dflt : ℚ)
    {w : Int → Int → ℚ} (hw : ∀ row col, hM.grid.CellInside row col → (HasValue hM vM row col → w row col = v row col) ∧
      (¬ HasValue hM vM row col → w row col = h.noData)) :
    ∃ (r : Raster) (cells : List ℚ) (hmp : HMap) (sm : SMap),
      readGridfs rnd .double ok1 true ok2 st name initialHeader initialStr (inOpts (fewOpts ty)) = .ok (some (cells, hmp, sm)) ∧
      sm kIncNodata = some "FALSE".toList ∧
      readFromMongoMask rnd .double ok1 true ok2 st name false m true dflt (fewOpts ty) = .ok (some r, m') ∧
      Shows r h w ∧ r.posData = some psM ∧
      (∀ row col, h.grid.CellInside row col → (CCGL.Spec.Stored r row col ↔ HasValue hM vM row col)) ∧ r.dflt = checkDefault dflt h.noData := by
  obtain ⟨ps, hmp, sm, e1, e2, e3, e4⟩ := H.reads ok1 ok2 h1 h2
  have hinside : ∀ row col, h.grid.CellInside row col ↔ hM.grid.CellInside row col := by
    intro row col
    show (0 ≤ row ∧ row < h.rows ∧ 0 ≤ col ∧ col < h.cols) ↔ (0 ≤ row ∧ row < hM.rows ∧ 0 ≤ col ∧ col < hM.cols)
    rw [hrows, hcols]
  have hps : ps = psM := by
    refine positions_eq h.cols h.rows e4.1 (by have := k1.sorted; rwa [k4, ← hcols] at this) ?_
    rintro ⟨row, col⟩
    rw [e4.2, k6, hinside]
    exact ⟨fun q => q.2, fun q => ⟨q.1, q⟩⟩
  subst hps
  have hpos : 0 < ps.length := List.length_pos_of_ne_nil k1.ne
  have hle := inOrder_le e4 H.header.rows.1 H.header.cols.1
  have hsH : CCGL.Spec.StorableHeader { h with layers := 1, cellsnum := ps.length } := by
    refine ⟨H.header.rows, H.header.cols, H.header.layers, ⟨by (show 0 < (ps.length : Int); omega), lt_of_le_of_lt hle H.header.cellsnum.2⟩, ?_,
      H.header.cellsize, H.header.xll, H.header.yll⟩
    have := H.header.count
    dsimp only at this ⊢
    omega
  have hnd : conv rnd .double .double h.noData = .ok h.noData := by unfold conv; rw [if_pos rfl]
  have hlen : ((ps.map (fun rc => v rc.1 rc.2)).length : Int) = (ps.length : Int) * 1 := by rw [List.length_map, mul_one]
  obtain ⟨fr, f1, f2, f3, f4, f5, f6⟩ := read_mask_direct (rnd := rnd) (T := .double) (ok1 := ok1) (ok2 := ok2) (st := st) (name := name)
    (calcPos := false) (dflt := dflt) (opts := fewOpts ty) (mask := m) (m' := m') (ps := ps) (inc := false)
    (H := { h with layers := 1, cellsnum := ps.length }) (by rw [inOpts_few]; exact e1) e2 hsH H.header.cellsnum.2 e3 hlen hnd k1 k2 k5
    (by rw [k3]; exact hrows.symm) (by rw [k4]; exact hcols.symm) rfl
    (by
      right
      obtain ⟨row, col, a, b⟩ := hgap
      have := not_all k1 (row := row) (col := col) (by rw [k3, k4]; exact a) (fun q => b ((k6 row col).1 q))
      rw [k3, k4, ← hrows, ← hcols] at this
      exact this) (fun q => by cases q)
  have hbu : CCGL.Spec.Built fr := by
    rw [f6]
    exact direct_built (H := { h with layers := 1, cellsnum := ps.length }) hb k2 hpos (by rw [k3]; exact hrows.symm)
      (by rw [k4]; exact hcols.symm) rfl (by show (0:Int) < 1; decide) rfl
  have hfl : fr.nLyrs = 1 := f4
  have hval : ∀ row col, h.grid.CellInside row col → fr.getValue row col 1 = .ok (w row col) := by
    intro row col hin
    have hin' := (hinside row col).1 hin
    by_cases hv : HasValue hM vM row col
    · rw [(hw row col hin').1 hv]
      obtain ⟨i, hi, hi2⟩ := List.getElem_of_mem ((k6 row col).2 hv)
      obtain ⟨-, ev⟩ := f1.getValue_hit row col 1 i hi hi2 ⟨le_rfl, by rw [hfl]⟩
      rw [ev]
      have hk : ((1 : Int) - 1).toNat < (1 : Int).toNat := by decide
      rw [rowsOf_get _ _ _ hk]
      have e9 : i * (1 : Int).toNat + ((1 : Int) - 1).toNat = i := by simp
      rw [show (({ h with layers := 1, cellsnum := (ps.length : Int) } : Header).layers).toNat = (1 : Int).toNat from rfl, e9]
      rw [List.getD_eq_getElem _ _ (by rw [List.length_map]; exact hi), List.getElem_map, hi2]
    · rw [(hw row col hin').2 hv]
      rw [show h.noData = fr.noData from f3.symm]
      exact (f1.getValue_miss row col 1 (by rw [f2]; exact hin) (fun q => hv ((k6 row col).1 q))).2
  have hsh : Shows fr h w := by
    refine ⟨hbu, by rw [f1.ncells]; exact_mod_cast hpos, ?_, hfl, by rw [f2]; rfl, f3, hval⟩
    rw [f6]; rfl
  refine ⟨fr, _, hmp, sm, (by rw [inOpts_few]; exact e1), e3, f5, hsh, f1.pd, ?_, ?_⟩
  · intro row col hin
    rw [stored_iff hsh f1.pd hin, k6]
  · rw [f6]; rfl

/-- A file that holds the cells of the mask is read with the mask. -/
theorem few_read {rnd : ℚ → ℚ} {st : Store} {name : Str} {ty : RDT} {h hM : Header} {v vM : Int → Int → ℚ} {m : Raster}
    (H : HoldsCells rnd st name (fewOpts ty) h v (HasValue hM vM)) (hm : FullMask m hM vM) (hrows : h.rows = hM.rows) (hcols : h.cols = hM.cols)
    (hgap : ∃ row col, hM.grid.CellInside row col ∧ ¬ HasValue hM vM row col) {ok1 ok2 : Nat → Bool} (h1 : Answered ok1) (h2 : Answered ok2) (dflt : ℚ)
    {w : Int → Int → ℚ} (hw : ∀ row col, hM.grid.CellInside row col → (HasValue hM vM row col → w row col = v row col) ∧
      (¬ HasValue hM vM row col → w row col = h.noData)) :
    ∃ r m', readFromMongoMaskS rnd .double ok1 true ok2 st name false ⟨m, []⟩ true dflt (fewOpts ty) = .ok (some ⟨r, []⟩, ⟨m', []⟩) ∧
      FullMask m' hM vM ∧ Shows r h w ∧ r.posData.isNone = false ∧
      (∀ row col, h.grid.CellInside row col → (CCGL.Spec.Stored r row col ↔ HasValue hM vM row col)) ∧ r.dflt = checkDefault dflt h.noData := by
  obtain ⟨row0, col0, -, q0⟩ := H.nonempty
  obtain ⟨m', lsM, psM, k1, k2, k3, k4, k5, k6, k7⟩ := hm.positions ⟨row0, col0, q0⟩
  obtain ⟨fr, cells, hmp, sm, -, -, f1, f2, f3, f4, f5⟩ := few_read_core H hm.built k1 k2 k3 k4 k5 k6 hrows hcols hgap h1 h2 dflt hw
  refine ⟨fr, m', ?_, k7, f2, by rw [f3]; rfl, f4, f5⟩
  rw [readS_nil, f1]; rfl

/-- A mask as it is read from a file. -/
theorem full_mask_loaded {d : Disk} {s : Str} {h : Header} {v : Int → Int → ℚ} (H : RasterFile d s h v) :
    ∃ M, readFromFile d s false NODATA = .ok (some M) ∧ FullMask M h v := by
  obtain ⟨M, e, h1, h2, h3, h4, h5, -⟩ := mask_file H NODATA
  exact ⟨M, e, h1, h2, h3, h4, fun row col hin => ⟨_, h5 row col hin, by rw [h4]⟩⟩

/-- The only input of the job is a file in the bucket without NoData cells: the values of the cells of the mask. -/
structure Spec.FewInput (sys : Sys) (st : Store) (j : Job) (jd : JobDb) (h : Header) (v : Int → Int → ℚ) (hM : Header) (vM : Int → Int → ℚ) : Prop where
  fmt : j.inFmt = .gfs
  ex : ∃ name more, j.inputs = name :: more ∧ HoldsCells sys.rnd st name (fewOpts j.type) h v (HasValue hM vM)
  ok1 : Answered jd.ok1
  ok2 : Answered jd.ok2
  rd : jd.rd = true
  rows : h.rows = hM.rows
  cols : h.cols = hM.cols
  gap : ∃ row col, hM.grid.CellInside row col ∧ ¬ HasValue hM vM row col

/-- The cells of such a raster: the stored value where the mask has a value, NoData elsewhere (no default value is filled in). -/
def Spec.FewCells (h : Header) (v : Int → Int → ℚ) (hM : Header) (vM w : Int → Int → ℚ) : Prop :=
  ∀ row col, hM.grid.CellInside row col → (HasValue hM vM row col → w row col = v row col) ∧ (¬ HasValue hM vM row col → w row col = h.noData)

theorem few_input {sys : Sys} {d : Disk} {st : Store} {j : Job} {jd : JobDb} {h hM : Header} {v vM : Int → Int → ℚ} {m : Raster}
    (hm : FullMask m hM vM) (H : FewInput sys st j jd h v hM vM) (mode : IOMode) {w : Int → Int → ℚ} (hw : FewCells h v hM vM w) :
    ∃ r m', layerJobDb sys false mode (d, st, some ⟨m, []⟩) (j, jd) =
        finishJobDb sys false mode (d, st, some ⟨m, []⟩) (j, jd) (some ⟨r, []⟩, some ⟨m', []⟩) ∧
      FullMask m' hM vM ∧ Shows r h w ∧ r.posData.isNone = false ∧
      (∀ row col, h.grid.CellInside row col → (CCGL.Spec.Stored r row col ↔ HasValue hM vM row col)) ∧
      r.dflt = checkDefault j.default.toQ h.noData := by
  obtain ⟨name, more, e1, e2⟩ := H.ex
  obtain ⟨r, m', f, k1, k2, k3, k4, k5⟩ := few_read e2 hm H.rows H.cols H.gap H.ok1 H.ok2 j.default.toQ hw
  refine ⟨r, m', ?_, k1, k2, k3, k4, k5⟩
  unfold layerJobDb
  dsimp only
  rw [if_neg (by rw [H.fmt]; simp), if_pos H.fmt, e1]
  have hv : vecAt (name :: more) 0 = .ok name := rfl
  rw [hv, Out.ok_bind]
  unfold initGfs
  dsimp only
  rw [H.rd, jobOpts_false, f]
  rfl

/-- C87, INCLUDE_NODATA FALSE, input and output in GridFS: a file that holds the cells of the mask is read with the mask and stored again; the
values are those stored, with NoData renamed if asked for. -/
theorem C87_few_store (sys : Sys) (hrnd : ∀ v, CCGL.Spec.Representable .float v → sys.rnd v = v) {d : Disk} {st : Store} {m : Raster}
    {hM h : Header} {vM v w : Int → Int → ℚ} (hm : FullMask m hM vM) {j : Job} {jd : JobDb} (H : FewInput sys st j jd h v hM vM)
    (hw : FewCells h v hM vM w) (hout : j.outFmt = .gfs) (hre : j.recls = false)
    (ho : BucketFew st j jd { h with noData := renamedNd j.update h.noData j.nodata.toQ })
    (hf : ∀ row col, h.grid.CellInside row col → Fits j.type (renamed j.update h.noData j.nodata.toQ (w row col))) :
    ∃ (st' : Store) (m' : Raster), layerJobDb sys false .mask (d, st, some ⟨m, []⟩) (j, jd) = .ok (d, st', some ⟨m', []⟩) ∧ FullMask m' hM vM ∧
      StoredFew sys st st' j jd { h with noData := renamedNd j.update h.noData j.nodata.toQ }
        (fun row col => renamed j.update h.noData j.nodata.toQ (w row col)) (HasValue hM vM) := by
  obtain ⟨r, m', e, k1, k2, k3, k4, -⟩ := few_input (d := d) hm H .mask hw
  obtain ⟨ps, hps⟩ : ∃ ps, r.posData = some ps := by
    cases hp : r.posData with
    | none => rw [hp] at k3; cases k3
    | some ps => exact ⟨ps, rfl⟩
  obtain ⟨st', ok, e1, e2, e3, e4, e5⟩ := finish_few (sys := sys) hrnd (d := d) (st := st) (mask := some ⟨m, []⟩) (mask' := some ⟨m', []⟩)
    (j := j) (jd := jd) (S := HasValue hM vM) k2 hout hre (fun r' p1 hs' => by
      obtain ⟨ps', hfs⟩ := few_stored (S := HasValue hM vM) hs' (by rw [p1, hps]; rfl) (fun row col hin => by
        have q1 := stored_iff hs' (by rw [p1, hps]) hin
        have q2 := stored_iff k2 hps (row := row) (col := col) hin
        rw [q1, ← q2]
        exact k4 row col hin)
      exact ⟨r', ps', hfs⟩) ho hf
  refine ⟨st', m', by rw [e, e1], k1, e3, fun h => e4 (e2.2 h), fun h => e5 ?_⟩
  cases ok
  · rfl
  · obtain ⟨i, hi, a⟩ := e2.1 rfl
    rw [h i hi] at a; cases a

/-- The same with a file as output: the file has all cells of the grid. -/
theorem C87_few_file (sys : Sys) {d : Disk} {st : Store} {m : Raster} {hM h : Header} {vM v w : Int → Int → ℚ} (hm : FullMask m hM vM) {j : Job}
    {jd : JobDb} (H : FewInput sys st j jd h v hM vM) (hw : FewCells h v hM vM w)
    (hout : j.outFmt = .sfile) (hre : j.recls = false) {p : Path} {dt core suf : Str} (ho : j.out = dt ++ core ++ '.' :: suf)
    (hn : OutName sys.env (sys.fmt j.type) d p dt core suf)
    (hh : CarriesHeader suf { h with noData := renamedNd j.update h.noData j.nodata.toQ })
    (hv : ∀ row col, h.grid.CellInside row col → CarriesValue (sys.fmt j.type) suf (renamed j.update h.noData j.nodata.toQ (w row col)))
    (hnd : CarriesValue (sys.fmt j.type) suf (renamedNd j.update h.noData j.nodata.toQ)) :
    ∃ (d' : Disk) (m' : Raster), layerJobDb sys false .mask (d, st, some ⟨m, []⟩) (j, jd) = .ok (d', st, some ⟨m', []⟩) ∧ FullMask m' hM vM ∧
      Rewritten d d' (fun q => q = p ++ [core ++ '.' :: suf]) ∧
      ReadsAs d' j.out { h with noData := renamedNd j.update h.noData j.nodata.toQ }
        (fun row col => renamed j.update h.noData j.nodata.toQ (w row col)) := by
  obtain ⟨r, m', e, k1, k2, -, -, -⟩ := few_input (d := d) hm H .mask hw
  obtain ⟨d', e1, e2, e3⟩ := finish_file (sys := sys) (d := d) (st := st) (mask := some ⟨m, []⟩) (mask' := some ⟨m', []⟩)
    (j := j) (jd := jd) (inc := false) k2 hout hre ho hn hh hv hnd
  exact ⟨d', m', by rw [e, e1], k1, e2, e3⟩

end App
end CCGL
