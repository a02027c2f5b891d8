import Verif.Spec.Int32
import Verif.Lemmas.Int32Out
import Verif.Props.SubsetData
/-!
# C93: the 32-bit arithmetic of rasters
-/
namespace CCGL
namespace I32
open Raster

/-- Cell access: on every raster a program gets whose cells an `int` can count, finding, reading and writing a cell computes no `int` out of range, whatever the
arguments, and returns what the model with unbounded integers returns. -/
theorem C93_cell {r : Raster} (hb : Spec.Built r) (hm : r.hdr.rows * r.hdr.cols ≤ 2147483647) (row col lyr : Int) (v : ℚ) :
    getPosition r row col = r.getPosition row col ∧ getValue r row col lyr = r.getValue row col lyr ∧
    setValue r row col v lyr = r.setValue row col v lyr :=
  have h := Sized.of_rinv hb.inv
  ⟨getPosition_eq h hm row col, getValue_eq h hm row col lyr, setValue_eq h hm row col v lyr⟩

/-- One call other than `Reclassify`. -/
theorem C93_call {r : Raster} (hb : Spec.Built r) (hf : Spec.FitsInt r) (op : Op) (ho : Spec.NoReclass op) : step r op = r.step op := by
  have h := Sized.of_rinv hb.inv
  have hN := mul_nonneg h.rows_nn h.cols_nn
  have hl := h.lyrs
  obtain ⟨h2, h3⟩ := hf
  have hm : r.hdr.rows * r.hdr.cols ≤ intMax := by unfold intMax; omega
  cases op with
  | setValue row col v lyr => exact setValue_eq h hm row col v lyr
  | setCalcPositions => show (setCalcPositions r >>= _) = _; rw [setCalcPositions_eq h.rows_nn h.cols_nn (by omega) h2 (fun _ => h3)]; rfl
  | getPositionIdx => show (getPositionIdx r >>= _) = _; rw [getPositionIdx_eq h.rows_nn h.cols_nn (by omega) h2 (fun _ => h3)]; rfl
  | getPositionData => show (getPositionData r >>= _) = _; rw [getPositionData_eq h.rows_nn h.cols_nn (by omega) h2 (fun _ => h3)]; rfl
  | replaceNoData v => rfl
  | reclassify m => exact ho.elim
  | getValue row col lyr => show (getValue r row col lyr >>= _) = _; rw [getValue_eq h hm]; rfl
  | getValueByIndex i lyr => rfl
  | getPosition row col => show (getPosition r row col >>= _) = _; rw [getPosition_eq h hm]; rfl
  | isNoData row col lyr =>
    show (getValue r row col lyr >>= _) = (r.isNoData row col lyr >>= _)
    rw [getValue_eq h hm]
    unfold Raster.isNoData
    cases r.getValue row col lyr <;> rfl

theorem fits_same {r r' : Raster} (h : SameDims r r') (hf : Spec.FitsInt r) : Spec.FitsInt r' := by
  obtain ⟨a, b, c, -⟩ := h
  unfold Spec.FitsInt
  rw [a, b, c]
  exact hf

/-- Histories of calls other than `Reclassify`: with 32-bit arithmetic exactly what happens with unbounded integers. -/
theorem C93_history (ops : List Op) : ∀ {r : Raster}, Spec.Built r → Spec.FitsInt r → (∀ op ∈ ops, Spec.NoReclass op) → run r ops = r.run ops := by
  induction ops with
  | nil => intro r _ _ _; rfl
  | cons op ops ih =>
    intro r hb hf ho
    show (step r op >>= fun r' => run r' ops) = (r.step op >>= fun r' => r'.run ops)
    rw [C93_call hb hf op (ho op (by simp))]
    cases e : r.step op with
    | ok r' =>
      rw [Out.ok_bind, Out.ok_bind]
      exact ih (hb.step op e) (fits_same (SameDims.step op e) hf) (fun op h => ho op (by simp [h]))
    | ub => rfl
    | exn => rfl

theorem lookupI_mem {m : List (Int × ℚ)} {k : Int} {v : ℚ} (h : lookupI m k = some v) : ∃ e ∈ m, e.1 = k := by
  unfold lookupI at h
  cases hf : m.find? (fun e => e.1 = k) with
  | none => rw [hf] at h; cases h
  | some e => exact ⟨e, List.mem_of_find?_eq_some hf, by simpa using List.find?_some hf⟩

theorem passCells_sub (f g : ℚ → Out (Option ℚ)) (h : ∀ x y, g x = .ok y → f x = .ok y) : ∀ (il : List (Int × Int)) {r r' : Raster},
    passCells g r il = .ok r' → passCells f r il = .ok r' := by
  intro il
  induction il with
  | nil => intro r r' e; exact e
  | cons p il ih =>
    intro r r' e
    rw [passCells] at e ⊢
    obtain ⟨x, e1, e⟩ := Out.bind_ok e
    obtain ⟨y, e2, e⟩ := Out.bind_ok e
    rw [e1, Out.ok_bind, h x y e2, Out.ok_bind]
    cases y with
    | none =>
      obtain ⟨r1, e3, e⟩ := Out.bind_ok e
      cases e3
      exact ih e
    | some v =>
      obtain ⟨r1, e3, e⟩ := Out.bind_ok e
      show (r.writeCell p.1 (p.2 + 1) v >>= fun r' => passCells f r' il) = _
      rw [show r.writeCell p.1 (p.2 + 1) v = .ok r1 from e3]
      exact ih e

/-- Any history, `Reclassify` included: a history that ends normally with unbounded integers ends normally, in the same state, with 32-bit arithmetic. -/
theorem C93_history_ok (ops : List Op) : ∀ {r r' : Raster}, Spec.Built r → Spec.FitsInt r → (∀ op ∈ ops, Spec.IntKeys op) → r.run ops = .ok r' →
    run r ops = .ok r' := by
  induction ops with
  | nil => intro r r' _ _ _ e; exact e
  | cons op ops ih =>
    intro r r' hb hf ho e
    obtain ⟨r1, e1, e⟩ := Out.bind_ok (show (r.step op >>= fun r' => r'.run ops) = _ from e)
    have hs : step r op = .ok r1 := by
      by_cases hn : Spec.NoReclass op
      · rw [C93_call hb hf op hn]; exact e1
      · cases op with
        | reclassify m =>
          have hk : ∀ e ∈ m, Spec.IsInt e.1 := ho (.reclassify m) (by simp)
          refine passCells_sub _ _ (fun x y hx => ?_) _ e1
          cases hl : lookupI m (truncQ x) with
          | none => rw [hl] at hx; cases hx
          | some v =>
            obtain ⟨en, hen, hek⟩ := lookupI_mem hl
            have hi := hk en hen
            rw [hek] at hi
            rw [hl] at hx
            rw [chk_ok hi.1 hi.2, Out.ok_bind, hl]
            exact hx
        | _ => exact absurd trivial hn
    show (step r op >>= fun r' => run r' ops) = _
    rw [hs]
    exact ih (hb.step op e1) (fits_same (SameDims.step op e1) hf) (fun op h => ho op (by simp [h])) e

/-- `BuildSubSet`: if moreover every value of the first layer fits into an `int` when truncated. -/
theorem C93_build {r : Raster} (hb : Spec.Built r) (hf : Spec.FitsInt r)
    (hv : ∀ i v, r.getValueByIndex i 1 = .ok v → floatEqual v r.noData = false → Spec.IsInt (truncQ v)) (groups : IMap Int) :
    buildSubSet ⟨r, []⟩ groups = CCGL.buildSubSet ⟨r, []⟩ groups :=
  buildSubSet_eq hb.inv hf.1 (fun _ => hf.2) hv groups

/-- `OutputToMongoDB`. -/
theorem C93_stream {r : Raster} (hb : Spec.Built r) (hf : Spec.FitsInt r) (inc : Bool) : outputStream r inc = r.outputStream inc :=
  outputStream_eq hb hf.1 (fun _ => hf.2) inc

/-- `GetDataLength`. -/
theorem C93_length {r : Raster} (hb : Spec.Built r) (hf : Spec.FitsInt r) : getDataLength r = .ok (r.nCells * r.nLyrs) := by
  have h := Sized.of_rinv hb.inv
  have := h.lyrs
  have := h.cells_nn
  unfold getDataLength
  rw [if_neg (by omega)]
  exact mul_ok (mul_nonneg h.cells_nn (by omega)) (le_trans (mul_le_mul_of_nonneg_right h.cells_le (by omega)) hf.2)

/-- The arrays of one subset (`OutputSubsetToFile`, `OutputSubsetToMongoDB`): the subset `k` built from a raster, possibly with values set since, and any table;
`L` bounds the numbers of layers of the raster, of the table and of the subset. -/
theorem C93_subset {r : Raster} (hb : Spec.Built r) (groups : IMap Int) {rs' b} (e : CCGL.buildSubSet ⟨r, []⟩ groups = .ok (rs', b)) (k : Int) (s s' : Subset)
    (hk : rs'.subs.get k = some s) (hs : Spec.SameCells s s') (L : Int) (hm : r.hdr.rows * r.hdr.cols ≤ 2147483647) (hL : r.hdr.rows * r.hdr.cols * L ≤ 2147483647)
    (recls : IMap (List ℚ)) (h1 : r.nLyrs ≤ L) (h2 : ∀ lr, reclsLyrs recls = some lr → lr ≤ L) (h3 : s'.nLyrs ≤ L) (outOrigin inc : Bool) (dv : ℚ) :
    prepareSubsetData rs'.ras k s' outOrigin inc recls dv = CCGL.prepareSubsetData rs'.ras k s' outOrigin inc recls dv := by
  obtain ⟨hrw, hcl, -, hny, -, -, -, ⟨ls, ps, hC, hok⟩ | hn⟩ := build_cases2 hb e
  · obtain ⟨ho, -⟩ := hok.some k s hk
    exact prepareSubsetData_eq hC (ho.same hs) (fun i hi => groupCells_lt hi) (groupCells_nodup _ _ _ _ _) L (by rw [hrw, hcl]; exact hm)
      (by rw [hrw, hcl]; exact hL) recls (by rw [hny]; exact h1) h2 h3 k outOrigin inc dv
  · rw [hn] at hk; cases hk

/-- The array combined from all subsets, whatever they hold. -/
theorem C93_comb {r : Raster} (hb : Spec.Built r) (hp : r.posIdx.isSome = true) (subs : IMap Subset) (L : Int) (hm : r.hdr.rows * r.hdr.cols ≤ 2147483647)
    (hL : r.hdr.rows * r.hdr.cols * L ≤ 2147483647) (recls : IMap (List ℚ)) (h1 : r.nLyrs ≤ L) (h2 : ∀ lr, reclsLyrs recls = some lr → lr ≤ L)
    (h3 : ∀ n, subsetLyrs subs (decide (recls = [])) = some n → n ≤ L) (outOrigin inc : Bool) (dv : ℚ) :
    prepareComb ⟨r, subs⟩ outOrigin inc recls dv = CCGL.prepareComb ⟨r, subs⟩ outOrigin inc recls dv := by
  have hE : ¬ r.Empty := fun h => by rw [h.pi] at hp; cases hp
  rcases hb.inv with ⟨ls, loc, h⟩ | ⟨_, h⟩
  · cases h with
    | full h => rw [h.pi] at hp; cases hp
    | @comp _ ps h => exact prepareComb_eq (rs := ⟨r, subs⟩) h L hm hL recls h1 h2 h3 outOrigin inc dv
    | empty h _ => exact absurd h hE
  · exact absurd h hE

/-! ## What 32 bits do not hold -/

theorem validCells_all {data : List ℚ} {rows cols : Nat} (hlen : data.length = cols * rows) {nodata : ℚ} (hv : ∀ v ∈ data, floatEqual v nodata = false)
    (dx xll yll : ℚ) : ((Raster.ofArray1 (some data) cols rows nodata dx xll yll).collectValid (gridCells rows cols)) =
      .ok ((gridCells rows cols).map (fun rc => (rc, [data.getD (rc.1 * cols + rc.2).toNat 0]))) := by
  have hF := ofArray1_full data rows cols hlen nodata dx xll yll
  have hmem : ∀ rc ∈ gridCells rows cols, (rc.1 * cols + rc.2).toNat < data.length := by
    intro rc hrc
    obtain ⟨a, b, c, d⟩ := (mem_gridCells _ _ _).1 hrc
    obtain ⟨x, y, z⟩ := idx_lt a b c d
    have : ((data.length : Nat) : Int) = (rows : Int) * cols := by rw [hlen]; push_cast; ring
    omega
  have h := collectValid_ok (Raster.ofArray1 (some data) cols rows nodata dx xll yll) (fun rc => [data.getD (rc.1 * cols + rc.2).toNat 0])
    (gridCells rows cols) (by
      intro rc hrc
      obtain ⟨a, b, c, d⟩ := (mem_gridCells _ _ _).1 hrc
      obtain ⟨x, y, z⟩ := idx_lt a b c d
      have hlt := hmem rc hrc
      have h' := hF.holds.readLayers (rc.1 * cols + rc.2).toNat (by simpa using hlt)
      rw [show (((rc.1 * (cols : Int) + rc.2).toNat : Nat) : Int) = rc.1 * cols + rc.2 by omega] at h'
      show Raster.readLayers _ (rc.1 * (cols : Int) + rc.2) = _
      rw [h', List.getElem_map, List.getD_eq_getElem _ _ hlt])
  rw [h, List.filter_eq_self.2 (by
    intro rc hrc
    have hlt := hmem rc hrc
    show (!floatEqual (data.getD (rc.1 * (cols : Int) + rc.2).toNat 0) nodata) = true
    rw [List.getD_eq_getElem _ _ hlt, hv _ (List.getElem_mem hlt)]
    rfl)]

theorem calc_ub {R : Raster} {vs} (hc : R.collectValid (gridCells R.hdr.rows R.hdr.cols) = .ok vs) (hm : R.hdr.rows * R.hdr.cols ≤ intMax)
    (hp : R.posData = none) (h1 : R.is2d = false) (hn : (vs.length : Int) ≤ intMax) (hbig : intMax < (vs.length : Int) * 2) : calcValidPositions R = .ub := by
  unfold calcValidPositions
  rw [collectValid_eq R hm _ (fun p hp => (mem_gridCells _ _ _).1 hp), hc, Out.ok_bind, chk_nn (by omega) hn, Out.ok_bind, h1, hp]
  have e2 : mul (vs.length : Int) 2 = .ub := chk_ub hbig
  rw [e2]
  rfl

theorem collectValid_calcPos (r : Raster) (l : List (Int × Int)) : Raster.collectValid { r with calcPos := true } l = r.collectValid l := by
  induction l with
  | nil => rfl
  | cons a l ih => rw [Raster.collectValid, Raster.collectValid, ih]; rfl

/-- Between 2^30 and 2^31 cells: such a raster can be constructed, and its cells can be read (C93_cell), but if no cell is NoData then compacting it computes `n_cells_ * 2`
as an `int` and overflows. -/
theorem C93_false_positions (data : List ℚ) (rows cols : Nat) (hlen : data.length = cols * rows) (nodata dx xll yll : ℚ)
    (hv : ∀ v ∈ data, floatEqual v nodata = false) (h1 : 1073741824 ≤ rows * cols) (h2 : rows * cols ≤ 2147483647) :
    ofArray1 (some data) cols rows nodata dx xll yll = .ok (Raster.ofArray1 (some data) cols rows nodata dx xll yll) ∧
    setCalcPositions (Raster.ofArray1 (some data) cols rows nodata dx xll yll) = .ub := by
  have hN : ((rows * cols : Nat) : Int) = (rows : Int) * cols := by push_cast; rfl
  constructor
  · unfold ofArray1
    have hc : (cols : Int) * rows = (rows : Int) * cols := mul_comm _ _
    rw [mul_ok (by omega) (by unfold intMax; omega)]
    rfl
  · have hF := ofArray1_full data rows cols hlen nodata dx xll yll
    have hall := validCells_all hlen hv dx xll yll
    have hlg := gridCells_length' rows cols (by omega) (by omega)
    have e1 : (Raster.ofArray1 (some data) cols rows nodata dx xll yll).hdr.rows = rows := rfl
    have e2 : (Raster.ofArray1 (some data) cols rows nodata dx xll yll).hdr.cols = cols := rfl
    have e3 : (Raster.ofArray1 (some data) cols rows nodata dx xll yll).is2d = false := rfl
    generalize Raster.ofArray1 (some data) cols rows nodata dx xll yll = r at *
    have hub : calcValidPositions { r with calcPos := true } = .ub := by
      refine calc_ub (R := { r with calcPos := true }) (vs := (gridCells rows cols).map (fun rc => (rc, [data.getD (rc.1 * cols + rc.2).toNat 0]))) ?_ ?_ hF.pd e3 ?_ ?_
      · rw [collectValid_calcPos]
        show r.collectValid (gridCells r.hdr.rows r.hdr.cols) = _
        rw [e1, e2]; exact hall
      · show r.hdr.rows * r.hdr.cols ≤ _
        rw [e1, e2]; unfold intMax; omega
      · rw [List.length_map, hlg]; unfold intMax; omega
      · rw [List.length_map, hlg]; unfold intMax; omega
    unfold setCalcPositions
    rw [hF.holds.valid, if_neg (by simp), if_neg (by rw [hF.pd, hF.pi]; simp)]
    unfold calcNoMask
    dsimp only
    rw [if_pos rfl, if_pos (by rw [hF.pd]; rfl), hub]
    rfl

/-- Non-vacuity: a grid of 40000 by 30000 cells holding 7, NoData being -9999. -/
example : (List.replicate (30000 * 40000) (7 : ℚ)).length = 30000 * 40000 ∧ (∀ v ∈ List.replicate (30000 * 40000) (7 : ℚ), floatEqual v (-9999) = false) ∧
    1073741824 ≤ 40000 * 30000 ∧ 40000 * 30000 ≤ 2147483647 := by
  refine ⟨List.length_replicate, fun v hv => ?_, by norm_num, by norm_num⟩
  rw [List.eq_of_mem_replicate hv]
  decide +kernel

/-- A compacted raster of several layers whose full-size array has more than 2^31-1 values: storing it in the database with its NoData cells computes the length as an `int`
and overflows, however few valid cells there are. -/
theorem C93_false_stream {r : Raster} (hb : Spec.Built r) (hd : r.is2d = true) (hp : r.posData.isSome = true) (hm : r.hdr.rows * r.hdr.cols ≤ 2147483647)
    (hbig : 2147483647 < r.nLyrs * (r.hdr.rows * r.hdr.cols)) : outputStream r true = .ub := by
  have hS := Sized.of_rinv hb.inv
  have hN := mul_nonneg hS.rows_nn hS.cols_nn
  have e1' : getPositionData r = .ok (r, r.nCells, r.posData) := by
    unfold getPositionData; rw [if_pos hp]
  unfold outputStream
  rw [e1', if_pos (by simp [hp])]
  simp only [Out.ok_bind, Out.pure_eq, Bool.not_true, Bool.and_false, Bool.false_eq_true, if_false, if_true]
  rw [mul_ok hN hm, Out.ok_bind, if_pos hd]
  have : mul r.nLyrs (r.hdr.rows * r.hdr.cols) = .ub := chk_ub hbig
  rw [this]
  rfl

/-- A grid with two layers, of which only the last cell is valid. -/
def exBigData (N : Nat) : List (List ℚ) := List.replicate N [-9999, -9999] ++ [[7, 8]]
def exBig (N rows cols : Nat) : Raster := Raster.ofArray2 (some (exBigData N)) cols rows (2 : Nat) (-9999) 10 0 0

theorem exBigData_length (N : Nat) : (exBigData N).length = N + 1 := by
  unfold exBigData; rw [List.length_append, List.length_replicate]; rfl

theorem exBigData_lyrs (N : Nat) : ∀ c ∈ exBigData N, c.length = 2 := by
  intro c hc
  unfold exBigData at hc
  rcases List.mem_append.1 hc with h | h
  · rw [List.eq_of_mem_replicate h]; rfl
  · rw [List.mem_singleton.1 h]; rfl

theorem exBig_nd : floatEqual (([-9999, -9999] : List ℚ).headD 0) (-9999) = true := by decide +kernel

theorem exBig_valid {N rows cols : Nat} (hN : N + 1 = cols * rows) {rc : Int × Int} (h : rc ∈ (exBig N rows cols).validCells (exBigData N)) : rc.1 * cols + rc.2 = N := by
  obtain ⟨h1, h2⟩ := List.mem_filter.1 h
  obtain ⟨a, b, c, d⟩ := (mem_gridCells _ _ _).1 h1
  obtain ⟨x, y, z⟩ := idx_lt a b c d
  change 0 ≤ rc.1 * (cols : Int) + rc.2 at y
  change rc.1 * (cols : Int) + rc.2 < rows * cols at z
  have hN' : (N : Int) + 1 = rows * cols := by rw [mul_comm]; exact_mod_cast hN
  by_contra hne
  have hlt : (rc.1 * cols + rc.2).toNat < N := by omega
  have : (exBigData N).getD (rc.1 * cols + rc.2).toNat [] = [-9999, -9999] := by
    unfold exBigData
    rw [List.getD_append _ _ _ _ (by rw [List.length_replicate]; exact hlt), List.getD_eq_getElem _ _ (by rw [List.length_replicate]; exact hlt), List.getElem_replicate]
  change (!floatEqual (((exBigData N).getD (rc.1 * (cols : Int) + rc.2).toNat []).headD 0) (-9999)) = true at h2
  rw [this, exBig_nd] at h2
  cases h2

/-- Compacting that raster works with 32 bits, whatever its size, and the result meets the hypotheses of C93_false_stream once the grid is large enough. -/
theorem C93_reached (N rows cols : Nat) (hN : N + 1 = cols * rows) (hm : rows * cols ≤ 2147483647) :
    ∃ r', calcValidPositions (exBig N rows cols) = .ok r' ∧ Spec.Built r' ∧ r'.is2d = true ∧ r'.posData.isSome = true ∧ r'.hdr.rows = rows ∧ r'.hdr.cols = cols ∧
      r'.nLyrs = 2 ∧ r'.nCells ≤ 1 := by
  have hF : (exBig N rows cols).Full (exBigData N) :=
    ofArray2_full (exBigData N) rows cols 2 (by rw [exBigData_length]; exact hN) (by omega) (exBigData_lyrs N) (-9999) 10 0 0
  have hbF : Spec.Built (exBig N rows cols) := Spec.Built.grid2 (exBigData N) rows cols 2 (-9999) 10 0 0 (by rw [exBigData_length]; exact hN) (by omega) (exBigData_lyrs N)
  have hlen : ((exBig N rows cols).validCells (exBigData N)).length ≤ 1 := by
    by_contra hgt
    have hs := validCells_sorted (exBig N rows cols) (exBigData N) hF.rows_nn hF.cols_nn
    have h0 := exBig_valid hN (List.getElem_mem (show 0 < ((exBig N rows cols).validCells (exBigData N)).length by omega))
    have h1 := exBig_valid hN (List.getElem_mem (show 1 < ((exBig N rows cols).validCells (exBigData N)).length by omega))
    have := List.pairwise_iff_getElem.1 hs 0 1 (by rw [List.length_map]; omega) (by rw [List.length_map]; omega) (by omega)
    rw [List.getElem_map, List.getElem_map] at this
    change _ * (cols : Int) + _ < _ * (cols : Int) + _ at this
    omega
  obtain ⟨r', e, hh, -, hny, h2d, -, -, hnc, hcase⟩ := hF.calc
  have hmm : (rows : Int) * cols ≤ 2147483647 := by exact_mod_cast hm
  have hI : calcValidPositions (exBig N rows cols) = (exBig N rows cols).calcValidPositions := by
    refine calcValidPositions_eq' hF.rows_nn hF.cols_nn (by show (0 : Int) ≤ (2 : Nat); omega) hmm (fun vs hc => ?_)
    have hvs : (vs.length : Int) ≤ 1 := by
      have hcv := e
      unfold Raster.calcValidPositions at hcv
      rw [hc, Out.ok_bind] at hcv
      have : r'.nCells = vs.length := by
        by_cases hq : ((exBig N rows cols).is2d && decide ((exBig N rows cols).nLyrs ≤ 0) && decide ((vs.length : Int) > 0)) = true
        · rw [if_pos hq] at hcv; cases hcv
        · rw [if_neg hq] at hcv
          obtain ⟨pd, _, hcv⟩ := Out.bind_ok hcv
          obtain ⟨pi, _, hcv⟩ := Out.bind_ok hcv
          cases hcv
          rfl
      rw [← this, hnc]; omega
    refine ⟨by unfold intMax; omega, fun _ => ?_⟩
    show (vs.length : Int) * ((2 : Nat) : Int) ≤ intMax
    unfold intMax; omega
  have hp : r'.posData.isSome = true := by
    rcases hcase with ⟨_, h⟩ | h
    · rw [h.pd]; rfl
    · rw [h.pd]; rfl
  refine ⟨r', by rw [hI]; exact e, .step .getPositionData hbF ?_, by rw [h2d]; rfl, hp, by rw [hh]; rfl, by rw [hh]; rfl, by rw [hny]; rfl, ?_⟩
  · show ((exBig N rows cols).getPositionData >>= fun x => (Out.ok x.1 : Out Raster)) = _
    unfold Raster.getPositionData
    rw [hF.pd, if_neg (by simp), hF.holds.valid, if_neg (by simp), e]
    rfl
  · rw [hnc]; omega

/-- Non-vacuity of C93_false_stream: 40000 by 40000 cells, one of them valid. -/
example : ∃ r', calcValidPositions (exBig 1599999999 40000 40000) = .ok r' ∧ r'.nCells ≤ 1 ∧ outputStream r' true = .ub := by
  obtain ⟨r', e, hb, hd, hp, h1, h2, h3, h4⟩ := C93_reached 1599999999 40000 40000 (by norm_num) (by norm_num)
  exact ⟨r', e, h4, C93_false_stream hb hd hp (by rw [h1, h2]; norm_num) (by rw [h1, h2, h3]; norm_num)⟩

/-- A value of 2^31 or more in the first layer: its conversion to the number of a subset is undefined. -/
theorem C93_false_value (groups : IMap Int) (v : ℚ) (h : 2147483648 ≤ v) : groupOf groups v = .ub := by
  have : 2147483648 ≤ truncQ v := by
    unfold truncQ
    rw [if_pos (by linarith)]
    exact Int.le_floor.2 (by exact_mod_cast h)
  unfold groupOf
  rw [chk_ub (by unfold intMax; omega)]
  rfl

/-- Non-vacuity of C93_cell, C93_history, C93_build, C93_stream, C93_length: a grid of 3 by 2 cells, its history and its subsets. -/
def exI : Raster := Raster.ofArray1 (some [1, -9999, 3, 3, 1, -9999]) 2 3 (-9999) 10 0 0

example : Spec.Built exI ∧ Spec.FitsInt exI ∧ (∀ op ∈ [Op.setCalcPositions, .setValue 1 0 5 1, .reclassify [(1, 4), (3, 6), (5, 2)]], Spec.IntKeys op) ∧
    (exI.run [.setCalcPositions, .setValue 1 0 5 1, .reclassify [(1, 4), (3, 6), (5, 2)]] >>= fun r => r.getValue 1 0 1) = .ok 2 := by
  refine ⟨Spec.Built.grid1 _ 3 2 _ _ _ _ rfl, ?_, ?_, by decide +kernel⟩
  · show (3 : Int) * 2 * 2 ≤ 2147483647 ∧ (3 : Int) * 2 * 1 ≤ 2147483647
    omega
  · intro op hop
    simp only [List.mem_cons, List.not_mem_nil, or_false] at hop
    rcases hop with rfl | rfl | rfl
    · trivial
    · trivial
    · intro e he
      simp only [List.mem_cons, List.not_mem_nil, or_false] at he
      unfold Spec.IsInt
      rcases he with rfl | rfl | rfl <;> simp

/-- Non-vacuity of C93_subset and C93_comb: the subset of the cells holding 3. -/
example : (CCGL.buildSubSet ⟨exI, []⟩ [] >>= fun x => match x.1.subs.get 3 with
    | some s => do
      let a ← prepareSubsetData x.1.ras 3 s true true [] (-9999)
      match a with
      | some (some d, n, m) => return (s.nCells, x.1.ras.posIdx.isSome, d, n, m)
      | _ => .ub
    | none => .ub) = .ok (2, true, [3, 3], 2, 1) := by decide +kernel

end I32
end CCGL
