import Verif.Lemmas.GfsMask
/-!
# C71: reading a stored raster with a mask
-/
namespace CCGL
open Raster Spec Gfs

namespace Gfs

/-- The number used by the model is what the statistics say. -/
theorem C71_validNumber {m : Raster} (hb : Built m) (hv : m.validData = true) (hl : 1 ≤ m.nLyrs) (s : Schedule) :
    ∃ o', (StatObj.fresh m).getStatistics s "VALID_CELLNUMBER".toList 1 = .ok (o', some ((validNumber m : Int) : ℝ)) := by
  obtain ⟨o', d, e, _, h⟩ := (fresh_sinv hb).query_ok s "VALID_CELLNUMBER".toList 1
  have hup : getUpper "VALID_CELLNUMBER".toList = "VALID_CELLNUMBER".toList := by decide
  have ha : Answerable (StatObj.fresh m).r "VALID_CELLNUMBER".toList 1 :=
    ⟨hv, le_rfl, hl, by unfold StatName; rw [hup]; simp only [List.mem_cons, true_or]⟩
  rcases h with ⟨_, h1, _⟩ | ⟨h1, _⟩
  · refine ⟨o', ?_⟩
    rw [e]
    congr 2
    rw [h1.num hup]
    congr 1
    unfold validNumber
    have hvl := (m.validLayer_iff 1).2 ⟨le_rfl, hl⟩
    rw [hv, hvl]
    simp only [Bool.not_true, Bool.or_false, Bool.false_eq_true, if_false, Option.getD_none]
    have e1 : validValues m.noData (layerValues m 1) = (if m.is2d then (m.raster2.getD []).map (fun c => c.getD 0 0) else m.raster1.getD []).filter
        (fun v => !floatEqual v m.noData) := by
      unfold validValues layerValues column
      congr 1
      funext v
      rw [floatEqual_valid, Bool.not_not]
    show ((validValues m.noData (layerValues m 1)).length : ℝ) = _
    rw [e1]
    push_cast
    rfl
  · exact absurd ha h1

theorem not_number_FALSE (x : DVal) : ¬ NumText "FALSE".toList x := by
  intro h
  obtain ⟨c, r, e, hc⟩ := num_head h
  injection e with e1 e2
  subst e1
  rcases hc with hc | hc | ⟨hc, _⟩
  · revert hc; decide
  · have := sameLetter_lower hc (by decide) (by decide); revert this; decide
  · have := sameLetter_lower hc (by decide) (by decide); revert this; decide

/-- Storing a raster and reading its file. -/
theorem store_read {rnd : ℚ → ℚ} (hrnd : ∀ v, Representable .float v → rnd v = v) {T O T' : RDT} {rm : Nat → Bool} {att : Nat → Attempt}
    {st : Store} {r r1 : Raster} {H : Header} {cells : List ℚ} {own opts : Opts} {core name file ty : Str} {inc : Bool} {len : Int}
    (e1 : r.outputStream inc = .ok (StreamOut.mk r1 H (some cells) len)) (elen : len = cells.length)
    (hfile : file = if name = [] then core else name) (hs : StorableHeader H)
    (hg : GoodKey ⟨file, outOpts T own opts inc⟩) (hty : ("DATATYPE_OUT".toList, ty) ∈ outOpts T own opts inc)
    (hO : stringToRdt ty = O) (hTO : StorableAs T O)
    (hv : ∀ v ∈ cells, Representable T v ∧ Representable O v ∧ Representable T' v) (hlen : (cells.length : Int) = H.cellsnum * H.layers)
    (hrm : ∀ i, rm i = true) (hatt : ∀ i, CleanAttempt (att i)) :
    ∃ st' ok, outputToMongo rnd T rm att st r own core name opts inc = .ok (r1, outOpts T own opts inc, st', ok) ∧
      (ok = true ↔ ∃ i, i < 4 ∧ (att i).reported = true) ∧
      (ok = true → ∀ ropts, GoodKey ⟨file, inOpts ropts⟩ → (∀ k v, (k, v) ∈ inOpts ropts → (k, v) ∈ outOpts T own opts inc) →
        (∀ f ∈ st, Has f ⟨file, inOpts ropts⟩ → Has f ⟨file, outOpts T own opts inc⟩) →
        ∀ ok1 ok2 : Nat → Bool, (∃ i, i < 5 ∧ ok1 i = true) → (∃ i, i < 5 ∧ ok2 i = true) →
        ∃ hm sm, readGridfs rnd T' ok1 true ok2 st' file initialHeader initialStr (inOpts ropts) = .ok (some (cells, hm, sm)) ∧
          HeaderIs hm H ∧ sm kIncNodata = some (if inc then "TRUE".toList else "FALSE".toList)) := by
  have hwt : withType T (outOpts T own opts inc) = outOpts T own opts inc := by
    unfold withType; rw [if_pos ⟨ty, hty⟩]
  obtain ⟨st', ok, n, w1, w2, w3⟩ := C28_file (T := T) (O := O) (T' := T') (rm := rm) (att := att) (st := st) (name := file)
    (h := H) (cells := cells) (opts := outOpts T own opts inc) (ty := ty) hrnd
    (by rw [hwt]; exact hg) hs (by rw [hwt]; exact hty) hO hTO hv hlen hrm hatt
  refine ⟨st', ok, ?_, w2, ?_⟩
  · unfold outputToMongo
    rw [e1, Out.ok_bind]
    dsimp only
    rw [← hfile, elen, w1, Out.ok_bind]
    rfl
  · intro hok ropts hgr hsub hst ok1 ok2 hok1 hok2
    rw [hwt] at w3
    obtain ⟨hm, sm, q1, q2, q3⟩ := w3 hok ⟨file, inOpts ropts⟩ hgr rfl hsub hst ok1 ok2 hok1 hok2
    have hmem : (kIncNodata, if inc then "TRUE".toList else "FALSE".toList) ∈ outOpts T own opts inc := by
      unfold outOpts
      exact set_mem _ _ _
    obtain ⟨out, o1, _, o3⟩ := q3 _ _ hmem
    refine ⟨hm, sm, q1, q2, ?_⟩
    rw [o1, o3]
    cases inc
    · exact not_number_FALSE
    · exact not_number_TRUE

/-! ## Files with all cells -/

/-- The object before masking. -/
theorem read_mask_grid {rnd : ℚ → ℚ} {T : RDT} {ok1 ok2 : Nat → Bool} {st : Store} {name : Str} {calcPos ume : Bool} {dflt : ℚ} {opts : Opts}
    {cells : List ℚ} {hm : HMap} {sm : SMap} {H : Header} {mask : Raster}
    (hread : readGridfs rnd T ok1 true ok2 st name initialHeader initialStr (inOpts opts) = .ok (some (cells, hm, sm)))
    (hh : HeaderIs hm H) (hs : StorableHeader H) (hinc : sm kIncNodata = some "TRUE".toList)
    (hlen : (cells.length : Int) = H.cellsnum * H.layers) (hn : H.cellsnum = H.rows * H.cols) (hnd : conv rnd .double T H.noData = .ok H.noData)
    (hdir : calcPos = true → ume = true → validNumber mask ≠ H.cellsnum) :
    ∃ fr : Raster, ReadGrid fr ∧ fr.Full (rowsOf cells fr.hdr.cellsnum.toNat fr.hdr.layers.toNat) ∧ fr.hdr = H ∧ fr.noData = H.noData ∧
      fr.nLyrs = H.layers ∧ fr.calcPos = calcPos ∧ fr.useMaskExt = ume ∧ fr.dflt = checkDefault dflt H.noData ∧
      readFromMongoMask rnd T ok1 true ok2 st name calcPos mask ume dflt opts =
        (maskRaster fr mask >>= fun res => .ok (if res.code ≥ 0 then some res.ras else none, res.mask)) := by
  have hmul : mulInt H.rows H.cols = .ok H.cellsnum := by
    unfold mulInt
    have := hs.cellsnum
    rw [← hn, if_pos ⟨by omega, by omega⟩]
  have hL := hs.layers
  have hN := hs.cellsnum
  have hR := hs.rows
  have hC := hs.cols
  have hR' : 0 < H.rows := by
    rcases lt_or_eq_of_le hR.1 with h | h
    · exact h
    · rw [hn, ← h] at hN; simp at hN
  have hC' : 0 < H.cols := by
    rcases lt_or_eq_of_le hC.1 with h | h
    · exact h
    · rw [hn, ← h] at hN; simp at hN
  have hrl : ((rowsOf cells H.cellsnum.toNat H.layers.toNat).length : Int) = H.rows * H.cols := by
    unfold rowsOf; rw [List.length_map, List.length_range, ← hn]; omega
  have hrow : ∀ c ∈ rowsOf cells H.cellsnum.toNat H.layers.toNat, (c.length : Int) = H.layers := by
    intro c hc
    unfold rowsOf at hc
    obtain ⟨i, _, rfl⟩ := List.mem_map.1 hc
    rw [List.length_map, List.length_range]; omega
  have hcond : ((calcPos || decide (H.cellsnum ≠ H.cellsnum)) && ume && decide (H.cellsnum = validNumber mask)) = false := by
    cases hcp : calcPos
    · simp
    · cases hum : ume
      · simp
      · have := hdir hcp hum
        simp only [ne_eq, not_true_eq_false, decide_false, Bool.or_false, Bool.true_and, decide_eq_false_iff_not]
        exact fun h => this h.symm
  have d1 : (!stringMatch ((some "TRUE".toList).getD []) "FALSE".toList) = true := by decide
  by_cases h1 : H.layers = 1
  · have hl1 : (cells.length : Int) = H.rows * H.cols := by rw [hlen, h1, mul_one, hn]
    refine ⟨ofStore1 H cells calcPos ume dflt, .store1 _ _ _ _ _ hR' hC' hl1, ?_, rfl, rfl, ?_, rfl, rfl, rfl, ?_⟩
    · have eHd : (ofStore1 H cells calcPos ume dflt).hdr = H := rfl
      rw [eHd]
      refine ⟨⟨le_rfl, ?_, ?_⟩, hR.1, hC.1, hrl, rfl, rfl, rfl⟩
      · intro c hc
        rw [hrow c hc, h1]; rfl
      · show (1 : Int) = 1 ∧ some cells = _
        refine ⟨rfl, ?_⟩
        have e : H.cellsnum.toNat = cells.length := by rw [h1, mul_one] at hlen; omega
        rw [h1, e]
        exact congrArg some rowsOf_one.symm
    · exact h1.symm
    · unfold readFromMongoMask
      rw [hread, Out.ok_bind]
      dsimp only
      rw [headerOf_eq hh hs, Out.ok_bind, hinc, hmul, Out.ok_bind, hnd, Out.ok_bind, d1, hcond]
      simp only [Bool.true_and, ne_eq, not_true_eq_false, decide_false, Bool.false_eq_true, if_false, Bool.not_true, h1, if_true, Out.ok_bind,
        Bool.or_false]
      unfold ofStore1 ofFile
      rw [hn]
      rfl
  · refine ⟨ofStore H (rowsOf cells H.cellsnum.toNat H.layers.toNat) calcPos ume dflt, .store _ _ _ _ _ hR' hC' (by omega) hrl hrow, ?_, rfl, rfl, rfl,
      rfl, rfl, rfl, ?_⟩
    · exact ⟨⟨hL.1, hrow, rfl⟩, hR.1, hC.1, hrl, rfl, rfl, rfl⟩
    · unfold readFromMongoMask
      rw [hread, Out.ok_bind]
      dsimp only
      rw [headerOf_eq hh hs, Out.ok_bind, hinc, hmul, Out.ok_bind, hnd, Out.ok_bind, d1, hcond]
      simp only [Bool.true_and, ne_eq, not_true_eq_false, decide_false, Bool.false_eq_true, if_false, Bool.not_true, h1, not_false_eq_true,
        decide_true, interleaved_eq hN.1.le hL.1.le hlen, Out.ok_bind, Out.pure_eq, Bool.or_false]
      unfold ofStore
      rw [← hn]

/-- The cells of a stream, as `GetValue` of a full raster made of them. -/
theorem full_view {r fr : Raster} {cells : List ℚ} (hR : 0 ≤ r.hdr.cols) (hL : 0 < r.nLyrs)
    (f1 : fr.Full (rowsOf cells fr.hdr.cellsnum.toNat fr.hdr.layers.toNat)) (f2r : fr.hdr.rows = r.hdr.rows) (f2c : fr.hdr.cols = r.hdr.cols)
    (f4 : fr.nLyrs = r.nLyrs) (hl : fr.hdr.layers = r.nLyrs)
    (hcell : ∀ (row col : Int) (k : Nat), 0 ≤ row → row < r.hdr.rows → 0 ≤ col → col < r.hdr.cols → (k : Int) < r.nLyrs →
        ∃ v, r.getValue row col ((k : Int) + 1) = .ok v ∧ cells[((row * r.hdr.cols + col) * r.nLyrs + k).toNat]? = some v) :
    ∀ row col lyr, 0 ≤ row → row < r.hdr.rows → 0 ≤ col → col < r.hdr.cols → 1 ≤ lyr → lyr ≤ r.nLyrs →
        fr.getValue row col lyr = r.getValue row col lyr := by
  intro row col lyr h1 h2 h3 h4 h5 h6
  obtain ⟨hi, ev⟩ := f1.getValue row col lyr (by rw [f2r, f2c]; exact ⟨h1, h2, h3, h4⟩) (by rw [f4]; exact ⟨h5, h6⟩)
  obtain ⟨v, g1, g2⟩ := hcell row col (lyr - 1).toNat h1 h2 h3 h4 (by omega)
  have e2 : (((lyr - 1).toNat : Nat) : Int) + 1 = lyr := by omega
  rw [e2] at g1
  have hk : (lyr - 1).toNat < fr.hdr.layers.toNat := by omega
  rw [ev, g1, rowsOf_get _ hi _ hk]
  have e3 : (row * fr.hdr.cols + col).toNat * fr.hdr.layers.toNat + (lyr - 1).toNat =
      ((row * r.hdr.cols + col) * r.nLyrs + ((lyr - 1).toNat : Int)).toNat := by
    rw [hl, f2c]
    have p0 : 0 ≤ row * r.hdr.cols + col := by have := Int.mul_nonneg h1 hR; omega
    obtain ⟨P, hP⟩ := Int.eq_ofNat_of_zero_le p0
    obtain ⟨L, hLe⟩ := Int.eq_ofNat_of_zero_le hL.le
    rw [hP, hLe]
    simp only [Int.toNat_natCast]
    rw [← Nat.cast_mul, ← Nat.cast_add, Int.toNat_natCast]
  rw [e3, List.getD_eq_getElem?_getD, g2]
  rfl

/-- Every number of the stream is a value of the raster. -/
theorem stream_cell {r : Raster} {cells : List ℚ} (hC : 0 < r.hdr.cols) (hL : 0 < r.nLyrs)
    (hlen : (cells.length : Int) = r.nLyrs * (r.hdr.rows * r.hdr.cols))
    (hcell : ∀ (row col : Int) (k : Nat), 0 ≤ row → row < r.hdr.rows → 0 ≤ col → col < r.hdr.cols → (k : Int) < r.nLyrs →
        ∃ v, r.getValue row col ((k : Int) + 1) = .ok v ∧ cells[((row * r.hdr.cols + col) * r.nLyrs + k).toNat]? = some v) :
    ∀ v ∈ cells, ∃ row col lyr, 0 ≤ row ∧ row < r.hdr.rows ∧ 0 ≤ col ∧ col < r.hdr.cols ∧ 1 ≤ lyr ∧ lyr ≤ r.nLyrs ∧
      r.getValue row col lyr = .ok v := by
  intro v hvm
  obtain ⟨i, hi, rfl⟩ := List.getElem_of_mem hvm
  have hiN : (i : Int) < r.nLyrs * (r.hdr.rows * r.hdr.cols) := by rw [← hlen]; exact_mod_cast hi
  have a1 : (i : Int) / r.nLyrs < r.hdr.rows * r.hdr.cols := by
    apply Int.ediv_lt_of_lt_mul hL
    rw [mul_comm]; exact hiN
  have a0 : 0 ≤ (i : Int) / r.nLyrs := Int.ediv_nonneg (by omega) hL.le
  have b1 : (i : Int) / r.nLyrs / r.hdr.cols < r.hdr.rows := Int.ediv_lt_of_lt_mul hC a1
  have b0 : 0 ≤ (i : Int) / r.nLyrs / r.hdr.cols := Int.ediv_nonneg a0 hC.le
  have c0 := Int.emod_nonneg ((i : Int) / r.nLyrs) (by omega : r.hdr.cols ≠ 0)
  have c1 := Int.emod_lt_of_pos ((i : Int) / r.nLyrs) hC
  have d0 := Int.emod_nonneg (i : Int) (by omega : r.nLyrs ≠ 0)
  have d1 := Int.emod_lt_of_pos (i : Int) hL
  obtain ⟨k, hk⟩ := Int.eq_ofNat_of_zero_le d0
  obtain ⟨v, g1, g2⟩ := hcell _ _ k b0 b1 c0 c1 (by omega)
  have e : (((i : Int) / r.nLyrs / r.hdr.cols * r.hdr.cols + (i : Int) / r.nLyrs % r.hdr.cols) * r.nLyrs + k) = i := by
    rw [Int.ediv_mul_add_emod, ← hk, Int.ediv_mul_add_emod]
  rw [e, Int.toNat_natCast, List.getElem?_eq_getElem hi] at g2
  injection g2 with g2
  rw [g2]
  exact ⟨_, _, _, b0, b1, c0, c1, by omega, by omega, g1⟩

/-- Two rasters that show the same. -/
structure SameView (a b : Raster) : Prop where
  grid : a.hdr.grid = b.hdr.grid
  shows' : ∀ x y lyr v, Shows a x y lyr v ↔ Shows b x y lyr v

theorem sameView {a b : Raster} (hr : a.hdr.grid = b.hdr.grid)
    (hn : a.noData = b.noData) (hl : a.nLyrs = b.nLyrs)
    (hv : ∀ row col lyr, 0 ≤ row → row < b.hdr.rows → 0 ≤ col → col < b.hdr.cols → 1 ≤ lyr → lyr ≤ b.nLyrs →
      a.getValue row col lyr = b.getValue row col lyr) : SameView a b := by
  refine ⟨hr, ?_⟩
  intro x y lyr v
  have key : ∀ row col, b.hdr.grid.CellInside row col → a.getValue row col lyr = b.getValue row col lyr := by
    intro row col hin
    have hin' : 0 ≤ row ∧ row < b.hdr.rows ∧ 0 ≤ col ∧ col < b.hdr.cols := hin
    by_cases h : 1 ≤ lyr ∧ lyr ≤ b.nLyrs
    · exact hv row col lyr hin'.1 hin'.2.1 hin'.2.2.1 hin'.2.2.2 h.1 h.2
    · rw [getValue_outside a row col lyr (.inr (by rw [hl]; exact h)), getValue_outside b row col lyr (.inr h), hn]
  unfold Shows
  rw [hr, hn]
  constructor
  · rintro ⟨row, col, h1, h2, h3, h4⟩
    exact ⟨row, col, h1, h2, by rw [← key row col h1]; exact h3, h4⟩
  · rintro ⟨row, col, h1, h2, h3, h4⟩
    exact ⟨row, col, h1, h2, by rw [key row col h1]; exact h3, h4⟩

theorem SameView.valid {a b : Raster} (h : SameView a b) (x y : ℚ) : ValidAt a x y ↔ ValidAt b x y := by
  unfold ValidAt
  simp only [h.shows']

theorem SameView.matched {a b : Raster} (h : SameView a b) (m : Raster) (x y : ℚ) : Matched a m x y ↔ Matched b m x y := by
  unfold Matched
  rw [h.valid]

theorem SameView.inRow {a b : Raster} (h : SameView a b) (m : Raster) (g : Spec.Grid) (i : Int) : MatchedInRow a m g i ↔ MatchedInRow b m g i := by
  unfold MatchedInRow
  simp only [h.matched]

theorem SameView.inCol {a b : Raster} (h : SameView a b) (m : Raster) (g : Spec.Grid) (i : Int) : MatchedInCol a m g i ↔ MatchedInCol b m g i := by
  unfold MatchedInCol
  simp only [h.matched]

theorem SameView.borders {a b : Raster} (h : SameView a b) (m : Raster) (g : Spec.Grid) : ReachesBorders a m g ↔ ReachesBorders b m g := by
  unfold ReachesBorders
  simp only [h.inRow, h.inCol]

theorem SameView.covers {a b : Raster} (h : SameView a b) (x y : ℚ) : Covers a x y ↔ Covers b x y := by
  unfold Covers
  rw [h.grid]

theorem SameView.right {a b mask r' : Raster} (h : SameView a b) (hd : a.dflt = b.dflt) (hm : MaskedRight a mask r') : MaskedRight b mask r' := by
  refine ⟨?_, ?_⟩
  · intro x y lyr v hs
    obtain ⟨h1, h2⟩ := hm.only x y lyr v hs
    refine ⟨h1, ?_⟩
    rw [h.shows', h.covers, hd] at h2
    simpa only [h.shows'] using h2
  · intro x y lyr v h1 h2 h3
    exact hm.all x y lyr v h1 ((h.valid x y).2 h2) ((h.shows' x y lyr v).2 h3)

/-- C71 (grids): a raster stored with all its cells and read with a mask is the masked raster: it shows
a value exactly at the valid cells of the mask on the raster (own values, or the default value, see C17), and all position
lookups agree; `use_mask_ext` gives the extent of the mask. If no valid cell of the mask lies on the raster the
result is false. Exempt is the combination (`calc_pos`, `use_mask_ext`, as many valid cells in the mask as cells in the
raster) of `C71_direct_partial`; the conditions on the overlap are those of C17. -/
theorem C71_grid_partial {rnd : ℚ → ℚ} (hrnd : ∀ v, Representable .float v → rnd v = v) {T O T' : RDT} {rm : Nat → Bool} {att : Nat → Attempt}
    {st : Store} {r : Raster} {own opts : Opts} {core name file ty : Str} (hb : Built r) (hc : HasCells r)
    (hfile : file = if name = [] then core else name)
    (hs : StorableHeader { r.hdr with cellsnum := r.hdr.rows * r.hdr.cols })
    (hg : GoodKey ⟨file, outOpts T own opts true⟩) (hty : ("DATATYPE_OUT".toList, ty) ∈ outOpts T own opts true)
    (hO : stringToRdt ty = O) (hTO : StorableAs T O)
    (hv : ∀ row col lyr v, 0 ≤ row → row < r.hdr.rows → 0 ≤ col → col < r.hdr.cols → 1 ≤ lyr → lyr ≤ r.nLyrs →
      r.getValue row col lyr = .ok v → Representable T v ∧ Representable O v ∧ Representable T' v)
    (hnd : Representable .double r.noData ∧ Representable T' r.noData)
    (hrm : ∀ i, rm i = true) (hatt : ∀ i, CleanAttempt (att i))
    {mask : Raster} (hm : Built mask) (hcl : CleanMask mask) (hgr : CommonGrid r.hdr mask.hdr) (calcPos useMaskExt : Bool) (dflt : ℚ)
    (hdir : calcPos = true → useMaskExt = true → validNumber mask ≠ r.hdr.rows * r.hdr.cols)
    (hov : ¬ (useMaskExt = true ∧ calcPos = false) → ∃ x y, Matched r mask x y)
    (hb1 : useMaskExt = true → calcPos = true → (∀ x y, ValidAt mask x y → ValidAt r x y) ∨
      (MatchedInRow r mask mask.hdr.grid 0 ∧ MatchedInCol r mask mask.hdr.grid 0))
    (hb2 : useMaskExt = false → calcPos = false → ReachesBorders r mask mask.hdr.grid ∨ ¬ ReachesBorders r mask r.hdr.grid) :
    ∃ st' ok, outputToMongo rnd T rm att st r own core name opts true = .ok (r, outOpts T own opts true, st', ok) ∧
      (ok = true ↔ ∃ i, i < 4 ∧ (att i).reported = true) ∧
      (ok = true → ∀ ropts, GoodKey ⟨file, inOpts ropts⟩ → (∀ k v, (k, v) ∈ inOpts ropts → (k, v) ∈ outOpts T own opts true) →
        (∀ f ∈ st, Has f ⟨file, inOpts ropts⟩ → Has f ⟨file, outOpts T own opts true⟩) →
        ∀ ok1 ok2 : Nat → Bool, (∃ i, i < 5 ∧ ok1 i = true) → (∃ i, i < 5 ∧ ok2 i = true) →
        ∃ x m', readFromMongoMask rnd T' ok1 true ok2 st' file calcPos mask useMaskExt dflt ropts = .ok (x, m') ∧
          ((x = none ∧ ∀ x y, ValidAt mask x y → ¬ Covers r x y) ∨
           ∃ r', x = some r' ∧ MaskedRight { r with dflt := checkDefault dflt r.noData } mask r' ∧ PositionsAgree r' ∧
            (useMaskExt = true → r'.hdr.grid = mask.hdr.grid))) := by
  obtain ⟨cells, e1, hlen, hcell⟩ := C10_stream hb hc
  obtain ⟨hly, hndh, -⟩ := hb.hdrOk
  have hN : 0 < r.hdr.rows * r.hdr.cols := hs.cellsnum.1
  have hL : 0 < r.nLyrs := by have : 0 < r.hdr.layers := hs.layers.1; omega
  have hC : 0 ≤ r.hdr.cols := hs.cols.1
  have hCpos : 0 < r.hdr.cols := by
    rcases lt_or_eq_of_le hC with h | h
    · exact h
    · rw [← h] at hN; simp at hN
  have hlen' : (cells.length : Int) = (r.hdr.rows * r.hdr.cols) * r.hdr.layers := by rw [hlen, hly]; ring
  obtain ⟨st', ok, w1, w2, w3⟩ := store_read (T' := T') (rm := rm) (att := att) (st := st) hrnd e1 rfl hfile hs hg hty hO hTO
    (fun v hvm => by
      obtain ⟨row, col, lyr, a1, a2, a3, a4, a5, a6, a7⟩ := stream_cell hCpos hL hlen hcell v hvm
      exact hv row col lyr v a1 a2 a3 a4 a5 a6 a7) hlen' hrm hatt
  refine ⟨st', ok, w1, w2, ?_⟩
  intro hok ropts hgk hsub hst ok1 ok2 hok1 hok2
  obtain ⟨hmp, sm, q1, q2, q3⟩ := w3 hok ropts hgk hsub hst ok1 ok2 hok1 hok2
  obtain ⟨fr, f0, f1, f2, f3, f4, f5, f6, f7, f8⟩ := read_mask_grid (rnd := rnd) (T := T') (ok1 := ok1) (ok2 := ok2) (st := st') (name := file)
    (calcPos := calcPos) (ume := useMaskExt) (dflt := dflt) (opts := ropts) (mask := mask) q1 q2 hs q3 hlen' rfl
    (conv_exact hrnd (S := .double) (by show Representable .double r.hdr.noData; rw [hndh]; exact hnd.1)
      (by show Representable T' r.hdr.noData; rw [hndh]; exact hnd.2)) hdir
  have f2r : fr.hdr.rows = r.hdr.rows := by rw [f2]
  have f2c : fr.hdr.cols = r.hdr.cols := by rw [f2]
  have f4' : fr.nLyrs = r.nLyrs := by rw [f4]; exact hly
  have f3' : fr.noData = r.noData := by rw [f3]; exact hndh
  have f9 : fr.hdr.grid = r.hdr.grid := by rw [f2]; rfl
  have hsv : SameView fr r := sameView f9 f3' f4' (full_view hC hL f1 f2r f2c f4' (by rw [f2]; exact hly) hcell)
  have hsv' : SameView fr { r with dflt := checkDefault dflt r.noData } :=
    sameView f9 f3' f4' (full_view (r := { r with dflt := checkDefault dflt r.noData }) hC hL f1 f2r f2c f4'
      (by rw [f2]; exact hly) hcell)
  obtain ⟨res, z1, z2⟩ := mask_core f0 hm hcl (by unfold CommonGrid; rw [f2]; exact hgr)
    (by
      rw [f5, f6]
      intro h
      obtain ⟨x, y, h⟩ := hov h
      exact ⟨x, y, (hsv.matched mask x y).2 h⟩)
    (by
      rw [f5, f6]
      intro a1 a2
      rcases hb1 a1 a2 with h | ⟨h, h'⟩
      · exact .inl (fun x y hx => (hsv.valid x y).2 (h x y hx))
      · exact .inr ⟨(hsv.inRow _ _ _).2 h, (hsv.inCol _ _ _).2 h'⟩)
    (by
      rw [f5, f6, hsv.borders, hsv.borders, f9]
      exact hb2)
  rw [f8, z1, Out.ok_bind]
  rcases z2 with ⟨z3, z4⟩ | ⟨z3, z4, z5, z6⟩
  · refine ⟨_, _, rfl, .inl ⟨by rw [z3]; rfl, ?_⟩⟩
    intro x y hx hy
    exact z4 x y hx ((hsv.covers x y).2 hy)
  · refine ⟨_, _, rfl, .inr ⟨res.ras, by rw [z3]; rfl, hsv'.right (by rw [f7]; show checkDefault dflt r.hdr.noData = _; rw [hndh]) z4, z5, ?_⟩⟩
    rw [← f6]
    exact z6

/-! ## Files without NoData cells, and masks without NoData cells -/

theorem mapM_same {α β : Type} {f g : α → Out β} : ∀ {l : List α}, (∀ a ∈ l, f a = g a) → l.mapM f = l.mapM g
  | [], _ => rfl
  | a :: l, h => by
    rw [List.mapM_cons, List.mapM_cons, h a List.mem_cons_self, mapM_same (fun b hb => h b (List.mem_cons_of_mem _ hb))]

theorem directData_eq {inc : Bool} {cells : List ℚ} {n lyrs : Int} {pi : Ptr Int} (hn : 0 < n) (hl : 0 ≤ lyrs)
    (hlen : (cells.length : Int) = n * lyrs)
    (hpi : inc = true → pi = some ((List.range n.toNat).map (fun (i : Nat) => (i : Int)))) :
    directData inc cells n lyrs pi = .ok (if lyrs = 1 then (some cells, none) else (none, some (rowsOf cells n.toNat lyrs.toNat))) := by
  have hidx : inc = true → ∀ i : Nat, i < n.toNat → readAt pi i = .ok (i : Int) := by
    intro h i hi
    rw [hpi h, readAt_some_nat _ i (by simpa using hi)]
    simp
  unfold directData
  by_cases h1 : lyrs = 1
  · rw [if_pos h1, if_pos h1]
    cases inc
    · rfl
    · rw [if_pos rfl, Raster.mapM_ok _ (fun (i : Nat) => cells.getD i 0)]
      · have : cells.length = n.toNat := by rw [h1, mul_one] at hlen; omega
        rw [Out.ok_bind, ← this, map_range_getD]
        unfold alloc1
        rw [if_neg (by omega)]
        rfl
      · intro i hi
        have hi' := List.mem_range.1 hi
        rw [hidx rfl i hi', Out.ok_bind]
        have : i < cells.length := by rw [h1, mul_one] at hlen; omega
        rw [readAt_some_nat _ i this, List.getD_eq_getElem _ _ this]
  · rw [if_neg h1, if_neg h1]
    have e : (List.range n.toNat).mapM (fun (i : Nat) => (do
        let j ← (if inc then readAt pi i else .ok (i : Int) : Out Int)
        (List.range lyrs.toNat).mapM (fun (k : Nat) => readAt (some cells) (j * lyrs + k)) : Out (List ℚ))) = interleaved cells n lyrs := by
      unfold interleaved
      apply mapM_same
      intro i hi
      have hi' := List.mem_range.1 hi
      cases inc
      · rw [if_neg (by simp), Out.ok_bind]
      · rw [if_pos rfl, hidx rfl i hi', Out.ok_bind]
    rw [e, interleaved_eq hn.le hl hlen, Out.ok_bind]
    rfl

theorem direct_built {mask m' : Raster} {ps : List (Int × Int)} {H : Header} {cells : List ℚ} {N : Nat} (hm : Built mask)
    (hpd : mask.getPositionData = .ok (m', ps.length, some ps)) (h0 : 0 < ps.length)
    (h1 : m'.hdr.rows = H.rows) (h2 : m'.hdr.cols = H.cols) (hn : H.cellsnum = ps.length) (hl : 0 < H.layers) (hN : N = ps.length) {dflt : ℚ} :
    Built (ofDirect H (rowsOf cells N H.layers.toNat) ps dflt) := by
  refine .direct H _ dflt hm hpd (by exact_mod_cast h0) h1.symm h2.symm hn hl ?_ ?_
  · unfold rowsOf; rw [List.length_map, List.length_range, hN]
  · intro c hc
    unfold rowsOf at hc
    obtain ⟨i, _, rfl⟩ := List.mem_map.1 hc
    rw [List.length_map, List.length_range]; omega

/-- The direct case. -/
theorem read_mask_direct {rnd : ℚ → ℚ} {T : RDT} {ok1 ok2 : Nat → Bool} {st : Store} {name : Str} {calcPos : Bool} {dflt : ℚ} {opts : Opts}
    {cells : List ℚ} {hm : HMap} {sm : SMap} {H : Header} {mask m' : Raster} {lsM : List (List ℚ)} {ps : List (Int × Int)} {inc : Bool}
    (hread : readGridfs rnd T ok1 true ok2 st name initialHeader initialStr (inOpts opts) = .ok (some (cells, hm, sm)))
    (hh : HeaderIs hm H) (hs : StorableHeader H) (hfull : H.rows * H.cols < 2 ^ 31)
    (hinc : sm kIncNodata = some (if inc then "TRUE".toList else "FALSE".toList))
    (hlen : (cells.length : Int) = H.cellsnum * H.layers) (hnd : conv rnd .double T H.noData = .ok H.noData)
    (hcm : m'.Compact lsM ps) (hpd : mask.getPositionData = .ok (m', ps.length, some ps)) (hvn : validNumber mask = ps.length)
    (hmr : m'.hdr.rows = H.rows) (hmc : m'.hdr.cols = H.cols) (hn : H.cellsnum = ps.length) (hcp : calcPos = true ∨ H.cellsnum ≠ H.rows * H.cols)
    (hincn : inc = true → H.cellsnum = H.rows * H.cols) :
    ∃ fr : Raster, fr.Compact (rowsOf cells H.cellsnum.toNat H.layers.toNat) ps ∧ fr.hdr = H ∧ fr.noData = H.noData ∧ fr.nLyrs = H.layers ∧
      readFromMongoMask rnd T ok1 true ok2 st name calcPos mask true dflt opts = .ok (some fr, m') ∧
      fr = ofDirect H (rowsOf cells H.cellsnum.toNat H.layers.toNat) ps dflt := by
  have hL := hs.layers
  have hN := hs.cellsnum
  have hmul : mulInt H.rows H.cols = .ok (H.rows * H.cols) := by
    unfold mulInt
    have := Int.mul_nonneg hs.rows.1 hs.cols.1
    rw [if_pos ⟨by omega, by omega⟩]
  have hrow : ∀ c ∈ rowsOf cells H.cellsnum.toNat H.layers.toNat, (c.length : Int) = H.layers := by
    intro c hc
    unfold rowsOf at hc
    obtain ⟨i, _, rfl⟩ := List.mem_map.1 hc
    rw [List.length_map, List.length_range]; omega
  have hrl : (rowsOf cells H.cellsnum.toNat H.layers.toNat).length = ps.length := by
    unfold rowsOf; rw [List.length_map, List.length_range, hn]; omega
  have d1 : (!stringMatch ((some (if inc then "TRUE".toList else "FALSE".toList)).getD []) "FALSE".toList) = inc := by
    cases inc <;> decide
  have hcond : ((calcPos || decide (H.cellsnum ≠ H.rows * H.cols)) && true && decide (H.cellsnum = validNumber mask)) = true := by
    rw [hvn, hn]
    rcases hcp with h | h
    · rw [h]; simp
    · rw [hn] at h; simp [h]
  have hcond2 : (inc && decide (H.cellsnum ≠ H.rows * H.cols)) = false := by
    cases hi : inc
    · rfl
    · rw [hincn hi]; simp
  have hd := directData_eq (inc := inc) (cells := cells) (n := H.cellsnum) (lyrs := H.layers)
    (pi := some (ps.map (fun rc => rc.1 * m'.hdr.cols + rc.2))) hN.1 hL.1.le hlen (by
      intro hi
      congr 1
      have hps : ps = gridCells H.rows H.cols := by
        refine positions_eq H.cols H.rows (by have := hcm.sorted; rwa [hmc] at this) (gridCells_sorted _ _ hs.rows.1 hs.cols.1) ?_
        have hnd1 : ps.Nodup := by
          have := hcm.sorted
          rw [List.pairwise_map] at this
          exact this.imp (by rintro x y hxy rfl; omega)
        have hsub : ps ⊆ gridCells H.rows H.cols := by
          intro rc hrc
          have := hcm.inside rc hrc
          rw [hmr, hmc] at this
          exact (mem_gridCells _ _ rc).2 this
        have hlenG : (gridCells H.rows H.cols).length = ps.length := by
          obtain ⟨R, hR⟩ := Int.eq_ofNat_of_zero_le hs.rows.1
          obtain ⟨C, hC⟩ := Int.eq_ofNat_of_zero_le hs.cols.1
          have e := congrArg List.length (gridCells_idx R C)
          rw [List.length_map, List.length_map, List.length_range] at e
          have e2 := hincn hi
          rw [hn, hR, hC] at e2
          rw [hR, hC, e]
          exact_mod_cast e2.symm
        have hsp := (List.subperm_of_subset hnd1 hsub).perm_of_length_le (by omega)
        exact fun rc => hsp.mem_iff
      rw [hps, hmc]
      obtain ⟨R, hR⟩ := Int.eq_ofNat_of_zero_le hs.rows.1
      obtain ⟨C, hC⟩ := Int.eq_ofNat_of_zero_le hs.cols.1
      have e2 := hincn hi
      rw [hR, hC] at e2 ⊢
      rw [gridCells_idx, e2]
      congr 2)
  rw [hn] at hd
  have hrun : readFromMongoMask rnd T ok1 true ok2 st name calcPos mask true dflt opts = .ok (some
      { Raster.init (decide (H.layers ≠ 1)) with
        hdr := H, noData := H.noData, nLyrs := H.layers, nCells := ps.length, calcPos := calcPos || decide (H.cellsnum ≠ H.rows * H.cols),
        useMaskExt := true, dflt := Raster.checkDefault dflt H.noData, storePos := false, posData := some ps,
        posIdx := some (ps.map (fun rc => rc.1 * m'.hdr.cols + rc.2)),
        raster1 := if H.layers = 1 then some cells else none,
        raster2 := if H.layers = 1 then none else some (rowsOf cells (ps.length : Int).toNat H.layers.toNat) }, m') := by
    unfold readFromMongoMask
    rw [hread, Out.ok_bind]
    dsimp only
    rw [headerOf_eq hh hs, Out.ok_bind, hinc, d1, hmul, Out.ok_bind, hnd, Out.ok_bind, hcond2, if_neg (by simp), hcond, if_pos rfl, hpd, Out.ok_bind]
    dsimp only
    rw [Compact.idx hcm, Out.ok_bind]
    dsimp only
    rw [if_neg (by simp), hd, Out.ok_bind]
    by_cases h1 : H.layers = 1 <;> simp [h1]
  refine ⟨ofDirect H (rowsOf cells H.cellsnum.toNat H.layers.toNat) ps dflt,
    direct_compact hcm dflt hmr.symm hmc.symm hL.1 hrl hrow, rfl, rfl, rfl, ?_, rfl⟩
  rw [hrun]
  have hcp' : (calcPos || decide (H.cellsnum ≠ H.rows * H.cols)) = true := by
    rcases hcp with h | h
    · rw [h]; rfl
    · simp [h]
  unfold ofDirect
  rw [hcp', hmc, hn]
  by_cases h1 : H.layers = 1
  · have e : ps.length = cells.length := by rw [h1, mul_one, hn] at hlen; omega
    have e2 : (rowsOf cells (ps.length : Int).toNat (1 : Int).toNat).map (fun c => c.headD 0) = cells := by
      rw [e]; exact rowsOf_one
    rw [h1, if_pos rfl, if_pos rfl, e2]
    rfl
  · rw [if_neg h1, if_neg h1, if_neg h1]

/-- The cells of a grid that are stored, when one is not. -/
theorem not_all {m : Raster} {ls ps} (hc : m.Compact ls ps) {row col : Int} (hin : 0 ≤ row ∧ row < m.hdr.rows ∧ 0 ≤ col ∧ col < m.hdr.cols)
    (hno : (row, col) ∉ ps) : (ps.length : Int) ≠ m.hdr.rows * m.hdr.cols := by
  intro he
  have hnd1 : ps.Nodup := by
    have := hc.sorted
    rw [List.pairwise_map] at this
    exact this.imp (by rintro x y hxy rfl; omega)
  have hsub : ps ⊆ gridCells m.hdr.rows m.hdr.cols := fun rc hrc => (mem_gridCells _ _ rc).2 (hc.inside rc hrc)
  have hlenG : (gridCells m.hdr.rows m.hdr.cols).length = ps.length := by
    obtain ⟨R, hR⟩ := Int.eq_ofNat_of_zero_le hc.rows_nn
    obtain ⟨C, hC⟩ := Int.eq_ofNat_of_zero_le hc.cols_nn
    have e := congrArg List.length (gridCells_idx R C)
    rw [List.length_map, List.length_map, List.length_range] at e
    rw [hR, hC] at he
    rw [hR, hC, e]
    exact_mod_cast he.symm
  have hsp := (List.subperm_of_subset hnd1 hsub).perm_of_length_le (by omega)
  exact hno (hsp.mem_iff.2 ((mem_gridCells _ _ (row, col)).2 hin))

/-- C71 (files without NoData cells): a raster stored without its NoData cells is read back with a mask that has the
same rows and columns and the same valid cells: every valid cell has its values in all layers again, the others read as
NoData. (`calc_pos` has to be set if there is no NoData cell at all.) -/
theorem C71_compact_partial {rnd : ℚ → ℚ} (hrnd : ∀ v, Representable .float v → rnd v = v) {T O T' : RDT} {rm : Nat → Bool} {att : Nat → Attempt}
    {st : Store} {r : Raster} {own opts : Opts} {core name file ty : Str} (hb : Built r) (hcr : CleanMask r)
    (hval : ∃ row col, r.hdr.grid.CellInside row col ∧ FirstValid r row col)
    (hfile : file = if name = [] then core else name)
    (hs : StorableHeader { r.hdr with cellsnum := r.hdr.rows * r.hdr.cols })
    (hg : GoodKey ⟨file, outOpts T own opts false⟩) (hty : ("DATATYPE_OUT".toList, ty) ∈ outOpts T own opts false)
    (hO : stringToRdt ty = O) (hTO : StorableAs T O)
    (hv : ∀ row col lyr v, 0 ≤ row → row < r.hdr.rows → 0 ≤ col → col < r.hdr.cols → 1 ≤ lyr → lyr ≤ r.nLyrs → FirstValid r row col →
      r.getValue row col lyr = .ok v → Representable T v ∧ Representable O v ∧ Representable T' v)
    (hnd : Representable .double r.noData ∧ Representable T' r.noData)
    (hrm : ∀ i, rm i = true) (hatt : ∀ i, CleanAttempt (att i))
    {mask : Raster} (hm : Built mask) (hcl : CleanMask mask) (hrows : mask.hdr.rows = r.hdr.rows) (hcols : mask.hdr.cols = r.hdr.cols)
    (hsame : ∀ row col, 0 ≤ row → row < r.hdr.rows → 0 ≤ col → col < r.hdr.cols → (FirstValid r row col ↔ FirstValid mask row col))
    (calcPos : Bool) (dflt : ℚ) (hcp : calcPos = true ∨ ∃ row col, r.hdr.grid.CellInside row col ∧ ¬ FirstValid r row col) :
    ∃ r1 st' ok, outputToMongo rnd T rm att st r own core name opts false = .ok (r1, outOpts T own opts false, st', ok) ∧
      (ok = true ↔ ∃ i, i < 4 ∧ (att i).reported = true) ∧
      (ok = true → ∀ ropts, GoodKey ⟨file, inOpts ropts⟩ → (∀ k v, (k, v) ∈ inOpts ropts → (k, v) ∈ outOpts T own opts false) →
        (∀ f ∈ st, Has f ⟨file, inOpts ropts⟩ → Has f ⟨file, outOpts T own opts false⟩) →
        ∀ ok1 ok2 : Nat → Bool, (∃ i, i < 5 ∧ ok1 i = true) → (∃ i, i < 5 ∧ ok2 i = true) →
        ∃ r' m', readFromMongoMask rnd T' ok1 true ok2 st' file calcPos mask true dflt ropts = .ok (some r', m') ∧ Built r' ∧
          r'.hdr.grid = r.hdr.grid ∧ r'.noData = r.noData ∧ r'.nLyrs = r.nLyrs ∧
          ∀ row col lyr, 0 ≤ row → row < r.hdr.rows → 0 ≤ col → col < r.hdr.cols → 1 ≤ lyr → lyr ≤ r.nLyrs →
            (FirstValid r row col → r'.getValue row col lyr = r.getValue row col lyr) ∧
            (¬ FirstValid r row col → r'.getValue row col lyr = .ok r.noData)) := by
  obtain ⟨r1, ls, ps, c1, c2, c3, c4, c5, c6, c7, c8, c9⟩ := clean_positions hb hcr hval
  have hvm : ∃ row col, mask.hdr.grid.CellInside row col ∧ FirstValid mask row col := by
    obtain ⟨row, col, h1, h2⟩ := hval
    have h1' : 0 ≤ row ∧ row < r.hdr.rows ∧ 0 ≤ col ∧ col < r.hdr.cols := h1
    refine ⟨row, col, ?_, (hsame row col h1'.1 h1'.2.1 h1'.2.2.1 h1'.2.2.2).1 h2⟩
    show 0 ≤ row ∧ row < mask.hdr.rows ∧ 0 ≤ col ∧ col < mask.hdr.cols
    rw [hrows, hcols]; exact h1'
  obtain ⟨m', lsM, psM, k1, k2, k3, k4, k5, k6, k7, k8, k9⟩ := clean_positions hm hcl hvm
  have hr1r : r1.hdr.rows = r.hdr.rows := by rw [c4]
  have hr1c : r1.hdr.cols = r.hdr.cols := by rw [c4]
  have hmr : m'.hdr.rows = r.hdr.rows := by rw [k4]; exact hrows
  have hmc : m'.hdr.cols = r.hdr.cols := by rw [k4]; exact hcols
  have hps : psM = ps := by
    refine positions_eq r.hdr.cols r.hdr.rows (by have := k1.sorted; rwa [hmc] at this) (by have := c1.sorted; rwa [hr1c] at this) ?_
    intro rc
    have a1 := k8 rc.1 rc.2
    have a2 := c8 rc.1 rc.2
    show (rc.1, rc.2) ∈ psM ↔ (rc.1, rc.2) ∈ ps
    rw [a1, a2]
    show (0 ≤ rc.1 ∧ rc.1 < mask.hdr.rows ∧ 0 ≤ rc.2 ∧ rc.2 < mask.hdr.cols) ∧ _ ↔ (0 ≤ rc.1 ∧ rc.1 < r.hdr.rows ∧ 0 ≤ rc.2 ∧ rc.2 < r.hdr.cols) ∧ _
    rw [hrows, hcols]
    constructor
    · rintro ⟨h1, h2⟩
      exact ⟨h1, (hsame _ _ h1.1 h1.2.1 h1.2.2.1 h1.2.2.2).2 h2⟩
    · rintro ⟨h1, h2⟩
      exact ⟨h1, (hsame _ _ h1.1 h1.2.1 h1.2.2.1 h1.2.2.2).1 h2⟩
  subst hps
  obtain ⟨hly, hndh, -⟩ := hb.hdrOk
  have hL : 0 < r.nLyrs := by have : 0 < r.hdr.layers := hs.layers.1; omega
  have hpsN : 0 < psM.length := List.length_pos_of_ne_nil c1.ne
  have hpsle : (psM.length : Int) ≤ r.hdr.rows * r.hdr.cols := by
    have hnd1 : psM.Nodup := by
      have := c1.sorted
      rw [List.pairwise_map] at this
      exact this.imp (by rintro x y hxy rfl; omega)
    have hsub : psM ⊆ gridCells r.hdr.rows r.hdr.cols := fun rc hrc =>
      (mem_gridCells _ _ rc).2 (by have := c1.inside rc hrc; rwa [hr1r, hr1c] at this)
    have h1 := (List.subperm_of_subset hnd1 hsub).length_le
    obtain ⟨R, hR⟩ := Int.eq_ofNat_of_zero_le hs.rows.1
    obtain ⟨C, hC⟩ := Int.eq_ofNat_of_zero_le hs.cols.1
    have e := congrArg List.length (gridCells_idx R C)
    rw [List.length_map, List.length_map, List.length_range] at e
    dsimp only at hR hC
    rw [hR, hC] at h1 ⊢
    rw [e] at h1
    exact_mod_cast h1
  have hsH : StorableHeader r1.hdr := by
    rw [c4]
    refine ⟨hs.rows, hs.cols, hs.layers, ⟨by show 0 < (psM.length : Int); omega, lt_of_le_of_lt hpsle hs.cellsnum.2⟩, ?_, hs.cellsize, hs.xll, hs.yll⟩
    refine lt_of_le_of_lt ?_ hs.count
    exact Int.mul_le_mul_of_nonneg_right hpsle hs.layers.1.le
  obtain ⟨cells, e1, hlen, hcell⟩ := c1.stream_valid
  have e2 : r.outputStream false = .ok (StreamOut.mk r1 r1.hdr (some cells) (r1.nLyrs * r1.nCells)) := by
    rcases c3 with ⟨b1, ⟨c, b2⟩, b3, b4⟩ | b1
    · rw [← e1]
      unfold Raster.outputStream
      simp only [b1, b3, Option.isSome_none, Bool.or_false, Bool.and_false, Bool.false_eq_true, if_false,
        Out.pure_eq, Out.ok_bind, Option.isNone_none, Bool.or_true, Bool.not_false, Bool.and_true, if_true, b2,
        Raster.getPositionData, c1.pd, c1.pi, Option.isSome_some, Option.isNone_some, Bool.false_and]
    · rw [b1] at e1 ⊢; exact e1
  have hcn : r1.hdr.cellsnum = psM.length := by rw [c4]
  have hlen' : (cells.length : Int) = r1.hdr.cellsnum * r1.hdr.layers := by
    rw [hlen, c1.ncells, hcn, c6]
    have : r1.hdr.layers = r.hdr.layers := by rw [c4]
    rw [this, hly]; ring
  -- a number of the stream
  have hval2 : ∀ (i k : Nat) (hi : i < psM.length), (k : Int) < r.nLyrs →
      r.getValue psM[i].1 psM[i].2 ((k : Int) + 1) = .ok (cells.getD (i * r.nLyrs.toNat + k) 0) := by
    intro i k hi hk
    have h1 := hcell i k (by rw [c1.ncells]; exact_mod_cast hi) (by rw [c6]; exact hk)
    rw [c6] at h1
    rw [← c9 psM[i].1 psM[i].2 _ (List.getElem_mem hi) (by omega) (by omega)]
    obtain ⟨_, ev⟩ := c1.getValue_hit psM[i].1 psM[i].2 ((k : Int) + 1) i hi rfl ⟨by omega, by omega⟩
    have hc2 : cells.getD (i * r.nLyrs.toNat + k) 0 = cellAt ls i k := by
      rw [List.getD_eq_getElem?_getD, h1]; rfl
    rw [ev, hc2]
    unfold cellAt
    have e7 : ((k : Int) + 1 - 1).toNat = k := by omega
    rw [e7, List.getD_eq_getElem ls _ (by rw [c1.len]; exact hi)]
  obtain ⟨st', ok, w1, w2, w3⟩ := store_read (T' := T') (rm := rm) (att := att) (st := st) hrnd e2
    (by rw [hlen]) hfile hsH hg hty hO hTO
    (fun v hvm => by
      obtain ⟨n, hn, rfl⟩ := List.getElem_of_mem hvm
      have hLn : 0 < r.nLyrs.toNat := by omega
      have hn2 : n < psM.length * r.nLyrs.toNat := by
        rw [c1.ncells, c6] at hlen
        have : (n : Int) < r.nLyrs * psM.length := by rw [← hlen]; exact_mod_cast hn
        obtain ⟨L, hL2⟩ := Int.eq_ofNat_of_zero_le hL.le
        rw [hL2] at this ⊢
        rw [Int.toNat_natCast, mul_comm]
        exact_mod_cast this
      have hi : n / r.nLyrs.toNat < psM.length := by
        rw [Nat.div_lt_iff_lt_mul hLn]; exact hn2
      have hk : ((n % r.nLyrs.toNat : Nat) : Int) < r.nLyrs := by have := Nat.mod_lt n hLn; omega
      have h1 := hval2 _ _ hi hk
      have e3 : n / r.nLyrs.toNat * r.nLyrs.toNat + n % r.nLyrs.toNat = n := Nat.div_add_mod' n _
      rw [e3, List.getD_eq_getElem _ _ hn] at h1
      have hmem := (c8 psM[n / r.nLyrs.toNat].1 psM[n / r.nLyrs.toNat].2).1 (List.getElem_mem hi)
      obtain ⟨⟨i1, i2, i3, i4⟩, hf⟩ := hmem
      exact hv _ _ _ _ i1 i2 i3 i4 (by omega) (by omega) hf h1) hlen' hrm hatt
  refine ⟨r1, st', ok, w1, w2, ?_⟩
  intro hok ropts hgk hsub hst ok1 ok2 hok1 hok2
  obtain ⟨hmp, sm, q1, q2, q3⟩ := w3 hok ropts hgk hsub hst ok1 ok2 hok1 hok2
  have hnd1 : r1.hdr.noData = r.noData := by rw [c4]; exact hndh
  obtain ⟨fr, f1, f2, f3, f4, f5, f6⟩ := read_mask_direct (rnd := rnd) (T := T') (ok1 := ok1) (ok2 := ok2) (st := st') (name := file)
    (calcPos := calcPos) (dflt := dflt) (opts := ropts) (mask := mask) (m' := m') (ps := psM) (inc := false) q1 q2 hsH
    (by rw [hr1r, hr1c]; exact hs.cellsnum.2) q3 hlen'
    (conv_exact hrnd (S := .double) (by rw [hnd1]; exact hnd.1) (by rw [hnd1]; exact hnd.2)) k1 k2 k7 (by rw [hmr, hr1r]) (by rw [hmc, hr1c]) hcn
    (by
      rcases hcp with h | ⟨row, col, h1, h2⟩
      · exact .inl h
      · refine .inr ?_
        rw [hcn]
        have h1' : 0 ≤ row ∧ row < r.hdr.rows ∧ 0 ≤ col ∧ col < r.hdr.cols := h1
        exact not_all c1 (row := row) (col := col) (by rw [hr1r, hr1c]; exact h1') (fun hmem => h2 ((c8 row col).1 hmem).2))
    (fun h => by cases h)
  have hfl : fr.nLyrs = r.nLyrs := by rw [f4, c4]; exact hly
  have hfn : fr.noData = r.noData := by rw [f3]; exact hnd1
  refine ⟨fr, m', f5, ?_, ?_, hfn, hfl, ?_⟩
  · rw [f6]
    refine direct_built hm k2 (by omega) (by rw [hmr, hr1r]) (by rw [hmc, hr1c]) hcn hsH.layers.1 (by rw [hcn]; rfl)
  · rw [f2, c4]; rfl
  · intro row col lyr h1 h2 h3 h4 h5 h6
    constructor
    · intro hf
      have hmem := (c8 row col).2 ⟨⟨h1, h2, h3, h4⟩, hf⟩
      obtain ⟨i, hi, hi2⟩ := List.getElem_of_mem hmem
      obtain ⟨_, ev⟩ := f1.getValue_hit row col lyr i hi hi2 ⟨h5, by rw [hfl]; exact h6⟩
      have h7 := hval2 i (lyr - 1).toNat hi (by omega)
      rw [hi2] at h7
      have e3 : (((lyr - 1).toNat : Nat) : Int) + 1 = lyr := by omega
      rw [e3] at h7
      have hlyrs : r1.hdr.layers = r.nLyrs := by rw [c4]; exact hly
      have hk : (lyr - 1).toNat < r1.hdr.layers.toNat := by omega
      rw [ev, h7, rowsOf_get _ _ _ hk, hlyrs]
    · intro hf
      have hmem : (row, col) ∉ psM := fun h => hf ((c8 row col).1 h).2
      rw [← hfn]
      exact (f1.getValue_miss row col lyr (by rw [f2, hr1r, hr1c]; exact ⟨h1, h2, h3, h4⟩) hmem).2

/-- C71 (masks without NoData cells): a raster stored with all its cells and read, with `calc_pos` and `use_mask_ext`, with a mask of
the same size that has no NoData cell, has all its values, also those of NoData cells. -/
theorem C71_direct_partial {rnd : ℚ → ℚ} (hrnd : ∀ v, Representable .float v → rnd v = v) {T O T' : RDT} {rm : Nat → Bool} {att : Nat → Attempt}
    {st : Store} {r : Raster} {own opts : Opts} {core name file ty : Str} (hb : Built r) (hc : HasCells r)
    (hfile : file = if name = [] then core else name)
    (hs : StorableHeader { r.hdr with cellsnum := r.hdr.rows * r.hdr.cols })
    (hg : GoodKey ⟨file, outOpts T own opts true⟩) (hty : ("DATATYPE_OUT".toList, ty) ∈ outOpts T own opts true)
    (hO : stringToRdt ty = O) (hTO : StorableAs T O)
    (hv : ∀ row col lyr v, 0 ≤ row → row < r.hdr.rows → 0 ≤ col → col < r.hdr.cols → 1 ≤ lyr → lyr ≤ r.nLyrs →
      r.getValue row col lyr = .ok v → Representable T v ∧ Representable O v ∧ Representable T' v)
    (hnd : Representable .double r.noData ∧ Representable T' r.noData)
    (hrm : ∀ i, rm i = true) (hatt : ∀ i, CleanAttempt (att i))
    {mask : Raster} (hm : Built mask) (hcl : CleanMask mask) (hrows : mask.hdr.rows = r.hdr.rows) (hcols : mask.hdr.cols = r.hdr.cols)
    (hall : ∀ row col, 0 ≤ row → row < r.hdr.rows → 0 ≤ col → col < r.hdr.cols → FirstValid mask row col) (dflt : ℚ) :
    ∃ st' ok, outputToMongo rnd T rm att st r own core name opts true = .ok (r, outOpts T own opts true, st', ok) ∧
      (ok = true ↔ ∃ i, i < 4 ∧ (att i).reported = true) ∧
      (ok = true → ∀ ropts, GoodKey ⟨file, inOpts ropts⟩ → (∀ k v, (k, v) ∈ inOpts ropts → (k, v) ∈ outOpts T own opts true) →
        (∀ f ∈ st, Has f ⟨file, inOpts ropts⟩ → Has f ⟨file, outOpts T own opts true⟩) →
        ∀ ok1 ok2 : Nat → Bool, (∃ i, i < 5 ∧ ok1 i = true) → (∃ i, i < 5 ∧ ok2 i = true) →
        ∃ r' m', readFromMongoMask rnd T' ok1 true ok2 st' file true mask true dflt ropts = .ok (some r', m') ∧ Built r' ∧
          r'.hdr.grid = r.hdr.grid ∧ r'.noData = r.noData ∧ r'.nLyrs = r.nLyrs ∧
          ∀ row col lyr, 0 ≤ row → row < r.hdr.rows → 0 ≤ col → col < r.hdr.cols → 1 ≤ lyr → lyr ≤ r.nLyrs →
            r'.getValue row col lyr = r.getValue row col lyr) := by
  obtain ⟨cells, e1, hlen, hcell⟩ := C10_stream hb hc
  obtain ⟨hly, hndh, -⟩ := hb.hdrOk
  have hN : 0 < r.hdr.rows * r.hdr.cols := hs.cellsnum.1
  have hL : 0 < r.nLyrs := by have : 0 < r.hdr.layers := hs.layers.1; omega
  have hC : 0 ≤ r.hdr.cols := hs.cols.1
  have hCpos : 0 < r.hdr.cols := by
    rcases lt_or_eq_of_le hC with h | h
    · exact h
    · rw [← h] at hN; simp at hN
  have hRpos : 0 < r.hdr.rows := by
    have hR : 0 ≤ r.hdr.rows := hs.rows.1
    rcases lt_or_eq_of_le hR with h | h
    · exact h
    · rw [← h] at hN; simp at hN
  have hlen' : (cells.length : Int) = (r.hdr.rows * r.hdr.cols) * r.hdr.layers := by rw [hlen, hly]; ring
  obtain ⟨st', ok, w1, w2, w3⟩ := store_read (T' := T') (rm := rm) (att := att) (st := st) hrnd e1 rfl hfile hs hg hty hO hTO
    (fun v hvm => by
      obtain ⟨row, col, lyr, a1, a2, a3, a4, a5, a6, a7⟩ := stream_cell hCpos hL hlen hcell v hvm
      exact hv row col lyr v a1 a2 a3 a4 a5 a6 a7) hlen' hrm hatt
  obtain ⟨m', lsM, psM, k1, k2, k3, k4, k5, k6, k7, k8, k9⟩ := clean_positions hm hcl
    ⟨0, 0, (by show 0 ≤ (0 : Int) ∧ (0 : Int) < mask.hdr.rows ∧ 0 ≤ (0 : Int) ∧ (0 : Int) < mask.hdr.cols; omega), hall 0 0 le_rfl hRpos le_rfl hCpos⟩
  have hmr : m'.hdr.rows = r.hdr.rows := by rw [k4]; exact hrows
  have hmc : m'.hdr.cols = r.hdr.cols := by rw [k4]; exact hcols
  have hps : psM = gridCells r.hdr.rows r.hdr.cols := by
    refine positions_eq r.hdr.cols r.hdr.rows (by have := k1.sorted; rwa [hmc] at this) (gridCells_sorted _ _ hRpos.le hC) ?_
    intro rc
    rw [mem_gridCells]
    have := k8 rc.1 rc.2
    show (rc.1, rc.2) ∈ psM ↔ _
    rw [this]
    show (0 ≤ rc.1 ∧ rc.1 < mask.hdr.rows ∧ 0 ≤ rc.2 ∧ rc.2 < mask.hdr.cols) ∧ _ ↔ _
    rw [hrows, hcols]
    exact ⟨fun h => h.1, fun h => ⟨h, hall _ _ h.1 h.2.1 h.2.2.1 h.2.2.2⟩⟩
  have hlenG : (psM.length : Int) = r.hdr.rows * r.hdr.cols := by
    rw [hps]
    obtain ⟨R, hR⟩ := Int.eq_ofNat_of_zero_le hRpos.le
    obtain ⟨C, hC⟩ := Int.eq_ofNat_of_zero_le hC
    have e := congrArg List.length (gridCells_idx R C)
    rw [List.length_map, List.length_map, List.length_range] at e
    rw [hR, hC, e]
    push_cast
    rfl
  refine ⟨st', ok, w1, w2, ?_⟩
  intro hok ropts hgk hsub hst ok1 ok2 hok1 hok2
  obtain ⟨hmp, sm, q1, q2, q3⟩ := w3 hok ropts hgk hsub hst ok1 ok2 hok1 hok2
  obtain ⟨fr, f1, f2, f3, f4, f5, f6⟩ := read_mask_direct (rnd := rnd) (T := T') (ok1 := ok1) (ok2 := ok2) (st := st') (name := file)
    (calcPos := true) (dflt := dflt) (opts := ropts) (mask := mask) (m' := m') (ps := psM) (inc := true) q1 q2 hs hs.cellsnum.2 q3 hlen'
    (conv_exact hrnd (S := .double) (by show Representable .double r.hdr.noData; rw [hndh]; exact hnd.1)
      (by show Representable T' r.hdr.noData; rw [hndh]; exact hnd.2)) k1 k2 k7 hmr hmc hlenG.symm (.inl rfl) (fun _ => rfl)
  have hfl : fr.nLyrs = r.nLyrs := by rw [f4]; exact hly
  have hfn : fr.noData = r.noData := by rw [f3]; exact hndh
  refine ⟨fr, m', f5, ?_, by rw [f2]; rfl, hfn, hfl, ?_⟩
  · rw [f6]
    refine direct_built (H := { r.hdr with cellsnum := r.hdr.rows * r.hdr.cols }) hm k2 (List.length_pos_of_ne_nil k1.ne) hmr hmc hlenG.symm hs.layers.1 ?_
    rw [← hlenG]; rfl
  intro row col lyr h1 h2 h3 h4 h5 h6
  have hmem : (row, col) ∈ psM := by rw [hps, mem_gridCells]; exact ⟨h1, h2, h3, h4⟩
  obtain ⟨i, hi, hi2⟩ := List.getElem_of_mem hmem
  obtain ⟨_, ev⟩ := f1.getValue_hit row col lyr i hi hi2 ⟨h5, by rw [hfl]; exact h6⟩
  have hii : (i : Int) = row * r.hdr.cols + col := by
    obtain ⟨R, hR⟩ := Int.eq_ofNat_of_zero_le hRpos.le
    obtain ⟨C, hC⟩ := Int.eq_ofNat_of_zero_le hC
    have e := gridCells_idx R C
    have e2 := congrArg (fun (l : List Int) => l[i]?) e
    rw [hR, hC] at hps
    rw [← hps, List.getElem?_map, List.getElem?_eq_getElem hi, hi2, List.getElem?_map, List.getElem?_range (by
      have := hlenG; rw [hR, hC] at this; have h9 : psM.length = R * C := by exact_mod_cast this
      omega)] at e2
    simp only [Option.map_some, Option.some.injEq] at e2
    rw [hC]; exact e2.symm
  obtain ⟨v, g1, g2⟩ := hcell row col (lyr - 1).toNat h1 h2 h3 h4 (by omega)
  have e2 : (((lyr - 1).toNat : Nat) : Int) + 1 = lyr := by omega
  rw [e2] at g1
  have hlyrs : ({ r.hdr with cellsnum := r.hdr.rows * r.hdr.cols } : Header).layers = r.nLyrs := hly
  have hk : (lyr - 1).toNat < ({ r.hdr with cellsnum := r.hdr.rows * r.hdr.cols } : Header).layers.toNat := by omega
  rw [ev, g1, rowsOf_get _ _ _ hk, hlyrs]
  rw [← hii] at g2
  have e3 : ((i : Int) * r.nLyrs + ((lyr - 1).toNat : Int)).toNat = i * r.nLyrs.toNat + (lyr - 1).toNat := by
    obtain ⟨L, hLe⟩ := Int.eq_ofNat_of_zero_le hL.le
    rw [hLe, Int.toNat_natCast, ← Nat.cast_mul, ← Nat.cast_add, Int.toNat_natCast]
  rw [e3] at g2
  rw [List.getD_eq_getElem?_getD, g2]
  rfl

/-! ## False cases and examples -/

/-- Stores a raster of int32 cells and reads it with a mask, with the original extent of the mask; the result of the read. -/
noncomputable def storeThenMask (r mask : Raster) (inc calcPos : Bool) : Out (Option Raster) :=
  (outputToMongo id .int32 (fun _ => true) goodAtt [] r memOpts [] "a".toList exIn inc).bind fun x =>
    if x.2.2.2 then
      (readFromMongoMask id .int32 (fun _ => true) true (fun _ => true) x.2.2.1 "a".toList calcPos mask true (-9999)
        [("INCLUDE_NODATA".toList, if inc then "TRUE".toList else "FALSE".toList)]).bind fun y => .ok y.1
    else .exn

/-- The 2 x 2 raster of the false cases. -/
def exSq : Raster := ofArray1 (some [1, 2, 3, 4]) 2 2 (-9999) 10 0 0

/-- The mask of the false cases: three columns, the last two cells of the second row are NoData. -/
def exWide : Raster := ofArray1 (some [1, 1, 1, 1, -9999, -9999]) 3 2 (-9999) 10 0 0

/-- C71 is false if the grids differ and the mask has as many valid cells as the raster has cells: the value 4 is shown at the
lower right cell, which is not a valid cell of the mask, and the third position is (0, 2), a cell the raster does not have. -/
theorem C71_false_shifted :
    ((storeThenMask exSq exWide true true).bind fun x => .ok (x.map fun r => (r.hdr.rows, r.hdr.cols))) = .ok (some (2, 2)) ∧
    ((storeThenMask exSq exWide true true).bind fun x => .ok (x.map fun r => r.getValue 1 1 1)) = .ok (some (.ok 4)) ∧
    ((storeThenMask exSq exWide true true).bind fun x => .ok (x.map fun r => r.posData.getD [])) =
      .ok (some [(0, 0), (0, 1), (0, 2), (1, 0)]) ∧
    exWide.hdr.grid.center 1 1 = exSq.hdr.grid.center 1 1 ∧ exWide.getValue 1 1 1 = .ok exWide.noData := by
  refine ⟨by decide +kernel, by decide +kernel, by decide +kernel, by decide +kernel, by decide +kernel⟩

/-- C71 is false, and memory outside of the array is read, if such an index lies outside of the raster. -/
theorem C71_false_outside : storeThenMask exSq (ofArray1 (some [1, 1, 1, -9999, -9999, 1]) 3 2 (-9999) 10 0 0) true true = .ub := by decide +kernel

/-- C71 is false of files without NoData cells if the mask has the same number of other valid cells: the values are shown at the
cells of the mask. -/
theorem C71_false_positions : ((storeThenMask (ofArray1 (some [1, -9999, 3, 4]) 2 2 (-9999) 10 0 0)
      (ofArray1 (some [1, 1, -9999, 1]) 2 2 (-9999) 10 0 0) false true).bind fun x =>
    .ok (x.map fun r => (r.getValue 0 0 1, r.getValue 0 1 1, r.getValue 1 0 1, r.getValue 1 1 1))) =
    .ok (some (.ok 1, .ok 3, .ok (-9999), .ok 4)) := by decide +kernel

/-- C71 is false of a raster without NoData cells that is stored without NoData cells and read with `calc_pos` false: the result is false,
even with the raster itself as the mask. -/
theorem C71_false_allvalid : ((storeThenMask exSq exSq false false).bind fun x => .ok x.isNone) = .ok true ∧
    ((storeThenMask exSq exSq false true).bind fun x => .ok x.isNone) = .ok false := by
  constructor <;> decide +kernel

/-- Non-vacuity of `C71_compact_partial` and `C71_direct_partial`: the results on concrete rasters. -/
example : ((storeThenMask exMem exMem false true).bind fun x =>
    .ok (x.map fun r => (r.getValue 0 0 1, r.getValue 0 0 2, r.getValue 0 1 1, r.getValue 0 1 2))) =
    .ok (some (.ok 1, .ok 2, .ok (-9999), .ok (-9999))) := by decide +kernel
example : ((storeThenMask (ofArray1 (some [1, -9999, 3, 4]) 2 2 (-9999) 10 0 0) exSq true true).bind fun x =>
    .ok (x.map fun r => (r.getValue 0 0 1, r.getValue 0 1 1, r.getValue 1 0 1, r.getValue 1 1 1))) =
    .ok (some (.ok 1, .ok (-9999), .ok 3, .ok 4)) := by decide +kernel

theorem exMem_key2 (b : Bool) : GoodKey ⟨"a".toList, outOpts .int32 memOpts exIn b⟩ := by
  have h1 : withType .int32 (outOpts .int32 memOpts exIn b) = outOpts .int32 memOpts exIn b := by
    rw [← curOpts_eq]; cases b <;> decide +kernel
  rw [← h1]
  exact goodKey_of (by cases b <;> decide +kernel)

theorem exMem_vals (row col lyr : Int) (v : ℚ) (h1 : 0 ≤ row) (h2 : row < exMem.hdr.rows) (h3 : 0 ≤ col) (h4 : col < exMem.hdr.cols)
    (h5 : 1 ≤ lyr) (h6 : lyr ≤ exMem.nLyrs) (hv : exMem.getValue row col lyr = .ok v) :
    Representable .int32 v ∧ Representable .int16 v ∧ Representable .double v := by
  have hrep : ∀ n : Int, -32768 ≤ n → n ≤ 32767 → Representable .int32 (n : ℚ) ∧ Representable .int16 (n : ℚ) ∧ Representable .double (n : ℚ) := by
    intro n h1 h2
    refine ⟨⟨n, rfl, by omega, by omega⟩, ⟨n, rfl, h1, h2⟩, ⟨n, 0, ?_, by norm_num, by norm_num, by simp⟩⟩
    have : n.natAbs ≤ 32768 := by omega
    exact lt_of_le_of_lt this (by norm_num)
  have k1 : row < 1 := h2
  have k2 : col < 2 := h4
  have k3 : lyr ≤ 2 := h6
  have e0 : row = 0 := by omega
  have e1 : col = 0 ∨ col = 1 := by omega
  have e2 : lyr = 1 ∨ lyr = 2 := by omega
  subst e0
  have w1 : exMem.getValue 0 0 1 = .ok ((1 : Int) : ℚ) := by decide +kernel
  have w2 : exMem.getValue 0 0 2 = .ok ((2 : Int) : ℚ) := by decide +kernel
  have w3 : exMem.getValue 0 1 1 = .ok ((-9999 : Int) : ℚ) := by decide +kernel
  have w4 : exMem.getValue 0 1 2 = .ok ((3 : Int) : ℚ) := by decide +kernel
  rcases e1 with rfl | rfl <;> rcases e2 with rfl | rfl
  · rw [w1] at hv; injection hv with hv; subst hv; exact hrep 1 (by norm_num) (by norm_num)
  · rw [w2] at hv; injection hv with hv; subst hv; exact hrep 2 (by norm_num) (by norm_num)
  · rw [w3] at hv; injection hv with hv; subst hv; exact hrep (-9999) (by norm_num) (by norm_num)
  · rw [w4] at hv; injection hv with hv; subst hv; exact hrep 3 (by norm_num) (by norm_num)

theorem exMem_nd : Representable .double exMem.noData := by
  have : exMem.noData = ((-9999 : Int) : ℚ) := by decide +kernel
  rw [this]
  exact ⟨-9999, 0, by norm_num, by norm_num, by norm_num, by simp⟩

theorem exMem_built : Built exMem := .grid2 [[1, 2], [-9999, 3]] 1 2 2 (-9999) 10 (5 / 2) 5 rfl (by decide) (by decide)

/-- The options of a read of a file without NoData cells. -/
def exIn2 : Opts := exIn ++ [("INCLUDE_NODATA".toList, "FALSE".toList)]

theorem exMem_rkey2 : GoodKey ⟨"a".toList, inOpts exIn2⟩ := by
  have h1 : withType .int32 (inOpts exIn2) = inOpts exIn2 := by
    rw [← curOpts_eq]; decide +kernel
  rw [← h1]
  exact goodKey_of (by decide +kernel)

/-- Non-vacuity of `C71_compact_partial`: all hypotheses hold for a raster of two layers stored as INT16 and read as doubles, itself the mask. -/
example : ∃ r1 st' r' m', outputToMongo id .int32 (fun _ => true) goodAtt [] exMem memOpts [] "a".toList exIn false =
      .ok (r1, outOpts .int32 memOpts exIn false, st', true) ∧
    readFromMongoMask id .double (fun _ => true) true (fun i => i == 3) st' "a".toList false exMem true (-9999) exIn2 = .ok (some r', m') ∧
    r'.getValue 0 0 2 = exMem.getValue 0 0 2 := by
  have hfv : FirstValid exMem 0 0 := ⟨1, by decide +kernel, by decide +kernel⟩
  have hnv : ¬ FirstValid exMem 0 1 := by
    rintro ⟨v, h1, h2⟩
    have w3 : exMem.getValue 0 1 1 = .ok (-9999) := by decide +kernel
    rw [w3] at h1; injection h1 with h1; subst h1
    exact absurd h2 (by decide +kernel)
  obtain ⟨r1, st', ok, e1, e2, e3⟩ := C71_compact_partial (rnd := id) (T := .int32) (O := .int16) (T' := .double) (rm := fun _ => true)
    (att := goodAtt) (st := []) (r := exMem) (own := memOpts) (opts := exIn) (core := [])
    (name := "a".toList) (file := "a".toList) (ty := "INT16".toList) (fun v _ => rfl) exMem_built (.inl rfl)
    ⟨0, 0, by decide, hfv⟩ (by decide) exMem_hdr (exMem_key2 false) (by decide +kernel) (by decide) (.inr (by decide))
    (fun row col lyr v h1 h2 h3 h4 h5 h6 _ hv => exMem_vals row col lyr v h1 h2 h3 h4 h5 h6 hv) ⟨exMem_nd, exMem_nd⟩
    (fun _ => rfl) (fun _ => .inl ⟨rfl, rfl⟩) (mask := exMem) exMem_built (.inl rfl) rfl rfl (fun _ _ _ _ _ _ => Iff.rfl) false (-9999)
    (.inr ⟨0, 1, by decide, hnv⟩)
  have hok : ok = true := e2.2 ⟨0, by decide, rfl⟩
  subst hok
  obtain ⟨r', m', f1, _, _, _, _, f5⟩ := e3 rfl exIn2 exMem_rkey2 (by
      have : ∀ kv ∈ inOpts exIn2, kv ∈ outOpts .int32 memOpts exIn false := by decide +kernel
      exact fun k v h => this _ h) (by simp) (fun _ => true) (fun i => i == 3) ⟨0, by decide, rfl⟩ ⟨3, by decide, rfl⟩
  exact ⟨r1, st', r', m', e1, f1, (f5 0 0 2 (by decide) (by decide) (by decide) (by decide) (by decide) (by decide)).1 hfv⟩

/-- Non-vacuity of `C71_direct_partial`: the same raster with a mask without NoData cells. -/
example : ∃ st' r' m', outputToMongo id .int32 (fun _ => true) goodAtt [] exMem memOpts [] "a".toList exIn true =
      .ok (exMem, outOpts .int32 memOpts exIn true, st', true) ∧
    readFromMongoMask id .double (fun _ => true) true (fun i => i == 3) st' "a".toList true (ofArray1 (some [1, 1]) 2 1 (-9999) 10 (5 / 2) 5) true (-9999) exIn =
      .ok (some r', m') ∧ r'.getValue 0 1 2 = exMem.getValue 0 1 2 := by
  obtain ⟨st', ok, e1, e2, e3⟩ := C71_direct_partial (rnd := id) (T := .int32) (O := .int16) (T' := .double) (rm := fun _ => true)
    (att := goodAtt) (st := []) (r := exMem) (own := memOpts) (opts := exIn) (core := [])
    (name := "a".toList) (file := "a".toList) (ty := "INT16".toList) (fun v _ => rfl) exMem_built ⟨rfl, fun _ => by decide⟩
    (by decide) exMem_hdr (exMem_key2 true) (by decide +kernel) (by decide) (.inr (by decide))
    exMem_vals ⟨exMem_nd, exMem_nd⟩
    (fun _ => rfl) (fun _ => .inl ⟨rfl, rfl⟩) (mask := ofArray1 (some [1, 1]) 2 1 (-9999) 10 (5 / 2) 5)
    (.grid1 [1, 1] 1 2 (-9999) 10 (5 / 2) 5 (by decide)) (.inl rfl) rfl rfl (by
      intro row col h1 h2 h3 h4
      have k1 : row < 1 := h2
      have k2 : col < 2 := h4
      have e0 : row = 0 := by omega
      have e1 : col = 0 ∨ col = 1 := by omega
      subst e0
      rcases e1 with rfl | rfl
      · exact ⟨1, by decide +kernel, by decide +kernel⟩
      · exact ⟨1, by decide +kernel, by decide +kernel⟩) (-9999)
  have hok : ok = true := e2.2 ⟨0, by decide, rfl⟩
  subst hok
  obtain ⟨r', m', f1, _, _, _, _, f5⟩ := e3 rfl exIn exMem_rkey (by
      have : ∀ kv ∈ inOpts exIn, kv ∈ outOpts .int32 memOpts exIn true := by decide +kernel
      exact fun k v h => this _ h) (by simp) (fun _ => true) (fun i => i == 3) ⟨0, by decide, rfl⟩ ⟨3, by decide, rfl⟩
  exact ⟨st', r', m', e1, f1, f5 0 1 2 (by decide) (by decide) (by decide) (by decide) (by decide) (by decide)⟩

end Gfs
end CCGL
