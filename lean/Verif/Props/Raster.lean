import Verif.Lemmas.Built
/-!
# Properties of the cell storage of `clsRasterData` (C01–C05, C11, C12)
-/
namespace CCGL
open Raster

theorem Raster.Full.calc_value {r : Raster} {ls} (h : r.Full ls) :
    ∃ r', r.calcValidPositions = .ok r' ∧ r'.noData = r.noData ∧ r'.nCells = (r.validCells ls).length ∧
    ∀ row col lyr : Int, r'.getValue row col lyr = .ok
      (if 0 ≤ row ∧ row < r.hdr.rows ∧ 0 ≤ col ∧ col < r.hdr.cols ∧ 1 ≤ lyr ∧ lyr ≤ r.nLyrs ∧
          floatEqual (cellAt ls (row * r.hdr.cols + col).toNat 0) r.noData = false
       then cellAt ls (row * r.hdr.cols + col).toNat (lyr - 1).toNat else r.noData) := by
  obtain ⟨r', e, hh, hnd, hny, _, _, _, hnc, hcase⟩ := h.calc
  refine ⟨r', e, hnd, hnc, ?_⟩
  intro row col lyr
  have hr : r'.hdr.rows = r.hdr.rows := by rw [hh]
  have hc : r'.hdr.cols = r.hdr.cols := by rw [hh]
  by_cases hin : 0 ≤ row ∧ row < r.hdr.rows ∧ 0 ≤ col ∧ col < r.hdr.cols
  · by_cases hl : 1 ≤ lyr ∧ lyr ≤ r.nLyrs
    · have hrng := idx_range hin.1 hin.2.1 hin.2.2.1 hin.2.2.2
      have hlen := h.len
      have hi : (row * r.hdr.cols + col).toNat < ls.length := by omega
      have hlr : 1 ≤ (ls[(row * r.hdr.cols + col).toNat]).length := by
        have := h.holds.2.1 _ (List.getElem_mem hi); omega
      have hhead : (ls.getD (row * r.hdr.cols + col).toNat []).headD 0 =
          cellAt ls (row * r.hdr.cols + col).toNat 0 := by
        unfold cellAt
        rw [List.getD_eq_getElem _ _ hi]
        cases hx : ls[(row * r.hdr.cols + col).toNat] with
        | nil => rw [hx] at hlr; simp at hlr
        | cons a t => rfl
      have hmem : (row, col) ∈ r.validCells ls ↔
          floatEqual (cellAt ls (row * r.hdr.cols + col).toNat 0) r.noData = false := by
        unfold validCells
        rw [List.mem_filter, mem_gridCells]
        simp only [hhead, Bool.not_eq_true']
        exact ⟨fun h => h.2, fun h => ⟨⟨hin.1, hin.2.1, hin.2.2.1, hin.2.2.2⟩, h⟩⟩
      rcases hcase with ⟨hv, hE⟩ | hC
      · rw [hE.getValue, hnd]
        have : ¬ (floatEqual (cellAt ls (row * r.hdr.cols + col).toNat 0) r.noData = false) := by
          rw [← hmem, hv]; simp
        rw [if_neg]; tauto
      · by_cases hf : floatEqual (cellAt ls (row * r.hdr.cols + col).toNat 0) r.noData = false
        · have hm := hmem.2 hf
          have hlt := List.idxOf_lt_length_of_mem hm
          have hg := List.getElem_idxOf hlt
          obtain ⟨_, hv⟩ := hC.getValue_hit row col lyr _ hlt hg (by rw [hny]; exact hl)
          rw [hv, if_pos ⟨hin.1, hin.2.1, hin.2.2.1, hin.2.2.2, hl.1, hl.2, hf⟩]
          simp only [List.getElem_map, hg, cellAt]
        · have hm : (row, col) ∉ r.validCells ls := fun h => hf (hmem.1 h)
          rw [(hC.getValue_miss row col lyr (by rw [hr, hc]; exact hin) hm).2, hnd, if_neg]
          tauto
    · rw [getValue_outside r' row col lyr (.inr (by rw [hny]; exact hl)), hnd, if_neg]
      tauto
  · rw [getValue_outside r' row col lyr (.inl (by rw [hr, hc]; exact hin)), hnd, if_neg]
    tauto

/-! ## C01 -/

/-- C01 (1D): compaction of any grid keeps every value: inside the extent a valid cell keeps its value, every
other query gives NoData; the number of cells is the number of valid values. -/
theorem C01_compact_1d (data : List ℚ) (rows cols : Nat) (hlen : data.length = cols * rows)
    (nodata dx xll yll : ℚ) :
    ∃ r', (ofArray1 (some data) cols rows nodata dx xll yll).calcValidPositions = .ok r' ∧
      r'.nCells = ((data.filter (fun v => !floatEqual v nodata)).length : Nat) ∧
      (∀ (row col : Nat) (_ : row < rows) (_ : col < cols),
        r'.getValue row col 1 = .ok (
          let v := data.getD (row * cols + col) 0
          if floatEqual v nodata then nodata else v)) ∧
      (∀ row col lyr : Int, ¬ (0 ≤ row ∧ row < rows ∧ 0 ≤ col ∧ col < cols ∧ lyr = 1) →
        r'.getValue row col lyr = .ok nodata) := by
  have hF := ofArray1_full data rows cols hlen nodata dx xll yll
  obtain ⟨r', e, hnd, hnc, hval⟩ := hF.calc_value
  have hcell : ∀ i : Nat, cellAt (data.map (fun v => [v])) i 0 = data.getD i 0 := by
    intro i
    unfold cellAt
    simp only [List.getD_eq_getElem?_getD, List.getElem?_map]
    cases data[i]? <;> simp
  refine ⟨r', e, ?_, ?_, ?_⟩
  · rw [hnc]
    congr 1
    -- count of valid cells = count of valid values
    have hidx := gridCells_idx rows cols
    have e1 : (Raster.validCells (ofArray1 (some data) cols rows nodata dx xll yll)
        (data.map (fun v => [v]))).length =
        ((List.range (rows * cols)).filter (fun i => !floatEqual (data.getD i 0) nodata)).length := by
      unfold Raster.validCells
      have h1 : ∀ (l : List (Int × Int)) (m : List Nat),
          l.map (fun rc => rc.1 * (cols : Int) + rc.2) = m.map (fun (i : Nat) => (i : Int)) →
          (l.filter (fun rc => !floatEqual (((data.map (fun v => [v])).getD
            (rc.1 * (cols : Int) + rc.2).toNat []).headD 0) nodata)).length =
          (m.filter (fun i => !floatEqual (data.getD i 0) nodata)).length := by
        intro l
        induction l with
        | nil => intro m hm; cases m with
          | nil => rfl
          | cons a m => simp at hm
        | cons rc l ih => intro m hm; cases m with
          | nil => simp at hm
          | cons a m =>
            simp only [List.map_cons, List.cons.injEq] at hm
            have h2 : ((data.map (fun v => [v])).getD (rc.1 * (cols : Int) + rc.2).toNat []).headD 0
                = data.getD a 0 := by
              rw [hm.1]
              simp only [Int.toNat_natCast, List.getD_eq_getElem?_getD, List.getElem?_map]
              cases data[a]? <;> simp
            simp only [List.filter_cons, h2]
            have := ih m hm.2
            split
            · rw [List.length_cons, List.length_cons, this]
            · exact this
      exact h1 _ _ hidx
    have e2 : data = (List.range (rows * cols)).map (fun i => data.getD i 0) := by
      apply List.ext_getElem
      · simp [hlen, Nat.mul_comm]
      · intro i h1 h2; simp [List.getElem?_eq_getElem h1]
    have e3 : (List.filter (fun v => !floatEqual v nodata) data).length =
        ((List.range (rows * cols)).filter (fun i => !floatEqual (data.getD i 0) nodata)).length := by
      conv_lhs => rw [e2]
      rw [List.filter_map, List.length_map]; rfl
    rw [e1, e3]
  · intro row col hr hc
    rw [hval]
    have h1 : ((row : Int) * (cols : Int) + (col : Int)).toNat = row * cols + col := by
      rw [← Int.natCast_mul, ← Int.natCast_add, Int.toNat_natCast]
    have hx : ((ofArray1 (some data) cols rows nodata dx xll yll).hdr.cols) = (cols : Int) := rfl
    have hy : ((ofArray1 (some data) cols rows nodata dx xll yll).hdr.rows) = (rows : Int) := rfl
    have hz : ((ofArray1 (some data) cols rows nodata dx xll yll).nLyrs) = 1 := rfl
    have hw : ((ofArray1 (some data) cols rows nodata dx xll yll).noData) = nodata := rfl
    rw [hx, hy, hz, hw, h1, show ((1 : Int) - 1).toNat = 0 from rfl, hcell]
    congr 1
    show _ = if floatEqual (data.getD (row * cols + col) 0) nodata = true then nodata else
      data.getD (row * cols + col) 0
    cases hf : floatEqual (data.getD (row * cols + col) 0) nodata
    · rw [if_pos (by refine ⟨by omega, by omega, by omega, by omega, by omega, by omega, rfl⟩), if_neg (by simp)]
    · rw [if_neg (by simp), if_pos rfl]
  · intro row col lyr hn
    rw [hval, if_neg]; · rfl
    rintro ⟨h1, h2, h3, h4, h5, h6, _⟩
    have h6' : lyr ≤ 1 := h6
    exact hn ⟨h1, h2, h3, h4, by omega⟩

/-- C01 (several layers): a cell is kept iff its first layer is valid, then with all its layers. -/
theorem C01_compact_2d (data : List (List ℚ)) (rows cols lyrs : Nat) (hlen : data.length = cols * rows)
    (hl : 1 ≤ lyrs) (hrow : ∀ c ∈ data, c.length = lyrs) (nodata dx xll yll : ℚ) :
    ∃ r', (ofArray2 (some data) cols rows lyrs nodata dx xll yll).calcValidPositions = .ok r' ∧
      ∀ row col lyr : Int, r'.getValue row col lyr = .ok
        (if 0 ≤ row ∧ row < rows ∧ 0 ≤ col ∧ col < cols ∧ 1 ≤ lyr ∧ lyr ≤ lyrs ∧
            floatEqual ((data.getD (row * cols + col).toNat []).getD 0 0) nodata = false
         then (data.getD (row * cols + col).toNat []).getD (lyr - 1).toNat 0 else nodata) := by
  obtain ⟨r', e, hnd, hnc, hval⟩ := (ofArray2_full data rows cols lyrs hlen hl hrow nodata dx xll yll).calc_value
  exact ⟨r', e, hval⟩

/-! ## C02 -/

/-- C02: after position calculation the index array handed out is strictly increasing, in range, as long as
the cell number, and lists exactly the cells that are valid in the first layer. (If no cell is valid the pointer
is null and the number is 0.) -/
theorem C02_positions {r : Raster} {ls} (h : r.Full ls) :
    ∃ r' n p, r.getPositionIdx = .ok (r', n, p) ∧ n = r'.nCells ∧
      ((p = none ∧ n = 0 ∧ ∀ row col : Int, 0 ≤ row → row < r.hdr.rows → 0 ≤ col → col < r.hdr.cols →
          floatEqual (cellAt ls (row * r.hdr.cols + col).toNat 0) r.noData = true) ∨
       ∃ l, p = some l ∧ (l.length : Int) = n ∧ l.Pairwise (· < ·) ∧
        (∀ i ∈ l, 0 ≤ i ∧ i < r.hdr.rows * r.hdr.cols) ∧
        ∀ row col : Int, 0 ≤ row → row < r.hdr.rows → 0 ≤ col → col < r.hdr.cols →
          (row * r.hdr.cols + col ∈ l ↔
            floatEqual (cellAt ls (row * r.hdr.cols + col).toNat 0) r.noData = false)) := by
  obtain ⟨r', e, hh, hnd, hny, _, _, _, hnc, hcase⟩ := h.calc
  have hhead : ∀ row col : Int, 0 ≤ row → row < r.hdr.rows → 0 ≤ col → col < r.hdr.cols →
      (ls.getD (row * r.hdr.cols + col).toNat []).headD 0 = cellAt ls (row * r.hdr.cols + col).toNat 0 := by
    intro row col h1 h2 h3 h4
    have hrng := idx_range h1 h2 h3 h4
    have hlen := h.len
    have hi : (row * r.hdr.cols + col).toNat < ls.length := by omega
    have hlr : 1 ≤ (ls[(row * r.hdr.cols + col).toNat]).length := by
      have := h.holds.2.1 _ (List.getElem_mem hi); have := h.holds.1; omega
    unfold cellAt
    rw [List.getD_eq_getElem _ _ hi]
    cases hx : ls[(row * r.hdr.cols + col).toNat] with
    | nil => rw [hx] at hlr; simp at hlr
    | cons a t => rfl
  have hmem : ∀ row col : Int, 0 ≤ row → row < r.hdr.rows → 0 ≤ col → col < r.hdr.cols →
      ((row, col) ∈ r.validCells ls ↔
        floatEqual (cellAt ls (row * r.hdr.cols + col).toNat 0) r.noData = false) := by
    intro row col h1 h2 h3 h4
    unfold validCells
    rw [List.mem_filter, mem_gridCells]
    simp only [hhead row col h1 h2 h3 h4, Bool.not_eq_true']
    exact ⟨fun h => h.2, fun h => ⟨⟨h1, h2, h3, h4⟩, h⟩⟩
  refine ⟨r', r'.nCells, r'.posIdx, ?_, rfl, ?_⟩
  · unfold Raster.getPositionIdx
    simp [h.pi, h.holds.valid, e]
  · rcases hcase with ⟨hv, hE⟩ | hC
    · left
      refine ⟨hE.pi, hE.ncells, ?_⟩
      intro row col h1 h2 h3 h4
      have := (hmem row col h1 h2 h3 h4).not.1 (by rw [hv]; simp)
      simpa using this
    · right
      have hcols : r'.hdr.cols = r.hdr.cols := by rw [hh]
      have hrows : r'.hdr.rows = r.hdr.rows := by rw [hh]
      refine ⟨_, hC.pi, by rw [hC.ncells]; simp, hC.sorted, ?_, ?_⟩
      · intro i hi
        obtain ⟨rc, hrc, rfl⟩ := List.mem_map.1 hi
        have := hC.inside rc hrc
        rw [← hcols, ← hrows]
        exact idx_range this.1 this.2.1 this.2.2.1 this.2.2.2
      · intro row col h1 h2 h3 h4
        rw [← hmem row col h1 h2 h3 h4, List.mem_map]
        constructor
        · rintro ⟨rc, hrc, he⟩
          have hin := hC.inside rc hrc
          rw [hcols] at he hin
          have := idx_inj hin.2.2.1 hin.2.2.2 h3 h4 he
          have h5 : rc = (row, col) := by ext <;> simp [this]
          rwa [h5] at hrc
        · intro hm; exact ⟨_, hm, by rw [hcols]⟩

/-! ## C03 -/

/-- C03 (partial): in a raster with a sorted index array `p`, `GetPosition` finds exactly the stored cells, reports
-1 for cells inside the extent that are not stored and -2 outside of the extent; it always returns (no
undefined behaviour). Missing: the raster without any valid cell, where it is false (`C03_false_empty`). -/
theorem C03_getPosition_partial (r : Raster) (p : List Int) (hp : r.posIdx = some p) (hd : r.posData.isSome)
    (hc : r.calcPos = true) (hv : r.validData = true) (hn : r.nCells = p.length)
    (hs : p.Pairwise (· < ·)) (row col : Int) :
    (¬ (0 ≤ row ∧ row < r.hdr.rows ∧ 0 ≤ col ∧ col < r.hdr.cols) → r.getPosition row col = .ok (-2)) ∧
    ((0 ≤ row ∧ row < r.hdr.rows ∧ 0 ≤ col ∧ col < r.hdr.cols) →
      (∃ i : Nat, r.getPosition row col = .ok (i : Int) ∧ p[i]? = some (row * r.hdr.cols + col)) ∨
      (r.getPosition row col = .ok (-1) ∧ row * r.hdr.cols + col ∉ p)) := by
  refine ⟨r.getPosition_outside row col, fun hin => ?_⟩
  rw [← validRowCol_iff] at hin
  have e : r.getPosition row col = bsearchLoop (some p) (row * r.hdr.cols + col) 0 ((p.length : Int) - 1) := by
    unfold Raster.getPosition
    simp [hv, hin, hc, hp, hn, Int.mul_comm, Option.isNone_iff_eq_none]
    intro h; rw [h] at hd; simp at hd
  rcases bsearch_full p hs (row * r.hdr.cols + col) with ⟨m, hm, h1, h2⟩ | ⟨h1, h2⟩
  · left; exact ⟨m, by rw [e, h1], by rw [List.getElem?_eq_getElem hm, h2]⟩
  · right; exact ⟨by rw [e, h1], h2⟩

/-- The grid 2x2 with one NoData cell used in examples. -/
def exRaster : Raster := ofArray1 (some [1, -9999, 3, 4]) 2 2 (-9999) 10 5 5
/-- A 1x1 grid whose only cell is NoData. -/
def exEmpty : Raster := ofArray1 (some [-9999]) 1 1 (-9999) 10 5 5
def exEmpty2 : Raster := ofArray2 (some [[-9999, 2]]) 1 1 2 (-9999) 10 5 5

/-- C03 is false of rasters without valid cells: a cell inside the extent gives -2 (1D). -/
theorem C03_false_empty :
    (exEmpty.calcValidPositions >>= fun r' => r'.getPosition 0 0) = .ok (-2) := by decide +kernel

/-- ... and for several layers an index of a cell that does not exist. -/
theorem C03_false_empty2 : (exEmpty2.calcValidPositions >>= fun r' => do
    let i ← r'.getPosition 0 0
    return (i, r'.nCells)) = .ok (0, 0) := by decide +kernel

/-- Non-vacuity: the compacted example raster finds its cells and misses the excluded one. -/
example : (exRaster.calcValidPositions >>= fun r' => do
    let a ← r'.getPosition 0 0
    let b ← r'.getPosition 0 1
    let c ← r'.getPosition 1 1
    let d ← r'.getPosition 2 0
    return (a, b, c, d)) = .ok (0, -1, 2, -2) := by decide +kernel

/-! ## C04 -/

/-- A history of `SetValue` calls. -/
def runWrites (r : Raster) : List Spec.Write → Out Raster
  | [] => .ok r
  | w :: ws => do let r' ← r.setValue w.row w.col w.v w.lyr; runWrites r' ws

theorem Raster.Inv.writes {loc} (ws : List Spec.Write) : ∀ (r : Raster) (ls : List (List ℚ)),
    Inv r ls loc → ∃ r' ls', runWrites r ws = .ok r' ∧ r.SameShape r' ∧ Inv r' ls' loc ∧
      ls'.length = ls.length ∧ r'.validData = r.validData ∧
      ∀ row col lyr m, loc row col = some m → 1 ≤ lyr → lyr ≤ r.nLyrs →
        cellAt ls' m (lyr - 1).toNat = (Spec.lastWrite ws row col lyr).getD (cellAt ls m (lyr - 1).toNat) := by
  induction ws with
  | nil => intro r ls h; exact ⟨r, ls, rfl, SameShape.refl r, h, rfl, rfl, by simp [Spec.lastWrite]⟩
  | cons w ws ih =>
    intro r ls h
    obtain ⟨r1, e, hs, hc⟩ := h.setValue w.row w.col w.lyr w.v
    have hnl : r1.nLyrs = r.nLyrs := by obtain ⟨a, b, rfl⟩ := hs; rfl
    -- the last write of a longer history
    have hlw : ∀ row col lyr, (Spec.lastWrite (w :: ws) row col lyr) =
        match Spec.lastWrite ws row col lyr with
        | some v => some v
        | none => if w.row = row ∧ w.col = col ∧ w.lyr = lyr then some w.v else none := by
      intro row col lyr
      unfold Spec.lastWrite
      rw [List.filter_cons]
      split
      · next hw =>
        rw [List.getLast?_cons]
        cases hf : (ws.filter (fun w => decide (w.row = row ∧ w.col = col ∧ w.lyr = lyr))).getLast? with
        | none => simp at hw; simp [hw]
        | some x => simp
      · next hw =>
        simp at hw
        cases hf : (ws.filter (fun w => decide (w.row = row ∧ w.col = col ∧ w.lyr = lyr))).getLast? with
        | none => simp; exact hw
        | some x => simp
    have key : ∃ ls1, Inv r1 ls1 loc ∧ ls1.length = ls.length ∧ r1.validData = r.validData ∧ ∀ row col lyr m, loc row col = some m →
        1 ≤ lyr → lyr ≤ r.nLyrs → cellAt ls1 m (lyr - 1).toNat =
          if w.row = row ∧ w.col = col ∧ w.lyr = lyr then w.v else cellAt ls m (lyr - 1).toNat := by
      have hsame : (∀ m, loc w.row w.col = some m → ¬ (1 ≤ w.lyr ∧ w.lyr ≤ r.nLyrs)) → r1 = r →
          ∃ ls1, Inv r1 ls1 loc ∧ ls1.length = ls.length ∧ r1.validData = r.validData ∧ ∀ row col lyr m, loc row col = some m →
            1 ≤ lyr → lyr ≤ r.nLyrs → cellAt ls1 m (lyr - 1).toNat =
            if w.row = row ∧ w.col = col ∧ w.lyr = lyr then w.v else cellAt ls m (lyr - 1).toNat := by
        rintro hno rfl
        refine ⟨ls, h, rfl, rfl, ?_⟩
        intro row col lyr m hm h1 h2
        rw [if_neg]
        rintro ⟨rfl, rfl, rfl⟩
        exact hno m hm ⟨h1, h2⟩
      cases hloc : loc w.row w.col with
      | none => simp only [hloc] at hc; exact hsame (by simp [hloc]) hc
      | some k =>
        simp only [hloc] at hc
        by_cases hl : 1 ≤ w.lyr ∧ w.lyr ≤ r.nLyrs
        · rw [if_pos hl] at hc
          have hk := (h.inside hloc).2
          have hne : ls ≠ [] := by rintro rfl; simp at hk
          refine ⟨_, hc, by simp, ?_, ?_⟩
          · rw [(h.holds hne).valid, (hc.holds (by
              intro h0; have := congrArg List.length h0; simp at this; exact hne this)).valid]
          intro row col lyr m hm h1 h2
          have hrow := h.rowlen k hk
          rw [cellAt_setCell ls k _ w.v hk (by omega)]
          by_cases hq : w.row = row ∧ w.col = col ∧ w.lyr = lyr
          · obtain ⟨rfl, rfl, rfl⟩ := hq
            rw [hloc] at hm
            simp only [Option.some.injEq] at hm
            simp [hm]
          · rw [if_neg hq, if_neg]
            rintro ⟨rfl, h3⟩
            have := h.inj hloc hm
            exact hq ⟨this.1, this.2, by omega⟩
        · rw [if_neg hl] at hc
          exact hsame (by intro m _; exact hl) hc
    obtain ⟨ls1, hi1, hlen1, hd1, hv1⟩ := key
    obtain ⟨r', ls', e', hs', hi', hlen', hd', hv'⟩ := ih r1 ls1 hi1
    refine ⟨r', ls', by simp [runWrites, e, e'], hs.trans hs', hi', by omega, by rw [hd', hd1], ?_⟩
    intro row col lyr m hm h1 h2
    rw [hv' row col lyr m hm h1 (by omega), hv1 row col lyr m hm h1 h2, hlw]
    cases Spec.lastWrite ws row col lyr with
    | some v => rfl
    | none => simp only [Option.getD_none]; split <;> rfl

/-- C04 (partial): after any history of `SetValue` calls on any raster built from memory, `GetValue` gives the
last value written to this cell and layer if the cell is stored and the layer exists, and otherwise what it gave
before. Missing: a multi-layer raster without any valid cell, where `SetValue` is undefined (`C04_false_empty`). -/
theorem C04_last_write_partial {r : Raster} (hb : Spec.Built r) (hne : ¬ (r.is2d = true ∧ r.nCells = 0))
    (ws : List Spec.Write) :
    ∃ r', runWrites r ws = .ok r' ∧ ∀ row col lyr : Int,
      (Spec.Stored r row col → 1 ≤ lyr → lyr ≤ r.nLyrs → ∀ v, Spec.lastWrite ws row col lyr = some v →
        r'.getValue row col lyr = .ok v) ∧
      (¬ (Spec.Stored r row col ∧ 1 ≤ lyr ∧ lyr ≤ r.nLyrs) ∨ Spec.lastWrite ws row col lyr = none →
        r'.getValue row col lyr = r.getValue row col lyr) ∧
      r'.getPosition row col = r.getPosition row col := by
  rcases hb.inv with ⟨ls, loc, hi⟩ | ⟨hd, hE⟩
  swap
  · exact absurd ⟨hd, hE.ncells⟩ hne
  obtain ⟨r', ls', e, hs, hi', hlen, hvd, hv⟩ := Raster.Inv.writes ws r ls hi
  have hnl : r'.nLyrs = r.nLyrs := by obtain ⟨a, b, rfl⟩ := hs; rfl
  have hnd : r'.noData = r.noData := by obtain ⟨a, b, rfl⟩ := hs; rfl
  have hst := hi.stored
  refine ⟨r', e, ?_⟩
  intro row col lyr
  refine ⟨?_, ?_, ?_⟩
  · intro hs1 h1 h2 v hv1
    obtain ⟨m, hm⟩ := (hst row col).1 hs1
    rw [hi'.val row col lyr ⟨h1, by omega⟩, hm]
    simp only
    rw [hv row col lyr m hm h1 h2, hv1]; rfl
  · intro hno
    by_cases hl : 1 ≤ lyr ∧ lyr ≤ r.nLyrs
    · rw [hi'.val row col lyr (by omega), hi.val row col lyr hl]
      cases hm : loc row col with
      | none => simp [hnd]
      | some m =>
        rcases hno with hno | hno
        · exact absurd ⟨(hst row col).2 ⟨m, hm⟩, hl.1, hl.2⟩ hno
        · simp only
          rw [hv row col lyr m hm hl.1 hl.2, hno]; rfl
    · rw [r'.getValue_outside row col lyr (.inr (by omega)), r.getValue_outside row col lyr (.inr hl), hnd]
  · obtain ⟨a, b, rfl⟩ := hs
    unfold Raster.getPosition
    rw [hvd]; rfl

/-- C04 is false of a multi-layer raster whose cells are all NoData: `SetValue` is undefined behaviour. -/
theorem C04_false_empty : (exEmpty2.calcValidPositions >>= fun r' => r'.setValue 0 0 7 1) = .ub := by
  decide +kernel

/-- Non-vacuity of C04. -/
example : Spec.Built exRaster ∧ ¬ (exRaster.is2d = true ∧ exRaster.nCells = 0) ∧
    Spec.lastWrite [⟨1, 0, 1, 8⟩, ⟨1, 0, 1, 9⟩] 1 0 1 = some 9 ∧
    (runWrites exRaster [⟨1, 0, 1, 8⟩, ⟨1, 0, 1, 9⟩] >>= fun r => r.getValue 1 0 1) = .ok 9 := by
  refine ⟨Spec.Built.grid1 [1, -9999, 3, 4] 2 2 (-9999) 10 5 5 rfl, ?_, rfl, ?_⟩ <;> decide +kernel

/-! ## C05 -/

/-- C05: on any raster built from memory, after any history of operations, the reading accessors are defined for
all arguments. -/
theorem C05_reads {r : Raster} (hb : Spec.Built r) (row col lyr i : Int) :
    (∃ v, r.getValue row col lyr = .ok v) ∧ (∃ v, r.getValueByIndex i lyr = .ok v) ∧
    (∃ v, r.isNoData row col lyr = .ok v) ∧ (∃ v, r.getPosition row col = .ok v) := by
  rcases hb.inv with ⟨ls, loc, hi⟩ | ⟨hd, hE⟩
  · obtain ⟨v, e⟩ := hi.getValue_ok row col lyr
    exact ⟨⟨v, e⟩, hi.getValueByIndex i lyr, ⟨floatEqual v r.noData, by simp [Raster.isNoData, e]⟩,
      hi.getPosition_ok row col⟩
  · have e := hE.getValue row col lyr
    refine ⟨⟨_, e⟩, ?_, ⟨_, by simp only [Raster.isNoData, e, Out.ok_bind]; rfl⟩, ?_⟩
    · have : r.validIndex i = false := by
        rw [← Bool.not_eq_true, validIndex_iff, hE.ncells]; omega
      exact ⟨r.noData, by simp [Raster.getValueByIndex, this]⟩
    · unfold Raster.getPosition
      split
      · exact ⟨_, rfl⟩
      · simp [hE.pi]

/-- C05 (partial): no operation on a raster built from memory is undefined, except possibly `SetValue` and the
position getter on a multi-layer raster without valid cells. Missing: these (see `C04_false_empty`,
`C05_false_positions`), and the constructors from a mask (`C05_false_mask`). -/
theorem C05_ops_partial {r : Raster} (hb : Spec.Built r) (op : Op) (hu : r.step op = .ub) :
    (r.is2d = true ∧ r.nCells = 0) ∧
      ((∃ row col v lyr, op = .setValue row col v lyr) ∨ op = .getPositionIdx) := by
  rcases hb.inv with ⟨ls, loc, hi⟩ | ⟨hd, hE⟩
  · rcases hi.step op with e | ⟨r', e, _⟩ <;> rw [e] at hu <;> simp at hu
  · refine ⟨⟨hd, hE.ncells⟩, ?_⟩
    rcases hE.step2 hd op with ⟨r', e, _⟩ | ⟨h, _⟩
    · rw [e] at hu; simp at hu
    · cases op <;> simp [Raster.Op.risky] at h ⊢

/-- Asking twice for the positions of a multi-layer raster without valid cells is undefined. -/
theorem C05_false_positions : (exEmpty2.getPositionIdx >>= fun x => x.1.getPositionIdx) = .ub := by
  decide +kernel

/-- Histories: single-layer rasters never reach undefined behaviour. -/
theorem C05_history_1d (data : List ℚ) (rows cols : Nat) (nodata dx xll yll : ℚ)
    (hlen : data.length = cols * rows) (ops : List Op) :
    (ofArray1 (some data) cols rows nodata dx xll yll).run ops ≠ .ub := by
  suffices H : ∀ (ops : List Op) (r : Raster), Spec.Built r → r.is2d = false → r.run ops ≠ .ub from
    H ops _ (.grid1 data rows cols nodata dx xll yll hlen) rfl
  intro ops
  induction ops with
  | nil => intro r _ _; simp [Raster.run]
  | cons op ops ih =>
    intro r hb hd
    simp only [Raster.run]
    cases e : r.step op with
    | ub => have := C05_ops_partial hb op e; simp [hd] at this
    | exn => simp
    | ok r' =>
      simp only [Out.ok_bind]
      refine ih r' (hb.step op e) (by rw [step_is2d e, hd])

/-- C05 is false of rasters constructed from a mask: as soon as a cell of the mask is excluded, reading the last
cell of the extent is undefined, because the raster does not use the positions it was given. -/
theorem C05_false_mask (mask : Raster) (ls) (h : mask.Full ls) (hpos : 0 < mask.hdr.rows ∧ 0 < mask.hdr.cols)
    (hv : mask.validCells ls ≠ []) (hex : ((mask.validCells ls).length : Int) < mask.hdr.rows * mask.hdr.cols)
    (values : List ℚ) (hlen : values.length = (mask.validCells ls).length) :
    ∃ m r, ofMask1 mask values = .ok (m, r) ∧
      r.getValue (mask.hdr.rows - 1) (mask.hdr.cols - 1) 1 = .ub := by
  obtain ⟨m, e, hh, hnd, _, _, _, _, hnc, hcase⟩ := h.calc
  rcases hcase with ⟨h0, _⟩ | hC
  · exact absurd h0 hv
  have e1 : mask.getPositionData = .ok (m, m.nCells, m.posData) := by
    unfold Raster.getPositionData; simp [h.pd, h.holds.valid, e]
  have e2 : m.getPositionIdx = .ok (m, m.nCells, m.posIdx) := by
    unfold Raster.getPositionIdx; simp [hC.pi]
  have hr : m.hdr.rows = mask.hdr.rows := by rw [hh]
  have hc : m.hdr.cols = mask.hdr.cols := by rw [hh]
  refine ⟨m, { init false with
          raster1 := some values, dflt := m.dflt, hdr := m.hdr, noData := m.noData,
          nLyrs := 1, useMaskExt := true, posData := m.posData, posIdx := m.posIdx, nCells := m.nCells }, ?_, ?_⟩
  · unfold ofMask1
    rw [e1]
    simp only [Out.ok_bind]
    rw [e2]
    simp only [Out.ok_bind]
    rw [if_neg (by rw [hnc, hlen]; simp)]
    rfl
  · unfold Raster.getValue
    have v1 : ∀ r : Raster, r.is2d = false → r.raster1.isSome = true → r.validData = true := by
      intro r h1 h2; simp [validData, h1, h2]
    rw [if_neg, if_neg]
    · unfold readCell
      simp only [init, Bool.false_eq_true, if_false]
      apply readAt_oob
      right
      have : (mask.hdr.rows - 1) * m.hdr.cols + (mask.hdr.cols - 1) = mask.hdr.rows * mask.hdr.cols - 1 := by
        rw [hc]; ring
      rw [this, hlen]; omega
    · simp [init]
    · rw [v1 _ rfl rfl]
      have : Raster.validRowCol { init false with
          raster1 := some values, dflt := m.dflt, hdr := m.hdr, noData := m.noData,
          nLyrs := 1, useMaskExt := true, posData := m.posData, posIdx := m.posIdx, nCells := m.nCells }
          (mask.hdr.rows - 1) (mask.hdr.cols - 1) = true := by
        rw [validRowCol_iff]
        simp only [hr, hc]; omega
      simp only [init] at this
      simp [this, validLayer, init]

/-- C05, the other half: what a raster constructed from a mask and one value per valid cell does show. It has the extent, the NoData value and one layer
of the mask; by cell number (not by row and column) it gives back the values, NoData for other numbers and layers. -/
theorem C05_of_mask1 (mask : Raster) (ls) (h : mask.Full ls) (hv : mask.validCells ls ≠ [])
    (values : List ℚ) (hlen : values.length = (mask.validCells ls).length) :
    ∃ m r, ofMask1 mask values = .ok (m, r) ∧
      (r.hdr.rows = mask.hdr.rows ∧ r.hdr.cols = mask.hdr.cols ∧ r.hdr.cellsize = mask.hdr.cellsize ∧ r.hdr.xll = mask.hdr.xll ∧ r.hdr.yll = mask.hdr.yll) ∧
      r.noData = mask.noData ∧ r.nLyrs = 1 ∧ r.nCells = values.length ∧
      ∀ idx lyr : Int, r.getValueByIndex idx lyr =
        .ok (if h : 0 ≤ idx ∧ idx < values.length ∧ lyr = 1 then values[idx.toNat]'(by omega) else mask.noData) := by
  obtain ⟨m, e, hh, hnd, _, _, _, _, hnc, hcase⟩ := h.calc
  rcases hcase with ⟨h0, _⟩ | hC
  · exact absurd h0 hv
  have e1 : mask.getPositionData = .ok (m, m.nCells, m.posData) := by
    unfold Raster.getPositionData; simp [h.pd, h.holds.valid, e]
  have e2 : m.getPositionIdx = .ok (m, m.nCells, m.posIdx) := by
    unfold Raster.getPositionIdx; simp [hC.pi]
  have hn : m.nCells = values.length := by rw [hnc, hlen]
  refine ⟨m, { init false with
          raster1 := some values, dflt := m.dflt, hdr := m.hdr, noData := m.noData,
          nLyrs := 1, useMaskExt := true, posData := m.posData, posIdx := m.posIdx, nCells := m.nCells }, ?_, ?_, hnd, rfl, hn, ?_⟩
  · unfold ofMask1
    rw [e1]
    simp only [Out.ok_bind]
    rw [e2]
    simp only [Out.ok_bind]
    rw [if_neg (by rw [hn]; simp)]
    rfl
  · simp [hh]
  · intro idx lyr
    unfold Raster.getValueByIndex
    have hd : Raster.validData { init false with
          raster1 := some values, dflt := m.dflt, hdr := m.hdr, noData := m.noData,
          nLyrs := 1, useMaskExt := true, posData := m.posData, posIdx := m.posIdx, nCells := m.nCells } = true := by simp [validData, init]
    rw [hd]
    by_cases hc : 0 ≤ idx ∧ idx < values.length ∧ lyr = 1
    · rw [dif_pos hc, if_neg (by simp [validIndex, validLayer, hn]; omega)]
      unfold readCell
      simp only [init, Bool.false_eq_true, if_false]
      obtain ⟨n, rfl⟩ := Int.eq_ofNat_of_zero_le hc.1
      exact readAt_some_nat _ _ (by omega)
    · rw [dif_neg hc, if_pos (by simp [validIndex, validLayer, hn]; omega)]
      exact congrArg _ hnd

/-- The same for several layers, `values[cell][layer]`; the header says how many layers there are. -/
theorem C05_of_mask2 (mask : Raster) (ls) (h : mask.Full ls) (hv : mask.validCells ls ≠ [])
    (values : List (List ℚ)) (lyrs : Int) (hlen : values.length = (mask.validCells ls).length) (hl : ∀ v ∈ values, (v.length : Int) = lyrs) :
    ∃ m r, ofMask2 mask values lyrs = .ok (m, r) ∧
      (r.hdr.rows = mask.hdr.rows ∧ r.hdr.cols = mask.hdr.cols ∧ r.hdr.cellsize = mask.hdr.cellsize ∧ r.hdr.xll = mask.hdr.xll ∧ r.hdr.yll = mask.hdr.yll) ∧
      r.hdr.layers = lyrs ∧ r.noData = mask.noData ∧ r.nLyrs = lyrs ∧ r.nCells = values.length ∧
      ∀ idx lyr : Int, r.getValueByIndex idx lyr =
        .ok (if 0 ≤ idx ∧ idx < values.length ∧ 1 ≤ lyr ∧ lyr ≤ lyrs then (values.getD idx.toNat []).getD (lyr - 1).toNat 0 else mask.noData) := by
  obtain ⟨m, e, hh, hnd, _, _, _, _, hnc, hcase⟩ := h.calc
  rcases hcase with ⟨h0, _⟩ | hC
  · exact absurd h0 hv
  have e1 : mask.getPositionData = .ok (m, m.nCells, m.posData) := by
    unfold Raster.getPositionData; simp [h.pd, h.holds.valid, e]
  have e2 : m.getPositionIdx = .ok (m, m.nCells, m.posIdx) := by
    unfold Raster.getPositionIdx; simp [hC.pi]
  have hn : m.nCells = values.length := by rw [hnc, hlen]
  have hne : values ≠ [] := by
    intro h0
    rw [h0] at hlen
    exact hv (List.length_eq_zero_iff.1 hlen.symm)
  refine ⟨m, { init true with
          raster2 := some values, hdr := { m.hdr with layers := lyrs }, noData := m.noData,
          nLyrs := lyrs, useMaskExt := true, posData := m.posData, posIdx := m.posIdx, nCells := m.nCells }, ?_, ?_, rfl, hnd, rfl, hn, ?_⟩
  · unfold ofMask2
    rw [e1]
    simp only [Out.ok_bind]
    rw [e2]
    simp only [Out.ok_bind]
    rw [if_neg (by rw [hn]; simp), if_neg hne]
    rfl
  · simp [hh]
  · intro idx lyr
    unfold Raster.getValueByIndex
    have hd : Raster.validData { init true with
          raster2 := some values, hdr := { m.hdr with layers := lyrs }, noData := m.noData,
          nLyrs := lyrs, useMaskExt := true, posData := m.posData, posIdx := m.posIdx, nCells := m.nCells } = true := by simp [validData, init]
    rw [hd]
    by_cases hc : 0 ≤ idx ∧ idx < values.length ∧ 1 ≤ lyr ∧ lyr ≤ lyrs
    · rw [if_pos hc, if_neg (by simp [validIndex, validLayer, hn]; omega)]
      unfold readCell
      simp only [init, if_true]
      obtain ⟨n, rfl⟩ := Int.eq_ofNat_of_zero_le hc.1
      have hnv : n < values.length := by omega
      obtain ⟨k, hk⟩ := Int.eq_ofNat_of_zero_le (a := lyr - 1) (by omega)
      have hkl : k < (values[n]).length := by
        have := hl _ (List.getElem_mem hnv)
        omega
      rw [hk, readAt_some_nat _ _ hnv, Out.ok_bind, readAt_some_nat _ _ hkl]
      simp [hnv, hkl]
    · rw [if_neg hc, if_pos (by simp [validIndex, validLayer, hn]; omega)]
      exact congrArg _ hnd

/-- Non-vacuity of the two: the values come back by number. -/
example : (ofMask1 exRaster [10, 30, 40] >>= fun x => x.2.getValueByIndex 1 1) = .ok 30 ∧ (ofMask1 exRaster [10, 30, 40] >>= fun x => x.2.getValueByIndex 3 1) = .ok (-9999) ∧
    (ofMask2 exRaster [[10, 1], [30, 3], [40, 4]] 2 >>= fun x => x.2.getValueByIndex 2 2) = .ok 4 := by decide +kernel

/-- Non-vacuity: the 2x2 grid with one NoData cell as mask. -/
example : (ofMask1 exRaster [1, 3, 4] >>= fun x => x.2.getValue 1 1 1) = .ub := by decide +kernel
example : (ofMask2 exRaster [[1], [3], [4]] 1 >>= fun x => x.2.getValue 1 1 1) = .ub := by decide +kernel

/-! ## C11 -/

/-- C11: after `ReplaceNoData v` on any raster built from memory every query that gave NoData gives `v` (stored
cells, excluded cells, cells outside) and every other query is unchanged; `v` is the new NoData value. -/
theorem C11_replaceNoData {r : Raster} (hb : Spec.Built r) (v : ℚ) :
    ∃ r', r.replaceNoData v = .ok r' ∧ r'.noData = v ∧ r'.hdr = { r.hdr with noData := v } ∧
      r'.nCells = r.nCells ∧
      ∀ row col lyr : Int, ∃ x, r.getValue row col lyr = .ok x ∧
        r'.getValue row col lyr = .ok (if floatEqual x r.noData then v else x) := by
  have hself : floatEqual r.noData r.noData = true := by simp [floatEqual]
  rcases hb.inv with ⟨ls, loc, hi⟩ | ⟨hd, hE⟩
  · obtain ⟨r', ls', e, hs, hi', hlen, hcell⟩ := hi.pass
      (fun x => .ok (if floatEqual x r.noData then some v else none))
      (fun x => if floatEqual x r.noData then some v else none) (fun _ _ _ _ => rfl)
    have hi2 := hi'.setNoData v
    refine ⟨{ r' with noData := v, dflt := v, hdr := { r'.hdr with noData := v } }, ?_, rfl, ?_, ?_, ?_⟩
    · unfold Raster.replaceNoData; simp [e]
    · obtain ⟨a, b, rfl⟩ := hs; rfl
    · obtain ⟨a, b, rfl⟩ := hs; rfl
    · have hnl : r'.nLyrs = r.nLyrs := by obtain ⟨a, b, rfl⟩ := hs; rfl
      intro row col lyr
      by_cases hl : 1 ≤ lyr ∧ lyr ≤ r.nLyrs
      · rw [hi.val row col lyr hl, hi2.val row col lyr (by simp only [hnl]; exact hl)]
        refine ⟨_, rfl, ?_⟩
        cases hm : loc row col with
        | none => simp [hself]
        | some m =>
          simp only
          rw [hcell m _ (hi.inside hm).2 (by omega)]
          split <;> simp
      · rw [r.getValue_outside row col lyr (.inr hl),
          Raster.getValue_outside _ row col lyr (.inr (by show ¬ (1 ≤ lyr ∧ lyr ≤ r'.nLyrs); rw [hnl]; exact hl))]
        exact ⟨_, rfl, by simp [hself]⟩
  · refine ⟨{ r with noData := v, dflt := v, hdr := { r.hdr with noData := v } }, ?_, rfl, rfl, rfl, ?_⟩
    · unfold Raster.replaceNoData; rw [hE.cellLayers]; rfl
    · intro row col lyr
      rw [hE.getValue, (hE.setNoData v).getValue]
      exact ⟨_, rfl, by simp [hself]⟩

/-- C11, second part: a second call changes no query. -/
theorem C11_idempotent {r r' : Raster} (hb : Spec.Built r) (v : ℚ) (e : r.replaceNoData v = .ok r') :
    ∃ r'', r'.replaceNoData v = .ok r'' ∧ r''.noData = r'.noData ∧
      ∀ row col lyr : Int, r''.getValue row col lyr = r'.getValue row col lyr ∨
        ∃ x, r'.getValue row col lyr = .ok x ∧ floatEqual x v = true ∧ r''.getValue row col lyr = .ok v := by
  have hb' : Spec.Built r' := hb.step (.replaceNoData v) e
  obtain ⟨r1, e1, hn1, _⟩ := C11_replaceNoData hb v
  rw [e] at e1; cases e1
  obtain ⟨r2, e2, hn2, _, _, h2⟩ := C11_replaceNoData hb' v
  refine ⟨r2, e2, by rw [hn1, hn2], ?_⟩
  intro row col lyr
  obtain ⟨x, hx, hy⟩ := h2 row col lyr
  rw [hy, hx, hn1]
  by_cases hf : floatEqual x v = true
  · right; exact ⟨x, rfl, hf, by rw [if_pos hf]⟩
  · left; rw [if_neg hf]

example : (exRaster.replaceNoData 0 >>= fun r => do
    let a ← r.getValue 0 0 1
    let b ← r.getValue 0 1 1
    return (a, b, r.noData)) = .ok (1, 0, 0) := by decide +kernel

/-! ## C12 -/

/-- C12 (partial): if every stored value (truncated to an integer) is a key of the table, `Reclassify` replaces
each stored value by the table's value and changes nothing else. Missing: values without key, on which the real
code throws instead of storing NoData (`C12_throws`, `C12_false`). -/
theorem C12_reclassify_partial {r : Raster} (hb : Spec.Built r) (m : List (Int × ℚ))
    (hkeys : ∀ row col lyr : Int, ∀ x, Spec.Stored r row col → 1 ≤ lyr → lyr ≤ r.nLyrs →
      r.getValue row col lyr = .ok x → ∃ y, lookupI m (truncQ x) = some y)
    (hne : ¬ (r.is2d = true ∧ r.nCells = 0)) :
    ∃ r', r.reclassify m = .ok r' ∧ r'.noData = r.noData ∧ r'.hdr = r.hdr ∧
      ∀ row col lyr : Int, ∃ x, r.getValue row col lyr = .ok x ∧
        ((Spec.Stored r row col ∧ 1 ≤ lyr ∧ lyr ≤ r.nLyrs) →
          ∃ y, lookupI m (truncQ x) = some y ∧ r'.getValue row col lyr = .ok y) ∧
        (¬ (Spec.Stored r row col ∧ 1 ≤ lyr ∧ lyr ≤ r.nLyrs) → r'.getValue row col lyr = .ok x) := by
  rcases hb.inv with ⟨ls, loc, hi⟩ | ⟨hd, hE⟩
  swap
  · exact absurd ⟨hd, hE.ncells⟩ hne
  have hst := hi.stored
  have hk : ∀ i l : Nat, i < ls.length → (l : Int) < r.nLyrs → ∃ y, lookupI m (truncQ (cellAt ls i l)) = some y := by
    intro i l h1 h2
    obtain ⟨row, col, hloc⟩ := hi.surj i h1
    refine hkeys row col (l + 1) _ ((hst row col).2 ⟨i, hloc⟩) (by omega) (by omega) ?_
    rw [hi.val row col _ (by omega), hloc]
    simp
  obtain ⟨r', ls', e, hs, hi', hlen, hcell⟩ := hi.pass
    (fun x => match lookupI m (truncQ x) with | some v => .ok (some v) | none => .exn)
    (fun x => lookupI m (truncQ x)) (by
      intro i l h1 h2
      obtain ⟨y, hy⟩ := hk i l h1 h2
      simp only [hy])
  have hnl : r'.nLyrs = r.nLyrs := by obtain ⟨a, b, rfl⟩ := hs; rfl
  have hnd : r'.noData = r.noData := by obtain ⟨a, b, rfl⟩ := hs; rfl
  refine ⟨r', e, hnd, by obtain ⟨a, b, rfl⟩ := hs; rfl, ?_⟩
  intro row col lyr
  by_cases hl : 1 ≤ lyr ∧ lyr ≤ r.nLyrs
  · refine ⟨_, hi.val row col lyr hl, ?_, ?_⟩
    · rintro ⟨h1, h2, h3⟩
      obtain ⟨i, hloc⟩ := (hst row col).1 h1
      simp only [hloc]
      have hin := (hi.inside hloc).2
      obtain ⟨y, hy⟩ := hk i (lyr - 1).toNat hin (by omega)
      refine ⟨y, hy, ?_⟩
      rw [hi'.val row col lyr (by omega), hloc]
      simp only
      rw [hcell i _ hin (by omega), hy]; rfl
    · intro hno
      rw [hi'.val row col lyr (by omega)]
      cases hloc : loc row col with
      | none => simp [hnd]
      | some i => exact absurd ⟨(hst row col).2 ⟨i, hloc⟩, hl.1, hl.2⟩ hno
  · refine ⟨_, r.getValue_outside row col lyr (.inr hl), ?_, ?_⟩
    · rintro ⟨h1, h2, h3⟩; exact absurd ⟨h2, h3⟩ hl
    · intro _; rw [r'.getValue_outside row col lyr (.inr (by omega)), hnd]

/-- If some stored value has no key, `Reclassify` throws. -/
theorem C12_throws {r : Raster} (hb : Spec.Built r) (m : List (Int × ℚ)) (row col lyr : Int) (x : ℚ)
    (hst : Spec.Stored r row col) (hl : 1 ≤ lyr ∧ lyr ≤ r.nLyrs) (hx : r.getValue row col lyr = .ok x)
    (hk : lookupI m (truncQ x) = none) (hne : ¬ (r.is2d = true ∧ r.nCells = 0)) : r.reclassify m = .exn := by
  rcases hb.inv with ⟨ls, loc, hi⟩ | ⟨hd, hE⟩
  swap
  · exact absurd ⟨hd, hE.ncells⟩ hne
  obtain ⟨i, hloc⟩ := (hi.stored row col).1 hst
  have hin := (hi.inside hloc).2
  have hls : ls ≠ [] := by rintro rfl; simp at hin
  rw [hi.val row col lyr hl, hloc] at hx
  simp only [Out.ok.injEq] at hx
  have hn := hi.ncells
  refine passCells_exn _ ?_ _ r ls (hi.holds hls) (gridCells_nodup _ _) ?_ ((i : Int), lyr - 1) ?_ ?_
  · intro y; split <;> simp
  · intro p hp
    have := (mem_gridCells _ _ _).1 hp
    rw [hn] at this; exact ⟨this.1, this.2.1, this.2.2.1, this.2.2.2⟩
  · exact (mem_gridCells _ _ _).2 ⟨by simp, by simp [hn]; omega, by simp; omega, by simp; omega⟩
  · simp only [Int.toNat_natCast, hx, hk]

/-- C12 is false of the code: a NoData cell of a full grid without a table entry makes `Reclassify` throw. -/
theorem C12_false : exRaster.reclassify [(1, 10), (3, 30), (4, 40)] = .exn := by decide +kernel

/-- Non-vacuity of C12: after compaction the same table covers all stored cells. -/
example : (exRaster.calcValidPositions >>= fun r => r.reclassify [(1, 10), (3, 30), (4, 40)] >>= fun r' => do
    let a ← r'.getValue 0 0 1
    let b ← r'.getValue 0 1 1
    let c ← r'.getValue 1 0 1
    return (a, b, c)) = .ok (10, -9999, 30) := by decide +kernel

/-- Non-vacuity of C01 and C02. -/
example : ([1, -9999, 3, 4] : List ℚ).length = 2 * 2 ∧
    (exRaster.getPositionIdx >>= fun x => .ok (x.2.1, x.2.2)) = .ok (3, some [0, 2, 3]) := by
  constructor
  · rfl
  · decide +kernel

end CCGL
