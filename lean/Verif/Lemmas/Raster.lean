import Verif.Model.Raster
namespace CCGL

/-! ### Arrays -/

theorem readAt_some_nat {α : Type} (l : List α) (i : Nat) (h : i < l.length) :
    readAt (some l) (i : Int) = .ok l[i] := by
  simp [readAt, List.getElem?_eq_getElem h]

theorem readAt_some_int {α : Type} (l : List α) (i : Int) (h0 : 0 ≤ i) (h : i < l.length) :
    readAt (some l) i = .ok (l[i.toNat]'(by omega)) := by
  simp [readAt, h0, List.getElem?_eq_getElem (show i.toNat < l.length by omega)]

theorem readAt_oob {α : Type} (l : List α) (i : Int) (h : i < 0 ∨ (l.length : Int) ≤ i) :
    readAt (some l) i = .ub := by
  unfold readAt
  rcases h with h | h
  · simp [show ¬ (0 ≤ i) by omega]
  · have : l[i.toNat]? = none := List.getElem?_eq_none (by omega)
    simp [this]

theorem writeAt_some {α : Type} (l : List α) (i : Int) (v : α) (h0 : 0 ≤ i) (h : i < l.length) :
    writeAt (some l) i v = .ok (some (l.set i.toNat v)) := by
  simp [writeAt, h0, h]

/-! ### Binary search -/

theorem bsearch_spec (p : List Int) (hs : p.Pairwise (· < ·)) (t left right : Int) (hl : 0 ≤ left)
    (hr : right < p.length) (hL : ∀ i (h : i < p.length), (i : Int) < left → p[i] < t)
    (hR : ∀ i (h : i < p.length), right < (i : Int) → t < p[i]) :
    (∃ m, ∃ h : m < p.length, bsearchLoop (some p) t left right = .ok (m : Int) ∧ p[m] = t) ∨
    (bsearchLoop (some p) t left right = .ok (-1) ∧ t ∉ p) := by
  induction hn : (right - left + 1).toNat using Nat.strongRecOn generalizing left right with
  | _ n ih =>
    rw [bsearchLoop]
    by_cases hle : left ≤ right
    · simp only [hle, dif_pos]
      have h2 : (right - left).tdiv 2 = (right - left) / 2 := Int.tdiv_eq_ediv_of_nonneg (by omega)
      rw [h2]
      obtain ⟨k, hk⟩ : ∃ k : Nat, left + (right - left) / 2 = (k : Int) :=
        ⟨(left + (right - left) / 2).toNat, by omega⟩
      rw [hk]
      have hkl : k < p.length := by omega
      rw [readAt_some_nat p k hkl]
      have hpw := List.pairwise_iff_getElem.1 hs
      simp only
      split
      · next hgt =>
        apply ih _ _ left ((k : Int) - 1) hl (by omega) hL _ rfl
        · omega
        · intro i hi hik
          by_cases hik' : i = k
          · subst hik'; omega
          · have := hpw k i hkl hi (by omega); omega
      · split
        · next hlt =>
          apply ih _ _ ((k : Int) + 1) right (by omega) hr _ hR rfl
          · omega
          · intro i hi hik
            by_cases hik' : i = k
            · subst hik'; omega
            · have := hpw i k hi hkl (by omega); omega
        · left; exact ⟨k, hkl, rfl, by omega⟩
    · right
      simp only [hle, dif_neg, not_false_iff]
      refine ⟨trivial, ?_⟩
      intro hmem
      obtain ⟨i, hi, hit⟩ := List.getElem_of_mem hmem
      rcases lt_or_ge (i : Int) left with h | h
      · have := hL i hi h; omega
      · have := hR i hi (by omega); omega

theorem bsearch_full (p : List Int) (hs : p.Pairwise (· < ·)) (t : Int) :
    (∃ m, ∃ h : m < p.length, bsearchLoop (some p) t 0 ((p.length : Int) - 1) = .ok (m : Int) ∧ p[m] = t) ∨
    (bsearchLoop (some p) t 0 ((p.length : Int) - 1) = .ok (-1) ∧ t ∉ p) := by
  apply bsearch_spec p hs t 0 _ (by omega) (by omega)
  · intro i h hi; omega
  · intro i h hi; omega

/-! ### The grid of cells -/

theorem gridCells_idx (rows cols : Nat) :
    (Raster.gridCells rows cols).map (fun rc => rc.1 * (cols : Int) + rc.2)
      = (List.range (rows * cols)).map (fun (i : Nat) => (i : Int)) := by
  unfold Raster.gridCells
  simp only [Int.toNat_natCast]
  induction rows with
  | zero => simp
  | succ n ih =>
    rw [List.range_succ, List.flatMap_append, List.map_append, ih, Nat.succ_mul, List.range_add,
      List.map_append]
    congr 1
    simp only [List.flatMap_cons, List.flatMap_nil, List.append_nil, List.map_map]
    apply List.map_congr_left
    intro j _
    simp

theorem mem_gridCells (rows cols : Int) (rc : Int × Int) :
    rc ∈ Raster.gridCells rows cols ↔ 0 ≤ rc.1 ∧ rc.1 < rows ∧ 0 ≤ rc.2 ∧ rc.2 < cols := by
  unfold Raster.gridCells
  simp only [List.mem_flatMap, List.mem_map, List.mem_range]
  constructor
  · rintro ⟨i, hi, j, hj, rfl⟩; simp only; omega
  · rintro ⟨h1, h2, h3, h4⟩
    refine ⟨rc.1.toNat, by omega, rc.2.toNat, by omega, ?_⟩
    ext <;> simp <;> omega

/-- Row-major indexes determine the cell. -/
theorem idx_inj {cols i j i' j' : Int} (hj : 0 ≤ j) (hj' : j < cols) (hk : 0 ≤ j') (hk' : j' < cols)
    (h : i * cols + j = i' * cols + j') : i = i' ∧ j = j' := by
  have h1 : (i * cols + j) / cols = i := by
    rw [Int.add_comm, Int.add_mul_ediv_right _ _ (by omega), Int.ediv_eq_zero_of_lt hj hj']; omega
  have h2 : (i' * cols + j') / cols = i' := by
    rw [Int.add_comm, Int.add_mul_ediv_right _ _ (by omega), Int.ediv_eq_zero_of_lt hk hk']; omega
  have : i = i' := by rw [← h1, ← h2, h]
  subst this; exact ⟨rfl, by omega⟩

theorem idx_range {rows cols i j : Int} (hi : 0 ≤ i) (hi' : i < rows) (hj : 0 ≤ j) (hj' : j < cols) :
    0 ≤ i * cols + j ∧ i * cols + j < rows * cols := by
  have h0 : 0 ≤ i * cols := Int.mul_nonneg hi (by omega)
  have h1 : (i + 1) * cols ≤ rows * cols := Int.mul_le_mul_of_nonneg_right (by omega) (by omega)
  have h2 : (i + 1) * cols = i * cols + cols := by rw [Int.add_mul]; omega
  omega

/-! ### Compaction -/

namespace Raster

theorem mapM_ok {α β : Type} (f : α → Out β) (g : α → β) (l : List α) (h : ∀ a ∈ l, f a = .ok (g a)) :
    l.mapM f = .ok (l.map g) := by
  induction l with
  | nil => rfl
  | cons a l ih =>
    rw [List.mapM_cons, h a (by simp), ih (fun x hx => h x (by simp [hx]))]
    rfl

theorem collectValid_ok (r : Raster) (f : Int × Int → List ℚ) (cells : List (Int × Int))
    (h : ∀ rc ∈ cells, r.readLayers (rc.1 * r.hdr.cols + rc.2) = .ok (f rc)) :
    r.collectValid cells =
      .ok ((cells.filter (fun rc => !floatEqual ((f rc).headD 0) r.noData)).map (fun rc => (rc, f rc))) := by
  induction cells with
  | nil => rfl
  | cons rc cells ih =>
    rw [collectValid, h rc (by simp), ih (fun x hx => h x (by simp [hx]))]
    simp only [Out.ok_bind, List.filter_cons]
    by_cases hf : floatEqual ((f rc).headD 0) r.noData <;> simp only [hf] <;> rfl

end Raster

theorem storeInto_null {α : Type} (fresh : Ptr α) (vals : List α)
    (h : fresh.isSome = true ∨ vals = []) :
    Raster.storeInto none fresh vals = .ok (if fresh.isSome then some vals else none) := by
  unfold Raster.storeInto
  cases fresh with
  | none => simp at h; simp [h]
  | some l => simp

/-- The cells of the stored array, by cell then layer (a 1D array has one layer). -/
def Raster.Holds (r : Raster) (ls : List (List ℚ)) : Prop :=
  1 ≤ r.nLyrs ∧ (∀ c ∈ ls, (c.length : Int) = r.nLyrs) ∧
  if r.is2d then r.raster2 = some ls
  else r.nLyrs = 1 ∧ r.raster1 = some (ls.map (fun c => c.headD 0))

/-- A raster storing all `rows*cols` cells, without positions. -/
structure Raster.Full (r : Raster) (ls : List (List ℚ)) : Prop where
  holds : r.Holds ls
  rows_nn : 0 ≤ r.hdr.rows
  cols_nn : 0 ≤ r.hdr.cols
  len : (ls.length : Int) = r.hdr.rows * r.hdr.cols
  ncells : r.nCells = r.hdr.rows * r.hdr.cols
  pd : r.posData = none
  pi : r.posIdx = none

/-- A raster storing at least one cell, with position arrays. -/
structure Raster.Compact (r : Raster) (ls : List (List ℚ)) (ps : List (Int × Int)) : Prop where
  holds : r.Holds ls
  rows_nn : 0 ≤ r.hdr.rows
  cols_nn : 0 ≤ r.hdr.cols
  len : ls.length = ps.length
  ncells : r.nCells = ps.length
  ne : ps ≠ []
  calcOn : r.calcPos = true
  pd : r.posData = some ps
  pi : r.posIdx = some (ps.map (fun rc => rc.1 * r.hdr.cols + rc.2))
  inside : ∀ rc ∈ ps, 0 ≤ rc.1 ∧ rc.1 < r.hdr.rows ∧ 0 ≤ rc.2 ∧ rc.2 < r.hdr.cols
  sorted : (ps.map (fun rc => rc.1 * r.hdr.cols + rc.2)).Pairwise (· < ·)

/-- A raster without any valid cell after position calculation. -/
structure Raster.Empty (r : Raster) : Prop where
  ncells : r.nCells = 0
  lyrs : 1 ≤ r.nLyrs
  lyrs1 : r.is2d = false → r.nLyrs = 1
  rows_nn : 0 ≤ r.hdr.rows
  cols_nn : 0 ≤ r.hdr.cols
  calcOn : r.calcPos = true
  pd : r.posData = some []
  pi : r.posIdx = none
  data1 : r.is2d = false → r.raster1 = none
  data2 : r.is2d = true → r.raster2 = some []

namespace Raster

theorem Holds.valid {r : Raster} {ls} (h : r.Holds ls) : r.validData = true := by
  obtain ⟨_, _, h⟩ := h
  unfold validData
  cases hd : r.is2d <;> simp [hd] at h ⊢ <;> simp [h]

theorem Holds.readCell {r : Raster} {ls} (h : r.Holds ls) (i : Nat) (hi : i < ls.length) (lyr : Int)
    (h1 : 1 ≤ lyr) (h2 : lyr ≤ r.nLyrs) :
    r.readCell i lyr = .ok ((ls[i]).getD (lyr - 1).toNat 0) := by
  obtain ⟨hn, hc, h⟩ := h
  have hlen := hc ls[i] (List.getElem_mem hi)
  unfold Raster.readCell
  cases hd : r.is2d <;> simp only [hd, if_true, Bool.false_eq_true, if_false] at h ⊢
  · obtain ⟨h3, h4⟩ := h
    rw [h4, readAt_some_nat _ i (by simpa using hi)]
    have : lyr = 1 := by omega
    subst this
    simp only [List.getElem_map]
    congr 1
    cases hls : ls[i] <;> simp
  · rw [h, readAt_some_nat _ i hi, Out.ok_bind, readAt_some_int _ _ (by omega) (by omega)]
    congr 1
    rw [List.getD_eq_getElem]

theorem Holds.readLayers {r : Raster} {ls} (h : r.Holds ls) (i : Nat) (hi : i < ls.length) :
    r.readLayers i = .ok ls[i] := by
  have hlen := h.2.1 ls[i] (List.getElem_mem hi)
  have hn := h.1
  unfold Raster.readLayers
  cases hd : r.is2d <;> simp only [if_true, Bool.false_eq_true, if_false]
  · have h' := h.2.2
    simp only [hd, Bool.false_eq_true, if_false] at h'
    rw [h'.2, readAt_some_nat _ i (by simpa using hi)]
    simp only [List.getElem_map, Out.ok_bind, Out.pure_eq, Out.ok.injEq]
    have : ls[i].length = 1 := by omega
    obtain ⟨a, ha⟩ := List.length_eq_one_iff.1 this
    simp [ha]
  · rw [mapM_ok _ (fun l => (ls[i]).getD l 0)]
    · congr 1
      apply List.ext_getElem
      · simp; omega
      · intro k h1 h2
        simp [List.getElem?_eq_getElem h2]
    · intro l hl
      rw [List.mem_range] at hl
      rw [h.readCell i hi _ (by omega) (by omega)]
      congr 2; omega

theorem validRowCol_iff (r : Raster) (row col : Int) :
    r.validRowCol row col = true ↔ 0 ≤ row ∧ row < r.hdr.rows ∧ 0 ≤ col ∧ col < r.hdr.cols := by
  unfold validRowCol; simp; omega

theorem validLayer_iff (r : Raster) (lyr : Int) : r.validLayer lyr = true ↔ 1 ≤ lyr ∧ lyr ≤ r.nLyrs := by
  unfold validLayer; simp; omega

theorem validIndex_iff (r : Raster) (i : Int) : r.validIndex i = true ↔ 0 ≤ i ∧ i < r.nCells := by
  unfold validIndex; simp

/-! #### `GetPosition` in each kind of raster -/

theorem getPosition_outside (r : Raster) (row col : Int)
    (h : ¬ (0 ≤ row ∧ row < r.hdr.rows ∧ 0 ≤ col ∧ col < r.hdr.cols)) :
    r.getPosition row col = .ok (-2) := by
  unfold getPosition
  rw [← validRowCol_iff] at h
  simp [h]

theorem Full.getPosition {r : Raster} {ls} (h : r.Full ls) (row col : Int)
    (hin : 0 ≤ row ∧ row < r.hdr.rows ∧ 0 ≤ col ∧ col < r.hdr.cols) :
    r.getPosition row col = .ok (row * r.hdr.cols + col) := by
  unfold Raster.getPosition
  rw [← validRowCol_iff] at hin
  simp [h.holds.valid, hin, h.pd, Int.mul_comm]

theorem Compact.getPosition {r : Raster} {ls ps} (h : r.Compact ls ps) (row col : Int)
    (hin : 0 ≤ row ∧ row < r.hdr.rows ∧ 0 ≤ col ∧ col < r.hdr.cols) :
    (∃ m, ∃ hm : m < ps.length, r.getPosition row col = .ok (m : Int) ∧ ps[m] = (row, col)) ∨
    (r.getPosition row col = .ok (-1) ∧ (row, col) ∉ ps) := by
  have hv := h.holds.valid
  have hin' := hin
  rw [← validRowCol_iff] at hin'
  have e : r.getPosition row col =
      bsearchLoop (some (ps.map (fun rc => rc.1 * r.hdr.cols + rc.2))) (row * r.hdr.cols + col) 0
        ((ps.length : Int) - 1) := by
    unfold Raster.getPosition
    simp [hv, hin', h.calcOn, h.pd, h.pi, h.ncells, Int.mul_comm]
  have key := bsearch_full _ h.sorted (row * r.hdr.cols + col)
  simp only [List.length_map] at key
  rw [← e] at key
  rcases key with ⟨m, hm, h1, h2⟩ | ⟨h1, h2⟩
  · left
    refine ⟨m, hm, h1, ?_⟩
    simp only [List.getElem_map] at h2
    have hi := h.inside ps[m] (List.getElem_mem hm)
    have := idx_inj hi.2.2.1 hi.2.2.2 hin.2.2.1 hin.2.2.2 h2
    ext <;> simp [this]
  · right
    refine ⟨h1, fun hmem => h2 ?_⟩
    exact List.mem_map.2 ⟨_, hmem, rfl⟩

/-- The view of a raster: the value stored for a cell and layer, if any. -/
inductive Stored (r : Raster) (row col : Int) : Int → Prop
  | mk (i : Int) (h : r.getPosition row col = .ok i) (h0 : 0 ≤ i) : Stored r row col i

theorem Full.getValue {r : Raster} {ls} (h : r.Full ls) (row col lyr : Int)
    (hin : 0 ≤ row ∧ row < r.hdr.rows ∧ 0 ≤ col ∧ col < r.hdr.cols) (hl : 1 ≤ lyr ∧ lyr ≤ r.nLyrs) :
    ∃ hi : (row * r.hdr.cols + col).toNat < ls.length,
    r.getValue row col lyr = .ok ((ls[(row * r.hdr.cols + col).toNat]).getD (lyr - 1).toNat 0) := by
  have hr := idx_range hin.1 hin.2.1 hin.2.2.1 hin.2.2.2
  have hlen := h.len
  have hi : (row * r.hdr.cols + col).toNat < ls.length := by omega
  refine ⟨hi, ?_⟩
  have hin' := hin
  rw [← validRowCol_iff] at hin'
  have hl' := hl
  rw [← validLayer_iff] at hl'
  unfold Raster.getValue
  simp only [h.holds.valid, hin', hl', h.pd, h.pi, Bool.not_true, Bool.or_self, Bool.false_eq_true,
    if_false, Option.isSome_none, Bool.and_false]
  have := h.holds.readCell (row * r.hdr.cols + col).toNat hi lyr hl.1 hl.2
  rw [show (((row * r.hdr.cols + col).toNat : Nat) : Int) = row * r.hdr.cols + col by omega] at this
  exact this

theorem Compact.getValue_hit {r : Raster} {ls ps} (h : r.Compact ls ps) (row col lyr : Int)
    (m : Nat) (hm : m < ps.length) (hg : ps[m] = (row, col)) (hl : 1 ≤ lyr ∧ lyr ≤ r.nLyrs) :
    r.getPosition row col = .ok (m : Int) ∧
    r.getValue row col lyr = .ok ((ls[m]'(by rw [h.len]; exact hm)).getD (lyr - 1).toNat 0) := by
  have hin : 0 ≤ row ∧ row < r.hdr.rows ∧ 0 ≤ col ∧ col < r.hdr.cols := by
    have := h.inside ps[m] (List.getElem_mem hm); rw [hg] at this; exact this
  have hin' := hin
  rw [← validRowCol_iff] at hin'
  have hl' := hl
  rw [← validLayer_iff] at hl'
  have hpos : r.getPosition row col = .ok (m : Int) := by
    rcases h.getPosition row col hin with ⟨m', hm', h1, h2⟩ | ⟨h1, h2⟩
    · have : m' = m := by
        have hp := List.pairwise_iff_getElem.1 h.sorted
        rcases Nat.lt_trichotomy m' m with hlt | heq | hgt
        · have := hp m' m (by simpa) (by simpa) hlt
          simp only [List.getElem_map, hg, h2] at this; omega
        · exact heq
        · have := hp m m' (by simpa) (by simpa) hgt
          simp only [List.getElem_map, hg, h2] at this; omega
      subst this; exact h1
    · exact absurd (hg ▸ List.getElem_mem hm) h2
  refine ⟨hpos, ?_⟩
  unfold Raster.getValue
  simp only [h.holds.valid, hin', hl', h.pd, h.calcOn, Bool.not_true, Bool.or_self, Bool.false_eq_true,
    if_false, Option.isSome_some, Bool.true_or, Bool.and_self, if_true, hpos, Out.ok_bind]
  rw [if_neg (by omega)]
  unfold Raster.getValueByIndex
  have hvi : r.validIndex (m : Int) = true := by rw [validIndex_iff, h.ncells]; omega
  simp only [h.holds.valid, hvi, hl', Bool.not_true, Bool.or_self, Bool.false_eq_true, if_false]
  exact h.holds.readCell m (by rw [h.len]; exact hm) lyr hl.1 hl.2

theorem Compact.getValue_miss {r : Raster} {ls ps} (h : r.Compact ls ps) (row col lyr : Int)
    (hin : 0 ≤ row ∧ row < r.hdr.rows ∧ 0 ≤ col ∧ col < r.hdr.cols) (hmiss : (row, col) ∉ ps) :
    r.getPosition row col = .ok (-1) ∧ r.getValue row col lyr = .ok r.noData := by
  have hpos : r.getPosition row col = .ok (-1) := by
    rcases h.getPosition row col hin with ⟨m', hm', h1, h2⟩ | ⟨h1, h2⟩
    · exact absurd (h2 ▸ List.getElem_mem hm') hmiss
    · exact h1
  refine ⟨hpos, ?_⟩
  unfold Raster.getValue
  split
  · rfl
  · simp only [h.pd, h.calcOn, Option.isSome_some, Bool.true_or, Bool.and_self, if_true, hpos, Out.ok_bind]
    rw [if_pos (by omega)]

theorem getValue_outside (r : Raster) (row col lyr : Int)
    (h : ¬ (0 ≤ row ∧ row < r.hdr.rows ∧ 0 ≤ col ∧ col < r.hdr.cols) ∨ ¬ (1 ≤ lyr ∧ lyr ≤ r.nLyrs)) :
    r.getValue row col lyr = .ok r.noData := by
  unfold Raster.getValue
  rw [← validRowCol_iff, ← validLayer_iff] at h
  rw [if_pos]
  rcases h with h | h <;> simp [h]

theorem Empty.getValue {r : Raster} (h : r.Empty) (row col lyr : Int) :
    r.getValue row col lyr = .ok r.noData := by
  by_cases hin : 0 ≤ row ∧ row < r.hdr.rows ∧ 0 ≤ col ∧ col < r.hdr.cols
  · unfold Raster.getValue
    split
    · rfl
    · simp only [h.pd, h.calcOn, Option.isSome_some, Bool.true_or, Bool.and_self, if_true]
      unfold Raster.getPosition
      split
      · rfl
      · simp only [h.pi, Option.isNone_none, Bool.or_true, if_true, Out.ok_bind]
        split
        · rfl
        · unfold Raster.getValueByIndex
          have : r.validIndex (r.hdr.cols * row + col) = false := by
            rw [Bool.eq_false_iff, Ne, validIndex_iff, h.ncells]; omega
          simp [this]
  · exact getValue_outside r row col lyr (.inl hin)

/-! #### Compaction of a full raster -/

/-- Cells of a full raster that are valid in the first layer. -/
def validCells (r : Raster) (ls : List (List ℚ)) : List (Int × Int) :=
  (gridCells r.hdr.rows r.hdr.cols).filter
    (fun rc => !floatEqual ((ls.getD (rc.1 * r.hdr.cols + rc.2).toNat []).headD 0) r.noData)

theorem gridCells_sorted (rows cols : Int) (hr : 0 ≤ rows) (hc : 0 ≤ cols) :
    ((gridCells rows cols).map (fun rc => rc.1 * cols + rc.2)).Pairwise (· < ·) := by
  obtain ⟨R, rfl⟩ := Int.eq_ofNat_of_zero_le hr
  obtain ⟨C, rfl⟩ := Int.eq_ofNat_of_zero_le hc
  rw [gridCells_idx, List.pairwise_map]
  exact List.pairwise_lt_range.imp (by intro a b h; omega)

theorem validCells_sorted (r : Raster) (ls) (hr : 0 ≤ r.hdr.rows) (hc : 0 ≤ r.hdr.cols) :
    ((r.validCells ls).map (fun rc => rc.1 * r.hdr.cols + rc.2)).Pairwise (· < ·) :=
  (gridCells_sorted _ _ hr hc).sublist (List.Sublist.map _ (List.filter_sublist))

theorem Full.calc {r : Raster} {ls} (h : r.Full ls) :
    ∃ r', r.calcValidPositions = .ok r' ∧ r'.hdr = { r.hdr with cellsnum := (r.validCells ls).length } ∧
      r'.noData = r.noData ∧ r'.nLyrs = r.nLyrs ∧ r'.is2d = r.is2d ∧ r'.dflt = r.dflt ∧
      r'.useMaskExt = r.useMaskExt ∧ r'.nCells = (r.validCells ls).length ∧
      ((r.validCells ls = [] ∧ r'.Empty) ∨
       r'.Compact ((r.validCells ls).map (fun rc => ls.getD (rc.1 * r.hdr.cols + rc.2).toNat []))
         (r.validCells ls)) := by
  have hlen := h.len
  have hread : ∀ rc ∈ gridCells r.hdr.rows r.hdr.cols,
      r.readLayers (rc.1 * r.hdr.cols + rc.2) = .ok (ls.getD (rc.1 * r.hdr.cols + rc.2).toNat []) := by
    intro rc hrc
    rw [mem_gridCells] at hrc
    have hr := idx_range hrc.1 hrc.2.1 hrc.2.2.1 hrc.2.2.2
    have hi : (rc.1 * r.hdr.cols + rc.2).toNat < ls.length := by omega
    have := h.holds.readLayers _ hi
    rw [show (((rc.1 * r.hdr.cols + rc.2).toNat : Nat) : Int) = rc.1 * r.hdr.cols + rc.2 by omega] at this
    rw [this, List.getD_eq_getElem _ _ hi]
  have hcol := r.collectValid_ok _ _ hread
  unfold calcValidPositions
  rw [hcol]
  simp only [Out.ok_bind]
  change ∃ r', (if (r.is2d && decide (r.nLyrs ≤ 0) && decide ((List.length (List.map _ (r.validCells ls)) : Int) > 0)) = true then _ else _) = _ ∧ _
  have hn := h.holds.1
  have : decide (r.nLyrs ≤ 0) = false := by simp; omega
  simp only [this, Bool.and_false, Bool.false_and, Bool.false_eq_true, if_false, h.pd, h.pi, List.length_map]
  generalize hvc : r.validCells ls = vc
  have hvc' : (gridCells r.hdr.rows r.hdr.cols).filter
    (fun rc => !floatEqual ((ls.getD (rc.1 * r.hdr.cols + rc.2).toNat []).headD 0) r.noData) = vc := hvc
  rw [hvc']
  by_cases hz : vc = []
  · subst hz
    simp [storeInto_null, alloc1, alloc2]
    left
    refine ⟨rfl, hn, ?_, h.rows_nn, h.cols_nn, rfl, rfl, rfl, ?_, ?_⟩
    · intro hd; have := h.holds.2.2; simp only at hd; simp only [hd, Bool.false_eq_true, if_false] at this; exact this.1
    · intro hd; simp only at hd; simp [hd]
    · intro hd; simp only at hd; simp [hd]; omega
  · have hpos : 0 < vc.length := List.length_pos_of_ne_nil hz
    have ha1 : ∀ (v : Int), (alloc1 (vc.length : Int) v) = some (List.replicate vc.length v) := by
      intro v; unfold alloc1; rw [if_neg (by omega)]; simp
    have ha1q : ∀ (v : ℚ), (alloc1 (vc.length : Int) v) = some (List.replicate vc.length v) := by
      intro v; unfold alloc1; rw [if_neg (by omega)]; simp
    have ha2 : (alloc2 (vc.length : Int) 2 (0:Int)) = some (List.replicate vc.length (List.replicate 2 0)) := by
      unfold alloc2; rw [if_neg (by omega)]; simp
    have ha2q : (alloc2 (vc.length : Int) r.nLyrs r.noData) =
        some (List.replicate vc.length (List.replicate r.nLyrs.toNat r.noData)) := by
      unfold alloc2; rw [if_neg (by omega)]; simp
    rw [ha2, ha1, ha1q, ha2q]
    simp only [storeInto, Option.map_some, Out.ok_bind, Out.pure_eq, List.map_map]
    refine ⟨_, rfl, rfl, rfl, rfl, rfl, rfl, rfl, rfl, .inr ?_⟩
    refine ⟨⟨hn, ?_, ?_⟩, h.rows_nn, h.cols_nn, by simp, rfl, hz, rfl, ?_, ?_, ?_, ?_⟩
    · intro c hc
      simp only [List.mem_map] at hc
      obtain ⟨rc, hrc, rfl⟩ := hc
      have hrc' : rc ∈ gridCells r.hdr.rows r.hdr.cols := by
        rw [← hvc'] at hrc; exact (List.mem_filter.1 hrc).1
      rw [mem_gridCells] at hrc'
      have hr := idx_range hrc'.1 hrc'.2.1 hrc'.2.2.1 hrc'.2.2.2
      have hi : (rc.1 * r.hdr.cols + rc.2).toNat < ls.length := by omega
      rw [List.getD_eq_getElem _ _ hi]
      exact h.holds.2.1 _ (List.getElem_mem hi)
    · cases hd : r.is2d
      · have := h.holds.2.2; simp only [hd, Bool.false_eq_true, if_false] at this
        refine ⟨this.1, ?_⟩
        simp only [Bool.false_eq_true, if_false, List.map_map]; rfl
      · simp only [if_true]; rfl
    · simp [Function.comp_def]
    · simp [Function.comp_def]
    · intro rc hrc
      have hrc' : rc ∈ gridCells r.hdr.rows r.hdr.cols := by
        rw [← hvc'] at hrc; exact (List.mem_filter.1 hrc).1
      exact (mem_gridCells _ _ _).1 hrc'
    · have := r.validCells_sorted ls h.rows_nn h.cols_nn
      rw [hvc] at this; exact this

end Raster
end CCGL
