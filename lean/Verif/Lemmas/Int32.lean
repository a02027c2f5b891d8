import Verif.Model.Int32
import Verif.Lemmas.MaskShape
/-!
# When the 32-bit arithmetic computes what unbounded arithmetic computes
-/
namespace CCGL
namespace I32
open Raster

theorem chk_ok {x : Int} (h1 : -2147483648 ≤ x) (h2 : x ≤ intMax) : chk x = .ok x := by
  unfold chk; rw [if_pos ⟨h1, h2⟩]

theorem chk_nn {x : Int} (h1 : 0 ≤ x) (h2 : x ≤ intMax) : chk x = .ok x := chk_ok (by omega) h2

theorem chk_ub {x : Int} (h2 : intMax < x) : chk x = .ub := by
  unfold chk; rw [if_neg (by omega)]

theorem mul_ok {a b : Int} (h1 : 0 ≤ a * b) (h2 : a * b ≤ intMax) : mul a b = .ok (a * b) := chk_nn h1 h2

/-- The number of a cell inside a grid of that size. -/
theorem idx_lt {row cols col rows : Int} (h1 : 0 ≤ row) (h2 : row < rows) (h3 : 0 ≤ col) (h4 : col < cols) :
    0 ≤ row * cols ∧ 0 ≤ row * cols + col ∧ row * cols + col < rows * cols := by
  have a : 0 ≤ row * cols := mul_nonneg h1 (by omega)
  have b : (row + 1) * cols ≤ rows * cols := mul_le_mul_of_nonneg_right (by omega) (by omega)
  rw [add_mul, one_mul] at b
  omega

theorem index_ok {row cols col rows : Int} (h1 : 0 ≤ row) (h2 : row < rows) (h3 : 0 ≤ col) (h4 : col < cols)
    (hm : rows * cols ≤ intMax) : index row cols col = .ok (row * cols + col) := by
  obtain ⟨a, b, c⟩ := idx_lt h1 h2 h3 h4
  unfold index
  rw [mul_ok a (by omega)]
  exact chk_nn b (by omega)

theorem index_ok' {row cols col rows : Int} (h1 : 0 ≤ row) (h2 : row < rows) (h3 : 0 ≤ col) (h4 : col < cols)
    (hm : rows * cols ≤ intMax) : index cols row col = .ok (cols * row + col) := by
  obtain ⟨a, b, c⟩ := idx_lt h1 h2 h3 h4
  have e : cols * row = row * cols := mul_comm _ _
  unfold index
  rw [mul_ok (by omega) (by omega), Out.ok_bind]
  exact chk_nn (by omega) (by omega)

/-- What the sizes of a raster a program gets satisfy. -/
structure Sized (r : Raster) : Prop where
  rows_nn : 0 ≤ r.hdr.rows
  cols_nn : 0 ≤ r.hdr.cols
  lyrs : 1 ≤ r.nLyrs
  cells_nn : 0 ≤ r.nCells
  cells_le : r.nCells ≤ r.hdr.rows * r.hdr.cols
  idx : ∀ l, r.posIdx = some l → ∀ x ∈ l, 0 ≤ x ∧ x < r.hdr.rows * r.hdr.cols
  pos : ∀ ps, r.posData = some ps → ∀ p ∈ ps, 0 ≤ p.1 ∧ p.1 < r.hdr.rows ∧ 0 ≤ p.2 ∧ p.2 < r.hdr.cols

/-- A strictly increasing list of numbers below `n` has at most `n` of them. -/
theorem sorted_length (l : List Int) (n : Int) (hn : 0 ≤ n) (hs : l.Pairwise (· < ·)) (h : ∀ x ∈ l, 0 ≤ x ∧ x < n) :
    (l.length : Int) ≤ n := by
  have hnd : (l.map Int.toNat).Nodup := by
    rw [List.nodup_iff_pairwise_ne, List.pairwise_map]
    refine List.Pairwise.imp_of_mem ?_ hs
    intro a b ha hb hab
    have := h a ha; have := h b hb
    omega
  have hsub : l.map Int.toNat ⊆ List.range n.toNat := by
    intro x hx
    obtain ⟨y, hy, rfl⟩ := List.mem_map.1 hx
    have := h y hy
    rw [List.mem_range]; omega
  have := (List.subperm_of_subset hnd hsub).length_le
  simp at this
  omega

theorem Sized.of_rinv {r : Raster} (h : r.RInv) : Sized r := by
  have hE : r.Empty → Sized r := fun h => ⟨h.rows_nn, h.cols_nn, h.lyrs, by rw [h.ncells],
    by rw [h.ncells]; exact mul_nonneg h.rows_nn h.cols_nn, (by intro l hl; rw [h.pi] at hl; cases hl),
    (by intro l hl x hx; rw [h.pd] at hl; cases hl; cases hx)⟩
  rcases h with ⟨ls, loc, h⟩ | ⟨_, h⟩
  · cases h with
    | full h => exact ⟨h.rows_nn, h.cols_nn, h.holds.1, by rw [h.ncells]; exact mul_nonneg h.rows_nn h.cols_nn,
        by rw [h.ncells], (by intro l hl; rw [h.pi] at hl; cases hl), (by intro l hl; rw [h.pd] at hl; cases hl)⟩
    | @comp _ ps h =>
      have hidx : ∀ x ∈ ps.map (fun rc => rc.1 * r.hdr.cols + rc.2), 0 ≤ x ∧ x < r.hdr.rows * r.hdr.cols := by
        intro x hx
        obtain ⟨p, hp, rfl⟩ := List.mem_map.1 hx
        obtain ⟨a, b, c, d⟩ := h.inside p hp
        exact (idx_lt a b c d).2
      refine ⟨h.rows_nn, h.cols_nn, h.holds.1, by rw [h.ncells]; omega, ?_, ?_, ?_⟩
      · have := sorted_length _ _ (mul_nonneg h.rows_nn h.cols_nn) h.sorted hidx
        rw [List.length_map] at this
        rw [h.ncells]; exact this
      · intro l hl; rw [h.pi] at hl; cases hl; exact hidx
      · intro l hl; rw [h.pd] at hl; cases hl; exact h.inside
    | empty h _ => exact hE h
  · exact hE h

theorem validRowCol_iff (r : Raster) (row col : Int) (h : r.validRowCol row col = true) :
    0 ≤ row ∧ row < r.hdr.rows ∧ 0 ≤ col ∧ col < r.hdr.cols := by
  unfold Raster.validRowCol at h
  simp at h
  omega

theorem bsearch_eq (p : Ptr Int) (target : Int) : ∀ (n : Nat) (left right : Int), 0 ≤ left → -1 ≤ right → right < intMax →
    left ≤ right + 1 → (right - left + 1).toNat ≤ n → bsearch p target n left right = bsearchLoop p target left right := by
  intro n
  induction n with
  | zero =>
    intro left right h0 h1 h2 h4 h3
    unfold bsearch bsearchLoop
    rw [dif_neg (by omega)]
  | succ n ih =>
    intro left right h0 h1 h2 h4 h3
    unfold bsearch
    rw [bsearchLoop]
    by_cases hle : left ≤ right
    · rw [if_pos hle, dif_pos hle]
      have ht : (right - left).tdiv 2 = (right - left) / 2 := Int.tdiv_eq_ediv_of_nonneg (by omega)
      have e1 : sub right left = .ok (right - left) := chk_nn (by omega) (by omega)
      have e2 : add left ((right - left).tdiv 2) = .ok (left + (right - left).tdiv 2) := chk_nn (by omega) (by omega)
      rw [e1, Out.ok_bind, e2, Out.ok_bind]
      dsimp only
      cases hv : readAt p (left + (right - left).tdiv 2) with
      | ok v =>
        rw [Out.ok_bind]
        dsimp only
        have e3 : sub (left + (right - left).tdiv 2) 1 = .ok (left + (right - left).tdiv 2 - 1) := chk_ok (by omega) (by omega)
        have e4 : add (left + (right - left).tdiv 2) 1 = .ok (left + (right - left).tdiv 2 + 1) := chk_ok (by omega) (by omega)
        rw [e3, e4, Out.ok_bind, Out.ok_bind, ih _ _ (by omega) (by omega) (by omega) (by omega) (by omega),
          ih _ _ (by omega) (by omega) (by omega) (by omega) (by omega)]
        rfl
      | ub => rfl
      | exn => rfl
    · rw [if_neg hle, dif_neg hle]; rfl

theorem getPosition_eq {r : Raster} (h : Sized r) (hm : r.hdr.rows * r.hdr.cols ≤ intMax) (row col : Int) :
    getPosition r row col = r.getPosition row col := by
  unfold getPosition Raster.getPosition
  by_cases hv : (!r.validData || !r.validRowCol row col) = true
  · rw [if_pos hv, if_pos hv]
  · rw [if_neg hv, if_neg hv]
    simp only [Bool.or_eq_true, Bool.not_eq_true', not_or, Bool.not_eq_false] at hv
    obtain ⟨a, b, c, d⟩ := validRowCol_iff r row col hv.2
    rw [index_ok' a b c d hm, Out.ok_bind]
    have e : sub r.nCells 1 = .ok (r.nCells - 1) := by
      have := h.cells_nn; have := h.cells_le
      exact chk_ok (by omega) (by omega)
    have := h.cells_nn
    have := h.cells_le
    rw [e, Out.ok_bind, bsearch_eq _ _ _ _ _ (by omega) (by omega) (by omega) (by omega) (by omega)]
    rfl

theorem getValue_eq {r : Raster} (h : Sized r) (hm : r.hdr.rows * r.hdr.cols ≤ intMax) (row col lyr : Int) :
    getValue r row col lyr = r.getValue row col lyr := by
  unfold getValue Raster.getValue
  by_cases hv : (!r.validData || !r.validRowCol row col || !r.validLayer lyr) = true
  · rw [if_pos hv, if_pos hv]
  · rw [if_neg hv, if_neg hv]
    simp only [Bool.or_eq_true, Bool.not_eq_true', not_or, Bool.not_eq_false] at hv
    obtain ⟨a, b, c, d⟩ := validRowCol_iff r row col hv.1.2
    rw [index_ok a b c d hm, Out.ok_bind, getPosition_eq h hm]

theorem setValue_eq {r : Raster} (h : Sized r) (hm : r.hdr.rows * r.hdr.cols ≤ intMax) (row col : Int) (v : ℚ) (lyr : Int) :
    setValue r row col v lyr = r.setValue row col v lyr := by
  unfold setValue Raster.setValue
  rw [getPosition_eq h hm]

theorem collectValid_eq (r : Raster) (hm : r.hdr.rows * r.hdr.cols ≤ intMax) : ∀ cells : List (Int × Int),
    (∀ p ∈ cells, 0 ≤ p.1 ∧ p.1 < r.hdr.rows ∧ 0 ≤ p.2 ∧ p.2 < r.hdr.cols) → collectValid r cells = r.collectValid cells := by
  intro cells
  induction cells with
  | nil => intro _; rfl
  | cons rc cells ih =>
    intro hp
    obtain ⟨a, b, c, d⟩ := hp rc (by simp)
    rw [collectValid, Raster.collectValid, index_ok a b c d hm, Out.ok_bind, ih (fun p hq => hp p (by simp [hq]))]

theorem collectValid_mem (r : Raster) : ∀ (cells : List (Int × Int)) vs, r.collectValid cells = .ok vs →
    (vs.map (·.1)).Sublist cells := by
  intro cells
  induction cells with
  | nil => intro vs e; cases e; exact .refl _
  | cons rc cells ih =>
    intro vs e
    rw [Raster.collectValid] at e
    cases h1 : r.readLayers (rc.1 * r.hdr.cols + rc.2) with
    | ok l =>
      rw [h1, Out.ok_bind] at e
      cases h2 : r.collectValid cells with
      | ok rest =>
        rw [h2, Out.ok_bind] at e
        by_cases hf : floatEqual (l.headD 0) r.noData = true
        · rw [if_pos hf] at e; cases e; exact (ih _ h2).cons _
        · rw [if_neg hf] at e; cases e; exact (ih _ h2).cons_cons _
      | ub => rw [h2] at e; cases e
      | exn => rw [h2] at e; cases e
    | ub => rw [h1] at e; cases e
    | exn => rw [h1] at e; cases e

theorem gridCells_length' (rows cols : Int) (h1 : 0 ≤ rows) (h2 : 0 ≤ cols) : ((gridCells rows cols).length : Int) = rows * cols := by
  obtain ⟨R, rfl⟩ := Int.eq_ofNat_of_zero_le h1
  obtain ⟨C, rfl⟩ := Int.eq_ofNat_of_zero_le h2
  have := congrArg List.length (gridCells_idx R C)
  simp at this
  rw [this]; push_cast; rfl

/-- `mapM` with functions that agree on the members. -/
theorem mapM_eq {α β : Type} (f g : α → Out β) : ∀ l : List α, (∀ x ∈ l, f x = g x) → l.mapM f = l.mapM g := by
  intro l
  induction l with
  | nil => intro _; rfl
  | cons a l ih =>
    intro h
    rw [List.mapM_cons, List.mapM_cons, h a (by simp), ih (fun x hx => h x (by simp [hx]))]

theorem mapM_pure {α β : Type} (f : α → Out β) (g : α → β) : ∀ l : List α, (∀ x ∈ l, f x = .ok (g x)) → l.mapM f = .ok (l.map g) := by
  intro l
  induction l with
  | nil => intro _; rfl
  | cons a l ih =>
    intro h
    rw [List.mapM_cons, h a (by simp), ih (fun x hx => h x (by simp [hx]))]
    rfl

/-- Only the number of the valid cells matters. -/
theorem calcValidPositions_eq' {r : Raster} (h1 : 0 ≤ r.hdr.rows) (h2 : 0 ≤ r.hdr.cols) (h3 : 0 ≤ r.nLyrs) (hm : r.hdr.rows * r.hdr.cols ≤ intMax)
    (hn : ∀ vs, r.collectValid (gridCells r.hdr.rows r.hdr.cols) = .ok vs → (vs.length : Int) * 2 ≤ intMax ∧ (r.is2d = true → (vs.length : Int) * r.nLyrs ≤ intMax)) :
    calcValidPositions r = r.calcValidPositions := by
  have hN := mul_nonneg h1 h2
  have hmem : ∀ p ∈ gridCells r.hdr.rows r.hdr.cols, 0 ≤ p.1 ∧ p.1 < r.hdr.rows ∧ 0 ≤ p.2 ∧ p.2 < r.hdr.cols :=
    fun p hp => (mem_gridCells _ _ _).1 hp
  unfold calcValidPositions Raster.calcValidPositions
  rw [collectValid_eq r hm _ hmem]
  cases hc : r.collectValid (gridCells r.hdr.rows r.hdr.cols) with
  | ok vs =>
    have hs := collectValid_mem r _ vs hc
    obtain ⟨k1, k2⟩ := hn vs hc
    rw [Out.ok_bind, Out.ok_bind, chk_nn (by omega) (by omega), Out.ok_bind]
    have e1 : (if r.is2d = true then mul (vs.length : Int) r.nLyrs else .ok 0 : Out Int) =
        .ok (if r.is2d = true then (vs.length : Int) * r.nLyrs else 0) := by
      by_cases hd : r.is2d = true
      · rw [if_pos hd, if_pos hd]
        exact mul_ok (mul_nonneg (by omega) h3) (k2 hd)
      · rw [if_neg hd, if_neg hd]
    have e2 : (if r.posData.isNone = true then mul (vs.length : Int) 2 else .ok 0 : Out Int) =
        .ok (if r.posData.isNone = true then (vs.length : Int) * 2 else 0) := by
      by_cases hd : r.posData.isNone = true
      · rw [if_pos hd, if_pos hd]; exact mul_ok (by omega) (by omega)
      · rw [if_neg hd, if_neg hd]
    rw [e1, Out.ok_bind, e2, Out.ok_bind,
      mapM_pure _ (fun x : (Int × Int) × List ℚ => x.1.1 * r.hdr.cols + x.1.2) vs (fun x hx => by
        obtain ⟨a, b, c, d⟩ := hmem x.1 (hs.subset (List.mem_map.2 ⟨x, hx, rfl⟩))
        exact index_ok a b c d hm), Out.ok_bind]
  | ub => rfl
  | exn => rfl

theorem calcValidPositions_eq {r : Raster} (h1 : 0 ≤ r.hdr.rows) (h2 : 0 ≤ r.hdr.cols) (h3 : 0 ≤ r.nLyrs)
    (hm : r.hdr.rows * r.hdr.cols * 2 ≤ intMax) (hl : r.is2d = true → r.hdr.rows * r.hdr.cols * r.nLyrs ≤ intMax) :
    calcValidPositions r = r.calcValidPositions := by
  have hN := mul_nonneg h1 h2
  refine calcValidPositions_eq' h1 h2 h3 (by omega) (fun vs hc => ?_)
  have hlen := (collectValid_mem r _ vs hc).length_le
  rw [List.length_map] at hlen
  have hg := gridCells_length' _ _ h1 h2
  have hn : (vs.length : Int) ≤ r.hdr.rows * r.hdr.cols := by omega
  exact ⟨by omega, fun hd => le_trans (mul_le_mul_of_nonneg_right hn h3) (hl hd)⟩

/-- Same size and number of layers. -/
def SameDims (r r' : Raster) : Prop :=
  r'.hdr.rows = r.hdr.rows ∧ r'.hdr.cols = r.hdr.cols ∧ r'.nLyrs = r.nLyrs ∧ r'.is2d = r.is2d

theorem SameDims.refl (r : Raster) : SameDims r r := ⟨rfl, rfl, rfl, rfl⟩

theorem SameDims.trans {a b c : Raster} (h : SameDims a b) (h' : SameDims b c) : SameDims a c :=
  ⟨h'.1.trans h.1, h'.2.1.trans h.2.1, h'.2.2.1.trans h.2.2.1, h'.2.2.2.trans h.2.2.2⟩

theorem SameDims.writeCell {r r' : Raster} {i l v} (e : r.writeCell i l v = .ok r') : SameDims r r' := by
  obtain ⟨⟨a, b, rfl⟩, _⟩ := SameButCells.writeCell e
  exact ⟨rfl, rfl, rfl, rfl⟩

theorem SameDims.passCells {f : ℚ → Out (Option ℚ)} (il : List (Int × Int)) : ∀ {r r' : Raster},
    Raster.passCells f r il = .ok r' → SameDims r r' := by
  induction il with
  | nil => intro r r' e; cases e; exact .refl _
  | cons p il ih =>
    intro r r' e
    rw [Raster.passCells] at e
    obtain ⟨x, _, e⟩ := Out.bind_ok e
    obtain ⟨y, _, e⟩ := Out.bind_ok e
    cases y with
    | none =>
      obtain ⟨r1, e1, e⟩ := Out.bind_ok e
      cases e1; exact ih e
    | some v =>
      obtain ⟨r1, e1, e⟩ := Out.bind_ok e
      exact (SameDims.writeCell e1).trans (ih e)

theorem SameDims.calc {r r' : Raster} (e : r.calcValidPositions = .ok r') : SameDims r r' := by
  unfold Raster.calcValidPositions at e
  obtain ⟨vs, _, e⟩ := Out.bind_ok e
  by_cases h : (r.is2d && decide (r.nLyrs ≤ 0) && decide ((vs.length : Int) > 0)) = true
  · rw [if_pos h] at e; cases e
  · rw [if_neg h] at e
    obtain ⟨pd, _, e⟩ := Out.bind_ok e
    obtain ⟨pi, _, e⟩ := Out.bind_ok e
    cases e
    exact ⟨rfl, rfl, rfl, rfl⟩

theorem SameDims.calcNoMask {r r' : Raster} {c} (e : r.calcNoMask = .ok (r', c)) : SameDims r r' := by
  unfold Raster.calcNoMask at e
  by_cases h : r.calcPos = true
  · rw [if_pos h] at e
    by_cases h' : (r.posData.isNone || r.posIdx.isNone) = true
    · rw [if_pos h'] at e
      obtain ⟨r1, e1, e⟩ := Out.bind_ok e
      cases e
      exact SameDims.calc e1
    · rw [if_neg h'] at e; cases e; exact .refl _
  · rw [if_neg h] at e; cases e; exact ⟨rfl, rfl, rfl, rfl⟩

theorem SameDims.setCalc {r r' : Raster} {b} (e : r.setCalcPositions = .ok (r', b)) : SameDims r r' := by
  unfold Raster.setCalcPositions at e
  by_cases h : (!r.validData) = true
  · rw [if_pos h] at e; cases e; exact .refl _
  · rw [if_neg h] at e
    by_cases h' : (r.calcPos && (r.posData.isSome || r.posIdx.isSome)) = true
    · rw [if_pos h'] at e; cases e; exact .refl _
    · rw [if_neg h'] at e
      obtain ⟨⟨r1, c⟩, e1, e⟩ := Out.bind_ok e
      cases e
      exact SameDims.trans (b := { r with calcPos := true }) ⟨rfl, rfl, rfl, rfl⟩ (SameDims.calcNoMask e1)

theorem SameDims.posData {r r' : Raster} {n p} (e : r.getPositionData = .ok (r', n, p)) : SameDims r r' := by
  unfold Raster.getPositionData at e
  by_cases h : r.posData.isSome = true
  · rw [if_pos h] at e; cases e; exact .refl _
  · rw [if_neg h] at e
    by_cases h' : (!r.validData) = true
    · rw [if_pos h'] at e; cases e; exact .refl _
    · rw [if_neg h'] at e
      obtain ⟨r1, e1, e⟩ := Out.bind_ok e
      cases e
      exact SameDims.calc e1

theorem SameDims.posIdx {r r' : Raster} {n p} (e : r.getPositionIdx = .ok (r', n, p)) : SameDims r r' := by
  unfold Raster.getPositionIdx at e
  by_cases h : r.posIdx.isSome = true
  · rw [if_pos h] at e; cases e; exact .refl _
  · rw [if_neg h] at e
    by_cases h' : (!r.validData) = true
    · rw [if_pos h'] at e; cases e; exact .refl _
    · rw [if_neg h'] at e
      obtain ⟨r1, e1, e⟩ := Out.bind_ok e
      cases e
      exact SameDims.calc e1

theorem SameDims.step {r r' : Raster} (op : Op) (e : r.step op = .ok r') : SameDims r r' := by
  cases op with
  | setValue row col v lyr =>
    change r.setValue row col v lyr = _ at e
    unfold Raster.setValue at e
    by_cases h : (!r.validData || !r.validRowCol row col || !r.validLayer lyr) = true
    · rw [if_pos h] at e; cases e; exact .refl _
    · rw [if_neg h] at e
      obtain ⟨i, _, e⟩ := Out.bind_ok e
      by_cases hi : i = -1
      · rw [if_pos hi] at e; cases e; exact .refl _
      · rw [if_neg hi] at e; exact SameDims.writeCell e
  | setCalcPositions => obtain ⟨⟨x, b⟩, e1, e⟩ := Out.bind_ok e; cases e; exact SameDims.setCalc e1
  | getPositionIdx => obtain ⟨⟨x, b⟩, e1, e⟩ := Out.bind_ok e; cases e; exact SameDims.posIdx e1
  | getPositionData => obtain ⟨⟨x, b⟩, e1, e⟩ := Out.bind_ok e; cases e; exact SameDims.posData e1
  | replaceNoData v =>
    change r.replaceNoData v = _ at e
    unfold Raster.replaceNoData at e
    obtain ⟨r1, e1, e⟩ := Out.bind_ok e
    have := SameDims.passCells _ e1
    cases e
    exact this
  | reclassify m => exact SameDims.passCells _ e
  | getValue row col lyr => obtain ⟨x, e1, e⟩ := Out.bind_ok e; cases e; exact .refl _
  | getValueByIndex i lyr => obtain ⟨x, e1, e⟩ := Out.bind_ok e; cases e; exact .refl _
  | getPosition row col => obtain ⟨x, e1, e⟩ := Out.bind_ok e; cases e; exact .refl _
  | isNoData row col lyr => obtain ⟨x, e1, e⟩ := Out.bind_ok e; cases e; exact .refl _

theorem calcNoMask_eq {r : Raster} (h1 : 0 ≤ r.hdr.rows) (h2 : 0 ≤ r.hdr.cols) (h3 : 0 ≤ r.nLyrs)
    (hm : r.hdr.rows * r.hdr.cols * 2 ≤ intMax) (hl : r.is2d = true → r.hdr.rows * r.hdr.cols * r.nLyrs ≤ intMax) :
    calcNoMask r = r.calcNoMask := by
  have hN := mul_nonneg h1 h2
  unfold calcNoMask Raster.calcNoMask
  rw [calcValidPositions_eq h1 h2 h3 hm hl, mul_ok hN (by omega)]
  rfl

theorem setCalcPositions_eq {r : Raster} (h1 : 0 ≤ r.hdr.rows) (h2 : 0 ≤ r.hdr.cols) (h3 : 0 ≤ r.nLyrs)
    (hm : r.hdr.rows * r.hdr.cols * 2 ≤ intMax) (hl : r.is2d = true → r.hdr.rows * r.hdr.cols * r.nLyrs ≤ intMax) :
    setCalcPositions r = r.setCalcPositions := by
  unfold setCalcPositions Raster.setCalcPositions
  rw [calcNoMask_eq (r := { r with calcPos := true }) h1 h2 h3 hm hl]

theorem getPositionData_eq {r : Raster} (h1 : 0 ≤ r.hdr.rows) (h2 : 0 ≤ r.hdr.cols) (h3 : 0 ≤ r.nLyrs)
    (hm : r.hdr.rows * r.hdr.cols * 2 ≤ intMax) (hl : r.is2d = true → r.hdr.rows * r.hdr.cols * r.nLyrs ≤ intMax) :
    getPositionData r = r.getPositionData := by
  unfold getPositionData Raster.getPositionData
  rw [calcValidPositions_eq h1 h2 h3 hm hl]

theorem getPositionIdx_eq {r : Raster} (h1 : 0 ≤ r.hdr.rows) (h2 : 0 ≤ r.hdr.cols) (h3 : 0 ≤ r.nLyrs)
    (hm : r.hdr.rows * r.hdr.cols * 2 ≤ intMax) (hl : r.is2d = true → r.hdr.rows * r.hdr.cols * r.nLyrs ≤ intMax) :
    getPositionIdx r = r.getPositionIdx := by
  unfold getPositionIdx Raster.getPositionIdx
  rw [calcValidPositions_eq h1 h2 h3 hm hl]

end I32
end CCGL
