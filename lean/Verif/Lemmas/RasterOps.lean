import Verif.Lemmas.Raster
namespace CCGL

/-- Value of cell `i`, layer `l` (from 0) in a list of cells. -/
def cellAt (ls : List (List ℚ)) (i l : Nat) : ℚ := (ls.getD i []).getD l 0

/-- Overwrite cell `i`, layer `l`. -/
def setCell (ls : List (List ℚ)) (i l : Nat) (v : ℚ) : List (List ℚ) :=
  ls.set i ((ls.getD i []).set l v)

@[simp] theorem setCell_length (ls i l v) : (setCell ls i l v).length = ls.length := by simp [setCell]

theorem setCell_rowlen (ls : List (List ℚ)) (i l : Nat) (v : ℚ) (n : Int)
    (h : ∀ c ∈ ls, (c.length : Int) = n) (hi : i < ls.length) : ∀ c ∈ setCell ls i l v, (c.length : Int) = n := by
  intro c hc
  unfold setCell at hc
  rcases List.mem_or_eq_of_mem_set hc with hc | rfl
  · exact h c hc
  · rw [List.length_set, List.getD_eq_getElem _ _ hi]; exact h _ (List.getElem_mem hi)

theorem cellAt_setCell (ls : List (List ℚ)) (i l : Nat) (v : ℚ) (hi : i < ls.length)
    (hl : l < (ls.getD i []).length) (i' l' : Nat) :
    cellAt (setCell ls i l v) i' l' = if i' = i ∧ l' = l then v else cellAt ls i' l' := by
  unfold cellAt setCell
  by_cases h1 : i' = i
  · subst h1
    rw [List.getD_eq_getElem (ls.set _ _) _ (by simpa using hi)]
    simp only [List.getElem_set_self, true_and]
    by_cases h2 : l' = l
    · subst h2
      simp only [if_true]
      rw [List.getD_eq_getElem _ _ (by simpa using hl)]; simp
    · simp only [h2, if_false]
      simp only [List.getD_eq_getElem?_getD]
      rw [List.getElem?_set_ne (Ne.symm h2)]
  · simp only [h1, false_and, if_false]
    simp only [List.getD_eq_getElem?_getD]
    rw [List.getElem?_set_ne (Ne.symm h1)]

namespace Raster

/-- Only the stored cells differ. -/
def SameShape (r r' : Raster) : Prop := ∃ d1 d2, r' = { r with raster1 := d1, raster2 := d2 }

theorem SameShape.refl (r : Raster) : r.SameShape r := ⟨r.raster1, r.raster2, rfl⟩
theorem SameShape.trans {a b c : Raster} (h : a.SameShape b) (h' : b.SameShape c) : a.SameShape c := by
  obtain ⟨x, y, rfl⟩ := h; obtain ⟨u, v, rfl⟩ := h'; exact ⟨u, v, rfl⟩

theorem Holds.readCell' {r : Raster} {ls} (h : r.Holds ls) (i : Nat) (hi : i < ls.length) (lyr : Int)
    (h1 : 1 ≤ lyr) (h2 : lyr ≤ r.nLyrs) : r.readCell i lyr = .ok (cellAt ls i (lyr - 1).toNat) := by
  rw [h.readCell i hi lyr h1 h2]; unfold cellAt; rw [List.getD_eq_getElem ls _ hi]

theorem Holds.writeCell {r : Raster} {ls} (h : r.Holds ls) (i : Nat) (hi : i < ls.length) (lyr : Int)
    (h1 : 1 ≤ lyr) (h2 : lyr ≤ r.nLyrs) (v : ℚ) :
    ∃ r', r.writeCell i lyr v = .ok r' ∧ r.SameShape r' ∧ r'.Holds (setCell ls i (lyr - 1).toNat v) := by
  have hlen := h.2.1 ls[i] (List.getElem_mem hi)
  obtain ⟨hn, hc, hh⟩ := h
  unfold Raster.writeCell
  cases hd : r.is2d <;> simp only [hd, if_true, Bool.false_eq_true, if_false] at hh ⊢
  · obtain ⟨h3, h4⟩ := hh
    rw [h4, writeAt_some _ _ _ (by omega) (by simpa using hi)]
    simp only [Out.ok_bind, Out.pure_eq]
    refine ⟨_, rfl, ⟨_, r.raster2, by rw [hd]⟩, hn, setCell_rowlen ls i _ v _ hc hi, ?_⟩
    simp only [Bool.false_eq_true, if_false]
    refine ⟨h3, ?_⟩
    have : lyr = 1 := by omega
    subst this
    congr 1
    unfold setCell
    rw [List.map_set]
    simp only [Int.toNat_natCast]
    congr 1
    rw [List.getD_eq_getElem _ _ hi]
    have : ls[i].length = 1 := by omega
    obtain ⟨a, ha⟩ := List.length_eq_one_iff.1 this
    simp [ha]
  · rw [hh, readAt_some_nat _ i hi, Out.ok_bind, writeAt_some _ _ _ (by omega) (by omega)]
    simp only [Out.ok_bind]
    rw [writeAt_some _ _ _ (by omega) (by simpa using hi)]
    simp only [Out.ok_bind, Out.pure_eq]
    refine ⟨_, rfl, ⟨r.raster1, _, by rw [hd]⟩, hn, setCell_rowlen ls i _ v _ hc hi, ?_⟩
    simp only [if_true]
    unfold setCell
    simp only [Int.toNat_natCast, List.getD_eq_getElem _ _ hi]

theorem Full.ofShape {r r' : Raster} {ls ls'} (h : r.Full ls) (hs : r.SameShape r') (hh : r'.Holds ls')
    (hl : ls'.length = ls.length) : r'.Full ls' := by
  obtain ⟨a, b, rfl⟩ := hs
  exact ⟨hh, h.rows_nn, h.cols_nn, by rw [hl]; exact h.len, h.ncells, h.pd, h.pi⟩

theorem Compact.ofShape {r r' : Raster} {ls ls' ps} (h : r.Compact ls ps) (hs : r.SameShape r')
    (hh : r'.Holds ls') (hl : ls'.length = ls.length) : r'.Compact ls' ps := by
  obtain ⟨a, b, rfl⟩ := hs
  exact ⟨hh, h.rows_nn, h.cols_nn, by rw [hl]; exact h.len, h.ncells, h.ne, h.calcOn, h.pd, h.pi,
    h.inside, h.sorted⟩

/-- Storage index of a cell in a full raster. -/
def fullLoc (hdr : Header) (row col : Int) : Option Nat :=
  if 0 ≤ row ∧ row < hdr.rows ∧ 0 ≤ col ∧ col < hdr.cols then some (row * hdr.cols + col).toNat else none

/-- Storage index of a cell in a compact raster. -/
def compLoc (ps : List (Int × Int)) (row col : Int) : Option Nat :=
  if (row, col) ∈ ps then some (ps.idxOf (row, col)) else none

/-- The invariant of initialised rasters: storage `ls` and the storage index `loc` of each cell. -/
inductive Inv : Raster → List (List ℚ) → (Int → Int → Option Nat) → Prop
  | full {r ls} (h : r.Full ls) : Inv r ls (fullLoc r.hdr)
  | comp {r ls ps} (h : r.Compact ls ps) : Inv r ls (compLoc ps)
  | empty {r} (h : r.Empty) (h1 : r.is2d = false) : Inv r [] (fun _ _ => none)

theorem Compact.idxOf {r : Raster} {ls ps} (h : r.Compact ls ps) (m : Nat) (hm : m < ps.length) :
    ps.idxOf ps[m] = m := by
  have hnd : ps.Nodup := by
    have := h.sorted
    rw [List.pairwise_map] at this
    exact this.imp (by rintro a b hab rfl; omega)
  exact hnd.idxOf_getElem m hm

theorem Inv.lyrs {r ls loc} (h : Inv r ls loc) : 1 ≤ r.nLyrs := by
  cases h with
  | full h => exact h.holds.1
  | comp h => exact h.holds.1
  | empty h h1 => exact h.lyrs

theorem Inv.inside {r ls loc} (h : Inv r ls loc) {row col : Int} {m : Nat} (hm : loc row col = some m) :
    (0 ≤ row ∧ row < r.hdr.rows ∧ 0 ≤ col ∧ col < r.hdr.cols) ∧ m < ls.length := by
  cases h with
  | full h =>
    unfold fullLoc at hm
    split at hm
    · next hin =>
      simp only [Option.some.injEq] at hm
      have := idx_range hin.1 hin.2.1 hin.2.2.1 hin.2.2.2
      have := h.len
      exact ⟨hin, by omega⟩
    · simp at hm
  | comp h =>
    unfold compLoc at hm
    split at hm
    · next hin =>
      simp only [Option.some.injEq] at hm
      refine ⟨h.inside _ hin, ?_⟩
      rw [h.len, ← hm]; exact List.idxOf_lt_length_of_mem hin
    · simp at hm
  | empty h h1 => simp at hm

theorem Inv.inj {r ls loc} (h : Inv r ls loc) {row col row' col' : Int} {m : Nat}
    (hm : loc row col = some m) (hm' : loc row' col' = some m) : row = row' ∧ col = col' := by
  have i1 := (h.inside hm).1
  have i2 := (h.inside hm').1
  cases h with
  | full h =>
    unfold fullLoc at hm hm'
    rw [if_pos i1] at hm
    rw [if_pos i2] at hm'
    simp only [Option.some.injEq] at hm hm'
    have r1 := idx_range i1.1 i1.2.1 i1.2.2.1 i1.2.2.2
    have r2 := idx_range i2.1 i2.2.1 i2.2.2.1 i2.2.2.2
    exact idx_inj i1.2.2.1 i1.2.2.2 i2.2.2.1 i2.2.2.2 (by omega)
  | comp h =>
    unfold compLoc at hm hm'
    split at hm <;> simp only [Option.some.injEq, reduceCtorEq] at hm
    split at hm' <;> simp only [Option.some.injEq, reduceCtorEq] at hm'
    next ha hb =>
    rw [← hm'] at hm
    have e1 := List.getElem_idxOf (List.idxOf_lt_length_of_mem ha)
    have e2 := List.getElem_idxOf (List.idxOf_lt_length_of_mem hb)
    simp only [hm] at e1
    rw [e1] at e2
    simpa using e2
  | empty h h1 => simp at hm

theorem Inv.pos {r ls loc} (h : Inv r ls loc) (row col : Int) :
    match loc row col with
    | some m => r.getPosition row col = .ok (m : Int)
    | none => r.getPosition row col = .ok (-1) ∨ r.getPosition row col = .ok (-2) := by
  by_cases hin : 0 ≤ row ∧ row < r.hdr.rows ∧ 0 ≤ col ∧ col < r.hdr.cols
  · cases h with
    | full h =>
      have hr := idx_range hin.1 hin.2.1 hin.2.2.1 hin.2.2.2
      simp only [fullLoc, if_pos hin]
      rw [h.getPosition row col hin]; congr 1; omega
    | comp h =>
      unfold compLoc
      rcases h.getPosition row col hin with ⟨m, hm, h1, h2⟩ | ⟨h1, h2⟩
      · have : (row, col) ∈ _ := h2 ▸ List.getElem_mem hm
        rw [if_pos this]
        simp only
        rw [← h2, h.idxOf m hm, h1]
      · rw [if_neg h2]; exact .inl h1
    | empty h h1 =>
      right
      unfold Raster.getPosition
      have : r.validData = false := by unfold validData; simp [h1, h.data1 h1]
      simp [this]
  · have e := r.getPosition_outside row col hin
    cases hloc : loc row col with
    | some m => exact absurd (h.inside hloc).1 hin
    | none => exact .inr e

theorem Inv.val {r ls loc} (h : Inv r ls loc) (row col lyr : Int) (hl : 1 ≤ lyr ∧ lyr ≤ r.nLyrs) :
    r.getValue row col lyr = .ok (match loc row col with
      | some m => cellAt ls m (lyr - 1).toNat
      | none => r.noData) := by
  by_cases hin : 0 ≤ row ∧ row < r.hdr.rows ∧ 0 ≤ col ∧ col < r.hdr.cols
  · cases h with
    | full h =>
      obtain ⟨hi, e⟩ := h.getValue row col lyr hin hl
      rw [e]; unfold fullLoc cellAt; rw [if_pos hin]
      simp only [List.getD_eq_getElem ls _ hi]
    | comp h =>
      unfold compLoc
      rename_i ps
      by_cases hm : (row, col) ∈ ps
      · rw [if_pos hm]
        have hlt := List.idxOf_lt_length_of_mem hm
        have := (h.getValue_hit row col lyr _ hlt (List.getElem_idxOf hlt) hl).2
        rw [this]
        simp only [cellAt]
        rw [List.getD_eq_getElem ls _ (by rw [h.len]; exact hlt)]
      · rw [if_neg hm]; exact (h.getValue_miss row col lyr hin hm).2
    | empty h h1 => exact h.getValue row col lyr
  · have e := r.getValue_outside row col lyr (.inl hin)
    cases hloc : loc row col with
    | some m => exact absurd (h.inside hloc).1 hin
    | none => exact e

theorem Inv.holds {r ls loc} (h : Inv r ls loc) (hne : ls ≠ []) : r.Holds ls := by
  cases h with
  | full h => exact h.holds
  | comp h => exact h.holds
  | empty h h1 => exact absurd rfl hne

theorem Inv.ofShape {r r' : Raster} {ls ls' loc} (h : Inv r ls loc) (hs : r.SameShape r') (hh : r'.Holds ls')
    (hl : ls'.length = ls.length) (hne : ls ≠ []) : Inv r' ls' loc := by
  cases h with
  | full h =>
    have := h.ofShape hs hh hl
    obtain ⟨a, b, rfl⟩ := hs
    exact .full this
  | comp h => exact .comp (h.ofShape hs hh hl)
  | empty h h1 => exact absurd rfl hne

theorem Inv.rowlen {r ls loc} (h : Inv r ls loc) (m : Nat) (hm : m < ls.length) :
    ((ls.getD m []).length : Int) = r.nLyrs := by
  have hne : ls ≠ [] := by rintro rfl; simp at hm
  rw [List.getD_eq_getElem _ _ hm]
  exact (h.holds hne).2.1 _ (List.getElem_mem hm)

theorem Inv.ncells {r ls loc} (h : Inv r ls loc) : r.nCells = ls.length := by
  cases h with
  | full h => rw [h.ncells, h.len]
  | comp h => rw [h.ncells, h.len]
  | empty h h1 => rw [h.ncells]; rfl

/-- `SetValue` on a raster of the invariant. -/
theorem Inv.setValue {r ls loc} (h : Inv r ls loc) (row col lyr : Int) (v : ℚ) :
    ∃ r', r.setValue row col v lyr = .ok r' ∧ r.SameShape r' ∧
      match loc row col with
      | some m => if 1 ≤ lyr ∧ lyr ≤ r.nLyrs then Inv r' (setCell ls m (lyr - 1).toNat v) loc else r' = r
      | none => r' = r := by
  by_cases hl : 1 ≤ lyr ∧ lyr ≤ r.nLyrs
  · simp only [if_pos hl]
    have hl' := hl
    rw [← validLayer_iff] at hl'
    have hp := h.pos row col
    cases hloc : loc row col with
    | some m =>
      simp only [hloc] at hp
      obtain ⟨hin, hm⟩ := h.inside hloc
      have hin' := hin
      rw [← validRowCol_iff] at hin'
      have hne : ls ≠ [] := by rintro rfl; simp at hm
      obtain ⟨r', e1, e2, e3⟩ := (h.holds hne).writeCell m hm lyr hl.1 hl.2 v
      refine ⟨r', ?_, e2, h.ofShape e2 e3 (by simp) hne⟩
      unfold Raster.setValue
      simp only [(h.holds hne).valid, hin', hl', Bool.not_true, Bool.or_self, Bool.false_eq_true, if_false,
        hp, Out.ok_bind]
      rw [if_neg (by omega)]; exact e1
    | none =>
      simp only [hloc] at hp
      refine ⟨r, ?_, SameShape.refl r, rfl⟩
      unfold Raster.setValue
      split
      · rfl
      · next hv =>
        rcases hp with hp | hp
        · simp [hp]
        · -- -2 only for invalid arguments
          exfalso
          simp only [Bool.or_eq_true, Bool.not_eq_true'] at hv
          push Not at hv
          obtain ⟨⟨hv1, hv2⟩, hv3⟩ := hv
          have hv2' : r.validRowCol row col = true := by simpa using hv2
          have hv1' : r.validData = true := by simpa using hv1
          rw [validRowCol_iff] at hv2'
          cases h with
          | full h => simp [fullLoc, hv2'] at hloc
          | comp h =>
            rcases h.getPosition row col hv2' with ⟨m, hm, h1, h2⟩ | ⟨h1, h2⟩
            · rw [h1] at hp; simp at hp
            · rw [h1] at hp; simp at hp
          | empty h h1 =>
            simp [validData, h1, h.data1 h1] at hv1'
  · refine ⟨r, ?_, SameShape.refl r, ?_⟩
    · unfold Raster.setValue
      rw [← validLayer_iff] at hl
      simp [hl]
    · split <;> simp [hl]

/-! #### Passes over all stored cells -/

theorem passCells_spec (f : ℚ → Out (Option ℚ)) (g : ℚ → Option ℚ) (il : List (Int × Int)) :
    ∀ (r : Raster) (ls : List (List ℚ)) (_ : r.Holds ls) (_ : il.Nodup)
      (_ : ∀ p ∈ il, 0 ≤ p.1 ∧ p.1 < ls.length ∧ 0 ≤ p.2 ∧ p.2 < r.nLyrs)
      (_ : ∀ p ∈ il, f (cellAt ls p.1.toNat p.2.toNat) = .ok (g (cellAt ls p.1.toNat p.2.toNat))),
    ∃ r' ls', passCells f r il = .ok r' ∧ r.SameShape r' ∧ r'.Holds ls' ∧ ls'.length = ls.length ∧
      ∀ (i l : Nat), i < ls.length → (l : Int) < r.nLyrs → cellAt ls' i l =
        if ((i : Int), (l : Int)) ∈ il then (g (cellAt ls i l)).getD (cellAt ls i l) else cellAt ls i l := by
  induction il with
  | nil => intro r ls h _ _ _; exact ⟨r, ls, rfl, SameShape.refl r, h, rfl, by simp⟩
  | cons p il ih =>
    intro r ls h hnd hin hf
    obtain ⟨hp1, hp2, hp3, hp4⟩ := hin p (by simp)
    have hfp := hf p (by simp)
    have hrd := h.readCell' p.1.toNat (by omega) (p.2 + 1) (by omega) (by omega)
    rw [show ((p.1.toNat : Nat) : Int) = p.1 by omega, show (p.2 + 1 - 1) = p.2 by omega] at hrd
    have hnp : p ∉ il := (List.nodup_cons.1 hnd).1
    simp only [passCells, hrd, Out.ok_bind, hfp]
    cases hg : g (cellAt ls p.1.toNat p.2.toNat) with
    | none =>
      simp only [Out.ok_bind]
      obtain ⟨r', ls', e1, e2, e3, e4, e5⟩ := ih r ls h (List.nodup_cons.1 hnd).2
        (fun q hq => hin q (by simp [hq])) (fun q hq => hf q (by simp [hq]))
      refine ⟨r', ls', e1, e2, e3, e4, ?_⟩
      intro i l hi hl
      rw [e5 i l hi hl]
      by_cases hq : ((i : Int), (l : Int)) = p
      · have h3 : ((i : Int), (l : Int)) ∉ il := hq ▸ hnp
        have : cellAt ls p.1.toNat p.2.toNat = cellAt ls i l := by rw [← hq]; simp
        rw [this] at hg
        rw [if_neg h3, if_pos (by rw [hq]; simp), hg]; rfl
      · simp only [List.mem_cons, hq, false_or]
    | some v =>
      obtain ⟨r1, w1, w2, w3⟩ := h.writeCell p.1.toNat (by omega) (p.2 + 1) (by omega) (by omega) v
      rw [show ((p.1.toNat : Nat) : Int) = p.1 by omega] at w1
      rw [show (p.2 + 1 - 1) = p.2 by omega] at w3
      simp only [w1, Out.ok_bind]
      have hnl : r1.nLyrs = r.nLyrs := by obtain ⟨a, b, rfl⟩ := w2; rfl
      have hrow : p.2.toNat < (ls.getD p.1.toNat []).length := by
        have := h.2.1 _ (List.getElem_mem (show p.1.toNat < ls.length by omega))
        rw [List.getD_eq_getElem _ _ (show p.1.toNat < ls.length by omega)]; omega
      have hcs := fun i' l' => cellAt_setCell ls p.1.toNat p.2.toNat v (by omega) hrow i' l'
      have hother : ∀ q ∈ il, cellAt (setCell ls p.1.toNat p.2.toNat v) q.1.toNat q.2.toNat =
          cellAt ls q.1.toNat q.2.toNat := by
        intro q hq
        rw [hcs, if_neg]
        rintro ⟨ha, hb⟩
        have hqi := hin q (by simp [hq])
        apply hnp
        have : q = p := by ext <;> omega
        rwa [this] at hq
      obtain ⟨r', ls', e1, e2, e3, e4, e5⟩ := ih r1 _ w3 (List.nodup_cons.1 hnd).2
        (fun q hq => by rw [setCell_length, hnl]; exact hin q (by simp [hq]))
        (fun q hq => by rw [hother q hq]; exact hf q (by simp [hq]))
      refine ⟨r', ls', e1, w2.trans e2, e3, by rw [e4, setCell_length], ?_⟩
      intro i l hi hl
      rw [e5 i l (by simpa using hi) (by rw [hnl]; exact hl), hcs]
      by_cases hq : ((i : Int), (l : Int)) = p
      · have h3 : ((i : Int), (l : Int)) ∉ il := hq ▸ hnp
        have : cellAt ls p.1.toNat p.2.toNat = cellAt ls i l := by rw [← hq]; simp
        rw [this] at hg
        rw [if_neg h3, if_pos (by rw [← hq]; simp), if_pos (by rw [hq]; simp), hg]; rfl
      · have : ¬ (i = p.1.toNat ∧ l = p.2.toNat) := by
          rintro ⟨ha, hb⟩; apply hq; ext <;> simp <;> omega
        simp only [List.mem_cons, hq, false_or, this, if_false]

theorem gridCells_nodup (a b : Int) : (gridCells a b).Nodup := by
  unfold gridCells
  rw [List.nodup_flatMap]
  refine ⟨?_, ?_⟩
  · intro i _
    exact List.Nodup.map (by intro x y h; simpa using h) List.nodup_range
  · apply List.Nodup.pairwise_of_forall_ne List.nodup_range
    intro i _ j _ hij
    simp only [Function.onFun, List.disjoint_left, List.mem_map]
    rintro p ⟨x, _, rfl⟩ ⟨y, _, hy⟩
    simp at hy; exact hij hy.1.symm

/-- A pass over all stored cells of a raster of the invariant. -/
theorem Inv.pass {r ls loc} (h : Inv r ls loc) (f : ℚ → Out (Option ℚ)) (g : ℚ → Option ℚ)
    (hf : ∀ i l : Nat, i < ls.length → (l : Int) < r.nLyrs → f (cellAt ls i l) = .ok (g (cellAt ls i l))) :
    ∃ r' ls', passCells f r r.cellLayers = .ok r' ∧ r.SameShape r' ∧ Inv r' ls' loc ∧
      ls'.length = ls.length ∧
      ∀ (i l : Nat), i < ls.length → (l : Int) < r.nLyrs →
        cellAt ls' i l = (g (cellAt ls i l)).getD (cellAt ls i l) := by
  have hn := h.ncells
  by_cases hne : ls = []
  · subst hne
    have : r.cellLayers = [] := by
      unfold cellLayers gridCells; simp [hn]
    rw [this]
    exact ⟨r, [], rfl, SameShape.refl r, h, rfl, by simp⟩
  · have hmem : ∀ p ∈ r.cellLayers, 0 ≤ p.1 ∧ p.1 < ls.length ∧ 0 ≤ p.2 ∧ p.2 < r.nLyrs := by
      intro p hp
      have := (mem_gridCells _ _ _).1 hp
      rw [hn] at this; exact ⟨this.1, this.2.1, this.2.2.1, this.2.2.2⟩
    obtain ⟨r', ls', e1, e2, e3, e4, e5⟩ := passCells_spec f g r.cellLayers r ls (h.holds hne)
      (gridCells_nodup _ _) hmem
      (fun p hp => hf _ _ (by have := hmem p hp; omega) (by have := hmem p hp; omega))
    refine ⟨r', ls', e1, e2, h.ofShape e2 e3 e4 hne, e4, ?_⟩
    intro i l hi hl
    rw [e5 i l hi hl, if_pos]
    exact (mem_gridCells _ _ _).2 ⟨by simp, by simp [hn]; omega, by simp, by simpa using hl⟩

/-- If the function throws on some stored cell (and never meets undefined behaviour) the pass throws. -/
theorem passCells_exn (f : ℚ → Out (Option ℚ)) (hfu : ∀ x, f x ≠ .ub) (il : List (Int × Int)) :
    ∀ (r : Raster) (ls : List (List ℚ)) (_ : r.Holds ls) (_ : il.Nodup)
      (_ : ∀ p ∈ il, 0 ≤ p.1 ∧ p.1 < ls.length ∧ 0 ≤ p.2 ∧ p.2 < r.nLyrs)
      (p : Int × Int) (_ : p ∈ il) (_ : f (cellAt ls p.1.toNat p.2.toNat) = .exn),
    passCells f r il = .exn := by
  induction il with
  | nil => intro r ls h _ _ p hp; simp at hp
  | cons q il ih =>
    intro r ls h hnd hin p hp hfp
    obtain ⟨hp1, hp2, hp3, hp4⟩ := hin q (by simp)
    have hrd := h.readCell' q.1.toNat (by omega) (q.2 + 1) (by omega) (by omega)
    rw [show ((q.1.toNat : Nat) : Int) = q.1 by omega, show (q.2 + 1 - 1) = q.2 by omega] at hrd
    have hnp : q ∉ il := (List.nodup_cons.1 hnd).1
    simp only [passCells, hrd, Out.ok_bind]
    cases hfq : f (cellAt ls q.1.toNat q.2.toNat) with
    | exn => rfl
    | ub => exact absurd hfq (hfu _)
    | ok y =>
      have hpq : p ≠ q := by rintro rfl; rw [hfq] at hfp; simp at hfp
      have hpil : p ∈ il := by simpa [hpq] using hp
      simp only [Out.ok_bind]
      cases y with
      | none =>
        simp only [Out.ok_bind]
        exact ih r ls h (List.nodup_cons.1 hnd).2 (fun q hq => hin q (by simp [hq])) p hpil hfp
      | some v =>
        obtain ⟨r1, w1, w2, w3⟩ := h.writeCell q.1.toNat (by omega) (q.2 + 1) (by omega) (by omega) v
        rw [show ((q.1.toNat : Nat) : Int) = q.1 by omega] at w1
        rw [show (q.2 + 1 - 1) = q.2 by omega] at w3
        simp only [w1, Out.ok_bind]
        have hnl : r1.nLyrs = r.nLyrs := by obtain ⟨a, b, rfl⟩ := w2; rfl
        have hrow : q.2.toNat < (ls.getD q.1.toNat []).length := by
          have := h.2.1 _ (List.getElem_mem (show q.1.toNat < ls.length by omega))
          rw [List.getD_eq_getElem _ _ (show q.1.toNat < ls.length by omega)]; omega
        apply ih r1 _ w3 (List.nodup_cons.1 hnd).2
          (fun q hq => by rw [setCell_length, hnl]; exact hin q (by simp [hq])) p hpil
        rw [cellAt_setCell ls _ _ v (by omega) hrow, if_neg]
        · exact hfp
        · rintro ⟨ha, hb⟩
          have := hin p hp
          apply hpq; ext <;> omega

end Raster
end CCGL
