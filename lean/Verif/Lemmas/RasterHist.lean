import Verif.Lemmas.RasterOps
import Verif.Spec.Raster
namespace CCGL
open Raster

/-- The invariant of all reachable rasters. -/
def Raster.RInv (r : Raster) : Prop := (∃ ls loc, Inv r ls loc) ∨ (r.is2d = true ∧ r.Empty)

theorem ofArray1_full (data : List ℚ) (rows cols : Nat) (hlen : data.length = cols * rows)
    (nodata dx xll yll : ℚ) :
    (ofArray1 (some data) cols rows nodata dx xll yll).Full (data.map (fun v => [v])) := by
  refine ⟨⟨by simp [ofArray1], by simp [ofArray1], ?_⟩, by simp [ofArray1], by simp [ofArray1], ?_, ?_, rfl, rfl⟩
  · simp [ofArray1, init, Function.comp_def]
  · simp [ofArray1, hlen, Int.mul_comm]
  · simp [ofArray1, Int.mul_comm]

theorem ofArray2_full (data : List (List ℚ)) (rows cols lyrs : Nat) (hlen : data.length = cols * rows)
    (hl : 1 ≤ lyrs) (hrow : ∀ c ∈ data, c.length = lyrs) (nodata dx xll yll : ℚ) :
    (ofArray2 (some data) cols rows lyrs nodata dx xll yll).Full data := by
  refine ⟨⟨by simp [ofArray2]; omega, ?_, ?_⟩, by simp [ofArray2], by simp [ofArray2], ?_, ?_, rfl, rfl⟩
  · intro c hc; simp [ofArray2, hrow c hc]
  · simp [ofArray2, init]
  · simp [ofArray2, hlen, Int.mul_comm]
  · simp [ofArray2, Int.mul_comm]

namespace Raster

theorem Inv.setNoData {r ls loc} (h : Inv r ls loc) (v : ℚ) :
    Inv { r with noData := v, dflt := v, hdr := { r.hdr with noData := v } } ls loc := by
  cases h with
  | full h =>
    have h' : Full { r with noData := v, dflt := v, hdr := { r.hdr with noData := v } } ls :=
      ⟨h.holds, h.rows_nn, h.cols_nn, h.len, h.ncells, h.pd, h.pi⟩
    exact Inv.full h'
  | comp h => exact .comp ⟨h.holds, h.rows_nn, h.cols_nn, h.len, h.ncells, h.ne, h.calcOn, h.pd, h.pi,
      h.inside, h.sorted⟩
  | empty h h1 =>
    have h' : Empty { r with noData := v, dflt := v, hdr := { r.hdr with noData := v } } :=
      ⟨h.ncells, h.lyrs, h.lyrs1, h.rows_nn, h.cols_nn, h.calcOn, h.pd, h.pi, h.data1, h.data2⟩
    exact .empty h' h1

theorem Empty.setNoData {r : Raster} (h : r.Empty) (v : ℚ) :
    Empty { r with noData := v, dflt := v, hdr := { r.hdr with noData := v } } :=
  ⟨h.ncells, h.lyrs, h.lyrs1, h.rows_nn, h.cols_nn, h.calcOn, h.pd, h.pi, h.data1, h.data2⟩

/-- A pass whose function is defined everywhere gives the invariant back or throws. -/
theorem passCells_safe (f : ℚ → Out (Option ℚ)) (hfu : ∀ x, f x ≠ .ub) (il : List (Int × Int)) :
    ∀ (r : Raster) (ls : List (List ℚ)) (_ : r.Holds ls)
      (_ : ∀ p ∈ il, 0 ≤ p.1 ∧ p.1 < ls.length ∧ 0 ≤ p.2 ∧ p.2 < r.nLyrs),
    passCells f r il = .exn ∨ ∃ r' ls', passCells f r il = .ok r' ∧ r.SameShape r' ∧ r'.Holds ls' ∧
      ls'.length = ls.length := by
  induction il with
  | nil => intro r ls h _; exact .inr ⟨r, ls, rfl, SameShape.refl r, h, rfl⟩
  | cons q il ih =>
    intro r ls h hin
    obtain ⟨hp1, hp2, hp3, hp4⟩ := hin q (by simp)
    have hrd := h.readCell' q.1.toNat (by omega) (q.2 + 1) (by omega) (by omega)
    rw [show ((q.1.toNat : Nat) : Int) = q.1 by omega, show (q.2 + 1 - 1) = q.2 by omega] at hrd
    simp only [passCells, hrd, Out.ok_bind]
    cases hfq : f (cellAt ls q.1.toNat q.2.toNat) with
    | exn => exact .inl rfl
    | ub => exact absurd hfq (hfu _)
    | ok y =>
      simp only [Out.ok_bind]
      cases y with
      | none =>
        simp only [Out.ok_bind]
        exact ih r ls h (fun q hq => hin q (by simp [hq]))
      | some v =>
        obtain ⟨r1, w1, w2, w3⟩ := h.writeCell q.1.toNat (by omega) (q.2 + 1) (by omega) (by omega) v
        rw [show ((q.1.toNat : Nat) : Int) = q.1 by omega] at w1
        simp only [w1, Out.ok_bind]
        have hnl : r1.nLyrs = r.nLyrs := by obtain ⟨a, b, rfl⟩ := w2; rfl
        rcases ih r1 _ w3 (fun q hq => by rw [setCell_length, hnl]; exact hin q (by simp [hq])) with h | h
        · exact .inl h
        · obtain ⟨r', ls', e1, e2, e3, e4⟩ := h
          exact .inr ⟨r', ls', e1, w2.trans e2, e3, by rw [e4, setCell_length]⟩

theorem Inv.pass_safe {r ls loc} (h : Inv r ls loc) (f : ℚ → Out (Option ℚ)) (hfu : ∀ x, f x ≠ .ub) :
    passCells f r r.cellLayers = .exn ∨
    ∃ r' ls', passCells f r r.cellLayers = .ok r' ∧ Inv r' ls' loc := by
  have hn := h.ncells
  by_cases hne : ls = []
  · subst hne
    have : r.cellLayers = [] := by
      unfold cellLayers gridCells; simp [hn]
    rw [this]
    exact .inr ⟨r, [], rfl, h⟩
  · have hmem : ∀ p ∈ r.cellLayers, 0 ≤ p.1 ∧ p.1 < ls.length ∧ 0 ≤ p.2 ∧ p.2 < r.nLyrs := by
      intro p hp
      have := (mem_gridCells _ _ _).1 hp
      rw [hn] at this; exact ⟨this.1, this.2.1, this.2.2.1, this.2.2.2⟩
    rcases passCells_safe f hfu _ r ls (h.holds hne) hmem with h' | ⟨r', ls', e1, e2, e3, e4⟩
    · exact .inl h'
    · exact .inr ⟨r', ls', e1, h.ofShape e2 e3 e4 hne⟩

theorem Empty.cellLayers {r : Raster} (h : r.Empty) : r.cellLayers = [] := by
  unfold Raster.cellLayers gridCells; simp [h.ncells]

theorem Full.calc_rinv {r : Raster} {ls} (h : r.Full ls) : ∃ r', r.calcValidPositions = .ok r' ∧ r'.RInv := by
  obtain ⟨r', e, _, _, _, h2, _, _, _, hcase⟩ := h.calc
  refine ⟨r', e, ?_⟩
  rcases hcase with ⟨_, hE⟩ | hC
  · cases hd : r'.is2d
    · exact .inl ⟨_, _, .empty hE hd⟩
    · exact .inr ⟨hd, hE⟩
  · exact .inl ⟨_, _, .comp hC⟩

theorem Full.setCalc {r : Raster} {ls} (h : r.Full ls) (b : Bool) : Full { r with calcPos := b } ls :=
  ⟨h.holds, h.rows_nn, h.cols_nn, h.len, h.ncells, h.pd, h.pi⟩

theorem Inv.getValueByIndex {r ls loc} (h : Inv r ls loc) (i lyr : Int) :
    ∃ v, r.getValueByIndex i lyr = .ok v := by
  unfold Raster.getValueByIndex
  split
  · exact ⟨_, rfl⟩
  · next hv =>
    simp only [Bool.or_eq_true, Bool.not_eq_true', not_or, Bool.not_eq_false] at hv
    obtain ⟨⟨hv1, hv2⟩, hv3⟩ := hv
    rw [validIndex_iff, h.ncells] at hv2
    rw [validLayer_iff] at hv3
    have hne : ls ≠ [] := by rintro rfl; simp at hv2; omega
    have := (h.holds hne).readCell' i.toNat (by omega) lyr hv3.1 hv3.2
    rw [show ((i.toNat : Nat) : Int) = i by omega] at this
    exact ⟨_, this⟩

theorem Inv.getValue_ok {r ls loc} (h : Inv r ls loc) (row col lyr : Int) :
    ∃ v, r.getValue row col lyr = .ok v := by
  by_cases hl : 1 ≤ lyr ∧ lyr ≤ r.nLyrs
  · exact ⟨_, h.val row col lyr hl⟩
  · exact ⟨_, r.getValue_outside row col lyr (.inr hl)⟩

theorem Inv.getPosition_ok {r ls loc} (h : Inv r ls loc) (row col : Int) :
    ∃ i, r.getPosition row col = .ok i := by
  have := h.pos row col
  split at this
  · exact ⟨_, this⟩
  · rcases this with h | h <;> exact ⟨_, h⟩

/-- Operations that may be undefined on a multi-layer raster without valid cells. -/
def Op.risky : Op → Bool
  | .setValue .. => true
  | .getPositionIdx => true
  | _ => false

theorem Inv.step {r ls loc} (h : Inv r ls loc) (op : Op) :
    r.step op = .exn ∨ ∃ r', r.step op = .ok r' ∧ r'.RInv := by
  cases op with
  | setValue row col v lyr =>
    right
    obtain ⟨r', e, hs, hc⟩ := h.setValue row col lyr v
    refine ⟨r', e, ?_⟩
    split at hc
    · split at hc
      · exact .inl ⟨_, _, hc⟩
      · subst hc; exact .inl ⟨_, _, h⟩
    · subst hc; exact .inl ⟨_, _, h⟩
  | setCalcPositions =>
    right
    unfold Raster.step Raster.setCalcPositions
    cases h with
    | full h =>
      obtain ⟨r', e, hr⟩ := (h.setCalc true).calc_rinv
      simp only [h.pd, h.pi] at e
      simp only [h.holds.valid, h.pd, h.pi, Raster.calcNoMask]
      exact ⟨r', by simp [e], hr⟩
    | comp h => simp only [h.holds.valid, h.calcOn, h.pd]; exact ⟨r, by simp, .inl ⟨_, _, .comp h⟩⟩
    | empty h h1 =>
      have : r.validData = false := by unfold validData; simp [h1, h.data1 h1]
      simp only [this]; exact ⟨r, by simp, .inl ⟨_, _, .empty h h1⟩⟩
  | getPositionIdx =>
    right
    unfold Raster.step Raster.getPositionIdx
    cases h with
    | full h =>
      obtain ⟨r', e, hr⟩ := h.calc_rinv
      simp only [h.holds.valid, h.pi, e]
      exact ⟨r', by simp, hr⟩
    | comp h => simp only [h.pi]; exact ⟨r, by simp, .inl ⟨_, _, .comp h⟩⟩
    | empty h h1 =>
      have : r.validData = false := by unfold validData; simp [h1, h.data1 h1]
      simp only [this, h.pi]; exact ⟨r, by simp, .inl ⟨_, _, .empty h h1⟩⟩
  | getPositionData =>
    right
    unfold Raster.step Raster.getPositionData
    cases h with
    | full h =>
      obtain ⟨r', e, hr⟩ := h.calc_rinv
      simp only [h.holds.valid, h.pd, e]
      exact ⟨r', by simp, hr⟩
    | comp h => simp only [h.pd]; exact ⟨r, by simp, .inl ⟨_, _, .comp h⟩⟩
    | empty h h1 => simp only [h.pd]; exact ⟨r, by simp, .inl ⟨_, _, .empty h h1⟩⟩
  | replaceNoData v =>
    right
    obtain ⟨r', ls', e, _, hi, _⟩ := h.pass (fun x => .ok (if floatEqual x r.noData then some v else none))
      (fun x => if floatEqual x r.noData then some v else none) (fun _ _ _ _ => rfl)
    unfold Raster.step Raster.replaceNoData
    simp only [e, Out.ok_bind]
    exact ⟨_, rfl, .inl ⟨_, _, hi.setNoData v⟩⟩
  | reclassify m =>
    rcases h.pass_safe (fun x => match lookupI m (truncQ x) with
      | some v => .ok (some v) | none => .exn) (by intro x; split <;> simp) with e | ⟨r', ls', e, hi⟩
    · exact .inl e
    · exact .inr ⟨r', e, .inl ⟨_, _, hi⟩⟩
  | getValue row col lyr =>
    right
    obtain ⟨v, e⟩ := h.getValue_ok row col lyr
    exact ⟨r, by simp [Raster.step, e], .inl ⟨_, _, h⟩⟩
  | getValueByIndex i lyr =>
    right
    obtain ⟨v, e⟩ := h.getValueByIndex i lyr
    exact ⟨r, by simp [Raster.step, e], .inl ⟨_, _, h⟩⟩
  | getPosition row col =>
    right
    obtain ⟨v, e⟩ := h.getPosition_ok row col
    exact ⟨r, by simp [Raster.step, e], .inl ⟨_, _, h⟩⟩
  | isNoData row col lyr =>
    right
    obtain ⟨v, e⟩ := h.getValue_ok row col lyr
    exact ⟨r, by simp [Raster.step, Raster.isNoData, e], .inl ⟨_, _, h⟩⟩

/-- Every storage index belongs to a cell. -/
theorem Inv.surj {r ls loc} (h : Inv r ls loc) (m : Nat) (hm : m < ls.length) :
    ∃ row col, loc row col = some m := by
  cases h with
  | full h =>
    have hl := h.len
    have hpos : 0 < r.hdr.rows * r.hdr.cols := by omega
    have hc : 0 < r.hdr.cols := by
      rcases lt_or_eq_of_le h.cols_nn with h1 | h1
      · exact h1
      · rw [← h1] at hpos; simp at hpos
    refine ⟨(m : Int) / r.hdr.cols, (m : Int) % r.hdr.cols, ?_⟩
    have h1 := Int.emod_nonneg (m : Int) (by omega : r.hdr.cols ≠ 0)
    have h2 := Int.emod_lt_of_pos (m : Int) hc
    have h3 := Int.ediv_mul_add_emod (m : Int) r.hdr.cols
    have h4 : (m : Int) / r.hdr.cols < r.hdr.rows := by
      rw [Int.ediv_lt_iff_lt_mul hc]; omega
    have h5 : 0 ≤ (m : Int) / r.hdr.cols := Int.ediv_nonneg (by omega) (by omega)
    unfold fullLoc
    rw [if_pos ⟨h5, h4, h1, h2⟩, h3]; simp
  | comp h =>
    rename_i ps
    have hm' : m < ps.length := by rw [← h.len]; exact hm
    refine ⟨ps[m].1, ps[m].2, ?_⟩
    unfold compLoc
    rw [if_pos (List.getElem_mem hm')]
    exact congrArg some (h.idxOf m hm')
  | empty h h1 => simp at hm

theorem Inv.stored {r ls loc} (hi : Inv r ls loc) (row col : Int) :
    Spec.Stored r row col ↔ ∃ m, loc row col = some m := by
  have := hi.pos row col
  unfold Spec.Stored
  cases hl : loc row col with
  | some m => simp only [hl] at this; exact ⟨fun _ => ⟨m, rfl⟩, fun _ => ⟨m, this⟩⟩
  | none =>
    simp only [hl] at this
    constructor
    · rintro ⟨i, h1⟩
      rcases this with h2 | h2 <;> rw [h2] at h1 <;> simp at h1
    · rintro ⟨m, hm⟩; simp at hm

/-! #### The kind of raster never changes -/

theorem writeCell_is2d {r r' : Raster} {i l v} (e : r.writeCell i l v = .ok r') : r'.is2d = r.is2d := by
  unfold writeCell at e
  split at e
  · obtain ⟨a, _, e⟩ := Out.bind_ok e
    obtain ⟨b, _, e⟩ := Out.bind_ok e
    split at e
    · obtain ⟨d, _, e⟩ := Out.bind_ok e
      simp at e; subst e; rfl
    · simp at e
  · obtain ⟨d, _, e⟩ := Out.bind_ok e
    simp at e; subst e; rfl

theorem passCells_is2d {f} (il : List (Int × Int)) : ∀ {r r' : Raster}, passCells f r il = .ok r' →
    r'.is2d = r.is2d := by
  induction il with
  | nil => intro r r' e; simp [passCells] at e; rw [e]
  | cons p il ih =>
    intro r r' e
    unfold passCells at e
    obtain ⟨a, _, e⟩ := Out.bind_ok e
    obtain ⟨b, _, e⟩ := Out.bind_ok e
    obtain ⟨c, hc, e⟩ := Out.bind_ok e
    rw [ih e]
    split at hc
    · simp at hc; rw [hc]
    · exact writeCell_is2d hc

theorem calc_is2d {r r' : Raster} (e : r.calcValidPositions = .ok r') : r'.is2d = r.is2d := by
  unfold calcValidPositions at e
  obtain ⟨a, _, e⟩ := Out.bind_ok e
  dsimp only at e
  split at e
  · simp at e
  · obtain ⟨b, _, e⟩ := Out.bind_ok e
    obtain ⟨c, _, e⟩ := Out.bind_ok e
    simp at e; subst e; rfl

theorem step_is2d {r r' : Raster} {op : Op} (e : r.step op = .ok r') : r'.is2d = r.is2d := by
  cases op with
  | setValue row col v lyr =>
    change r.setValue row col v lyr = .ok r' at e
    unfold Raster.setValue at e
    split at e
    · simp at e; rw [e]
    · obtain ⟨a, _, e⟩ := Out.bind_ok e
      split at e
      · simp at e; rw [e]
      · exact writeCell_is2d e
  | setCalcPositions =>
    obtain ⟨⟨a, b⟩, h1, e⟩ := Out.bind_ok e
    simp at e; subst e
    unfold Raster.setCalcPositions Raster.calcNoMask at h1
    simp only [if_true] at h1
    split at h1
    · simp at h1; rw [h1.1]
    · split at h1
      · simp at h1; rw [h1.1]
      · obtain ⟨⟨x, y⟩, h2, h3⟩ := Out.bind_ok h1
        simp at h3
        rw [← h3.1]
        split at h2
        · obtain ⟨z, h4, h5⟩ := Out.bind_ok h2
          simp at h5
          have := calc_is2d h4
          rw [← h5.1, this]
        · simp at h2; rw [← h2.1]
  | getPositionIdx =>
    obtain ⟨⟨a, b, c⟩, h1, e⟩ := Out.bind_ok e
    simp at e; subst e
    unfold Raster.getPositionIdx at h1
    split at h1
    · simp at h1; rw [h1.1]
    · split at h1
      · simp at h1; rw [h1.1]
      · obtain ⟨z, h4, h5⟩ := Out.bind_ok h1
        simp at h5
        rw [← h5.1]; exact calc_is2d h4
  | getPositionData =>
    obtain ⟨⟨a, b, c⟩, h1, e⟩ := Out.bind_ok e
    simp at e; subst e
    unfold Raster.getPositionData at h1
    split at h1
    · simp at h1; rw [h1.1]
    · split at h1
      · simp at h1; rw [h1.1]
      · obtain ⟨z, h4, h5⟩ := Out.bind_ok h1
        simp at h5
        rw [← h5.1]; exact calc_is2d h4
  | replaceNoData v =>
    obtain ⟨a, h1, e⟩ := Out.bind_ok e
    simp at e; subst e
    have := passCells_is2d _ h1
    exact this
  | reclassify m => exact passCells_is2d _ e
  | getValue row col lyr => obtain ⟨a, h1, e⟩ := Out.bind_ok e; simp at e; rw [e]
  | getValueByIndex i lyr => obtain ⟨a, h1, e⟩ := Out.bind_ok e; simp at e; rw [e]
  | getPosition row col => obtain ⟨a, h1, e⟩ := Out.bind_ok e; simp at e; rw [e]
  | isNoData row col lyr => obtain ⟨a, h1, e⟩ := Out.bind_ok e; simp at e; rw [e]

theorem Empty.valid2 {r : Raster} (h : r.Empty) (hd : r.is2d = true) : r.validData = true := by
  unfold validData; simp [hd, h.data2 hd]

theorem Empty.calc2 {r r' : Raster} (h : r.Empty) (hd : r.is2d = true) (e : r.calcValidPositions = .ok r') :
    r'.is2d = true ∧ r'.Empty := by
  unfold Raster.calcValidPositions at e
  cases hg : gridCells r.hdr.rows r.hdr.cols with
  | nil =>
    have : decide ((0 : Int) > 0) = false := rfl
    simp only [hg, collectValid, Out.ok_bind, List.length_nil, Int.natCast_zero, this, Bool.and_false,
      Bool.false_eq_true, if_false, List.map_nil, h.pd, h.pi, storeInto, hd, if_true] at e
    simp only [Nat.le_refl, if_true, Out.ok_bind, alloc1, Int.le_refl, List.drop_nil,
      List.append_nil, Out.pure_eq, Out.ok.injEq] at e
    subst e
    refine ⟨rfl, rfl, h.lyrs, by simp, h.rows_nn, h.cols_nn, rfl, rfl, rfl, by simp, ?_⟩
    intro _
    have := h.lyrs
    simp [alloc2]; omega
  | cons rc cells =>
    exfalso
    have hr : r.readLayers (rc.1 * r.hdr.cols + rc.2) = .ub := by
      unfold readLayers
      simp only [hd, if_true]
      obtain ⟨k, hk⟩ : ∃ k, max r.nLyrs.toNat 1 = k + 1 := ⟨max r.nLyrs.toNat 1 - 1, by omega⟩
      rw [hk, List.range_succ_eq_map, List.mapM_cons]
      have : r.readCell (rc.1 * r.hdr.cols + rc.2) (((0 : Nat) : Int) + 1) = .ub := by
        unfold readCell
        simp only [hd, if_true, h.data2 hd]
        have : readAt (some ([] : List (List ℚ))) (rc.1 * r.hdr.cols + rc.2) = .ub := by
          unfold readAt; simp
        rw [this]; rfl
      rw [this]; rfl
    simp only [hg, collectValid, hr, Out.ub_bind] at e
    simp at e

theorem Empty.step2 {r : Raster} (h : r.Empty) (hd : r.is2d = true) (op : Op) :
    (∃ r', r.step op = .ok r' ∧ r'.is2d = true ∧ r'.Empty) ∨
    (Op.risky op = true ∧ ∀ r', r.step op = .ok r' → r'.is2d = true ∧ r'.Empty) := by
  cases op with
  | setValue row col v lyr =>
    right
    refine ⟨rfl, ?_⟩
    intro r' e
    change r.setValue row col v lyr = .ok r' at e
    unfold Raster.setValue at e
    split at e
    · cases e; exact ⟨hd, h⟩
    · next hv =>
      exfalso
      simp only [Bool.or_eq_true, Bool.not_eq_true', not_or, Bool.not_eq_false] at hv
      have hin := (validRowCol_iff _ _ _).1 hv.1.2
      have : r.getPosition row col = .ok (r.hdr.cols * row + col) := by
        unfold Raster.getPosition; simp [hv.1.1, hv.1.2, h.pi]
      rw [this] at e
      simp only [Out.ok_bind] at e
      have h0 := Int.mul_nonneg h.cols_nn hin.1
      rw [if_neg (by omega)] at e
      unfold Raster.writeCell at e
      simp only [hd, if_true, h.data2 hd] at e
      have : readAt (some ([] : List (List ℚ))) (r.hdr.cols * row + col) = .ub := by
        unfold readAt; simp
      rw [this] at e; simp at e
  | getPositionIdx =>
    right
    refine ⟨rfl, ?_⟩
    intro r' e
    unfold Raster.step Raster.getPositionIdx at e
    simp only [h.pi, Option.isSome_none, Bool.false_eq_true, if_false, h.valid2 hd, Bool.not_true] at e
    cases hc : r.calcValidPositions with
    | ub => rw [hc] at e; simp at e
    | exn => rw [hc] at e; simp at e
    | ok r1 =>
      rw [hc] at e; simp at e; subst e
      exact h.calc2 hd hc
  | setCalcPositions =>
    left
    refine ⟨r, ?_, hd, h⟩
    unfold Raster.step Raster.setCalcPositions
    simp [h.valid2 hd, h.calcOn, h.pd]
  | getPositionData =>
    left
    refine ⟨r, ?_, hd, h⟩
    unfold Raster.step Raster.getPositionData
    simp [h.pd]
  | replaceNoData v =>
    left
    refine ⟨{ r with noData := v, dflt := v, hdr := { r.hdr with noData := v } }, ?_, hd, h.setNoData v⟩
    unfold Raster.step Raster.replaceNoData
    rw [h.cellLayers]; rfl
  | reclassify m =>
    left
    refine ⟨r, ?_, hd, h⟩
    unfold Raster.step Raster.reclassify
    rw [h.cellLayers]; rfl
  | getValue row col lyr =>
    left; exact ⟨r, by simp [Raster.step, h.getValue row col lyr], hd, h⟩
  | getValueByIndex i lyr =>
    left
    refine ⟨r, ?_, hd, h⟩
    have : r.validIndex i = false := by
      rw [← Bool.not_eq_true, validIndex_iff, h.ncells]; omega
    simp [Raster.step, Raster.getValueByIndex, this]
  | getPosition row col =>
    left
    refine ⟨r, ?_, hd, h⟩
    simp only [Raster.step, Raster.getPosition, h.pi]
    split <;> simp
  | isNoData row col lyr =>
    left; exact ⟨r, by simp [Raster.step, Raster.isNoData, h.getValue row col lyr], hd, h⟩

end Raster

namespace Raster

theorem readLayers_ncells (r : Raster) (k i : Int) : ({ r with nCells := k } : Raster).readLayers i = r.readLayers i := by
  unfold readLayers readCell
  rfl

theorem collectValid_ncells (r : Raster) (k : Int) (l : List (Int × Int)) :
    ({ r with nCells := k } : Raster).collectValid l = r.collectValid l := by
  induction l with
  | nil => rfl
  | cons rc l ih =>
    simp only [collectValid, ih, readLayers_ncells]

theorem calcValidPositions_ncells (r : Raster) (k : Int) :
    ({ r with nCells := k } : Raster).calcValidPositions = r.calcValidPositions := by
  unfold calcValidPositions
  rw [collectValid_ncells]

theorem calcNoMask_ncells (r : Raster) (k : Int) (hn : r.posData = none) :
    ({ r with nCells := k } : Raster).calcNoMask = r.calcNoMask := by
  unfold calcNoMask
  rw [calcValidPositions_ncells, hn]
  simp

theorem ofFile_full (h : Header) (data : List ℚ) (calcPos useMaskExt : Bool) (dflt : ℚ)
    (hr : 0 ≤ h.rows) (hc : 0 ≤ h.cols) (hlen : (data.length : Int) = h.rows * h.cols) :
    ({ ofFile h data calcPos useMaskExt dflt with nCells := h.rows * h.cols } : Raster).Full (data.map (fun v => [v])) := by
  refine ⟨⟨by simp [ofFile], by simp [ofFile], ?_⟩, hr, hc, ?_, rfl, rfl, rfl⟩
  · simp [ofFile, init, Function.comp_def]
  · simp [ofFile, hlen]

theorem ofStore_full (h : Header) (data : List (List ℚ)) (calcPos useMaskExt : Bool) (dflt : ℚ)
    (hr : 0 ≤ h.rows) (hc : 0 ≤ h.cols) (hl : 1 ≤ h.layers) (hlen : (data.length : Int) = h.rows * h.cols)
    (hrow : ∀ c ∈ data, (c.length : Int) = h.layers) : (ofStore h data calcPos useMaskExt dflt).Full data := by
  refine ⟨⟨hl, hrow, ?_⟩, hr, hc, hlen, rfl, rfl, rfl⟩
  simp [ofStore, init]

theorem Full.calcNoMask_inv {r r' : Raster} {ls} {c : Int} (h : r.Full ls) (e : r.calcNoMask = .ok (r', c)) : r'.RInv := by
  unfold Raster.calcNoMask at e
  cases hcp : r.calcPos with
  | false =>
    rw [hcp] at e
    simp only [Bool.false_eq_true, if_false, Out.ok.injEq, Prod.mk.injEq] at e
    obtain ⟨rfl, _⟩ := e
    exact .inl ⟨ls, _, .full ⟨h.holds, h.rows_nn, h.cols_nn, h.len, rfl, h.pd, h.pi⟩⟩
  | true =>
    rw [hcp] at e
    simp only [h.pd, Option.isNone_none, Bool.true_or, if_true] at e
    obtain ⟨r1, e1, e⟩ := Out.bind_ok e
    simp only [Out.pure_eq, Out.ok.injEq, Prod.mk.injEq] at e
    obtain ⟨rfl, _⟩ := e
    obtain ⟨r2, e2, _, _, _, g4, _, _, _, g⟩ := h.calc
    rw [e1] at e2
    injection e2 with e2
    subst e2
    rcases g with ⟨_, hE⟩ | hC
    · cases hd : r1.is2d
      · exact .inl ⟨_, _, .empty hE hd⟩
      · exact .inr ⟨hd, hE⟩
    · exact .inl ⟨_, _, .comp hC⟩

theorem mapM_all {α β : Type} (f : α → Out β) (P : β → Prop) (hf : ∀ a b, f a = .ok b → P b) :
    ∀ (l : List α) (ys : List β), l.mapM f = .ok ys → ys.length = l.length ∧ ∀ y ∈ ys, P y := by
  intro l
  induction l with
  | nil => intro ys e; simp only [List.mapM_nil, Out.pure_eq, Out.ok.injEq] at e; subst e; simp
  | cons a l ih =>
    intro ys e
    rw [List.mapM_cons] at e
    obtain ⟨b, e1, e⟩ := Out.bind_ok e
    obtain ⟨bs, e2, e⟩ := Out.bind_ok e
    simp only [Out.pure_eq, Out.ok.injEq] at e
    subst e
    obtain ⟨h1, h2⟩ := ih bs e2
    refine ⟨by simp [h1], ?_⟩
    intro y hy
    rcases List.mem_cons.1 hy with rfl | hy
    · exact hf _ _ e1
    · exact h2 y hy

theorem cellOfLayers_length (h : Header) (nd : ℚ) (skip : Bool) (first : ℚ) (row col : Int) :
    ∀ (layers : List (Header × Ptr ℚ)) (vs : List ℚ), cellOfLayers h nd skip first row col layers = .ok vs → vs.length = layers.length := by
  intro layers
  induction layers with
  | nil => intro vs e; simp only [cellOfLayers, Out.ok.injEq] at e; subst e; rfl
  | cons l ls ih =>
    intro vs e
    unfold cellOfLayers at e
    dsimp only at e
    split at e
    all_goals
      obtain ⟨v, _, e⟩ := Out.bind_ok e
      obtain ⟨rest, e2, e⟩ := Out.bind_ok e
      simp only [Out.pure_eq, Out.ok.injEq] at e
      subst e
      simp [ih rest e2]

/-- Adding layers keeps the storage of a raster with at least one cell. -/
theorem Inv.addLayers {r r' : Raster} {ls loc} (hi : Inv r ls loc) (hn : 0 < r.nCells) {layers : List (Header × Ptr ℚ)}
    (e : r.addLayers layers = .ok r') : ∃ ls', Inv r' ls' loc := by
  unfold Raster.addLayers at e
  obtain ⟨cells, e1, e⟩ := Out.bind_ok e
  simp only [Out.pure_eq, Out.ok.injEq] at e
  subst e
  have hnc := hi.ncells
  have hne : ls ≠ [] := by rintro rfl; simp at hnc; omega
  have hm := mapM_all _ (fun (c : List ℚ) => (c.length : Int) = layers.length + 1) (by
    intro i b eb
    obtain ⟨first, _, eb⟩ := Out.bind_ok eb
    dsimp only at eb
    split at eb
    all_goals
      obtain ⟨idx, _, eb⟩ := Out.bind_ok eb
      split at eb
      · cases eb
      · obtain ⟨rest, er, eb⟩ := Out.bind_ok eb
        simp only [Out.pure_eq, Out.ok.injEq] at eb
        subst eb
        simp [cellOfLayers_length _ _ _ _ _ _ _ _ er]) _ _ e1
  have hlen' : cells.length = ls.length := by
    have := hm.1
    simp only [List.length_range] at this
    omega
  have hholds : Holds { r with
      raster1 := none, raster2 := some cells, nLyrs := (layers.length : Int) + 1, is2d := true,
      hdr := { r.hdr with layers := (layers.length : Int) + 1 } } cells := by
    refine ⟨by show (1 : Int) ≤ layers.length + 1; omega, hm.2, by simp⟩
  refine ⟨cells, ?_⟩
  cases hi with
  | full h =>
    have h' : Full { r with
      raster1 := none, raster2 := some cells, nLyrs := (layers.length : Int) + 1, is2d := true,
      hdr := { r.hdr with layers := (layers.length : Int) + 1 } } cells :=
      ⟨hholds, h.rows_nn, h.cols_nn, by rw [hlen']; exact h.len, h.ncells, h.pd, h.pi⟩
    exact Inv.full h'
  | comp h =>
    exact .comp ⟨hholds, h.rows_nn, h.cols_nn, by rw [hlen']; exact h.len, h.ncells, h.ne, h.calcOn, h.pd, h.pi,
        h.inside, h.sorted⟩
  | empty h _ => exact absurd rfl hne

end Raster

end CCGL
