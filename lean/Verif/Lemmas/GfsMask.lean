import Verif.Model.GfsMask
import Verif.Props.GfsRaster
import Verif.Props.Mask
import Verif.Props.Stats
/-!
# Lemmas about reading stored rasters with a mask
-/
namespace CCGL
open Raster Spec Gfs

namespace Gfs

/-! #### The positions and the number of valid cells of the mask -/

theorem headD_getD (c : List ℚ) : c.getD 0 0 = c.headD 0 := by cases c <;> rfl

theorem Holds.first {r : Raster} {ls} (h : r.Holds ls) :
    (if r.is2d then (r.raster2.getD []).map (fun c => c.getD 0 0) else r.raster1.getD []) = ls.map (fun c => c.headD 0) := by
  have h2 := h.2.2
  cases hd : r.is2d <;> simp only [hd, if_true, Bool.false_eq_true, if_false] at h2 ⊢
  · rw [h2.2]; rfl
  · rw [h2]
    simp only [Option.getD_some, headD_getD]

theorem validNumber_holds {r : Raster} {ls} (h : r.Holds ls) :
    validNumber r = ((ls.filter (fun c => !floatEqual (c.headD 0) r.noData)).length : Int) := by
  unfold validNumber
  rw [Holds.valid h, (r.validLayer_iff 1).2 ⟨le_rfl, h.1⟩, Holds.first h]
  simp only [Bool.not_true, Bool.or_false, Bool.false_eq_true, if_false]
  rw [List.filter_map, List.length_map]
  rfl

theorem Full.validNumber {r : Raster} {ls} (h : r.Full ls) : Gfs.validNumber r = ((r.validCells ls).length : Int) := by
  rw [validNumber_holds h.holds]
  unfold Raster.validCells
  obtain ⟨R, hR⟩ := Int.eq_ofNat_of_zero_le h.rows_nn
  obtain ⟨C, hC⟩ := Int.eq_ofNat_of_zero_le h.cols_nn
  have hl := h.len
  rw [hR, hC] at hl ⊢
  have hl' : ls.length = R * C := by exact_mod_cast hl
  have e1 : (gridCells (R : Int) (C : Int)).filter (fun rc => !floatEqual ((ls.getD (rc.1 * (C : Int) + rc.2).toNat []).headD 0) r.noData) =
      (gridCells (R : Int) (C : Int)).filter ((fun i : Int => !floatEqual ((ls.getD i.toNat []).headD 0) r.noData) ∘
        (fun rc => rc.1 * (C : Int) + rc.2)) := rfl
  rw [e1, ← List.length_map (f := fun rc : Int × Int => rc.1 * (C : Int) + rc.2), ← List.filter_map, gridCells_idx, ← hl', List.filter_map,
    List.length_map]
  have e2 : ((fun i : Int => !floatEqual ((ls.getD i.toNat []).headD 0) r.noData) ∘ fun (i : Nat) => (i : Int)) =
      (fun c : List ℚ => !floatEqual (c.headD 0) r.noData) ∘ (fun (i : Nat) => ls.getD i []) := by
    funext i
    simp [Function.comp]
  rw [e2]
  rw [← List.length_map (f := fun (i : Nat) => ls.getD i []), ← List.filter_map, map_range_getD]

/-- The positions of a clean raster with a valid cell, and the number of its valid cells. -/
theorem clean_positions {m : Raster} (hb : Built m) (hcl : CleanMask m) (hv : ∃ row col, m.hdr.grid.CellInside row col ∧ FirstValid m row col) :
    ∃ (m' : Raster) (ls : List (List ℚ)) (ps : List (Int × Int)), m'.Compact ls ps ∧
      m.getPositionData = .ok (m', ps.length, some ps) ∧
      (m.posData = none ∧ (∃ c, m.setCalcPositions = .ok (m', c)) ∧ m.posIdx = none ∧ m.validData = true ∨ m' = m) ∧
      m'.hdr = { m.hdr with cellsnum := ps.length } ∧ m'.noData = m.noData ∧ m'.nLyrs = m.nLyrs ∧
      validNumber m = ps.length ∧
      (∀ row col, (row, col) ∈ ps ↔ m.hdr.grid.CellInside row col ∧ FirstValid m row col) ∧
      ∀ row col lyr, (row, col) ∈ ps → 1 ≤ lyr → lyr ≤ m.nLyrs → m'.getValue row col lyr = m.getValue row col lyr := by
  have emptyCase : ∀ {m : Raster}, m.Empty → (∃ row col, m.hdr.grid.CellInside row col ∧ FirstValid m row col) → False := by
    rintro m h ⟨row, col, _, v, hv, hf⟩
    rw [h.getValue] at hv
    injection hv with hv
    subst hv
    rw [floatEqual_self] at hf
    cases hf
  rcases hb.inv with ⟨ls, loc, h⟩ | ⟨h2, h⟩
  · cases h with
    | empty h h1 => exact (emptyCase h hv).elim
    | full h =>
      have hmem : ∀ row col, (row, col) ∈ m.validCells ls ↔ m.hdr.grid.CellInside row col ∧ FirstValid m row col := by
        intro row col
        unfold validCells FirstValid
        rw [List.mem_filter, mem_gridCells]
        constructor
        · rintro ⟨hin, hf⟩
          obtain ⟨hi, hg⟩ := h.getValue row col 1 hin ⟨le_rfl, h.holds.1⟩
          refine ⟨hin, _, hg, ?_⟩
          simp only [Bool.not_eq_true'] at hf
          rw [List.getD_eq_getElem _ _ hi] at hf
          rw [← hf, ← headD_getD]
          rfl
        · rintro ⟨hin, v, hg, hf⟩
          refine ⟨hin, ?_⟩
          obtain ⟨hi, hg'⟩ := h.getValue row col 1 hin ⟨le_rfl, h.holds.1⟩
          rw [hg'] at hg
          injection hg with hg
          subst hg
          simp only [Bool.not_eq_true']
          rw [List.getD_eq_getElem _ _ hi, ← hf, ← headD_getD]
          rfl
      obtain ⟨m', e, g1, g2, g3, _, _, _, g5, g6⟩ := h.calc
      have hC : m'.Compact ((m.validCells ls).map (fun rc => ls.getD (rc.1 * m.hdr.cols + rc.2).toNat [])) (m.validCells ls) := by
        rcases g6 with ⟨h0, _⟩ | hC
        · obtain ⟨row, col, h1, h2⟩ := hv
          have := (hmem row col).2 ⟨h1, h2⟩
          rw [h0] at this
          cases this
        · exact hC
      have hval := h.holds.valid
      refine ⟨m', _, _, hC, ?_, .inl ⟨h.pd, ⟨true, ?_⟩, h.pi, hval⟩, g1, g2, g3, Full.validNumber h, hmem, ?_⟩
      · unfold Raster.getPositionData
        rw [h.pd]
        simp only [Option.isSome_none, Bool.false_eq_true, if_false, hval, Bool.not_true, e, Out.ok_bind, Out.pure_eq, hC.pd, g5]
      · obtain ⟨m'', e2, _⟩ := (h.setCalc true).calc
        have e3 : ({ m with calcPos := true } : Raster).calcValidPositions = m.calcValidPositions := by
          have hcv : ∀ l, ({ m with calcPos := true } : Raster).collectValid l = m.collectValid l := by
            intro l
            induction l with
            | nil => rfl
            | cons a l ih =>
              unfold collectValid
              rw [ih]
              rfl
          unfold calcValidPositions
          rw [hcv]
        unfold Raster.setCalcPositions
        simp only [hval, h.pd, h.pi, Option.isSome_none, Bool.or_false, Bool.and_false, Bool.not_true, Bool.false_eq_true, if_false]
        unfold Raster.calcNoMask
        simp only [if_true, Option.isNone_none, Bool.true_or]
        have e4 : ({ m with posData := none, posIdx := none, calcPos := true } : Raster).calcValidPositions = .ok m' := by
          rw [← e, ← e3]; congr 1; rw [← h.pd, ← h.pi]
        first
          | rw [e4]; rfl
          | rw [e3, e]; rfl
      · intro row col lyr hm h1 h2
        obtain ⟨k, hk1, hk2⟩ := List.getElem_of_mem hm
        obtain ⟨_, ev'⟩ := hC.getValue_hit row col lyr k hk1 hk2 ⟨h1, by rw [g3]; exact h2⟩
        have hin : 0 ≤ row ∧ row < m.hdr.rows ∧ 0 ≤ col ∧ col < m.hdr.cols := ((hmem row col).1 hm).1
        obtain ⟨hi, ev⟩ := h.getValue row col lyr hin ⟨h1, h2⟩
        rw [ev, ev']
        congr 2
        rw [List.getElem_map, hk2, List.getD_eq_getElem _ _ hi]
    | comp h =>
      rename_i ps
      have hc : ∀ row col, Spec.Stored m row col → FirstValid m row col := by
        rcases hcl with h1 | h1
        · rw [h.pd] at h1; cases h1
        · exact h1
      have hst : ∀ row col, (row, col) ∈ ps → Spec.Stored m row col := by
        intro row col hm
        rw [(Inv.comp h).stored]
        unfold compLoc
        rw [if_pos hm]; exact ⟨_, rfl⟩
      have hmem : ∀ row col, (row, col) ∈ ps ↔ m.hdr.grid.CellInside row col ∧ FirstValid m row col := by
        intro row col
        constructor
        · intro hm
          exact ⟨h.inside _ hm, hc row col (hst row col hm)⟩
        · rintro ⟨hin, v, hv, hf⟩
          by_contra hno
          rw [(h.getValue_miss row col 1 hin hno).2] at hv
          injection hv with hv
          subst hv
          rw [floatEqual_self] at hf
          cases hf
      refine ⟨m, ls, ps, h, ?_, .inr rfl, ?_, rfl, rfl, ?_, hmem, fun _ _ _ _ _ _ => rfl⟩
      · unfold Raster.getPositionData
        rw [h.pd]
        simp [h.ncells]
      · have := hb.hdrOk.num
        rw [h.ncells] at this
        rw [← this]
      · rw [validNumber_holds h.holds, List.filter_eq_self.2, h.len]
        intro c hcm
        obtain ⟨k, hk, rfl⟩ := List.getElem_of_mem hcm
        have hk' : k < ps.length := by rw [← h.len]; exact hk
        obtain ⟨v, hv1, hv2⟩ := hc ps[k].1 ps[k].2 (hst _ _ (List.getElem_mem hk'))
        obtain ⟨_, ev⟩ := h.getValue_hit ps[k].1 ps[k].2 1 k hk' rfl ⟨le_rfl, h.holds.1⟩
        rw [ev] at hv1
        injection hv1 with hv1
        subst hv1
        rw [← headD_getD]
        simpa using hv2
  · exact (emptyCase h hv).elim

theorem Compact.idx {m : Raster} {ls ps} (h : m.Compact ls ps) :
    m.getPositionIdx = .ok (m, ps.length, some (ps.map (fun rc => rc.1 * m.hdr.cols + rc.2))) := by
  unfold Raster.getPositionIdx
  rw [h.pi]
  simp [h.ncells]

/-- Two lists of positions in storage order with the same members are equal. -/
theorem positions_eq (w rows : Int) {a b : List (Int × Int)} (ha : (a.map (fun rc => rc.1 * w + rc.2)).Pairwise (· < ·))
    (hb : (b.map (fun rc => rc.1 * w + rc.2)).Pairwise (· < ·)) (hm : ∀ rc, rc ∈ a ↔ rc ∈ b) : a = b := by
  rw [List.pairwise_map] at ha hb
  refine List.Perm.eq_of_pairwise ?_ ha hb ?_
  · intro x y _ _ h1 h2; omega
  · rw [List.perm_ext_iff_of_nodup]
    · exact hm
    · exact ha.imp (by rintro x y hxy rfl; omega)
    · exact hb.imp (by rintro x y hxy rfl; omega)

end Gfs
end CCGL
