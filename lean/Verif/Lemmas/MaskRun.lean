import Verif.Lemmas.MaskGeo
/-!
# Masking as a whole
-/
namespace CCGL
open Raster

namespace Raster

theorem match_iff {r0 : Raster} {ls0 mh ps a} (h : LoopInv r0 ls0 mh ps a) :
    decide (a.matched = (ps.length : Int)) = true ↔ ∀ rc ∈ ps, matchedB r0 ls0 mh rc = true := by
  rw [decide_eq_true_eq, h.matched]
  constructor
  · intro he rc hrc
    have : (ps.filter (matchedB r0 ls0 mh)).length = ps.length := by omega
    rw [List.length_filter_eq_length_iff] at this
    exact this rc hrc
  · intro hall
    rw [List.filter_eq_self.2 hall]

theorem withCells_posData (r : Raster) (cs : List (List ℚ)) : (r.withCells cs).posData = r.posData := by
  unfold withCells
  split <;> rfl

theorem within_iff {r0 : Raster} {ls0 mh ps a} (h : LoopInv r0 ls0 mh ps a) (hins : ∀ rc ∈ ps, In mh rc) (hne : ps ≠ []) :
    (decide (a.maxRow - a.minRow + 1 = mh.rows) && decide (a.maxCol - a.minCol + 1 = mh.cols)) = true ↔
      TouchAll mh.rows mh.cols ps (matchedB r0 ls0 mh) 0 0 := by
  rw [Bool.and_eq_true, decide_eq_true_eq, decide_eq_true_eq]
  constructor
  · rintro ⟨w1, w2⟩
    have hb := h.box.ok hins (within_overlap h.box hins hne w1)
    have b1 := hb.r0; have b2 := hb.r2; have b3 := hb.c0; have b4 := hb.c2
    obtain ⟨x1, y1, z1, e1⟩ := hb.top
    obtain ⟨x2, y2, z2, e2⟩ := hb.bot
    obtain ⟨x3, y3, z3, e3⟩ := hb.lef
    obtain ⟨x4, y4, z4, e4⟩ := hb.rig
    exact ⟨⟨x1, y1, z1, by omega⟩, ⟨x2, y2, z2, by omega⟩, ⟨x3, y3, z3, by omega⟩, ⟨x4, y4, z4, by omega⟩⟩
  · rintro ⟨⟨x1, y1, z1, e1⟩, ⟨x2, y2, z2, e2⟩, ⟨x3, y3, z3, e3⟩, ⟨x4, y4, z4, e4⟩⟩
    have hb := h.box.ok hins ⟨x1, y1, z1⟩
    have b1 := hb.r0; have b2 := hb.r2; have b3 := hb.c0; have b4 := hb.c2
    have c1 := hb.all x1 y1 z1
    have c2 := hb.all x2 y2 z2
    have c3 := hb.all x3 y3 z3
    have c4 := hb.all x4 y4 z4
    omega

/-- What the decision of `maskFinish` leaves in the result. -/
theorem maskFinish_flags {old m : Raster} {ps : List (Int × Int)} {a : MaskAcc} {res : MaskRes} (e : maskFinish old m ps a = .ok res) :
    res.matchExactly = decide (a.matched = (ps.length : Int)) ∧
    res.updRowCol = (maskFlags (decide (a.maxRow - a.minRow + 1 = m.hdr.rows) && decide (a.maxCol - a.minCol + 1 = m.hdr.cols))
      a.ras.useMaskExt a.ras.calcPos (decide (a.matched = (ps.length : Int)))).updRowCol ∧
    ((maskFlags (decide (a.maxRow - a.minRow + 1 = m.hdr.rows) && decide (a.maxCol - a.minCol + 1 = m.hdr.cols))
      a.ras.useMaskExt a.ras.calcPos (decide (a.matched = (ps.length : Int)))).recalcPos = false →
     (maskFlags (decide (a.maxRow - a.minRow + 1 = m.hdr.rows) && decide (a.maxCol - a.minCol + 1 = m.hdr.cols))
      a.ras.useMaskExt a.ras.calcPos (decide (a.matched = (ps.length : Int)))).storeFull = false → res.ras.posData = m.posData) := by
  unfold maskFinish at e
  dsimp only at e
  generalize maskFlags (decide (a.maxRow - a.minRow + 1 = m.hdr.rows) && decide (a.maxCol - a.minCol + 1 = m.hdr.cols))
    a.ras.useMaskExt a.ras.calcPos (decide (a.matched = (ps.length : Int))) = fl at e ⊢
  by_cases q1 : (decide (a.maxRow - a.minRow + 1 = m.hdr.rows) && decide (a.maxCol - a.minCol + 1 = m.hdr.cols) &&
      decide (a.masked ≠ (ps.length : Int))) = true
  · rw [if_pos q1] at e; simp at e
  rw [if_neg q1] at e
  by_cases q2 : ((a.ras.posData.isSome || a.ras.posIdx.isSome) && !a.ras.storePos) = true
  · rw [if_pos q2] at e; simp at e
  rw [if_neg q2] at e
  by_cases q3 : (!a.ras.validData) = true
  · rw [if_pos q3] at e; simp at e
  rw [if_neg q3] at e
  by_cases h1 : fl.recalcPos = true
  · rw [if_pos h1] at e
    injection e with e
    subst e
    refine ⟨rfl, rfl, fun h => ?_⟩
    rw [h1] at h; simp at h
  rw [if_neg h1] at e
  by_cases h2 : fl.storeFull = true
  · rw [if_pos h2] at e
    generalize (if fl.updRowCol = true then ({ m.hdr with
        noData := a.ras.noData, layers := a.ras.nLyrs, rows := a.maxRow - a.minRow + 1, cols := a.maxCol - a.minCol + 1,
        xll := m.hdr.xll + a.minCol * m.hdr.cellsize,
        yll := m.hdr.yll + ((m.hdr.rows - a.maxRow - 1 : Int) : ℚ) * m.hdr.cellsize, cellsize := m.hdr.cellsize } : Header)
      else { m.hdr with noData := a.ras.noData, layers := a.ras.nLyrs }) = H at e
    by_cases h3 : old.hdr.rows * old.hdr.cols = H.cols * H.rows
    · rw [if_pos h3] at e
      injection e with e
      subst e
      refine ⟨rfl, rfl, fun _ h => ?_⟩
      rw [h2] at h; simp at h
    · rw [if_neg h3] at e
      obtain ⟨d, _, e⟩ := Out.bind_ok e
      obtain ⟨l, _, e⟩ := Out.bind_ok e
      injection e with e
      subst e
      refine ⟨rfl, rfl, fun _ h => ?_⟩
      rw [h2] at h; simp at h
  · rw [if_neg h2] at e
    injection e with e
    subst e
    refine ⟨rfl, rfl, fun _ _ => ?_⟩
    dsimp only
    rw [withCells_posData]

end Raster

theorem Raster.Placed.nodup {r mask ls m ps dr dc} (h : Placed r mask ls m ps dr dc) : ps.Nodup := by
  rcases h.pos.comp with h1 | ⟨lsM, hc⟩
  · rw [h1]; simp
  · have := hc.sorted
    rw [List.pairwise_map] at this
    exact this.imp (by rintro a b hab rfl; omega)

theorem Raster.Placed.row_iff {r mask ls m ps dr dc} (h : Placed r mask ls m ps dr dc) (hmc : 0 < mask.hdr.cellsize) (row : Int) :
    Spec.MatchedInRow r mask r.hdr.grid row ↔ ∃ rc ∈ ps, matchedB r ls m.hdr rc = true ∧ rc.1 + dr = row := by
  constructor
  · rintro ⟨col, h1, h2⟩
    have hc : r.hdr.grid.center row col = mask.hdr.grid.center (row - dr) (col - dc) := by
      rw [h.geo]; congr 1 <;> omega
    rw [hc] at h1 h2
    exact ⟨(row - dr, col - dc), (h.validAt hmc _ _).1 h1, (h.matched (row - dr, col - dc)).1 h2, by simp⟩
  · rintro ⟨rc, h1, h2, h3⟩
    refine ⟨rc.2 + dc, ?_⟩
    rw [← h3, ← h.geo]
    exact ⟨(h.validAt hmc _ _).2 h1, (h.matched rc).2 h2⟩

theorem Raster.Placed.col_iff {r mask ls m ps dr dc} (h : Placed r mask ls m ps dr dc) (hmc : 0 < mask.hdr.cellsize) (col : Int) :
    Spec.MatchedInCol r mask r.hdr.grid col ↔ ∃ rc ∈ ps, matchedB r ls m.hdr rc = true ∧ rc.2 + dc = col := by
  constructor
  · rintro ⟨row, h1, h2⟩
    have hc : r.hdr.grid.center row col = mask.hdr.grid.center (row - dr) (col - dc) := by
      rw [h.geo]; congr 1 <;> omega
    rw [hc] at h1 h2
    exact ⟨(row - dr, col - dc), (h.validAt hmc _ _).1 h1, (h.matched (row - dr, col - dc)).1 h2, by simp⟩
  · rintro ⟨rc, h1, h2, h3⟩
    refine ⟨rc.1 + dr, ?_⟩
    rw [← h3, ← h.geo]
    exact ⟨(h.validAt hmc _ _).2 h1, (h.matched rc).2 h2⟩

theorem Raster.Placed.mrow_iff {r mask ls m ps dr dc} (h : Placed r mask ls m ps dr dc) (hmc : 0 < mask.hdr.cellsize) (row : Int) :
    Spec.MatchedInRow r mask mask.hdr.grid row ↔ ∃ rc ∈ ps, matchedB r ls m.hdr rc = true ∧ rc.1 = row := by
  constructor
  · rintro ⟨col, h1, h2⟩
    exact ⟨(row, col), (h.validAt hmc _ _).1 h1, (h.matched (row, col)).1 h2, rfl⟩
  · rintro ⟨rc, h1, h2, h3⟩
    refine ⟨rc.2, ?_⟩
    rw [← h3]
    exact ⟨(h.validAt hmc _ _).2 h1, (h.matched rc).2 h2⟩

theorem Raster.Placed.mcol_iff {r mask ls m ps dr dc} (h : Placed r mask ls m ps dr dc) (hmc : 0 < mask.hdr.cellsize) (col : Int) :
    Spec.MatchedInCol r mask mask.hdr.grid col ↔ ∃ rc ∈ ps, matchedB r ls m.hdr rc = true ∧ rc.2 = col := by
  constructor
  · rintro ⟨row, h1, h2⟩
    exact ⟨(row, col), (h.validAt hmc _ _).1 h1, (h.matched (row, col)).1 h2, rfl⟩
  · rintro ⟨rc, h1, h2, h3⟩
    refine ⟨rc.1, ?_⟩
    rw [← h3]
    exact ⟨(h.validAt hmc _ _).2 h1, (h.matched rc).2 h2⟩

/-- Masking with all the details. -/
theorem mask_full {r mask : Raster} (hr : Spec.ReadGrid r) (hm : mask.RInv) (hcl : Spec.CleanMask mask)
    (hg : Spec.CommonGrid r.hdr mask.hdr)
    (hov : ¬ (r.useMaskExt = true ∧ r.calcPos = false) → ∃ x y, Spec.Matched r mask x y)
    (hb1 : r.useMaskExt = true → r.calcPos = true → (∀ x y, Spec.ValidAt mask x y → Spec.ValidAt r x y) ∨
      (Spec.MatchedInRow r mask mask.hdr.grid 0 ∧ Spec.MatchedInCol r mask mask.hdr.grid 0))
    (hb2 : r.useMaskExt = false → r.calcPos = false →
      Spec.ReachesBorders r mask mask.hdr.grid ∨ ¬ Spec.ReachesBorders r mask r.hdr.grid) :
    ∃ res ls m ps dr dc, Placed r mask ls m ps dr dc ∧ maskRaster r mask = .ok res ∧ res.validPos = ps ∧ res.mask = m ∧
      ((res.code = -1 ∧ ∀ x y, Spec.ValidAt mask x y → ¬ Spec.Covers r x y) ∨
       (res.code = 2 ∧ ∃ lsM sr sc keep, m.Compact lsM ps ∧ MaskedAt r ls m.hdr ps res.ras sr sc keep ∧
        ((r.useMaskExt = true ∨ Spec.ReachesBorders r mask mask.hdr.grid) →
          sr = 0 ∧ sc = 0 ∧ res.ras.hdr.rows = m.hdr.rows ∧ res.ras.hdr.cols = m.hdr.cols) ∧
        (res.matchExactly = true ↔ ∀ x y, Spec.ValidAt mask x y → Spec.ValidAt r x y) ∧
        (res.updRowCol = true ↔ r.useMaskExt = false ∧ ¬ Spec.ReachesBorders r mask mask.hdr.grid) ∧
        ((r.useMaskExt = true ∨ Spec.ReachesBorders r mask mask.hdr.grid) →
          (r.calcPos = true → ∀ x y, Spec.ValidAt mask x y → Spec.ValidAt r x y) → res.ras.posData = m.posData) ∧
        (r.calcPos = false → r.useMaskExt = true → ∀ rc, keep rc = true))) := by
  obtain ⟨ls, m, ps, dr, dc, h⟩ := placed_exists hr hm hcl hg
  have hmc : 0 < mask.hdr.cellsize := by rw [hg.2.1]; exact hg.1
  obtain ⟨a, ea, hla⟩ := maskLoop_spec r ls m.hdr h.grid ps [] _ (loop_init r ls m.hdr h.grid)
    (by
      intro rc _ hi
      rw [h.shift.under rc hi]
      exact (h.shift.inside rc).1 hi)
    (by
      rw [List.nil_append]
      refine h.nodup.imp ?_
      intro x y hne hx hy he
      rw [h.shift.under x hx, h.shift.under y hy, Prod.mk.injEq] at he
      apply hne
      ext
      · omega
      · omega)
    (by simp)
  rw [List.nil_append] at hla
  have hrun : maskRaster r mask = if a.masked = 0 then .ok ⟨a.ras, m, -1, true, ps, false, false⟩ else maskFinish r m ps a := by
    unfold maskRaster
    rw [h.pos.run]
    simp only [Out.ok_bind, if_true]
    rw [if_neg (by omega), ea]
    rfl
  rw [hrun]
  by_cases h0 : a.masked = 0
  · rw [if_pos h0]
    refine ⟨_, ls, m, ps, dr, dc, h, rfl, rfl, rfl, .inl ⟨rfl, ?_⟩⟩
    rw [hla.masked] at h0
    have hnil : ps.filter (insideB r.hdr m.hdr) = [] := List.length_eq_zero_iff.1 (by exact_mod_cast h0)
    rw [List.filter_eq_nil_iff] at hnil
    intro x y hv
    obtain ⟨rc, hrc, hc⟩ := h.validAt_pt x y hv
    rintro ⟨row, col, hin, hc'⟩
    apply hnil rc hrc
    rw [h.shift.inside]
    rw [← hc, h.geo] at hc'
    obtain ⟨rfl, rfl⟩ := center_inj (g := r.hdr.grid) h.cs hc'
    exact hin
  · rw [if_neg h0]
    have hne : ps ≠ [] := by
      rintro rfl
      apply h0
      rw [hla.masked]; rfl
    obtain ⟨lsM, hcm⟩ : ∃ lsM, m.Compact lsM ps := by
      rcases h.pos.comp with h1 | h1
      · exact absurd h1 hne
      · exact h1
    have exm : (∃ x y, Spec.Matched r mask x y) → ∃ rc ∈ ps, matchedB r ls m.hdr rc = true := by
      rintro ⟨x, y, h1, h2⟩
      obtain ⟨rc, hrc, hc⟩ := h.validAt_pt x y h1
      refine ⟨rc, hrc, (h.matched rc).1 ?_⟩
      rw [hc]; exact h2
    have hall : (∀ x y, Spec.ValidAt mask x y → Spec.ValidAt r x y) ↔ ∀ rc ∈ ps, matchedB r ls m.hdr rc = true := by
      constructor
      · intro h1 rc hrc
        exact (h.matched rc).1 (h1 _ _ ((h.validAt hmc _ _).2 hrc))
      · intro h1 x y hv
        obtain ⟨rc, hrc, hc⟩ := h.validAt_pt x y hv
        have := (h.matched rc).2 (h1 rc hrc)
        rw [hc] at this; exact this
    have htouch : Spec.ReachesBorders r mask mask.hdr.grid ↔
        TouchAll m.hdr.rows m.hdr.cols ps (matchedB r ls m.hdr) 0 0 := by
      unfold Spec.ReachesBorders TouchAll
      rw [h.mrow_iff hmc, h.mrow_iff hmc, h.mcol_iff hmc, h.mcol_iff hmc, h.pos.rows, h.pos.cols]
      simp only [add_zero]
      rfl
    obtain ⟨res, sr, sc, keep, e, hcode, hmk, hvp, hat, hext, hkeep⟩ := maskFinish_spec h.grid hcm hla h.shift
      (fun hn => exm (hov hn))
      (by
        intro hu hc
        rcases hb1 hu hc with h1 | ⟨h1, h2⟩
        · exact .inl (hall.1 h1)
        · exact .inr ⟨(h.mrow_iff hmc 0).1 h1, (h.mcol_iff hmc 0).1 h2⟩)
      (by
        intro hu hc
        rcases hb2 hu hc with h1 | h1
        · exact .inl (htouch.1 h1)
        · right
          rintro ⟨h2, h3, h4, h5⟩
          apply h1
          exact ⟨(h.row_iff hmc 0).2 h2, (h.row_iff hmc _).2 h3, (h.col_iff hmc 0).2 h4, (h.col_iff hmc _).2 h5⟩)
    obtain ⟨f1, f2, f3⟩ := maskFinish_flags e
    have w := within_iff hla hcm.inside hne
    have q := match_iff hla
    rw [← htouch] at w
    rw [← hall] at q
    obtain ⟨d1, d2, hshape⟩ := hla.shape
    have u1 : a.ras.useMaskExt = r.useMaskExt := by rw [hshape]
    have u2 : a.ras.calcPos = r.calcPos := by rw [hshape]
    rw [u1, u2] at f2 f3
    refine ⟨res, ls, m, ps, dr, dc, h, e, hvp, hmk, .inr ⟨hcode, lsM, sr, sc, keep, hcm, hat, ?_, ?_, ?_, ?_, hkeep⟩⟩
    · intro hu
      rw [htouch] at hu
      exact hext hu
    · rw [f1]; exact q
    · rw [f2]
      rw [← w]
      unfold maskFlags
      generalize (decide (a.maxRow - a.minRow + 1 = m.hdr.rows) && decide (a.maxCol - a.minCol + 1 = m.hdr.cols)) = W
      cases W <;> cases r.useMaskExt <;> cases r.calcPos <;> simp
    · intro hu hc
      rw [← w] at hu
      rw [← q] at hc
      revert f3 hu hc
      unfold maskFlags
      generalize (decide (a.maxRow - a.minRow + 1 = m.hdr.rows) && decide (a.maxCol - a.minCol + 1 = m.hdr.cols)) = W
      generalize decide (a.matched = (ps.length : Int)) = M
      cases W <;> cases r.useMaskExt <;> cases r.calcPos <;> cases M <;> simp

/-- No cell of the mask on the raster: the code is -1. -/
theorem mask_none {r mask : Raster} (hr : Spec.ReadGrid r) (hm : mask.RInv) (hcl : Spec.CleanMask mask)
    (hg : Spec.CommonGrid r.hdr mask.hdr) (hno : ∀ x y, Spec.ValidAt mask x y → ¬ Spec.Covers r x y) :
    ∃ res, maskRaster r mask = .ok res ∧ res.code = -1 := by
  obtain ⟨ls, m, ps, dr, dc, h⟩ := placed_exists hr hm hcl hg
  have hmc : 0 < mask.hdr.cellsize := by rw [hg.2.1]; exact hg.1
  obtain ⟨a, ea, hla⟩ := maskLoop_spec r ls m.hdr h.grid ps [] _ (loop_init r ls m.hdr h.grid)
    (by
      intro rc _ hi
      rw [h.shift.under rc hi]
      exact (h.shift.inside rc).1 hi)
    (by
      rw [List.nil_append]
      refine h.nodup.imp ?_
      intro x y hne hx hy he
      rw [h.shift.under x hx, h.shift.under y hy, Prod.mk.injEq] at he
      apply hne
      ext
      · omega
      · omega)
    (by simp)
  rw [List.nil_append] at hla
  have h0 : a.masked = 0 := by
    rw [hla.masked]
    have : ps.filter (insideB r.hdr m.hdr) = [] := by
      rw [List.filter_eq_nil_iff]
      intro rc hrc hin
      rw [h.shift.inside] at hin
      exact hno _ _ ((h.validAt hmc rc.1 rc.2).2 hrc) ⟨rc.1 + dr, rc.2 + dc, hin, (h.geo rc.1 rc.2).symm⟩
    rw [this]; rfl
  refine ⟨⟨a.ras, m, -1, true, ps, false, false⟩, ?_, rfl⟩
  unfold maskRaster
  rw [h.pos.run]
  simp only [Out.ok_bind, if_true]
  rw [if_neg (by omega), ea]
  simp only [Out.ok_bind, if_pos h0]

end CCGL
