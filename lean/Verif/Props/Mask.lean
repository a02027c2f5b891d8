import Verif.Lemmas.Built
/-!
# Masking (C17, C18)
-/
namespace CCGL
open Raster

/-- The result of masking a raster: nothing (code -1) if no valid cell of the mask lies on the raster, otherwise the masked
raster, right in the sense of C17 and with agreeing positions (C18). -/
def Spec.MaskOutcome (r mask : Raster) : Prop :=
  ∃ res, maskRaster r mask = .ok res ∧
    ((res.code = -1 ∧ ∀ x y, Spec.ValidAt mask x y → ¬ Spec.Covers r x y) ∨
     (res.code = 2 ∧ Spec.MaskedRight r mask res.ras ∧ Spec.PositionsAgree res.ras ∧
      (r.useMaskExt = true → res.ras.hdr.grid = mask.hdr.grid)))

theorem mask_core {r mask : Raster} (hr : Spec.ReadGrid r) (hm : Spec.Built mask) (hcl : Spec.CleanMask mask)
    (hg : Spec.CommonGrid r.hdr mask.hdr)
    (hov : ¬ (r.useMaskExt = true ∧ r.calcPos = false) → ∃ x y, Spec.Matched r mask x y)
    (hb1 : r.useMaskExt = true → r.calcPos = true → (∀ x y, Spec.ValidAt mask x y → Spec.ValidAt r x y) ∨
      (Spec.MatchedInRow r mask mask.hdr.grid 0 ∧ Spec.MatchedInCol r mask mask.hdr.grid 0))
    (hb2 : r.useMaskExt = false → r.calcPos = false →
      Spec.ReachesBorders r mask mask.hdr.grid ∨ ¬ Spec.ReachesBorders r mask r.hdr.grid) :
    Spec.MaskOutcome r mask := by
  obtain ⟨ls, m, ps, dr, dc, h⟩ := placed_exists hr hm.inv hcl hg
  have hmc : 0 < mask.hdr.cellsize := by rw [hg.2.1]; exact hg.1
  obtain ⟨a, ea, hla⟩ := maskLoop_spec r ls m.hdr h.grid ps [] _ (loop_init r ls m.hdr h.grid)
    (by
      intro rc _ hi
      rw [h.shift.under rc hi]
      exact (h.shift.inside rc).1 hi)
    (by
      rw [List.nil_append]
      refine h.nodup.imp ?_
      intro x y hne hx hy he
      rw [h.shift.under x hx, h.shift.under y hy, Prod.mk.injEq] at he
      apply hne
      ext
      · omega
      · omega)
    (by simp)
  rw [List.nil_append] at hla
  have hrun : maskRaster r mask = if a.masked = 0 then .ok ⟨a.ras, m, -1, true, ps, false, false⟩ else maskFinish r m ps a := by
    unfold maskRaster
    rw [h.pos.run]
    simp only [Out.ok_bind, if_true]
    rw [if_neg (by omega), ea]
    rfl
  unfold Spec.MaskOutcome
  rw [hrun]
  by_cases h0 : a.masked = 0
  · rw [if_pos h0]
    refine ⟨_, rfl, .inl ⟨rfl, ?_⟩⟩
    rw [hla.masked] at h0
    have hnil : ps.filter (insideB r.hdr m.hdr) = [] := List.length_eq_zero_iff.1 (by exact_mod_cast h0)
    rw [List.filter_eq_nil_iff] at hnil
    intro x y hv
    obtain ⟨rc, hrc, hc⟩ := h.validAt_pt x y hv
    rintro ⟨row, col, hin, hc'⟩
    apply hnil rc hrc
    rw [h.shift.inside]
    rw [← hc, h.geo] at hc'
    obtain ⟨rfl, rfl⟩ := center_inj (g := r.hdr.grid) h.cs hc'
    exact hin
  · rw [if_neg h0]
    have hne : ps ≠ [] := by
      rintro rfl
      apply h0
      rw [hla.masked]; rfl
    obtain ⟨lsM, hcm⟩ : ∃ lsM, m.Compact lsM ps := by
      rcases h.pos.comp with h1 | h1
      · exact absurd h1 hne
      · exact h1
    have exm : (∃ x y, Spec.Matched r mask x y) → ∃ rc ∈ ps, matchedB r ls m.hdr rc = true := by
      rintro ⟨x, y, h1, h2⟩
      obtain ⟨rc, hrc, hc⟩ := h.validAt_pt x y h1
      refine ⟨rc, hrc, (h.matched rc).1 ?_⟩
      rw [hc]; exact h2
    obtain ⟨res, sr, sc, keep, e, hcode, _, _, hat, hext, _⟩ := maskFinish_spec h.grid hcm hla h.shift
      (fun hn => exm (hov hn))
      (by
        intro hu hc
        rcases hb1 hu hc with h1 | ⟨h1, h2⟩
        · left
          intro rc hrc
          exact (h.matched rc).1 (h1 _ _ ((h.validAt hmc _ _).2 hrc))
        · exact .inr ⟨(h.mrow_iff hmc 0).1 h1, (h.mcol_iff hmc 0).1 h2⟩)
      (by
        intro hu hc
        rcases hb2 hu hc with ⟨h1, h2, h3, h4⟩ | h1
        · left
          rw [h.mrow_iff hmc] at h1 h2
          rw [h.mcol_iff hmc] at h3 h4
          rw [h.pos.rows, h.pos.cols]
          unfold TouchAll
          simp only [add_zero]
          exact ⟨h1, h2, h3, h4⟩
        · right
          rintro ⟨h2, h3, h4, h5⟩
          apply h1
          exact ⟨(h.row_iff hmc 0).2 h2, (h.row_iff hmc _).2 h3, (h.col_iff hmc 0).2 h4, (h.col_iff hmc _).2 h5⟩)
    refine ⟨res, e, .inr ⟨hcode, hat.right h hmc, ?_, ?_⟩⟩
    · obtain ⟨ls', loc', hinv⟩ := hat.inv
      exact hinv.agree (by rw [hat.cs, h.pos.cs]; exact hmc)
    · intro hu
      obtain ⟨z1, z2, hrows, hcols⟩ := hext (.inl hu)
      subst z1 z2
      have hx := hat.xll
      have hy := hat.yll
      have hc := hat.cs
      rw [hrows] at hy
      simp only [Int.cast_zero, zero_mul, add_zero, sub_self] at hx hy
      unfold Header.grid
      rw [hrows, hcols, hx, hy, hc, h.pos.rows, h.pos.cols, h.pos.cs, h.pos.xll, h.pos.yll]

/-! ## C17 and C18, by the options `use_mask_ext` and `calc_pos` -/

/-- C17 and C18 with `use_mask_ext` and without `calc_pos`: every raster, every mask, every placement. -/
theorem C17_ext {r mask : Raster} (hr : Spec.ReadGrid r) (hm : Spec.Built mask) (hcl : Spec.CleanMask mask)
    (hg : Spec.CommonGrid r.hdr mask.hdr) (hu : r.useMaskExt = true) (hc : r.calcPos = false) : Spec.MaskOutcome r mask :=
  mask_core hr hm hcl hg (fun h => absurd ⟨hu, hc⟩ h) (fun _ h => by rw [hc] at h; simp at h)
    (fun h => by rw [hu] at h; simp at h)

/-- C17 and C18 with `calc_pos` and without `use_mask_ext`: whenever some valid cell of the raster lies under the mask. -/
theorem C17_calc {r mask : Raster} (hr : Spec.ReadGrid r) (hm : Spec.Built mask) (hcl : Spec.CleanMask mask)
    (hg : Spec.CommonGrid r.hdr mask.hdr) (hu : r.useMaskExt = false) (hc : r.calcPos = true)
    (hov : ∃ x y, Spec.Matched r mask x y) : Spec.MaskOutcome r mask :=
  mask_core hr hm hcl hg (fun _ => hov) (fun h => by rw [hu] at h; simp at h) (fun _ h => by rw [hc] at h; simp at h)

/-- C17 and C18 with both options (partial): if all valid cells of the mask lie on valid cells of the raster, or such cells
reach the top row and the left column of the mask. Missing: all other placements (`C17_false_ext_calc`). -/
theorem C17_ext_calc_partial {r mask : Raster} (hr : Spec.ReadGrid r) (hm : Spec.Built mask) (hcl : Spec.CleanMask mask)
    (hg : Spec.CommonGrid r.hdr mask.hdr) (hov : ∃ x y, Spec.Matched r mask x y)
    (hu : r.useMaskExt = true) (_hc : r.calcPos = true)
    (hb : (∀ x y, Spec.ValidAt mask x y → Spec.ValidAt r x y) ∨
      (Spec.MatchedInRow r mask mask.hdr.grid 0 ∧ Spec.MatchedInCol r mask mask.hdr.grid 0)) : Spec.MaskOutcome r mask :=
  mask_core hr hm hcl hg (fun _ => hov) (fun _ _ => hb) (fun h => by rw [hu] at h; simp at h)

/-- C17 and C18 without options (partial): if the valid cells under the mask reach the borders of the mask, or do not reach
all borders of the raster. Missing: the raster reached at all borders but not the mask (`C17_false_plain`). -/
theorem C17_plain_partial {r mask : Raster} (hr : Spec.ReadGrid r) (hm : Spec.Built mask) (hcl : Spec.CleanMask mask)
    (hg : Spec.CommonGrid r.hdr mask.hdr) (hov : ∃ x y, Spec.Matched r mask x y)
    (_hu : r.useMaskExt = false) (hc : r.calcPos = false)
    (hb : Spec.ReachesBorders r mask mask.hdr.grid ∨ ¬ Spec.ReachesBorders r mask r.hdr.grid) : Spec.MaskOutcome r mask :=
  mask_core hr hm hcl hg (fun _ => hov) (fun _ h => by rw [hc] at h; simp at h) (fun _ _ => hb)

/-- C18: in each of these cases the stored cells of the result have one location all lookups agree on, in the grid of the
mask if `use_mask_ext` is set (consequence of the theorems above). -/
theorem C18_positions {r mask : Raster} (h : Spec.MaskOutcome r mask) {res : MaskRes} (e : maskRaster r mask = .ok res)
    (hc : 0 ≤ res.code) : Spec.PositionsAgree res.ras ∧ (r.useMaskExt = true → res.ras.hdr.grid = mask.hdr.grid) := by
  obtain ⟨res', e', hcase⟩ := h
  rw [e] at e'
  simp only [Out.ok.injEq] at e'
  subst e'
  rcases hcase with ⟨h1, _⟩ | ⟨_, _, h2, h3⟩
  · omega
  · exact ⟨h2, h3⟩

theorem readGrid_ext {r : Raster} (h : Spec.ReadGrid r) : Spec.ReadGrid { r with useMaskExt := true } := by
  cases h with
  | file h data c u d hr hc hlen => exact .file h data c true d hr hc hlen
  | store h data c u d hr hc hl hlen hrow => exact .store h data c true d hr hc hl hlen hrow
  | store1 h data c u d hr hc hlen => exact .store1 h data c true d hr hc hlen

/-- C17 and C18 for `SetUseMaskExt` on a raster that stores its whole grid (as the masking without options leaves it): it is masked again, and the
result lies on the grid of the mask. On a raster that uses the mask's extent already, and without a mask, nothing is done. -/
theorem C18_setUseMaskExt {r mask : Raster} (hr : Spec.ReadGrid r) (hm : Spec.Built mask) (hcl : Spec.CleanMask mask)
    (hg : Spec.CommonGrid r.hdr mask.hdr) (hc : r.calcPos = false) :
    setUseMaskExt r none = .ok none ∧ (r.useMaskExt = true → setUseMaskExt r (some mask) = .ok none) ∧
    (r.useMaskExt = false → ∃ res, setUseMaskExt r (some mask) = .ok (some res) ∧
      ((res.code = -1 ∧ ∀ x y, Spec.ValidAt mask x y → ¬ Spec.Covers r x y) ∨
       (res.code = 2 ∧ Spec.MaskedRight r mask res.ras ∧ Spec.PositionsAgree res.ras ∧ res.ras.hdr.grid = mask.hdr.grid))) := by
  have hv : r.validData = true := by
    cases hr <;> rfl
  refine ⟨?_, ?_, ?_⟩
  · unfold setUseMaskExt; rw [hv]; rfl
  · intro hu; unfold setUseMaskExt; rw [hv, hu]; rfl
  · intro hu
    obtain ⟨res, e, h⟩ := C17_ext (readGrid_ext hr) hm hcl hg rfl hc
    refine ⟨res, ?_, ?_⟩
    · unfold setUseMaskExt
      dsimp only
      rw [hv, hu, e]; rfl
    · rcases h with ⟨h1, h2⟩ | ⟨h1, h2, h3, h4⟩
      · exact .inl ⟨h1, h2⟩
      · exact .inr ⟨h1, ⟨h2.only, h2.all⟩, h3, h4 rfl⟩

/-! ### Concrete cases -/

instance (g : Spec.Grid) (row col : Int) : Decidable (g.CellInside row col) := by unfold Spec.Grid.CellInside; infer_instance

/-- A mask of 2x3 cells of size 10, one cell NoData. -/
def exMaskM : Raster := ofArray1 (some [1, -9999, 1, 1, 1, 1]) 3 2 (-9999) 10 0 0

/-- The raster with both options, 2x2 cells, one column right of the mask's left border. -/
def exRasM (calcPos useExt : Bool) (h : Header) (data : List ℚ) : Raster := ofFile h data calcPos useExt (-9999)

/-- Non-vacuity: the hypotheses of the four theorems on a concrete raster (one NoData cell, one cell outside of the mask). -/
example (b c : Bool) : Spec.ReadGrid (exRasM b c ⟨2, 2, 10, 20, 10, -9999, 1, -1⟩ [5, 6, -9999, 8]) ∧ Spec.Built exMaskM ∧
    Spec.CleanMask exMaskM ∧ Spec.CommonGrid (exRasM b c ⟨2, 2, 10, 20, 10, -9999, 1, -1⟩ [5, 6, -9999, 8]).hdr exMaskM.hdr :=
  ⟨.file _ _ _ _ _ (by decide) (by decide) (by decide),
   .grid1 [1, -9999, 1, 1, 1, 1] 2 3 (-9999) 10 0 0 (by decide), .inl rfl,
   by cases b <;> cases c <;> decide +kernel, rfl, -2, -1, by cases b <;> cases c <;> decide +kernel,
   by cases b <;> cases c <;> decide +kernel⟩

/-- Non-vacuity: a raster with a valid cell under the mask, at the point (20, 10). -/
example (b c : Bool) : Spec.Matched (exRasM b c ⟨2, 2, 10, 10, 0, -9999, 1, -1⟩ [5, 6, -9999, 8]) exMaskM 20 10 := by
  refine ⟨⟨1, 0, 2, by decide, by decide +kernel, by decide +kernel, by decide +kernel⟩,
    6, 0, 1, by cases b <;> cases c <;> decide, ?_, ?_, ?_⟩
  all_goals cases b <;> cases c <;> decide +kernel

/-- The four results for this raster: values and positions. -/
example : (maskRaster (exRasM false true ⟨2, 2, 10, 10, 0, -9999, 1, -1⟩ [5, 6, -9999, 8]) exMaskM).bind
    (fun res => .ok (res.ras.raster1, res.ras.posData)) =
    .ok (some [-9999, 6, -9999, -9999, 8], some [(0, 0), (0, 2), (1, 0), (1, 1), (1, 2)]) := by decide +kernel
example : (maskRaster (exRasM true false ⟨2, 2, 10, 10, 0, -9999, 1, -1⟩ [5, 6, -9999, 8]) exMaskM).bind
    (fun res => .ok (res.ras.raster1, res.ras.posData, res.ras.hdr.xll)) =
    .ok (some [6, 8], some [(0, 0), (1, 0)], 20) := by decide +kernel

/-- Non-vacuity of `Spec.Built.masked`: the first of these results, so everything proved for rasters a program gets holds for it. -/
example : ∃ res, maskRaster (exRasM false true ⟨2, 2, 10, 10, 0, -9999, 1, -1⟩ [5, 6, -9999, 8]) exMaskM = .ok res ∧
    Spec.Built res.ras ∧ res.ras.posData = some [(0, 0), (0, 2), (1, 0), (1, 1), (1, 2)] := by
  have e : (maskRaster (exRasM false true ⟨2, 2, 10, 10, 0, -9999, 1, -1⟩ [5, 6, -9999, 8]) exMaskM).bind
    (fun res => .ok (decide (0 ≤ res.code ∧ res.ras.posData = some [(0, 0), (0, 2), (1, 0), (1, 1), (1, 2)]))) = .ok true := by
    decide +kernel
  obtain ⟨res, e1, e2⟩ := Out.bind_ok e
  simp only [Out.ok.injEq, decide_eq_true_eq] at e2
  have hr : Spec.ReadGrid (exRasM false true ⟨2, 2, 10, 10, 0, -9999, 1, -1⟩ [5, 6, -9999, 8]) :=
    .file _ _ _ _ _ (by decide) (by decide) (by decide)
  have hm : Spec.Built exMaskM := .grid1 [1, -9999, 1, 1, 1, 1] 2 3 (-9999) 10 0 0 (by decide)
  have hg : Spec.CommonGrid (exRasM false true ⟨2, 2, 10, 10, 0, -9999, 1, -1⟩ [5, 6, -9999, 8]).hdr exMaskM.hdr :=
    ⟨by decide +kernel, rfl, -1, 0, by decide +kernel, by decide +kernel⟩
  have hk : Spec.Maskable (exRasM false true ⟨2, 2, 10, 10, 0, -9999, 1, -1⟩ [5, 6, -9999, 8]) exMaskM := by
    refine ⟨fun h => absurd ⟨rfl, rfl⟩ h, fun _ h => ?_, fun h => ?_⟩
    · cases h
    · cases h
  exact ⟨res, e1, .masked hr hm (.inl rfl) hg hk e1 e2.1, e2.2⟩

/-! ### False cases -/

/-- C17 and C18 are false with both options: the raster's only value (7 at the point (10, 0)) is shown at the point
(0, 10) after masking. -/
theorem C17_false_ext_calc : ∃ r mask : Raster, Spec.ReadGrid r ∧ Spec.Built mask ∧ Spec.CleanMask mask ∧
    Spec.CommonGrid r.hdr mask.hdr ∧ r.useMaskExt = true ∧ r.calcPos = true ∧ (∃ x y, Spec.Matched r mask x y) ∧
    ∃ res, maskRaster r mask = .ok res ∧ res.code = 2 ∧ Spec.Shows res.ras 0 10 1 7 ∧ ¬ Spec.Covers r 0 10 := by
  refine ⟨exRasM true true ⟨1, 1, 10, 10, 0, -9999, 1, -1⟩ [7], ofArray1 (some [1, 1, 1, 1]) 2 2 (-9999) 10 0 0,
    .file _ _ _ _ _ (by decide) (by decide) (by decide), .grid1 [1, 1, 1, 1] 2 2 (-9999) 10 0 0 (by decide), .inl rfl,
    ⟨by decide +kernel, rfl, -1, 0, by decide +kernel, by decide +kernel⟩, rfl, rfl,
    ⟨10, 0, ⟨1, 1, 1, by decide, by decide +kernel, by decide +kernel, by decide +kernel⟩,
      7, 0, 0, by decide, by decide +kernel, by decide +kernel, by decide +kernel⟩, ?_⟩
  generalize hres : maskRaster (exRasM true true ⟨1, 1, 10, 10, 0, -9999, 1, -1⟩ [7])
    (ofArray1 (some [1, 1, 1, 1]) 2 2 (-9999) 10 0 0) = res
  have e : (maskRaster (exRasM true true ⟨1, 1, 10, 10, 0, -9999, 1, -1⟩ [7])
    (ofArray1 (some [1, 1, 1, 1]) 2 2 (-9999) 10 0 0)).bind (fun res =>
      if res.code = 2 ∧ res.ras.hdr.grid.center 0 0 = (0, 10) ∧ res.ras.getValue 0 0 1 = .ok 7 ∧ res.ras.noData = -9999 ∧
        res.ras.hdr.rows = 2 ∧ res.ras.hdr.cols = 2 then .ok true else .ub) = .ok true := by decide +kernel
  rw [hres] at e
  obtain ⟨x, rfl, e'⟩ := Out.bind_ok e
  clear e
  split at e'
  · next hx =>
    obtain ⟨h1, h2, h3, h4, h5, h6⟩ := hx
    refine ⟨x, rfl, h1, ⟨0, 0, ⟨le_rfl, by simp [Header.grid, h5], le_rfl, by simp [Header.grid, h6]⟩, h2, h3, ?_⟩, ?_⟩
    · rw [h4]; decide +kernel
    · rintro ⟨row, col, hin, hc⟩
      have h7 : row = 0 := by have := hin.1; have : row < 1 := hin.2.1; omega
      have h8 : col = 0 := by have := hin.2.2.1; have : col < 1 := hin.2.2.2; omega
      subst h7 h8
      exact absurd hc (by decide +kernel)
  · simp at e'

/-- C17 is false without options: the value 9 of the raster at the point (0, 0) is still shown although the mask has
NoData there. -/
theorem C17_false_plain : ∃ r mask : Raster, Spec.ReadGrid r ∧ Spec.Built mask ∧ Spec.CleanMask mask ∧
    Spec.CommonGrid r.hdr mask.hdr ∧ r.useMaskExt = false ∧ r.calcPos = false ∧ (∃ x y, Spec.Matched r mask x y) ∧
    ∃ res, maskRaster r mask = .ok res ∧ res.code = 2 ∧ Spec.Shows res.ras 0 0 1 9 ∧ ¬ Spec.ValidAt mask 0 0 := by
  refine ⟨exRasM false false ⟨2, 2, 10, 0, 0, -9999, 1, -1⟩ [7, 8, 9, 6],
    ofArray1 (some [1, 1, 1, -9999, 1, 1]) 3 2 (-9999) 10 0 0,
    .file _ _ _ _ _ (by decide) (by decide) (by decide), .grid1 [1, 1, 1, -9999, 1, 1] 2 3 (-9999) 10 0 0 (by decide), .inl rfl,
    ⟨by decide +kernel, rfl, 0, 0, by decide +kernel, by decide +kernel⟩, rfl, rfl,
    ⟨0, 10, ⟨1, 0, 0, by decide, by decide +kernel, by decide +kernel, by decide +kernel⟩,
      7, 0, 0, by decide, by decide +kernel, by decide +kernel, by decide +kernel⟩, ?_⟩
  generalize hres : maskRaster (exRasM false false ⟨2, 2, 10, 0, 0, -9999, 1, -1⟩ [7, 8, 9, 6])
    (ofArray1 (some [1, 1, 1, -9999, 1, 1]) 3 2 (-9999) 10 0 0) = res
  have e : (maskRaster (exRasM false false ⟨2, 2, 10, 0, 0, -9999, 1, -1⟩ [7, 8, 9, 6])
    (ofArray1 (some [1, 1, 1, -9999, 1, 1]) 3 2 (-9999) 10 0 0)).bind (fun res =>
      if res.code = 2 ∧ res.ras.hdr.grid.center 1 0 = (0, 0) ∧ res.ras.getValue 1 0 1 = .ok 9 ∧ res.ras.noData = -9999 ∧
        res.ras.hdr.rows = 2 ∧ res.ras.hdr.cols = 2 then .ok true else .ub) = .ok true := by decide +kernel
  rw [hres] at e
  obtain ⟨x, rfl, e'⟩ := Out.bind_ok e
  clear e
  split at e'
  · next hx =>
    obtain ⟨h1, h2, h3, h4, h5, h6⟩ := hx
    refine ⟨x, rfl, h1, ⟨1, 0, ⟨by decide, by simp [Header.grid, h5], le_rfl, by simp [Header.grid, h6]⟩, h2, h3, ?_⟩, ?_⟩
    · rw [h4]; decide +kernel
    · rintro ⟨v, row, col, hin, hc, hv, hf⟩
      have h8 : Spec.Grid.center (ofArray1 (some [1, 1, 1, -9999, 1, 1]) 3 2 (-9999) 10 0 0).hdr.grid 1 0 = (0, 0) := by
        decide +kernel
      rw [← h8] at hc
      obtain ⟨rfl, rfl⟩ := center_inj (by decide +kernel) hc
      have h9 : (ofArray1 (some [1, 1, 1, -9999, 1, 1]) 3 2 (-9999) 10 0 0).getValue 1 0 1 = .ok (-9999) := by decide +kernel
      rw [h9] at hv
      simp only [Out.ok.injEq] at hv
      subst hv
      exact absurd hf (by decide +kernel)
  · simp at e'

/-- Without a valid cell of the raster under the mask the header gets a negative number of rows (options without
`use_mask_ext`, the mask overlaps the raster). -/
theorem C18_false_nothing_matched : ∃ r mask : Raster, Spec.ReadGrid r ∧ Spec.Built mask ∧ Spec.CleanMask mask ∧
    Spec.CommonGrid r.hdr mask.hdr ∧ r.useMaskExt = false ∧ r.calcPos = true ∧
    (maskRaster r mask).bind (fun res => .ok (res.code, res.ras.hdr.rows, res.ras.hdr.cols)) = .ok (2, -2, -2) := by
  refine ⟨exRasM true false ⟨2, 2, 10, 0, 0, -9999, 1, -1⟩ [-9999, -9999, -9999, -9999],
    ofArray1 (some [1, 1, 1, 1]) 2 2 (-9999) 10 0 0, .file _ _ _ _ _ (by decide) (by decide) (by decide),
    ?_, .inl rfl, ⟨by decide +kernel, rfl, 0, 0, by decide +kernel, by decide +kernel⟩, rfl, rfl, ?_⟩
  · exact .grid1 [1, 1, 1, 1] 2 2 (-9999) 10 0 0 (by decide)
  · decide +kernel

/-- A raster that took the positions of its mask: calling `SetUseMaskExt` releases arrays which belong to the mask. -/
theorem C18_false_setUseMaskExt : ∃ r mask : Raster, Spec.ReadGrid r ∧ Spec.Built mask ∧ Spec.CommonGrid r.hdr mask.hdr ∧
    ∃ res, maskRaster r mask = .ok res ∧ res.code = 2 ∧ setUseMaskExt res.ras (some res.mask) = .ub := by
  refine ⟨exRasM true false ⟨2, 2, 10, 0, 0, -9999, 1, -1⟩ [1, 2, 3, 4],
    ofArray1 (some [1, 1, 1, 1]) 2 2 (-9999) 10 0 0, .file _ _ _ _ _ (by decide) (by decide) (by decide),
    .grid1 [1, 1, 1, 1] 2 2 (-9999) 10 0 0 (by decide),
    ⟨by decide +kernel, rfl, 0, 0, by decide +kernel, by decide +kernel⟩, ?_⟩
  generalize hres : maskRaster (exRasM true false ⟨2, 2, 10, 0, 0, -9999, 1, -1⟩ [1, 2, 3, 4])
    (ofArray1 (some [1, 1, 1, 1]) 2 2 (-9999) 10 0 0) = res
  have e : (maskRaster (exRasM true false ⟨2, 2, 10, 0, 0, -9999, 1, -1⟩ [1, 2, 3, 4])
    (ofArray1 (some [1, 1, 1, 1]) 2 2 (-9999) 10 0 0)).bind (fun res =>
      if res.code = 2 ∧ setUseMaskExt res.ras (some res.mask) = .ub then .ok true else .ub) = .ok true := by decide +kernel
  rw [hres] at e
  obtain ⟨x, rfl, e'⟩ := Out.bind_ok e
  clear e
  split at e'
  · next hx => exact ⟨x, rfl, hx.1, hx.2⟩
  · simp at e'

/-- Non-vacuity: a raster masked without options, then `SetUseMaskExt`: the masked raster meets the hypotheses, and the result has the three cells
under the mask that the raster has, on the mask's grid. -/
example : ∃ res, maskRaster (exRasM false false ⟨2, 2, 10, 10, 0, -9999, 1, -1⟩ [5, 6, -9999, 8]) exMaskM = .ok res ∧ Spec.ReadGrid res.ras ∧
    Spec.CommonGrid res.ras.hdr res.mask.hdr ∧ res.ras.calcPos = false ∧ res.ras.useMaskExt = false ∧
    (setUseMaskExt res.ras (some res.mask)).bind (fun x => .ok (x.map (fun q => (q.ras.hdr.cols, q.ras.raster1)))) =
      .ok (some (3, some [-9999, 6, -9999, -9999, 8])) := by
  have e : (maskRaster (exRasM false false ⟨2, 2, 10, 10, 0, -9999, 1, -1⟩ [5, 6, -9999, 8]) exMaskM).bind
    (fun res => .ok (decide (res.ras = ofStore1 res.ras.hdr (res.ras.raster1.getD []) false false (-9999) ∧ res.ras.hdr.rows = 2 ∧
      res.ras.hdr.cellsize = 10 ∧ res.ras.hdr.xll = 20 ∧ res.ras.hdr.yll = 0 ∧ (res.ras.raster1.getD []).length = 2 ∧ res.ras.hdr.cols = 1 ∧
      res.mask.hdr.cellsize = 10 ∧ res.mask.hdr.xll = 0 ∧ res.mask.hdr.yll = 0 ∧
      (setUseMaskExt res.ras (some res.mask)).bind (fun x => .ok (x.map (fun q => (q.ras.hdr.cols, q.ras.raster1)))) =
      .ok (some (3, some [-9999, 6, -9999, -9999, 8]))))) = .ok true := by decide +kernel
  obtain ⟨res, e1, e2⟩ := Out.bind_ok e
  simp only [Out.ok.injEq, decide_eq_true_eq] at e2
  obtain ⟨h1, h2, h3, h4, h5, h6, h7, h8, h9, h10, h11⟩ := e2
  refine ⟨res, e1, ?_, ?_, ?_, ?_, h11⟩
  · rw [h1]
    exact .store1 _ _ _ _ _ (by rw [h2]; decide) (by rw [h7]; decide) (by rw [h6, h2, h7]; decide)
  · refine ⟨by rw [h3]; decide +kernel, by rw [h3, h8], -2, 0, ?_, ?_⟩
    · rw [h9, h4, h3]; norm_num
    · rw [h10, h5, h3]; norm_num
  · rw [h1]; rfl
  · rw [h1]; rfl

end CCGL
