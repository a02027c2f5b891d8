import Verif.Lemmas.MaskSubset
import Verif.Props.Mask
import Verif.Props.SubsetData
/-!
# The subsets of the mask after masking (C74)
-/
namespace CCGL
open Raster

/-- No cell centre of the grid has the coordinate −9999, which the library takes for a missing coordinate. -/
def Spec.CoordsPresent (h : Header) : Prop :=
  floatEqual h.cellsize NODATA = false ∧
  (∀ col : Int, 0 ≤ col → col < h.cols → floatEqual (h.xll + col * h.cellsize) NODATA = false) ∧
  (∀ row : Int, 0 ≤ row → row < h.rows → floatEqual (h.yll + ((h.rows - 1 - row : Int) : ℚ) * h.cellsize) NODATA = false)

/-- A mask that stores its valid cells only: its positions are what masking uses. -/
theorem placed_self {r mask : Raster} {ls m ps dr dc} (h : Placed r mask ls m ps dr dc) (hm : Spec.Built mask)
    (hp : mask.posData.isSome = true) (hne : ps ≠ []) : m = mask ∧ ∃ lsM, mask.Compact lsM ps := by
  have hrun := h.pos.run
  have hE : mask.Empty → False := by
    intro hE
    rw [hE.positions] at hrun
    simp only [Out.ok.injEq, Prod.mk.injEq, Option.some.injEq] at hrun
    exact hne hrun.2.2.symm
  rcases hm.inv with ⟨lsM, loc, hi⟩ | ⟨_, hE'⟩
  · cases hi with
    | full hf => rw [hf.pd] at hp; simp at hp
    | comp hc =>
      rw [hc.positions] at hrun
      simp only [Out.ok.injEq, Prod.mk.injEq, Option.some.injEq] at hrun
      obtain ⟨e1, _, e2⟩ := hrun
      subst e1 e2
      exact ⟨rfl, lsM, hc⟩
    | empty hE' _ => exact (hE hE').elim
  · exact (hE hE').elim

/-- The mask's subsets after masking: `f` tells which points of a subset the masked raster's subset has. -/
structure Spec.SubsetsFollow (mask : RasterS) (r' : Raster) (subs' : IMap Subset) (f : List (ℚ × ℚ) → List (ℚ × ℚ)) : Prop where
  new : ∀ k, mask.subs.get k = none → subs'.get k = none
  gone : ∀ k s pts, mask.subs.get k = some s → Spec.SubsetAt mask.ras s pts → Spec.validPts r' pts = [] → subs'.get k = none
  here : ∀ k s pts, mask.subs.get k = some s → Spec.SubsetAt mask.ras s pts → Spec.validPts r' pts ≠ [] →
    ∃ s', subs'.get k = some s' ∧ Spec.SubsetAt r' s' (f pts) ∧ s'.usable = s.usable ∧ s'.nLyrs = r'.nLyrs

theorem subsets_core {r : Raster} {mask : RasterS} (own : IMap Subset) (hm : Spec.Built mask.ras) (hg : Spec.CommonGrid r.hdr mask.ras.hdr)
    (hp : mask.ras.posData.isSome = true) (hco : Spec.CoordsPresent mask.ras.hdr)
    (hne : mask.subs ≠ []) (hs : (mask.subs.map (·.1)).Pairwise (· < ·))
    (hat : ∀ k s, mask.subs.get k = some s → ∃ pts, Spec.SubsetAt mask.ras s pts)
    {res ls m ps dr dc lsM sr sc keep} (h : Placed r mask.ras ls m ps dr dc) (e : maskRaster r mask.ras = .ok res)
    (hvp : res.validPos = ps) (hmk : res.mask = m) (hcode : res.code = 2) (hcm : m.Compact lsM ps)
    (hma : MaskedAt r ls m.hdr ps res.ras sr sc keep) :
    (∃ subs', maskRasterS r own mask = .ok (res, subs') ∧ ((!res.matchExactly && res.updRowCol) = true →
      Spec.SubsetsFollow mask res.ras subs' (Spec.validPts res.ras)) ∧
      ((!res.matchExactly && res.updRowCol) = false → sr = 0 → sc = 0 → res.ras.hdr.rows = m.hdr.rows →
        res.ras.hdr.cols = m.hdr.cols → res.ras.posData = m.posData → Spec.SubsetsFollow mask res.ras subs' id)) := by
  obtain ⟨hself, lsM', hcm'⟩ := placed_self h hm hp hcm.ne
  subst hself
  have hmc : 0 < mask.ras.hdr.cellsize := by rw [hg.2.1]; exact hg.1
  obtain ⟨ls', loc', hinv⟩ := hma.inv
  have hd' : 0 < res.ras.hdr.cellsize := by rw [hma.cs]; exact hmc
  have hco' : 0 < res.ras.hdr.rows → 0 < res.ras.hdr.cols → CoordsOk res.ras.hdr := by
    intro p1 p2
    have q1 := hma.sr0; have q2 := hma.sc0; have q3 := hma.rows; have q4 := hma.cols
    refine ⟨?_, ?_, ?_⟩
    · rw [hma.xll]; exact hco.2.1 sc hma.sc0 (by omega)
    · rw [hma.yll]
      have := hco.2.2 (res.ras.hdr.rows - 1 + sr) (by omega) (by omega)
      rw [show mask.ras.hdr.rows - 1 - (res.ras.hdr.rows - 1 + sr) = mask.ras.hdr.rows - res.ras.hdr.rows - sr by omega] at this
      exact this
    · rw [hma.cs]; exact hco.1
  have hcen : ∀ row col : Int, mask.ras.hdr.grid.center row col = res.ras.hdr.grid.center (row - sr) (col - sc) := by
    intro row col
    rw [center_shift hma.cs hma.xll hma.yll]
    congr 1 <;> omega
  have hone : ∀ s pts, Spec.SubsetAt mask.ras s pts → ∀ recalc,
      ∃ o, maskSub res.ras mask.ras.hdr ps recalc s = .ok o ∧ (Spec.validPts res.ras pts = [] → o = none) ∧
      (Spec.validPts res.ras pts ≠ [] → recalc = false → o = some { s with nLyrs := res.ras.nLyrs }) ∧
      (Spec.validPts res.ras pts ≠ [] → recalc = true → ∃ s', o = some s' ∧ Spec.SubsetAt res.ras s' (Spec.validPts res.ras pts) ∧
        s'.nLyrs = res.ras.nLyrs ∧ s'.usable = s.usable) := by
    intro s pts hsa recalc
    have hcell := hsa.cell
    choose row col g hcell using hcell
    refine maskSub_spec hinv hd' hco' mask.ras.hdr ps s
      (fun j => if hj : j < pts.length then (row j hj - sr, col j hj - sc) else (0, 0)) pts hsa.n ?_ ?_ recalc
    · intro j hj
      obtain ⟨_, h2, _⟩ := hcell j hj
      simp only [dif_pos hj]
      rw [← h2]; exact hcen _ _
    · intro j hj
      obtain ⟨_, h2, h3, h4, h5, h6, _⟩ := hcell j hj
      refine ⟨g j hj, (row j hj, col j hj), h3, ?_, ?_⟩
      · have hpos := (Inv.comp hcm').pos (row j hj) (col j hj)
        unfold compLoc at hpos
        split at hpos
        · next i hi =>
          split at hi
          · next hmem =>
            simp only [Option.some.injEq] at hi
            subst hi
            rw [h6] at hpos
            simp only [Out.ok.injEq] at hpos
            rw [hpos, readAt_some_nat _ _ (List.idxOf_lt_length_of_mem hmem), List.getElem_idxOf]
          · simp at hi
        · rw [h6] at hpos
          simp only [Out.ok.injEq] at hpos
          omega
      · simp only [dif_pos hj]
        exact hcen _ _
  generalize hrec : (!res.matchExactly && res.updRowCol) = recalc
  obtain ⟨subs', es, _, hget⟩ := maskSubs_spec (r := res.ras) (mh := mask.ras.hdr) (vp := ps) (recalc := recalc) mask.subs hs
    (fun k => match mask.subs.get k with
      | some s => (match maskSub res.ras mask.ras.hdr ps recalc s with | .ok o => o | _ => none)
      | none => none)
    (by
      intro e' he'
      have hk := (IMap.mem_iff_get mask.subs hs e'.1 e'.2).1 he'
      obtain ⟨pts, hsa⟩ := hat _ _ hk
      obtain ⟨o, eo, _⟩ := hone e'.2 pts hsa recalc
      rw [hk]
      simp only [eo])
  have hval : ∀ k s pts, mask.subs.get k = some s → Spec.SubsetAt mask.ras s pts → ∃ o,
      subs'.get k = o ∧ (Spec.validPts res.ras pts = [] → o = none) ∧
      (Spec.validPts res.ras pts ≠ [] → recalc = false → o = some { s with nLyrs := res.ras.nLyrs }) ∧
      (Spec.validPts res.ras pts ≠ [] → recalc = true → ∃ s', o = some s' ∧ Spec.SubsetAt res.ras s' (Spec.validPts res.ras pts) ∧
        s'.nLyrs = res.ras.nLyrs ∧ s'.usable = s.usable) := by
    intro k s pts hk hsa
    obtain ⟨o, eo, h1, h2, h3⟩ := hone s pts hsa recalc
    refine ⟨o, ?_, h1, h2, h3⟩
    rw [hget k, hk]
    simp only [Option.isSome_some, if_true, eo]
  have hnew : ∀ k, mask.subs.get k = none → subs'.get k = none := by
    intro k hk
    rw [hget k, hk]; rfl
  refine ⟨subs', ?_, ?_, ?_⟩
  · unfold maskRasterS
    rw [e]
    simp only [Out.ok_bind]
    rw [if_neg (by rw [hcode]; simp [hne]), hmk, hvp, hrec, es]
    rfl
  · intro hr
    refine ⟨hnew, ?_, ?_⟩
    · intro k s pts hk hsa hv
      obtain ⟨o, e1, h1, _, _⟩ := hval k s pts hk hsa
      rw [e1, h1 hv]
    · intro k s pts hk hsa hv
      obtain ⟨o, e1, _, _, h3⟩ := hval k s pts hk hsa
      obtain ⟨s', e2, h4, h5, h6⟩ := h3 hv hr
      exact ⟨s', by rw [e1, e2], h4, h6, h5⟩
  · intro hr z1 z2 hrows hcols hpd
    subst z1 z2
    refine ⟨hnew, ?_, ?_⟩
    · intro k s pts hk hsa hv
      obtain ⟨o, e1, h1, _, _⟩ := hval k s pts hk hsa
      rw [e1, h1 hv]
    · intro k s pts hk hsa hv
      obtain ⟨o, e1, _, h2, _⟩ := hval k s pts hk hsa
      refine ⟨{ s with nLyrs := res.ras.nLyrs }, by rw [e1, h2 hv hr], ?_, rfl, rfl⟩
      -- the storage of the result
      have hcr : ∃ lsR, res.ras.Compact lsR ps := by
        rw [hcm'.pd] at hpd
        cases hinv with
        | full hf => rw [hf.pd] at hpd; simp at hpd
        | comp hc =>
          rw [hc.pd] at hpd
          simp only [Option.some.injEq] at hpd
          subst hpd
          exact ⟨_, hc⟩
        | empty hE _ =>
          rw [hE.pd] at hpd
          simp only [Option.some.injEq] at hpd
          exact absurd hpd.symm hcm'.ne
      obtain ⟨lsR, hcr⟩ := hcr
      simp only [sub_zero] at hcen
      have hin : ∀ row col : Int, mask.ras.hdr.grid.CellInside row col ↔ res.ras.hdr.grid.CellInside row col := by
        intro row col
        unfold Spec.Grid.CellInside
        simp only [Header.grid, hrows, hcols]
      have hcenf : mask.ras.hdr.grid.center = res.ras.hdr.grid.center := by
        funext row col; exact hcen row col
      obtain ⟨n, cell, t, b, l, rr⟩ := hsa
      rw [hcenf] at t b l rr
      refine ⟨n, ?_, t, b, l, rr⟩
      intro j hj
      obtain ⟨row, col, g, a1, a2, a3, a4, a5, a6, a7⟩ := cell j hj
      refine ⟨row, col, g, (hin _ _).1 a1, by rw [← hcen]; exact a2, a3, a4, ?_, ?_, a7⟩
      · rw [hcr.ncells, ← hcm'.ncells]; exact a5
      · have p1 := (Inv.comp hcm').pos row col
        have p2 := (Inv.comp hcr).pos row col
        cases hl : compLoc ps row col with
        | some i =>
          rw [hl] at p1 p2
          simp only at p1 p2
          rw [p2, ← p1]; exact a6
        | none =>
          rw [hl] at p1
          simp only at p1
          rw [a6] at p1
          simp only [Out.ok.injEq] at p1
          omega

/-! ## C74 -/

/-- C74, the extent is cropped: `use_mask_ext` is off, the coinciding valid cells do not reach all borders of the mask and some
valid cell of the mask has no valid cell of the raster. The masked raster gets each subset of the mask that has a valid
point, consisting of its valid points. -/
theorem C74_cropped_partial {r : Raster} {mask : RasterS} (own : IMap Subset) (hr : Spec.ReadGrid r) (hm : Spec.Built mask.ras)
    (hcl : Spec.CleanMask mask.ras) (hg : Spec.CommonGrid r.hdr mask.ras.hdr) (hp : mask.ras.posData.isSome = true)
    (hco : Spec.CoordsPresent mask.ras.hdr) (hne : mask.subs ≠ []) (hs : (mask.subs.map (·.1)).Pairwise (· < ·))
    (hat : ∀ k s, mask.subs.get k = some s → ∃ pts, Spec.SubsetAt mask.ras s pts)
    (hov : ∃ x y, Spec.Matched r mask.ras x y) (hu : r.useMaskExt = false)
    (hb : ¬ Spec.ReachesBorders r mask.ras mask.ras.hdr.grid)
    (hx : ∃ x y, Spec.ValidAt mask.ras x y ∧ ¬ Spec.ValidAt r x y)
    (hc : r.calcPos = true ∨ ¬ Spec.ReachesBorders r mask.ras r.hdr.grid) :
    ∃ res subs', maskRasterS r own mask = .ok (res, subs') ∧ res.code = 2 ∧
      Spec.SubsetsFollow mask res.ras subs' (Spec.validPts res.ras) := by
  obtain ⟨res, ls, m, ps, dr, dc, h, e, hvp, hmk, hcase⟩ := mask_full hr hm.inv hcl hg (fun _ => hov)
    (fun h => by rw [hu] at h; simp at h) (fun _ h => .inr (by
      rcases hc with hc | hc
      · rw [hc] at h; simp at h
      · exact hc))
  rcases hcase with ⟨_, h2⟩ | ⟨hcode, lsM, sr, sc, keep, hcm, hma, _, hme, hup, _⟩
  · obtain ⟨x, y, h3, v, row, col, h5, h6, _⟩ := hov
    exact absurd ⟨row, col, h5, h6⟩ (h2 x y h3)
  · obtain ⟨subs', es, h1, _⟩ := subsets_core own hm hg hp hco hne hs hat h e hvp hmk hcode hcm hma
    refine ⟨res, subs', es, hcode, h1 ?_⟩
    rw [Bool.and_eq_true, Bool.not_eq_true']
    refine ⟨?_, hup.2 ⟨hu, hb⟩⟩
    rw [← Bool.not_eq_true, hme]
    intro hall
    obtain ⟨x, y, h5, h6⟩ := hx
    exact h6 (hall x y h5)

/-- C74, the raster takes over the extent and the positions of the mask: `use_mask_ext` is on or the coinciding valid cells
reach all borders of the mask, and with `calc_pos` every valid cell of the mask lies on a valid cell of the raster. The
masked raster gets each subset of the mask that has a valid point, with all its points. -/
theorem C74_same_partial {r : Raster} {mask : RasterS} (own : IMap Subset) (hr : Spec.ReadGrid r) (hm : Spec.Built mask.ras)
    (hcl : Spec.CleanMask mask.ras) (hg : Spec.CommonGrid r.hdr mask.ras.hdr) (hp : mask.ras.posData.isSome = true)
    (hco : Spec.CoordsPresent mask.ras.hdr) (hne : mask.subs ≠ []) (hs : (mask.subs.map (·.1)).Pairwise (· < ·))
    (hat : ∀ k s, mask.subs.get k = some s → ∃ pts, Spec.SubsetAt mask.ras s pts)
    (hov : ∃ x y, Spec.ValidAt mask.ras x y ∧ if r.useMaskExt = true ∧ r.calcPos = false then Spec.Covers r x y
      else Spec.ValidAt r x y)
    (hu : r.useMaskExt = true ∨ Spec.ReachesBorders r mask.ras mask.ras.hdr.grid)
    (hc : r.calcPos = true → ∀ x y, Spec.ValidAt mask.ras x y → Spec.ValidAt r x y) :
    ∃ res subs', maskRasterS r own mask = .ok (res, subs') ∧ res.code = 2 ∧ Spec.SubsetsFollow mask res.ras subs' id := by
  obtain ⟨x0, y0, hv0, hov⟩ := hov
  obtain ⟨res, ls, m, ps, dr, dc, h, e, hvp, hmk, hcase⟩ := mask_full hr hm.inv hcl hg
    (fun hn => ⟨x0, y0, hv0, by rw [if_neg hn] at hov; exact hov⟩)
    (fun _ h => .inl (hc h)) (fun h _ => .inl (by
      rcases hu with hu | hu
      · rw [hu] at h; simp at h
      · exact hu))
  rcases hcase with ⟨_, h2⟩ | ⟨hcode, lsM, sr, sc, keep, hcm, hma, hext, hme, hup, hpd, -⟩
  · refine absurd ?_ (h2 x0 y0 hv0)
    split at hov
    · exact hov
    · obtain ⟨v, row, col, h5, h6, _⟩ := hov
      exact ⟨row, col, h5, h6⟩
  · obtain ⟨subs', es, _, h1⟩ := subsets_core own hm hg hp hco hne hs hat h e hvp hmk hcode hcm hma
    obtain ⟨z1, z2, z3, z4⟩ := hext hu
    refine ⟨res, subs', es, hcode, h1 ?_ z1 z2 z3 z4 (hpd hu hc)⟩
    rw [Bool.and_eq_false_iff]
    right
    rw [← Bool.not_eq_true, hup]
    rintro ⟨h3, h4⟩
    rcases hu with hu | hu
    · rw [hu] at h3; simp at h3
    · exact h4 hu

/-! ### The hypotheses hold for subsets made by `BuildSubSet` -/

theorem Raster.SubOk.subsetAt {r : Raster} {ls ps} (h : r.Compact ls ps) {g : List Nat} {s : Subset} (ho : SubOk ps g s)
    (hg : ∀ i ∈ g, i < ps.length) : Spec.SubsetAt r s (g.map (fun i => r.hdr.grid.center (posAt ps i).1 (posAt ps i).2)) := by
  obtain ⟨t0, ⟨i1, m1, q1⟩, ⟨i2, m2, q2⟩, ⟨i3, m3, q3⟩, ⟨i4, m4, q4⟩⟩ := ho.tight
  refine ⟨by rw [ho.n]; simp, ?_, ⟨(posAt ps i1).2, ?_⟩, ⟨(posAt ps i2).2, ?_⟩, ⟨(posAt ps i3).1, ?_⟩, ⟨(posAt ps i4).1, ?_⟩⟩
  · intro j hj
    have hj' : j < g.length := by simpa using hj
    have hm : g[j] ∈ g := List.getElem_mem hj'
    have hlt := hg _ hm
    have hp : posAt ps g[j] = ps[g[j]] := List.getD_eq_getElem _ _ hlt
    have hloc : compLoc ps (posAt ps g[j]).1 (posAt ps g[j]).2 = some g[j] := by
      unfold compLoc
      rw [hp, if_pos (List.getElem_mem hlt)]
      exact congrArg some (h.idxOf _ hlt)
    have hpos := (Inv.comp h).pos (posAt ps g[j]).1 (posAt ps g[j]).2
    rw [hloc] at hpos
    have hin := ((Inv.comp h).inside hloc).1
    refine ⟨(posAt ps g[j]).1, (posAt ps g[j]).2, (g[j] : Int), hin, by simp, ?_, by omega, ?_, hpos, ?_, ?_, t0 _ hm⟩
    · rw [ho.glob, readAt_some_nat _ j (by simpa using hj')]; simp
    · rw [h.ncells]; omega
    · rw [ho.lpos, readAt_some_nat _ j (by simpa using hj')]; simp
    · rw [ho.lidx, readAt_some_nat _ j (by simpa using hj')]; simp
  · rw [← q1]; exact List.mem_map.2 ⟨i1, m1, rfl⟩
  · rw [← q2]; exact List.mem_map.2 ⟨i2, m2, rfl⟩
  · rw [← q3]; exact List.mem_map.2 ⟨i3, m3, rfl⟩
  · rw [← q4]; exact List.mem_map.2 ⟨i4, m4, rfl⟩

theorem Raster.Compact.clean_of {r : Raster} {ls ps} (h : r.Compact ls ps)
    (hv : ∀ rc ∈ ps, ∃ v, r.getValue rc.1 rc.2 1 = .ok v ∧ floatEqual v r.noData = false) : Spec.CleanMask r := by
  right
  intro row col hst
  rw [(Inv.comp h).stored] at hst
  obtain ⟨m, hm⟩ := hst
  unfold compLoc at hm
  split at hm
  · next hmem => exact hv (row, col) hmem
  · simp at hm

/-- C74: what `BuildSubSet` leaves can be used as a mask: the object is an initialised raster storing its valid cells only, the
subsets are stored in the order of their numbers, each one consists of the points of its cells (`C13_partition` tells which),
and the stored cells are valid if they were before. -/
theorem C74_built {r : Raster} (hb : Spec.Built r) (groups : IMap Int) {rs' b}
    (e : buildSubSet ⟨r, []⟩ groups = .ok (rs', b)) :
    Spec.Built rs'.ras ∧ rs'.ras.posData.isSome = true ∧ (rs'.subs.map (·.1)).Pairwise (· < ·) ∧
    (Spec.CleanMask r → rs'.subs ≠ [] → Spec.CleanMask rs'.ras) ∧
    ∀ k s, rs'.subs.get k = some s → ∃ pts, Spec.SubsetAt rs'.ras s pts ∧
      ∀ p, p ∈ pts ↔ ∃ row col, Spec.InSubset s row col ∧ rs'.ras.hdr.grid.center row col = p := by
  obtain ⟨rs1, b1, e1, hb1, _, _, _, _, _, _, _, hv2, hcase⟩ := build_spec hb groups
  rw [e] at e1
  injection e1 with e1
  injection e1 with ea eb
  subst ea eb
  refine ⟨hb1, ?_, ?_, ?_, ?_⟩
  · rcases hcase with ⟨_, ls, ps, hC, _⟩ | ⟨_, hE⟩
    · rw [hC.pd]; rfl
    · rw [hE.pd]; rfl
  · rcases hcase with ⟨_, ls, ps, hC, hok⟩ | ⟨hn, _⟩
    · exact hok.sorted
    · rw [hn]; simp
  · intro hcl hne
    obtain ⟨lsC, psC, hCC, hokC⟩ : ∃ ls ps, rs'.ras.Compact ls ps ∧ SubsOk rs'.ras ls ps groups rs'.subs := by
      rcases hcase with ⟨_, h⟩ | ⟨hn, _⟩
      · exact h
      · exact absurd hn hne
    have hE0 : r.Empty → False := by
      intro hE
      obtain ⟨x, hx⟩ := List.exists_mem_of_ne_nil _ hne
      have hk := (IMap.mem_iff_get _ hokC.sorted x.1 x.2).1 hx
      obtain ⟨ho, _⟩ := hokC.some _ _ hk
      obtain ⟨i, hi⟩ := List.exists_mem_of_ne_nil _ ho.ne
      have hm := List.mem_filter.1 hi
      have hlt := List.mem_range.1 hm.1
      have hs := hm.2
      unfold selOf at hs
      simp only [Bool.and_eq_true, Bool.not_eq_true'] at hs
      have hv := hv2 (posAt psC i).1 (posAt psC i).2 _ ⟨compact_cell hCC i hlt 0 le_rfl (by have := hCC.holds.1; omega), hs.1⟩
      obtain ⟨h1, h2⟩ := hv
      rw [hE.getValue] at h1
      simp only [Out.ok.injEq] at h1
      rw [← h1, floatEqual_self] at h2
      simp at h2
    rcases hb.inv with ⟨ls, loc, hi⟩ | ⟨_, hE⟩
    · cases hi with
      | full h =>
        have hk : ∃ r', ({ r with calcPos := true } : Raster).calcValidPositions = .ok r' ∧ rs'.ras = r' := by
          obtain ⟨r', ec, _⟩ := (h.setCalc true).calc
          refine ⟨r', ec, ?_⟩
          unfold buildSubSet at e
          have hset : r.setCalcPositions = .ok (r', true) := by
            unfold setCalcPositions
            simp only [h.holds.valid, h.pd, h.pi, Bool.not_true, Bool.false_eq_true, if_false, Option.isSome_none, Bool.or_self,
              Bool.and_false]
            unfold calcNoMask
            simp only [if_true, Option.isNone_none, Bool.true_or]
            rw [show ({ r with calcPos := true, posData := none, posIdx := none } : Raster) = { r with calcPos := true } by
              have h1 := h.pd
              have h2 := h.pi
              cases r
              simp only at h1 h2
              subst h1 h2
              rfl]
            rw [ec]
            rfl
          simp only [h.holds.valid, h.pd, Option.isNone_none, Bool.true_or, Bool.not_true, Bool.false_eq_true, if_false, if_true,
            hset, Out.ok_bind, ne_eq, not_true_eq_false] at e
          obtain ⟨m, _, e⟩ := Out.bind_ok e
          obtain ⟨subs, _, e⟩ := Out.bind_ok e
          simp only [Out.pure_eq, Out.ok.injEq, Prod.mk.injEq] at e
          rw [← e.1]
        obtain ⟨r', ec, er⟩ := hk
        obtain ⟨r1, ec1, hh, hnd, hny, _, _, _, _, hC⟩ := (h.setCalc true).calc
        rw [ec] at ec1
        injection ec1 with ec1
        subst ec1
        rw [er]
        rcases hC with ⟨_, hE⟩ | hC
        · rw [er] at hCC
          have h1 := hCC.ncells
          rw [hE.ncells] at h1
          exact absurd (List.length_eq_zero_iff.1 (by omega)) hCC.ne
        · refine hC.clean_of ?_
          intro rc hrc
          obtain ⟨j, hj, rfl⟩ := List.getElem_of_mem hrc
          obtain ⟨_, hg⟩ := hC.getValue_hit _ _ 1 j hj rfl ⟨le_rfl, hC.holds.1⟩
          refine ⟨_, hg, ?_⟩
          have hv := (List.mem_filter.1 hrc).2
          rw [hnd]
          simp only [Bool.not_eq_true'] at hv
          simp only [List.getElem_map]
          revert hv
          generalize ls.getD _ [] = l
          intro hv
          cases l <;> exact hv
      | comp h =>
        have : rs'.ras = r := by
          unfold buildSubSet at e
          simp only [h.holds.valid, h.pd, h.pi, Option.isNone_some, Bool.or_self, Bool.not_true, Bool.false_eq_true, if_false,
            Out.ok_bind, ne_eq, not_true_eq_false] at e
          obtain ⟨m, _, e⟩ := Out.bind_ok e
          obtain ⟨subs, _, e⟩ := Out.bind_ok e
          simp only [Out.pure_eq, Out.ok.injEq, Prod.mk.injEq] at e
          rw [← e.1]
        rw [this]; exact hcl
      | empty hE h1 => exact (hE0 hE).elim
    · exact (hE0 hE).elim
  · intro k s hk
    rcases hcase with ⟨_, ls, ps, hC, hok⟩ | ⟨hn, _⟩
    · obtain ⟨ho, _⟩ := hok.some k s hk
      refine ⟨_, SubOk.subsetAt hC ho (fun i hi => List.mem_range.1 (List.mem_filter.1 hi).1), ?_⟩
      intro p
      rw [List.mem_map]
      constructor
      · rintro ⟨i, hi, rfl⟩
        exact ⟨_, _, (ho.in_iff _ _).2 ⟨i, hi, rfl⟩, rfl⟩
      · rintro ⟨row, col, hin, rfl⟩
        obtain ⟨i, hi, hp⟩ := (ho.in_iff _ _).1 hin
        exact ⟨i, hi, by rw [hp]⟩
    · rw [hn] at hk; simp [IMap.get_nil] at hk

/-! ### Concrete cases -/

/-- A raster of 2x2 cells under the right part of `exMask`, one cell NoData. -/
def exRasS (calcPos useExt : Bool) : Raster := exRasM calcPos useExt ⟨2, 2, 1, 1, 0, -9999, 1, -1⟩ [5, -9999, 7, 8]

theorem exSubs_ras : exSubs.1.ras.hdr = ⟨2, 3, 1, 0, 0, -9999, 1, 5⟩ ∧ exSubs.1.ras.noData = -9999 := by decide +kernel

/-- Non-vacuity: the hypotheses of `C74_cropped_partial` (and those shared with `C74_same_partial`) for the subsets of `exMask`. -/
example : Spec.ReadGrid (exRasS true false) ∧ Spec.Built exSubs.1.ras ∧ Spec.CleanMask exSubs.1.ras ∧
    Spec.CommonGrid (exRasS true false).hdr exSubs.1.ras.hdr ∧ exSubs.1.ras.posData.isSome = true ∧
    Spec.CoordsPresent exSubs.1.ras.hdr ∧ exSubs.1.subs ≠ [] ∧ (exSubs.1.subs.map (·.1)).Pairwise (· < ·) ∧
    (∀ k s, exSubs.1.subs.get k = some s → ∃ pts, Spec.SubsetAt exSubs.1.ras s pts) ∧
    (∃ x y, Spec.Matched (exRasS true false) exSubs.1.ras x y) ∧
    ¬ Spec.ReachesBorders (exRasS true false) exSubs.1.ras exSubs.1.ras.hdr.grid ∧
    (∃ x y, Spec.ValidAt exSubs.1.ras x y ∧ ¬ Spec.ValidAt (exRasS true false) x y) := by
  obtain ⟨h1, h2, h3, h4, h5⟩ := C74_built exMask_built [(3, 1)] exSubs_eq
  have hne : exSubs.1.subs ≠ [] := by decide +kernel
  have hnot : ∀ row : Int, ¬ Spec.ValidAt (exRasS true false) (exSubs.1.ras.hdr.grid.center row 0).1
      (exSubs.1.ras.hdr.grid.center row 0).2 := by
    rintro row ⟨v, row', col', hin, hc, _⟩
    have hx := congrArg Prod.fst hc
    rw [exSubs_ras.1] at hx
    have hh : (exRasS true false).hdr = ⟨2, 2, 1, 1, 0, -9999, 1, -1⟩ := rfl
    rw [hh] at hx
    simp only [Spec.Grid.center, Header.grid, Spec.Grid.left] at hx
    have hc0 : (0 : ℚ) ≤ col' := by exact_mod_cast hin.2.2.1
    norm_num at hx
    linarith
  refine ⟨.file _ _ _ _ _ (by decide) (by decide) (by decide), h1, h4 (.inl rfl) hne, ⟨by decide +kernel, ?_, -1, 0, ?_, ?_⟩, h2,
    ⟨?_, ?_, ?_⟩, hne, h3, ?_, ⟨1, 1, ⟨1, 0, 1, ?_, ?_, ?_, ?_⟩, ⟨5, 0, 0, ?_, ?_, ?_, ?_⟩⟩, ?_, ⟨0, 1, ⟨1, 0, 0, ?_, ?_, ?_, ?_⟩, ?_⟩⟩
  · decide +kernel
  · decide +kernel
  · decide +kernel
  · decide +kernel
  · rw [exSubs_ras.1]
    intro col c0 c1
    simp only at c1
    interval_cases col <;> decide +kernel
  · rw [exSubs_ras.1]
    intro row r0 r1
    simp only at r1
    interval_cases row <;> decide +kernel
  · intro k s hk
    obtain ⟨pts, hp, _⟩ := h5 k s hk
    exact ⟨pts, hp⟩
  · decide +kernel
  · decide +kernel
  · decide +kernel
  · decide +kernel
  · decide +kernel
  · decide +kernel
  · decide +kernel
  · decide +kernel
  · rintro ⟨_, _, ⟨row, _, hv⟩, _⟩
    exact hnot row hv
  · decide +kernel
  · decide +kernel
  · decide +kernel
  · decide +kernel
  · have := hnot 0
    have e : exSubs.1.ras.hdr.grid.center 0 0 = (0, 1) := by decide +kernel
    rw [e] at this
    exact this

/-- What comes out: subset 1 keeps the cells with the values 5 and 8, subset 2 the cell with the value 7. -/
example : ((exRasS true false).maskRasterS [] exSubs.1).bind (fun x => .ok (x.1.ras.raster1,
    x.2.map (fun e => (e.1, e.2.glob.getD [], e.2.localIdx.getD [])))) =
    .ok (some [5, 7, 8], [(1, [0, 2], [0, 3]), (2, [1], [0])]) := by decide +kernel

/-- Non-vacuity of the further hypotheses of `C74_same_partial`: with `use_mask_ext` and without `calc_pos`. -/
example : (∃ x y, Spec.ValidAt exSubs.1.ras x y ∧ if (exRasS false true).useMaskExt = true ∧ (exRasS false true).calcPos = false
      then Spec.Covers (exRasS false true) x y else Spec.ValidAt (exRasS false true) x y) ∧
    ((exRasS false true).useMaskExt = true ∨ Spec.ReachesBorders (exRasS false true) exSubs.1.ras exSubs.1.ras.hdr.grid) ∧
    ((exRasS false true).calcPos = true → ∀ x y, Spec.ValidAt exSubs.1.ras x y → Spec.ValidAt (exRasS false true) x y) ∧
    ((exRasS false true).maskRasterS [] exSubs.1).bind (fun x => .ok (x.1.ras.raster1,
      x.2.map (fun e => (e.1, e.2.glob.getD [])))) =
      .ok (some [-9999, 5, -9999, 7, 8], [(1, [0, 1, 4]), (2, [2, 3])]) := by
  refine ⟨⟨1, 1, ⟨1, 0, 1, by decide +kernel, by decide +kernel, by decide +kernel, by decide +kernel⟩, ?_⟩, .inl rfl,
    fun h => ?_, by decide +kernel⟩
  · rw [if_pos ⟨rfl, rfl⟩]
    exact ⟨0, 0, by decide +kernel, by decide +kernel⟩
  · exact absurd h (by decide)

/-! ### False cases -/

/-- A mask with its subsets (for the concrete cases). -/
def exBuilt (m : Raster) : RasterS := match buildSubSet ⟨m, []⟩ [] with
  | .ok x => x.1
  | _ => ⟨m, []⟩

/-- C74 is false if positions are recalculated without cropping (`use_mask_ext` and `calc_pos`, a valid cell of the mask without
a valid cell of the raster): the subsets keep the storage indexes of the mask. Here the masked raster stores two cells, and
the only cell of subset 2 still has the index 2. -/
theorem C74_false_positions : ∃ (r : Raster) (m : Raster) (mask : RasterS) (b : Bool), Spec.ReadGrid r ∧ Spec.Built m ∧
    m.posData = none ∧ buildSubSet ⟨m, []⟩ [] = .ok (mask, b) ∧ Spec.CommonGrid r.hdr mask.ras.hdr ∧
    r.useMaskExt = true ∧ r.calcPos = true ∧
    (maskRasterS r [] mask).bind (fun x => .ok (x.1.ras.nCells, x.2.map (fun e => (e.1, e.2.glob.getD [])))) =
      .ok (2, [(1, [0, 1]), (2, [2])]) := by
  refine ⟨exRasM true true ⟨1, 3, 1, 0, 0, -9999, 1, -1⟩ [5, -9999, 7], ofArray1 (some [1, 1, 2]) 3 1 (-9999) 1 0 0,
    exBuilt (ofArray1 (some [1, 1, 2]) 3 1 (-9999) 1 0 0), true,
    .file _ _ _ _ _ (by decide) (by decide) (by decide), .grid1 [1, 1, 2] 1 3 (-9999) 1 0 0 (by decide), rfl, by decide +kernel,
    ⟨by decide +kernel, by decide +kernel, 0, 0, by decide +kernel, by decide +kernel⟩, rfl, rfl, by decide +kernel⟩

/-- C74 is false if the extent is cropped although every valid cell of the mask lies on a valid cell of the raster: the subsets
are not recomputed. Here the masked raster has 2x2 cells, all of them stored (`calc_pos` is off): its value at the cell
(1, 1) is stored at index 3, but the subset still has the index 1 (a NoData cell) and its columns are still 1 to 2. -/
theorem C74_false_exact : ∃ (r : Raster) (m : Raster) (mask : RasterS) (b : Bool), Spec.ReadGrid r ∧ Spec.Built m ∧
    m.posData = none ∧ buildSubSet ⟨m, []⟩ [] = .ok (mask, b) ∧ Spec.CommonGrid r.hdr mask.ras.hdr ∧
    r.useMaskExt = false ∧ r.calcPos = false ∧
    (maskRasterS r [] mask).bind (fun x => .ok (x.1.ras.raster1.getD [], x.1.ras.hdr.cols,
      x.2.map (fun e => (e.2.glob.getD [], e.2.scol, e.2.ecol)))) =
      .ok ([5, -9999, -9999, 9], 2, [([0, 1], 1, 2)]) := by
  refine ⟨exRasM false false ⟨2, 3, 1, 0, 0, -9999, 1, -1⟩ [4, 5, 6, 7, 8, 9],
    ofArray1 (some [-9999, 1, -9999, -9999, -9999, 1]) 3 2 (-9999) 1 0 0,
    exBuilt (ofArray1 (some [-9999, 1, -9999, -9999, -9999, 1]) 3 2 (-9999) 1 0 0), true,
    .file _ _ _ _ _ (by decide) (by decide) (by decide),
    .grid1 [-9999, 1, -9999, -9999, -9999, 1] 2 3 (-9999) 1 0 0 (by decide), rfl, by decide +kernel,
    ⟨by decide +kernel, by decide +kernel, 0, 0, by decide +kernel, by decide +kernel⟩, rfl, rfl, by decide +kernel⟩

end CCGL
