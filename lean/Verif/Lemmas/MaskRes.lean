import Verif.Lemmas.MaskFin
/-!
# Lemmas about masking: the call as a whole
-/
namespace CCGL
namespace Raster

/-- The raster cell under a mask cell is a constant shift away, or outside. -/
def ShiftBy (h mh : Header) (dr dc : Int) : Prop :=
  ∀ rc : Int × Int, under h mh rc = if In h (rc.1 + dr, rc.2 + dc) then (rc.1 + dr, rc.2 + dc) else (-1, -1)

theorem ShiftBy.inside {h mh : Header} {dr dc} (hs : ShiftBy h mh dr dc) (rc : Int × Int) :
    insideB h mh rc = true ↔ In h (rc.1 + dr, rc.2 + dc) := by
  unfold insideB
  rw [hs rc]
  by_cases hin : In h (rc.1 + dr, rc.2 + dc)
  · rw [if_pos hin]
    have h1 := hin.1
    have h2 := hin.2.2.1
    simp only [hin, iff_true, Bool.not_eq_true', decide_eq_false_iff_not]
    omega
  · rw [if_neg hin]; simp [hin]

theorem ShiftBy.under {h mh : Header} {dr dc} (hs : ShiftBy h mh dr dc) (rc : Int × Int) (hi : insideB h mh rc = true) :
    under h mh rc = (rc.1 + dr, rc.2 + dc) := by
  rw [hs rc, if_pos ((hs.inside rc).1 hi)]

theorem matched_inside {r : Raster} {ls mh rc} (h : matchedB r ls mh rc = true) : insideB r.hdr mh rc = true := by
  unfold matchedB at h
  simp only [Bool.and_eq_true] at h
  exact h.1

theorem matched_head {r : Raster} {ls mh rc} (hl : 1 ≤ r.nLyrs) (h : matchedB r ls mh rc = true) :
    floatEqual ((maskVals r ls mh rc).headD 0) r.noData = false := by
  have hi := matched_inside h
  unfold matchedB at h
  simp only [Bool.and_eq_true, Bool.not_eq_true'] at h
  unfold maskVals takeVals
  rw [if_pos hi]
  obtain ⟨n, hn⟩ : ∃ n, r.nLyrs.toNat = n + 1 := ⟨r.nLyrs.toNat - 1, by omega⟩
  rw [hn, List.range_succ_eq_map, List.map_cons]
  simp only [List.headD_cons]
  unfold fillV
  rw [h.2]
  simpa using h.2

/-- Bounds of the extent of the matched cells. -/
structure BoxOk (mh : Header) (ps : List (Int × Int)) (f : Int × Int → Bool) (a : MaskAcc) : Prop where
  r0 : 0 ≤ a.minRow
  r1 : a.minRow ≤ a.maxRow
  r2 : a.maxRow < mh.rows
  c0 : 0 ≤ a.minCol
  c1 : a.minCol ≤ a.maxCol
  c2 : a.maxCol < mh.cols
  all : ∀ rc ∈ ps, f rc = true → a.minRow ≤ rc.1 ∧ rc.1 ≤ a.maxRow ∧ a.minCol ≤ rc.2 ∧ rc.2 ≤ a.maxCol
  top : ∃ rc ∈ ps, f rc = true ∧ rc.1 = a.minRow
  bot : ∃ rc ∈ ps, f rc = true ∧ rc.1 = a.maxRow
  lef : ∃ rc ∈ ps, f rc = true ∧ rc.2 = a.minCol
  rig : ∃ rc ∈ ps, f rc = true ∧ rc.2 = a.maxCol

theorem BoxInv.ok {mh ps f a} (h : BoxInv mh ps f a) (hin : ∀ rc ∈ ps, In mh rc) (hov : ∃ rc ∈ ps, f rc = true) :
    BoxOk mh ps f a := by
  obtain ⟨x, hx, hf⟩ := hov
  have hix := hin x hx
  have top : ∃ rc ∈ ps, f rc = true ∧ rc.1 = a.minRow := by
    rcases h.minRow.2 with h1 | h1
    · have := h.minRow.1 x hx hf
      have := hix.2.1
      omega
    · exact h1
  have bot : ∃ rc ∈ ps, f rc = true ∧ rc.1 = a.maxRow := by
    rcases h.maxRow.2 with h1 | h1
    · have := h.maxRow.1 x hx hf
      have := hix.1
      omega
    · exact h1
  have lef : ∃ rc ∈ ps, f rc = true ∧ rc.2 = a.minCol := by
    rcases h.minCol.2 with h1 | h1
    · have := h.minCol.1 x hx hf
      have := hix.2.2.2
      omega
    · exact h1
  have rig : ∃ rc ∈ ps, f rc = true ∧ rc.2 = a.maxCol := by
    rcases h.maxCol.2 with h1 | h1
    · have := h.maxCol.1 x hx hf
      have := hix.2.2.1
      omega
    · exact h1
  refine ⟨?_, ?_, ?_, ?_, ?_, ?_, fun rc h1 h2 => ⟨h.minRow.1 rc h1 h2, h.maxRow.1 rc h1 h2, h.minCol.1 rc h1 h2,
    h.maxCol.1 rc h1 h2⟩, top, bot, lef, rig⟩
  · obtain ⟨y, hy, _, e⟩ := top; rw [← e]; exact (hin y hy).1
  · exact (h.minRow.1 x hx hf).trans (h.maxRow.1 x hx hf)
  · obtain ⟨y, hy, _, e⟩ := bot; rw [← e]; exact (hin y hy).2.1
  · obtain ⟨y, hy, _, e⟩ := lef; rw [← e]; exact (hin y hy).2.2.1
  · exact (h.minCol.1 x hx hf).trans (h.maxCol.1 x hx hf)
  · obtain ⟨y, hy, _, e⟩ := rig; rw [← e]; exact (hin y hy).2.2.2

/-- The extent of the matched cells covers the mask iff they touch its four borders. -/
def TouchAll (rows cols : Int) (ps : List (Int × Int)) (f : Int × Int → Bool) (dr dc : Int) : Prop :=
  (∃ rc ∈ ps, f rc = true ∧ rc.1 + dr = 0) ∧ (∃ rc ∈ ps, f rc = true ∧ rc.1 + dr = rows - 1) ∧
  (∃ rc ∈ ps, f rc = true ∧ rc.2 + dc = 0) ∧ (∃ rc ∈ ps, f rc = true ∧ rc.2 + dc = cols - 1)

theorem within_overlap {mh ps f a} (h : BoxInv mh ps f a) (hin : ∀ rc ∈ ps, In mh rc) (hne : ps ≠ [])
    (hw : a.maxRow - a.minRow + 1 = mh.rows) : ∃ rc ∈ ps, f rc = true := by
  rcases h.maxRow.2 with h1 | ⟨rc, h1, h2, _⟩
  · rcases h.minRow.2 with h2 | ⟨rc, h3, h4, _⟩
    · obtain ⟨x, hx⟩ := List.exists_mem_of_ne_nil _ hne
      have := hin x hx
      have := this.1.trans_lt this.2.1
      omega
    · exact ⟨rc, h3, h4⟩
  · exact ⟨rc, h1, h2⟩

theorem filter_true_all {α : Type} (l : List α) : l.filter (fun _ => true) = l := by
  rw [List.filter_eq_self]; intros; rfl

/-- After the loop: the conditions under which the result is right, and the result. -/
theorem maskFinish_spec {r0 : Raster} {ls0} {m : Raster} {lsM ps} {a : MaskAcc} (hg0 : r0.Grid ls0)
    (hm : m.Compact lsM ps) (h : LoopInv r0 ls0 m.hdr ps a) {dr dc : Int} (hs : ShiftBy r0.hdr m.hdr dr dc)
    (hov : ¬ (r0.useMaskExt = true ∧ r0.calcPos = false) → ∃ rc ∈ ps, matchedB r0 ls0 m.hdr rc = true)
    (hb1 : r0.useMaskExt = true → r0.calcPos = true → (∀ rc ∈ ps, matchedB r0 ls0 m.hdr rc = true) ∨
      ((∃ rc ∈ ps, matchedB r0 ls0 m.hdr rc = true ∧ rc.1 = 0) ∧ ∃ rc ∈ ps, matchedB r0 ls0 m.hdr rc = true ∧ rc.2 = 0))
    (hb2 : r0.useMaskExt = false → r0.calcPos = false →
      TouchAll m.hdr.rows m.hdr.cols ps (matchedB r0 ls0 m.hdr) 0 0 ∨
      ¬ TouchAll r0.hdr.rows r0.hdr.cols ps (matchedB r0 ls0 m.hdr) dr dc) :
    ∃ res sr sc keep, maskFinish r0 m ps a = .ok res ∧ res.code = 2 ∧ res.mask = m ∧ res.validPos = ps ∧
      MaskedAt r0 ls0 m.hdr ps res.ras sr sc keep ∧
      ((r0.useMaskExt = true ∨ TouchAll m.hdr.rows m.hdr.cols ps (matchedB r0 ls0 m.hdr) 0 0) →
        sr = 0 ∧ sc = 0 ∧ res.ras.hdr.rows = m.hdr.rows ∧ res.ras.hdr.cols = m.hdr.cols) ∧
      (r0.calcPos = false → r0.useMaskExt = true → ∀ rc, keep rc = true) := by
  have hne := hm.ne
  have hins : ∀ rc ∈ ps, In m.hdr rc := hm.inside
  obtain ⟨d1, d2, hshape⟩ := h.shape
  obtain ⟨lsG, hgG, _, _⟩ := h.grid
  have q9 := hgG.holds.valid
  -- the decision variables
  have hmatch : decide (a.matched = (ps.length : Int)) = true ↔ ∀ rc ∈ ps, matchedB r0 ls0 m.hdr rc = true := by
    rw [decide_eq_true_eq, h.matched]
    constructor
    · intro he rc hrc
      have : (ps.filter (matchedB r0 ls0 m.hdr)).length = ps.length := by omega
      rw [List.length_filter_eq_length_iff] at this
      exact this rc hrc
    · intro hall
      rw [List.filter_eq_self.2 hall]
  have hwithin : (decide (a.maxRow - a.minRow + 1 = m.hdr.rows) && decide (a.maxCol - a.minCol + 1 = m.hdr.cols)) = true ↔
      TouchAll m.hdr.rows m.hdr.cols ps (matchedB r0 ls0 m.hdr) 0 0 := by
    rw [Bool.and_eq_true, decide_eq_true_eq, decide_eq_true_eq]
    constructor
    · rintro ⟨w1, w2⟩
      have hb := h.box.ok hins (within_overlap h.box hins hne w1)
      have b1 := hb.r0; have b2 := hb.r2; have b3 := hb.c0; have b4 := hb.c2
      obtain ⟨x1, y1, z1, e1⟩ := hb.top
      obtain ⟨x2, y2, z2, e2⟩ := hb.bot
      obtain ⟨x3, y3, z3, e3⟩ := hb.lef
      obtain ⟨x4, y4, z4, e4⟩ := hb.rig
      exact ⟨⟨x1, y1, z1, by omega⟩, ⟨x2, y2, z2, by omega⟩, ⟨x3, y3, z3, by omega⟩, ⟨x4, y4, z4, by omega⟩⟩
    · rintro ⟨⟨x1, y1, z1, e1⟩, ⟨x2, y2, z2, e2⟩, ⟨x3, y3, z3, e3⟩, ⟨x4, y4, z4, e4⟩⟩
      have hb := h.box.ok hins ⟨x1, y1, z1⟩
      have b1 := hb.r0; have b2 := hb.r2; have b3 := hb.c0; have b4 := hb.c2
      have c1 := hb.all x1 y1 z1
      have c2 := hb.all x2 y2 z2
      have c3 := hb.all x3 y3 z3
      have c4 := hb.all x4 y4 z4
      omega
  -- the assertion holds
  have hassert : TouchAll m.hdr.rows m.hdr.cols ps (matchedB r0 ls0 m.hdr) 0 0 → a.masked = (ps.length : Int) := by
    rintro ⟨⟨x1, y1, z1, e1⟩, ⟨x2, y2, z2, e2⟩, ⟨x3, y3, z3, e3⟩, ⟨x4, y4, z4, e4⟩⟩
    rw [h.masked]
    congr 2
    rw [List.filter_eq_self]
    intro rc hrc
    rw [hs.inside]
    have i1 := (hs.inside x1).1 (matched_inside z1)
    have i2 := (hs.inside x2).1 (matched_inside z2)
    have i3 := (hs.inside x3).1 (matched_inside z3)
    have i4 := (hs.inside x4).1 (matched_inside z4)
    have i5 := hins rc hrc
    unfold In at i1 i2 i3 i4 i5 ⊢
    simp only at i1 i2 i3 i4 i5 ⊢
    omega
  have hnotassert : ((decide (a.maxRow - a.minRow + 1 = m.hdr.rows) && decide (a.maxCol - a.minCol + 1 = m.hdr.cols)) &&
      decide (a.masked ≠ (ps.length : Int))) = false := by
    by_cases hw : TouchAll m.hdr.rows m.hdr.cols ps (matchedB r0 ls0 m.hdr) 0 0
    · rw [hassert hw]; simp
    · rw [← hwithin, Bool.not_eq_true] at hw
      rw [hw]; rfl
  -- values kept under a filter on position and values
  have hcellsmap : ∀ (k : Int × Int → List ℚ → Bool),
      a.cells.filter (fun c => k c.1 c.2) = (ps.filter (fun rc => k rc (maskVals r0 ls0 m.hdr rc))).map
        (fun rc => (rc, maskVals r0 ls0 m.hdr rc)) := by
    intro k
    rw [h.cells, List.filter_map]
    rfl
  have hlyr := hg0.holds.1
  unfold maskFinish
  dsimp only
  generalize hras : a.ras = ras at hshape q9 ⊢
  subst hshape
  dsimp only
  have hpos0 : ((r0.posData.isSome || r0.posIdx.isSome) && !r0.storePos) = false := by rw [hg0.pd, hg0.pi]; rfl
  rw [hnotassert, if_neg (by simp), hpos0, if_neg (by simp), q9, if_neg (by simp)]
  -- case A: positions of the mask
  have caseA : ∀ (cn : Int) (k : Bool), let r1 : Raster := { r0 with
        raster1 := d1, raster2 := d2, hdr := { m.hdr with noData := r0.noData, layers := r0.nLyrs, cellsnum := cn }, calcPos := true,
        nCells := m.nCells, storePos := false, posData := m.posData, posIdx := m.posIdx }
      ∃ res sr sc keep, (Out.ok ⟨r1.withCells (a.cells.map (·.2)), m, 2, true, ps, k, false⟩ : Out MaskRes) = .ok res ∧
        res.code = 2 ∧ res.mask = m ∧ res.validPos = ps ∧ MaskedAt r0 ls0 m.hdr ps res.ras sr sc keep ∧
        ((r0.useMaskExt = true ∨ TouchAll m.hdr.rows m.hdr.cols ps (matchedB r0 ls0 m.hdr) 0 0) →
          sr = 0 ∧ sc = 0 ∧ res.ras.hdr.rows = m.hdr.rows ∧ res.ras.hdr.cols = m.hdr.cols) ∧
        (r0.calcPos = false → r0.useMaskExt = true → ∀ rc, keep rc = true) := by
    intro cn k
    dsimp only
    have hmp := masked_compact hg0 hm
      { r0 with
        raster1 := d1, raster2 := d2, hdr := { m.hdr with noData := r0.noData, layers := r0.nLyrs, cellsnum := cn }, calcPos := true,
        nCells := m.nCells, storePos := false, posData := m.posData, posIdx := m.posIdx } 0 0 (fun _ => true)
      rfl (by simp) (by simp) le_rfl le_rfl (by simp) (by simp) rfl rfl rfl (fun _ _ _ => rfl)
      (by intro rc hrc _; simpa [In] using hins rc hrc)
      (by rw [filter_true_all]; exact hne) rfl (by rw [filter_true_all]; exact hm.ncells)
      (by rw [filter_true_all]; simp [hm.pd])
      (by rw [filter_true_all]; simp [hm.pi, Function.comp_def])
    rw [filter_true_all] at hmp
    have hcs : a.cells.map (·.2) = ps.map (maskVals r0 ls0 m.hdr) := by
      rw [h.cells, List.map_map]; rfl
    rw [hcs]
    refine ⟨_, 0, 0, _, rfl, rfl, rfl, rfl, hmp.1, fun _ => ⟨rfl, rfl, ?_, ?_⟩, fun _ _ _ => rfl⟩
    · obtain ⟨_, _, e⟩ := withCells_shape { r0 with
        raster1 := d1, raster2 := d2, hdr := { m.hdr with noData := r0.noData, layers := r0.nLyrs, cellsnum := cn }, calcPos := true,
        nCells := m.nCells, storePos := false, posData := m.posData, posIdx := m.posIdx } (ps.map (maskVals r0 ls0 m.hdr))
      simp only [e]
    · obtain ⟨_, _, e⟩ := withCells_shape { r0 with
        raster1 := d1, raster2 := d2, hdr := { m.hdr with noData := r0.noData, layers := r0.nLyrs, cellsnum := cn }, calcPos := true,
        nCells := m.nCells, storePos := false, posData := m.posData, posIdx := m.posIdx } (ps.map (maskVals r0 ls0 m.hdr))
      simp only [e]
  -- case B: new positions
  have caseB : ∀ (hdr : Header) (w : Int) (k u : Bool), (∃ rc ∈ ps, matchedB r0 ls0 m.hdr rc = true) →
      hdr.cellsize = m.hdr.cellsize → hdr.xll = m.hdr.xll + a.minCol * m.hdr.cellsize →
      hdr.yll = m.hdr.yll + ((m.hdr.rows - hdr.rows - a.minRow : Int) : ℚ) * m.hdr.cellsize →
      a.maxRow - a.minRow + 1 ≤ hdr.rows → a.maxCol - a.minCol + 1 ≤ hdr.cols → a.minRow + hdr.rows ≤ m.hdr.rows →
      a.minCol + hdr.cols ≤ m.hdr.cols → w = hdr.cols → r0.calcPos = true →
      ((r0.useMaskExt = true ∨ TouchAll m.hdr.rows m.hdr.cols ps (matchedB r0 ls0 m.hdr) 0 0) →
          a.minRow = 0 ∧ a.minCol = 0 ∧ hdr.rows = m.hdr.rows ∧ hdr.cols = m.hdr.cols) →
      let inBox (rc : Int × Int) : Bool :=
        !(decide (rc.1 > a.maxRow) || decide (rc.1 < a.minRow) || decide (rc.2 > a.maxCol) || decide (rc.2 < a.minCol))
      let kept := (a.cells.filter (fun c => inBox c.1 && !floatEqual (c.2.headD 0) r0.noData)).map
        (fun c => ((c.1.1 - a.minRow, c.1.2 - a.minCol), c.2))
      let n : Int := kept.length
      let r1 : Raster := { r0 with
        raster1 := d1, raster2 := d2, hdr := { hdr with cellsnum := n }, calcPos := true, nCells := n,
        storePos := true,
        posData := (alloc2 n 2 (0 : Int)).map (fun _ => kept.map (·.1)),
        posIdx := (alloc1 n (0 : Int)).map (fun _ => kept.map (fun c => c.1.1 * w + c.1.2)) }
      ∃ res sr sc keep, (Out.ok ⟨r1.withCells (kept.map (·.2)), m, 2, false, ps, k, u⟩ : Out MaskRes) = .ok res ∧
        res.code = 2 ∧ res.mask = m ∧ res.validPos = ps ∧ MaskedAt r0 ls0 m.hdr ps res.ras sr sc keep ∧
        ((r0.useMaskExt = true ∨ TouchAll m.hdr.rows m.hdr.cols ps (matchedB r0 ls0 m.hdr) 0 0) →
          sr = 0 ∧ sc = 0 ∧ res.ras.hdr.rows = m.hdr.rows ∧ res.ras.hdr.cols = m.hdr.cols) ∧
        (r0.calcPos = false → r0.useMaskExt = true → ∀ rc, keep rc = true) := by
    intro hdr w k u hex g1 g2 g3 g4 g5 g6 g7 g8 g9 g10
    dsimp only
    have hb := h.box.ok hins hex
    rw [hcellsmap (fun rc v => (!(decide (rc.1 > a.maxRow) || decide (rc.1 < a.minRow) || decide (rc.2 > a.maxCol) ||
      decide (rc.2 < a.minCol))) && !floatEqual (v.headD 0) r0.noData)]
    generalize hkeep : (fun rc : Int × Int => (!(decide (rc.1 > a.maxRow) || decide (rc.1 < a.minRow) || decide (rc.2 > a.maxCol) ||
      decide (rc.2 < a.minCol))) && !floatEqual ((maskVals r0 ls0 m.hdr rc).headD 0) r0.noData) = keep
    have hkin : ∀ rc, keep rc = true → a.minRow ≤ rc.1 ∧ rc.1 ≤ a.maxRow ∧ a.minCol ≤ rc.2 ∧ rc.2 ≤ a.maxCol := by
      intro rc hk
      rw [← hkeep] at hk
      simp only [Bool.and_eq_true, Bool.not_eq_true', Bool.or_eq_false_iff, decide_eq_false_iff_not] at hk
      omega
    have hkm : ∀ rc ∈ ps, matchedB r0 ls0 m.hdr rc = true → keep rc = true := by
      intro rc hrc hmt
      have := hb.all rc hrc hmt
      rw [← hkeep]
      simp only [Bool.and_eq_true, Bool.not_eq_true', Bool.or_eq_false_iff, decide_eq_false_iff_not]
      refine ⟨by omega, matched_head hlyr hmt⟩
    have hfne : ps.filter keep ≠ [] := by
      obtain ⟨x, hx, hf⟩ := hex
      exact List.ne_nil_of_mem (List.mem_filter.2 ⟨hx, hkm x hx hf⟩)
    have hlpos : 0 < (ps.filter keep).length := List.length_pos_of_ne_nil hfne
    simp only [List.length_map, List.map_map, Function.comp_def]
    have ha2 : (alloc2 ((ps.filter keep).length : Int) 2 (0 : Int)) = some (List.replicate (ps.filter keep).length (List.replicate 2 0)) := by
      unfold alloc2; rw [if_neg (by omega)]; simp
    have ha1 : (alloc1 ((ps.filter keep).length : Int) (0 : Int)) = some (List.replicate (ps.filter keep).length 0) := by
      unfold alloc1; rw [if_neg (by omega)]; simp
    rw [ha2, ha1]
    simp only [Option.map_some]
    have hmp := masked_compact hg0 hm
      { r0 with
        raster1 := d1, raster2 := d2, hdr := { hdr with cellsnum := ((ps.filter keep).length : Int) }, calcPos := true,
        nCells := ((ps.filter keep).length : Int), storePos := true,
        posData := some ((ps.filter keep).map (fun rc => (rc.1 - a.minRow, rc.2 - a.minCol))),
        posIdx := some ((ps.filter keep).map (fun rc => (rc.1 - a.minRow) * w + (rc.2 - a.minCol))) }
      a.minRow a.minCol keep g1 g2 g3 hb.r0 hb.c0 g6 g7 rfl rfl rfl hkm
      (by
        intro rc hrc hk
        have := hkin rc hk
        unfold In
        simp only
        omega)
      hfne rfl rfl rfl (by rw [g8]; simp only [List.map_map, Function.comp_def])
    refine ⟨_, a.minRow, a.minCol, keep, rfl, rfl, rfl, rfl, hmp.1, ?_, ?_⟩
    · intro hu
      obtain ⟨u1, u2, u3, u4⟩ := g10 hu
      obtain ⟨_, _, e⟩ := withCells_shape { r0 with
        raster1 := d1, raster2 := d2, hdr := { hdr with cellsnum := ((ps.filter keep).length : Int) }, calcPos := true,
        nCells := ((ps.filter keep).length : Int), storePos := true,
        posData := some ((ps.filter keep).map (fun rc => (rc.1 - a.minRow, rc.2 - a.minCol))),
        posIdx := some ((ps.filter keep).map (fun rc => (rc.1 - a.minRow) * w + (rc.2 - a.minCol))) }
        ((ps.filter keep).map (maskVals r0 ls0 m.hdr))
      simp only [e]
      exact ⟨u1, u2, u3, u4⟩
    · rw [g9]; simp
  -- case C: all cells of the extent
  have caseC : ∀ (k u : Bool), (∃ rc ∈ ps, matchedB r0 ls0 m.hdr rc = true) → r0.useMaskExt = false →
      ¬ TouchAll m.hdr.rows m.hdr.cols ps (matchedB r0 ls0 m.hdr) 0 0 →
      ∃ res sr sc keep, (do
        let d ← scatter (some (List.replicate ((a.maxCol - a.minCol + 1) * (a.maxRow - a.minRow + 1)).toNat
            (List.replicate r0.nLyrs.toNat r0.noData)))
          (((a.cells.filter (fun c => !(decide (c.1.1 > a.maxRow) || decide (c.1.1 < a.minRow) || decide (c.1.2 > a.maxCol) ||
            decide (c.1.2 < a.minCol)))).map
            (fun c => ((c.1.1 - a.minRow) * (a.maxCol - a.minCol + 1) + c.1.2 - a.minCol, c.2))).filter
              (fun it => !decide (it.1 > (a.maxCol - a.minCol + 1) * (a.maxRow - a.minRow + 1) - 1)))
        let l ← nonNull d
        Out.ok ⟨Raster.withCells { r0 with
            raster1 := d1, raster2 := d2, hdr := { m.hdr with
              noData := r0.noData, layers := r0.nLyrs,
              rows := a.maxRow - a.minRow + 1, cols := a.maxCol - a.minCol + 1,
              xll := m.hdr.xll + a.minCol * m.hdr.cellsize,
              yll := m.hdr.yll + ((m.hdr.rows - a.maxRow - 1 : Int) : ℚ) * m.hdr.cellsize,
              cellsnum := (a.maxCol - a.minCol + 1) * (a.maxRow - a.minRow + 1) },
            calcPos := false, nCells := (a.maxCol - a.minCol + 1) * (a.maxRow - a.minRow + 1),
            storePos := false, posData := none, posIdx := none } l, m, 2, false, ps, k, u⟩
        : Out MaskRes) = .ok res ∧
        res.code = 2 ∧ res.mask = m ∧ res.validPos = ps ∧ MaskedAt r0 ls0 m.hdr ps res.ras sr sc keep ∧
        ((r0.useMaskExt = true ∨ TouchAll m.hdr.rows m.hdr.cols ps (matchedB r0 ls0 m.hdr) 0 0) →
          sr = 0 ∧ sc = 0 ∧ res.ras.hdr.rows = m.hdr.rows ∧ res.ras.hdr.cols = m.hdr.cols) ∧
        (r0.calcPos = false → r0.useMaskExt = true → ∀ rc, keep rc = true) := by
    intro k u hex hu hnt
    have hb := h.box.ok hins hex
    have b0 := hb.r0; have b1 := hb.r1; have b2 := hb.r2; have b3 := hb.c0; have b4 := hb.c1; have b5 := hb.c2
    rw [hcellsmap (fun rc _ => !(decide (rc.1 > a.maxRow) || decide (rc.1 < a.minRow) || decide (rc.2 > a.maxCol) ||
      decide (rc.2 < a.minCol)))]
    generalize hkeep : (fun rc : Int × Int => !(decide (rc.1 > a.maxRow) || decide (rc.1 < a.minRow) || decide (rc.2 > a.maxCol) ||
      decide (rc.2 < a.minCol))) = keep
    have hkin : ∀ rc, keep rc = true ↔ a.minRow ≤ rc.1 ∧ rc.1 ≤ a.maxRow ∧ a.minCol ≤ rc.2 ∧ rc.2 ≤ a.maxCol := by
      intro rc
      rw [← hkeep]
      simp only [Bool.not_eq_true', Bool.or_eq_false_iff, decide_eq_false_iff_not]
      omega
    have hkm : ∀ rc ∈ ps, matchedB r0 ls0 m.hdr rc = true → keep rc = true := by
      intro rc hrc hmt
      rw [hkin]; exact hb.all rc hrc hmt
    rw [List.map_map]
    have hrng : ∀ rc ∈ ps.filter keep, 0 ≤ (rc.1 - a.minRow) * (a.maxCol - a.minCol + 1) + (rc.2 - a.minCol) ∧
        (rc.1 - a.minRow) * (a.maxCol - a.minCol + 1) + (rc.2 - a.minCol) < (a.maxRow - a.minRow + 1) * (a.maxCol - a.minCol + 1) := by
      intro rc hrc
      have := (hkin rc).1 (List.mem_filter.1 hrc).2
      exact idx_range (by omega) (by omega) (by omega) (by omega)
    have hitems : (((ps.filter keep).map ((fun c : (Int × Int) × List ℚ =>
          ((c.1.1 - a.minRow) * (a.maxCol - a.minCol + 1) + c.1.2 - a.minCol, c.2)) ∘
          fun rc => (rc, maskVals r0 ls0 m.hdr rc))).filter
            (fun it => !decide (it.1 > (a.maxCol - a.minCol + 1) * (a.maxRow - a.minRow + 1) - 1))) =
        (ps.filter keep).map (fun rc => ((rc.1 - a.minRow) * (a.maxCol - a.minCol + 1) + (rc.2 - a.minCol), maskVals r0 ls0 m.hdr rc)) := by
      have e : (ps.filter keep).map ((fun c : (Int × Int) × List ℚ =>
          ((c.1.1 - a.minRow) * (a.maxCol - a.minCol + 1) + c.1.2 - a.minCol, c.2)) ∘
          fun rc => (rc, maskVals r0 ls0 m.hdr rc)) =
          (ps.filter keep).map (fun rc => ((rc.1 - a.minRow) * (a.maxCol - a.minCol + 1) + (rc.2 - a.minCol), maskVals r0 ls0 m.hdr rc)) := by
        apply List.map_congr_left
        intro rc _
        simp only [Function.comp]
        congr 1
        omega
      rw [e, List.filter_eq_self]
      intro it hit
      obtain ⟨rc, hrc, rfl⟩ := List.mem_map.1 hit
      have := (hrng rc hrc).2
      rw [mul_comm (a.maxRow - a.minRow + 1)] at this
      simp only [Bool.not_eq_true', decide_eq_false_iff_not]
      omega
    rw [hitems]
    obtain ⟨d', e, hl', _, _⟩ := scatter_items
      ((ps.filter keep).map (fun rc => ((rc.1 - a.minRow) * (a.maxCol - a.minCol + 1) + (rc.2 - a.minCol), maskVals r0 ls0 m.hdr rc)))
      (List.replicate ((a.maxRow - a.minRow + 1) * (a.maxCol - a.minCol + 1)).toNat (List.replicate r0.nLyrs.toNat r0.noData))
      (by
        intro it hit
        obtain ⟨rc, hrc, rfl⟩ := List.mem_map.1 hit
        have := hrng rc hrc
        simp only [List.length_replicate]
        omega)
      (by
        intro x hx y hy he
        obtain ⟨rc, hrc, rfl⟩ := List.mem_map.1 hx
        obtain ⟨rc', hrc', rfl⟩ := List.mem_map.1 hy
        have h1 := (hkin rc).1 (List.mem_filter.1 hrc).2
        have h2 := (hkin rc').1 (List.mem_filter.1 hrc').2
        have := idx_inj (by omega) (by omega) (by omega) (by omega) he
        have : rc = rc' := by ext <;> omega
        rw [this])
    rw [mul_comm (a.maxCol - a.minCol + 1) (a.maxRow - a.minRow + 1), e]
    simp only [Out.ok_bind, nonNull]
    have hmp := masked_full (m := m) hg0 { r0 with
            raster1 := d1, raster2 := d2, hdr := { m.hdr with
              noData := r0.noData, layers := r0.nLyrs,
              rows := a.maxRow - a.minRow + 1, cols := a.maxCol - a.minCol + 1,
              xll := m.hdr.xll + a.minCol * m.hdr.cellsize,
              yll := m.hdr.yll + ((m.hdr.rows - a.maxRow - 1 : Int) : ℚ) * m.hdr.cellsize,
              cellsnum := (a.maxRow - a.minRow + 1) * (a.maxCol - a.minCol + 1) },
            calcPos := false, nCells := (a.maxRow - a.minRow + 1) * (a.maxCol - a.minCol + 1),
            storePos := false, posData := none, posIdx := none } a.minRow a.minCol keep d'
      rfl rfl (by dsimp only; congr 3; omega) b0 b3 (by show a.minRow + (a.maxRow - a.minRow + 1) ≤ _; omega)
      (by show a.minCol + (a.maxCol - a.minCol + 1) ≤ _; omega) (by show 0 < a.maxRow - a.minRow + 1; omega)
      (by show 0 < a.maxCol - a.minCol + 1; omega) rfl rfl rfl hkm
      (by
        intro rc _
        rw [hkin]
        unfold In
        dsimp only
        omega) rfl rfl rfl e
    refine ⟨_, a.minRow, a.minCol, keep, rfl, rfl, rfl, rfl, hmp.1, ?_, ?_⟩
    · rintro (h1 | h1)
      · rw [hu] at h1; simp at h1
      · exact absurd h1 hnt
    · rw [hu]; simp
  generalize decide (a.matched = (ps.length : Int)) = me at hmatch ⊢
  generalize (decide (a.maxRow - a.minRow + 1 = m.hdr.rows) && decide (a.maxCol - a.minCol + 1 = m.hdr.cols)) = wi at hwithin ⊢
  -- extents when positions are recomputed
  have stay : (∃ rc ∈ ps, matchedB r0 ls0 m.hdr rc = true) → a.minRow = 0 → a.minCol = 0 → r0.calcPos = true → ∀ k,
      _ := fun hex z1 z2 hc k => by
    have hb := h.box.ok hins hex
    have b0 := hb.r0; have b1 := hb.r1; have b2 := hb.r2; have b3 := hb.c0; have b4 := hb.c1; have b5 := hb.c2
    exact caseB { m.hdr with noData := r0.noData, layers := r0.nLyrs } m.hdr.cols k false hex rfl (by rw [z2]; simp)
      (by rw [z1]; simp) (by dsimp only; omega) (by dsimp only; omega) (by dsimp only; omega) (by dsimp only; omega) rfl hc
      (fun _ => ⟨z1, z2, rfl, rfl⟩)
  cases hu : r0.useMaskExt
  · cases hc : r0.calcPos
    · cases wi
      · have hnt : ¬ TouchAll m.hdr.rows m.hdr.cols ps (matchedB r0 ls0 m.hdr) 0 0 := fun ht => by simpa using hwithin.2 ht
        have hex := hov (by rw [hu]; simp)
        have hb := h.box.ok hins hex
        have b0 := hb.r0; have b1 := hb.r1; have b2 := hb.r2; have b3 := hb.c0; have b4 := hb.c1; have b5 := hb.c2
        have hsize : ¬ (r0.hdr.rows * r0.hdr.cols = (a.maxCol - a.minCol + 1) * (a.maxRow - a.minRow + 1)) := by
          intro he
          rcases hb2 hu hc with h1 | h1
          · exact hnt h1
          · apply h1
            obtain ⟨x1, y1, z1, e1⟩ := hb.top
            obtain ⟨x2, y2, z2, e2⟩ := hb.bot
            obtain ⟨x3, y3, z3, e3⟩ := hb.lef
            obtain ⟨x4, y4, z4, e4⟩ := hb.rig
            have i1 := (hs.inside x1).1 (matched_inside z1)
            have i2 := (hs.inside x2).1 (matched_inside z2)
            have i3 := (hs.inside x3).1 (matched_inside z3)
            have i4 := (hs.inside x4).1 (matched_inside z4)
            unfold In at i1 i2 i3 i4
            dsimp only at i1 i2 i3 i4
            have hA : a.maxRow - a.minRow + 1 = r0.hdr.rows := by
              by_contra hne'
              have hA1 : a.maxRow - a.minRow + 1 < r0.hdr.rows := by omega
              have hA2 : a.maxCol - a.minCol + 1 ≤ r0.hdr.cols := by omega
              have : (a.maxCol - a.minCol + 1) * (a.maxRow - a.minRow + 1) < r0.hdr.cols * r0.hdr.rows :=
                mul_lt_mul' hA2 hA1 (by omega) (by omega)
              rw [mul_comm r0.hdr.cols] at this
              omega
            have hB : a.maxCol - a.minCol + 1 = r0.hdr.cols := by
              by_contra hne'
              have hA1 : a.maxCol - a.minCol + 1 < r0.hdr.cols := by omega
              have hA2 : a.maxRow - a.minRow + 1 ≤ r0.hdr.rows := by omega
              have : (a.maxRow - a.minRow + 1) * (a.maxCol - a.minCol + 1) < r0.hdr.rows * r0.hdr.cols :=
                mul_lt_mul' hA2 hA1 (by omega) (by omega)
              rw [mul_comm (a.maxRow - a.minRow + 1)] at this
              omega
            exact ⟨⟨x1, y1, z1, by omega⟩, ⟨x2, y2, z2, by omega⟩, ⟨x3, y3, z3, by omega⟩, ⟨x4, y4, z4, by omega⟩⟩
        have hfl : maskFlags false false false me = ⟨true, false, true, true, false⟩ := rfl
        have := caseC me true hex hu hnt
        rw [hu, hc] at this
        simp only [hfl, Bool.false_eq_true, if_false, if_true]
        rw [if_neg hsize]
        simpa using this
      · have hfl : maskFlags true false false me = ⟨false, false, true, false, true⟩ := rfl
        have := caseA m.nCells me
        rw [hu, hc] at this
        simp only [hfl, Bool.false_eq_true, if_false, if_true]
        simpa using this
    · cases wi
      · have hnt : ¬ TouchAll m.hdr.rows m.hdr.cols ps (matchedB r0 ls0 m.hdr) 0 0 := fun ht => by simpa using hwithin.2 ht
        have hex := hov (by rw [hu]; simp)
        have hb := h.box.ok hins hex
        have b0 := hb.r0; have b1 := hb.r1; have b2 := hb.r2; have b3 := hb.c0; have b4 := hb.c1; have b5 := hb.c2
        have hfl : maskFlags false false true me = ⟨true, true, true, false, true⟩ := rfl
        have := caseB { m.hdr with
              noData := r0.noData, layers := r0.nLyrs,
              rows := a.maxRow - a.minRow + 1, cols := a.maxCol - a.minCol + 1,
              xll := m.hdr.xll + a.minCol * m.hdr.cellsize,
              yll := m.hdr.yll + ((m.hdr.rows - a.maxRow - 1 : Int) : ℚ) * m.hdr.cellsize }
          (a.maxCol - a.minCol + 1) me true hex rfl rfl (by dsimp only; congr 3; omega) le_rfl le_rfl
          (by dsimp only; omega) (by dsimp only; omega) rfl hc (by
            rintro (h1 | h1)
            · rw [hu] at h1; simp at h1
            · exact absurd h1 hnt)
        rw [hu, hc] at this
        simp only [hfl, Bool.false_eq_true, if_false, if_true]
        simpa using this
      · cases me
        · have ht := hwithin.1 rfl
          have hex : ∃ rc ∈ ps, matchedB r0 ls0 m.hdr rc = true := by
            obtain ⟨⟨x, y, z, _⟩, _⟩ := ht; exact ⟨x, y, z⟩
          have hb := h.box.ok hins hex
          have b0 := hb.r0; have b3 := hb.c0
          have z1 : a.minRow = 0 := by
            obtain ⟨⟨x, y, z, e⟩, _⟩ := ht
            have := hb.all x y z; omega
          have z2 : a.minCol = 0 := by
            obtain ⟨_, _, ⟨x, y, z, e⟩, _⟩ := ht
            have := hb.all x y z; omega
          have hfl : maskFlags true false true false = ⟨false, true, true, false, true⟩ := rfl
          have := stay hex z1 z2 hc false
          rw [hu, hc] at this
          simp only [hfl, Bool.false_eq_true, if_false, if_true]
          simpa using this
        · have hfl : maskFlags true false true true = ⟨false, false, false, false, true⟩ := rfl
          have := caseA m.hdr.cellsnum true
          rw [hu, hc] at this
          simp only [hfl, Bool.false_eq_true, if_false, if_true]
          simpa using this
  · cases hc : r0.calcPos
    · have hfl : maskFlags wi true false me = ⟨false, false, false, false, true⟩ := by cases wi <;> rfl
      have := caseA m.hdr.cellsnum me
      rw [hu, hc] at this
      simp only [hfl, Bool.false_eq_true, if_false, if_true]
      simpa using this
    · cases me
      · have hex := hov (by rw [hc]; simp)
        have hb := h.box.ok hins hex
        have b0 := hb.r0; have b3 := hb.c0
        have hz : a.minRow = 0 ∧ a.minCol = 0 := by
          rcases hb1 hu hc with h1 | ⟨⟨x, y, z, e⟩, x', y', z', e'⟩
          · simpa using hmatch.2 h1
          · have := hb.all x y z
            have := hb.all x' y' z'
            omega
        have hfl : maskFlags wi true true false = ⟨false, true, true, false, true⟩ := by cases wi <;> rfl
        have := stay hex hz.1 hz.2 hc false
        rw [hu, hc] at this
        simp only [hfl, Bool.false_eq_true, if_false, if_true]
        simpa using this
      · have hfl : maskFlags wi true true true = ⟨false, false, false, false, true⟩ := by cases wi <;> rfl
        have := caseA m.hdr.cellsnum true
        rw [hu, hc] at this
        simp only [hfl, Bool.false_eq_true, if_false, if_true]
        simpa using this

end Raster
end CCGL
