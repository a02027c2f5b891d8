import Verif.Lemmas.Mask
import Verif.Lemmas.Subset
/-!
# Lemmas about masking: the result
-/
namespace CCGL
namespace Raster

/-! #### Positions of the mask -/

theorem Full.positions {m : Raster} {ls} (h : m.Full ls) :
    ∃ m', m.maskPositions = .ok (m', (m.validCells ls).length, some (m.validCells ls)) ∧
      m'.hdr = { m.hdr with cellsnum := (m.validCells ls).length } ∧ m'.noData = m.noData ∧
      m'.nCells = (m.validCells ls).length ∧
      (m.validCells ls = [] ∨ ∃ lsM, m'.Compact lsM (m.validCells ls)) := by
  have key : ∀ b, ∃ m', ({ m with calcPos := b } : Raster).calcValidPositions = .ok m' ∧
      m'.hdr = { m.hdr with cellsnum := (m.validCells ls).length } ∧ m'.noData = m.noData ∧
      m'.nCells = (m.validCells ls).length ∧ m'.posData = some (m.validCells ls) ∧
      (m.validCells ls = [] ∨ ∃ lsM, m'.Compact lsM (m.validCells ls)) := by
    intro b
    obtain ⟨m', e, h1, h2, _, _, _, _, h3, h4⟩ := (h.setCalc b).calc
    refine ⟨m', e, h1, h2, h3, ?_⟩
    rcases h4 with ⟨h5, h6⟩ | h5
    · have h5' : m.validCells ls = [] := h5
      exact ⟨by rw [h6.pd, h5'], .inl h5'⟩
    · exact ⟨h5.pd, .inr ⟨_, h5⟩⟩
  have hv := h.holds.valid
  unfold maskPositions
  cases hc : m.calcPos
  · obtain ⟨m', e, h1, h2, h3, h4, h5⟩ := key true
    refine ⟨m', ?_, h1, h2, h3, h5⟩
    simp only [Bool.not_false, if_true]
    unfold setCalcPositions
    simp only [hv, hc, Bool.not_true, Bool.false_and, Bool.false_eq_true, if_false]
    unfold calcNoMask
    simp only [if_true, h.pd, Option.isNone_none, Bool.true_or]
    have e' : ({ m with posData := none, calcPos := true } : Raster).calcValidPositions = .ok m' := by
      rw [← e]; congr 1; rw [← h.pd]
    first
      | rw [e]
      | rw [e']
    simp only [Out.ok_bind, Out.pure_eq]
    unfold getPositionData
    simp [h4, h3]
  · obtain ⟨m', e, h1, h2, h3, h4, h5⟩ := key true
    have hself : ({ m with calcPos := true } : Raster) = m := by rw [← hc]
    rw [hself] at e
    refine ⟨m', ?_, h1, h2, h3, h5⟩
    simp only [Bool.not_true, Bool.false_eq_true, if_false, Out.ok_bind]
    unfold getPositionData
    simp [h.pd, hv, e, h4, h3]

theorem Compact.positions {m : Raster} {ls ps} (h : m.Compact ls ps) :
    m.maskPositions = .ok (m, ps.length, some ps) := by
  unfold maskPositions
  simp only [h.calcOn, Bool.not_true, Bool.false_eq_true, if_false, Out.ok_bind]
  unfold getPositionData
  simp [h.pd, h.ncells]

theorem Empty.positions {m : Raster} (h : m.Empty) : m.maskPositions = .ok (m, 0, some []) := by
  unfold maskPositions
  simp only [h.calcOn, Bool.not_true, Bool.false_eq_true, if_false, Out.ok_bind]
  unfold getPositionData
  simp [h.pd, h.ncells]

/-! #### A common cell grid -/

theorem under_common {h mh : Header} (hcs : 0 < h.cellsize) (he : mh.cellsize = h.cellsize) (a b : Int)
    (hx : mh.xll = h.xll + a * h.cellsize) (hy : mh.yll = h.yll + b * h.cellsize) (rc : Int × Int) :
    under h mh rc = (if In h (rc.1 + (h.rows - mh.rows - b), rc.2 + a) then (rc.1 + (h.rows - mh.rows - b), rc.2 + a)
      else (-1, -1)) := by
  have hco : coordOf mh rc.1 rc.2 = coordOf h (rc.1 + (h.rows - mh.rows - b)) (rc.2 + a) := by
    unfold coordOf
    rw [he, hx, hy]
    refine Prod.ext ?_ ?_ <;> simp only <;> push_cast <;> ring
  unfold under
  rw [hco]
  by_cases hin : In h (rc.1 + (h.rows - mh.rows - b), rc.2 + a)
  · rw [if_pos hin]
    exact C06_roundtrip h hcs _ _ hin
  · rw [if_neg hin, C07_rejected_iff h hcs]
    unfold In at hin
    simp only at hin
    generalize rc.1 + (h.rows - mh.rows - b) = row at hin
    generalize rc.2 + a = col at hin
    simp only [Header.grid, Spec.Grid.left, Spec.Grid.right, Spec.Grid.top, Spec.Grid.bottom, coordOf]
    by_cases c1 : col < 0
    · left
      have : (col : ℚ) ≤ -1 := by exact_mod_cast (by omega : col ≤ -1)
      have := mul_le_mul_of_nonneg_right this hcs.le
      linarith
    by_cases c2 : h.cols ≤ col
    · right; left
      have : (h.cols : ℚ) ≤ col := by exact_mod_cast c2
      have := mul_le_mul_of_nonneg_right this hcs.le
      linarith
    by_cases c3 : h.rows ≤ row
    · right; right; left
      have : ((h.rows - row - 1 : Int) : ℚ) ≤ -1 := by exact_mod_cast (by omega : h.rows - row - 1 ≤ -1)
      have := mul_le_mul_of_nonneg_right this hcs.le
      linarith
    · right; right; right
      have c4 : row < 0 := by omega
      have : (h.rows : ℚ) ≤ ((h.rows - row - 1 : Int) : ℚ) := by exact_mod_cast (by omega)
      have := mul_le_mul_of_nonneg_right this hcs.le
      linarith

/-! #### The result of masking -/

theorem maskVals_length (r : Raster) (ls : List (List ℚ)) (mh : Header) (rc : Int × Int) :
    (maskVals r ls mh rc).length = r.nLyrs.toNat := by
  unfold maskVals takeVals
  split <;> simp

/-- What masking delivers: the grid of the mask cut to a window starting at mask row `sr` and column `sc`, in which the
kept mask cells have the values taken from the raster, all others NoData. -/
structure MaskedAt (r0 : Raster) (ls0 : List (List ℚ)) (mh : Header) (ps : List (Int × Int)) (r' : Raster) (sr sc : Int)
    (keep : Int × Int → Bool) : Prop where
  cs : r'.hdr.cellsize = mh.cellsize
  xll : r'.hdr.xll = mh.xll + sc * mh.cellsize
  yll : r'.hdr.yll = mh.yll + ((mh.rows - r'.hdr.rows - sr : Int) : ℚ) * mh.cellsize
  sr0 : 0 ≤ sr
  sc0 : 0 ≤ sc
  rows : sr + r'.hdr.rows ≤ mh.rows
  cols : sc + r'.hdr.cols ≤ mh.cols
  nod : r'.noData = r0.noData
  lyrs : r'.nLyrs = r0.nLyrs
  keepMatched : ∀ rc ∈ ps, matchedB r0 ls0 mh rc = true → keep rc = true
  keepIn : ∀ rc ∈ ps, keep rc = true → In r'.hdr (rc.1 - sr, rc.2 - sc)
  inv : ∃ ls loc, Inv r' ls loc
  val : ∀ row col lyr : Int, In r'.hdr (row, col) → 1 ≤ lyr → lyr ≤ r0.nLyrs → r'.getValue row col lyr =
    .ok (if (row + sr, col + sc) ∈ ps ∧ keep (row + sr, col + sc) = true
      then (maskVals r0 ls0 mh (row + sr, col + sc)).getD (lyr - 1).toNat 0 else r0.noData)

theorem sorted_shift (ps : List (Int × Int)) (w w' sr sc : Int)
    (h : (ps.map (fun rc => rc.1 * w + rc.2)).Pairwise (· < ·)) (hin : ∀ rc ∈ ps, 0 ≤ rc.2 ∧ rc.2 < w)
    (hin' : ∀ rc ∈ ps, 0 ≤ rc.2 - sc ∧ rc.2 - sc < w') :
    ((ps.map (fun rc => (rc.1 - sr, rc.2 - sc))).map (fun rc => rc.1 * w' + rc.2)).Pairwise (· < ·) := by
  rw [List.map_map, List.pairwise_map]
  rw [List.pairwise_map] at h
  refine h.imp_of_mem ?_
  intro a b ha hb hab
  have h1 := hin a ha
  have h2 := hin b hb
  have h3 := hin' a ha
  have h4 := hin' b hb
  simp only [Function.comp]
  have hle : a.1 ≤ b.1 := by
    by_contra hc
    have h5 : b.1 + 1 ≤ a.1 := by omega
    have h6 : (b.1 + 1) * w ≤ a.1 * w := mul_le_mul_of_nonneg_right h5 (by omega)
    have h7 : (b.1 + 1) * w = b.1 * w + w := by ring
    omega
  rcases hle.eq_or_lt with he | hlt
  · rw [he] at hab ⊢
    omega
  · have h5 : (a.1 - sr) + 1 ≤ b.1 - sr := by omega
    have h6 : ((a.1 - sr) + 1) * w' ≤ (b.1 - sr) * w' := mul_le_mul_of_nonneg_right h5 (by omega)
    have h7 : ((a.1 - sr) + 1) * w' = (a.1 - sr) * w' + w' := by ring
    omega

theorem withCells_holds {r : Raster} (cells : List (List ℚ)) (hl : 1 ≤ r.nLyrs) (h1 : r.is2d = false → r.nLyrs = 1)
    (hne : cells ≠ []) (hc : ∀ c ∈ cells, (c.length : Int) = r.nLyrs) : (r.withCells cells).Holds cells := by
  unfold withCells
  cases hd : r.is2d
  · simp only [Bool.false_eq_true, if_false, hne]
    exact ⟨hl, hc, by simp only [hd, Bool.false_eq_true, if_false]; exact ⟨h1 hd, trivial⟩⟩
  · simp only [if_true]
    exact ⟨hl, hc, by simp only [hd, if_true]⟩

theorem withCells_shape (r : Raster) (cells : List (List ℚ)) : r.SameShape (r.withCells cells) := by
  unfold withCells
  split
  · exact ⟨r.raster1, _, rfl⟩
  · exact ⟨_, r.raster2, rfl⟩

theorem Holds.one {r : Raster} {ls} (h : r.Holds ls) : r.is2d = false → r.nLyrs = 1 := by
  intro hd
  have := h.2.2
  simp only [hd, Bool.false_eq_true, if_false] at this
  exact this.1

/-- The result with positions. -/
theorem masked_compact {r0 : Raster} {ls0} {m : Raster} {lsM ps} (hg0 : r0.Grid ls0) (hm : m.Compact lsM ps)
    (r1 : Raster) (sr sc : Int) (keep : Int × Int → Bool)
    (hcs : r1.hdr.cellsize = m.hdr.cellsize) (hx : r1.hdr.xll = m.hdr.xll + sc * m.hdr.cellsize)
    (hy : r1.hdr.yll = m.hdr.yll + ((m.hdr.rows - r1.hdr.rows - sr : Int) : ℚ) * m.hdr.cellsize)
    (sr0 : 0 ≤ sr) (sc0 : 0 ≤ sc) (hrows : sr + r1.hdr.rows ≤ m.hdr.rows) (hcols : sc + r1.hdr.cols ≤ m.hdr.cols)
    (hnod : r1.noData = r0.noData) (hlyrs : r1.nLyrs = r0.nLyrs) (h2d : r1.is2d = r0.is2d)
    (hkm : ∀ rc ∈ ps, matchedB r0 ls0 m.hdr rc = true → keep rc = true)
    (hki : ∀ rc ∈ ps, keep rc = true → In r1.hdr (rc.1 - sr, rc.2 - sc))
    (hne : ps.filter keep ≠ []) (hcp : r1.calcPos = true) (hn : r1.nCells = ((ps.filter keep).length : Int))
    (hpd : r1.posData = some ((ps.filter keep).map (fun rc => (rc.1 - sr, rc.2 - sc))))
    (hpi : r1.posIdx = some (((ps.filter keep).map (fun rc => (rc.1 - sr, rc.2 - sc))).map (fun rc => rc.1 * r1.hdr.cols + rc.2))) :
    MaskedAt r0 ls0 m.hdr ps (r1.withCells ((ps.filter keep).map (maskVals r0 ls0 m.hdr))) sr sc keep ∧
    (r1.withCells ((ps.filter keep).map (maskVals r0 ls0 m.hdr))).Compact ((ps.filter keep).map (maskVals r0 ls0 m.hdr))
      ((ps.filter keep).map (fun rc => (rc.1 - sr, rc.2 - sc))) := by
  have hlen1 := hg0.holds.1
  have hh : (r1.withCells ((ps.filter keep).map (maskVals r0 ls0 m.hdr))).Holds ((ps.filter keep).map (maskVals r0 ls0 m.hdr)) := by
    apply withCells_holds
    · rw [hlyrs]; exact hlen1
    · rw [h2d, hlyrs]; exact hg0.holds.one
    · simpa using hne
    · intro c hc
      obtain ⟨rc, _, rfl⟩ := List.mem_map.1 hc
      rw [maskVals_length, hlyrs]; omega
  obtain ⟨d1, d2, hsh⟩ := withCells_shape r1 ((ps.filter keep).map (maskVals r0 ls0 m.hdr))
  generalize hr' : r1.withCells ((ps.filter keep).map (maskVals r0 ls0 m.hdr)) = r' at hh hsh
  have ehdr : r'.hdr = r1.hdr := by rw [hsh]
  obtain ⟨p0, hp0⟩ := List.exists_mem_of_ne_nil _ hne
  have hp0' := List.mem_filter.1 hp0
  have hin0 := hki p0 hp0'.1 hp0'.2
  have hkeepin : ∀ rc ∈ ps.filter keep, In r1.hdr (rc.1 - sr, rc.2 - sc) := fun rc hrc =>
    hki rc (List.mem_filter.1 hrc).1 (List.mem_filter.1 hrc).2
  have hC : r'.Compact ((ps.filter keep).map (maskVals r0 ls0 m.hdr)) ((ps.filter keep).map (fun rc => (rc.1 - sr, rc.2 - sc))) := by
    refine ⟨hh, ?_, ?_, by simp, ?_, by simpa using hne, ?_, ?_, ?_, ?_, ?_⟩
    · rw [ehdr]; exact hin0.1.trans hin0.2.1.le
    · rw [ehdr]; exact hin0.2.2.1.trans hin0.2.2.2.le
    · rw [hsh]; simpa using hn
    · rw [hsh]; exact hcp
    · rw [hsh]; exact hpd
    · rw [ehdr, hsh]; exact hpi
    · intro rc hrc
      obtain ⟨x, hx1, rfl⟩ := List.mem_map.1 hrc
      rw [ehdr]; exact hkeepin x hx1
    · rw [ehdr]
      apply sorted_shift _ m.hdr.cols
      · exact hm.sorted.sublist (List.Sublist.map _ List.filter_sublist)
      · intro rc hrc
        have := hm.inside rc (List.mem_filter.1 hrc).1
        exact this.2.2
      · intro rc hrc
        exact (hkeepin rc hrc).2.2
  have hnod' : r'.noData = r0.noData := by rw [hsh]; exact hnod
  have hlyrs' : r'.nLyrs = r0.nLyrs := by rw [hsh]; exact hlyrs
  refine ⟨⟨by rw [ehdr]; exact hcs, by rw [ehdr]; exact hx, by rw [ehdr]; exact hy, sr0, sc0, by rw [ehdr]; exact hrows,
    by rw [ehdr]; exact hcols, hnod', hlyrs', hkm, by rw [ehdr]; exact hki,
    ⟨_, _, Inv.comp hC⟩, ?_⟩, hC⟩
  intro row col lyr hin h1 h2
  by_cases hk : (row + sr, col + sc) ∈ ps ∧ keep (row + sr, col + sc) = true
  · rw [if_pos hk]
    have hmem : (row + sr, col + sc) ∈ ps.filter keep := List.mem_filter.2 hk
    have hlt := List.idxOf_lt_length_of_mem hmem
    have hg := List.getElem_idxOf hlt
    have hv := (hC.getValue_hit row col lyr ((ps.filter keep).idxOf (row + sr, col + sc)) (by simpa using hlt)
      (by rw [List.getElem_map, hg]; simp) ⟨h1, by rw [hlyrs']; exact h2⟩).2
    rw [hv]
    simp only [List.getElem_map, hg]
  · rw [if_neg hk]
    have := (hC.getValue_miss row col lyr hin (by
      intro hm2
      obtain ⟨x, hx1, hx2⟩ := List.mem_map.1 hm2
      have e1 : x.1 - sr = row := congrArg Prod.fst hx2
      have e2 : x.2 - sc = col := congrArg Prod.snd hx2
      have : x = (row + sr, col + sc) := by ext <;> simp only <;> omega
      rw [this] at hx1
      exact hk (List.mem_filter.1 hx1))).2
    rw [this, hnod']

/-- The result without positions. -/
theorem masked_full {r0 : Raster} {ls0} {m : Raster} {ps} (hg0 : r0.Grid ls0)
    (r1 : Raster) (sr sc : Int) (keep : Int × Int → Bool) (l : List (List ℚ))
    (hcs : r1.hdr.cellsize = m.hdr.cellsize) (hx : r1.hdr.xll = m.hdr.xll + sc * m.hdr.cellsize)
    (hy : r1.hdr.yll = m.hdr.yll + ((m.hdr.rows - r1.hdr.rows - sr : Int) : ℚ) * m.hdr.cellsize)
    (sr0 : 0 ≤ sr) (sc0 : 0 ≤ sc) (hrows : sr + r1.hdr.rows ≤ m.hdr.rows) (hcols : sc + r1.hdr.cols ≤ m.hdr.cols)
    (hrp : 0 < r1.hdr.rows) (hcp : 0 < r1.hdr.cols)
    (hnod : r1.noData = r0.noData) (hlyrs : r1.nLyrs = r0.nLyrs) (h2d : r1.is2d = r0.is2d)
    (hkm : ∀ rc ∈ ps, matchedB r0 ls0 m.hdr rc = true → keep rc = true)
    (hki : ∀ rc ∈ ps, keep rc = true ↔ In r1.hdr (rc.1 - sr, rc.2 - sc))
    (hn : r1.nCells = r1.hdr.rows * r1.hdr.cols) (hpd : r1.posData = none) (hpi : r1.posIdx = none)
    (hs : scatter (some (List.replicate (r1.hdr.rows * r1.hdr.cols).toNat (List.replicate r0.nLyrs.toNat r0.noData)))
      ((ps.filter keep).map (fun rc => ((rc.1 - sr) * r1.hdr.cols + (rc.2 - sc), maskVals r0 ls0 m.hdr rc))) = .ok (some l)) :
    MaskedAt r0 ls0 m.hdr ps (r1.withCells l) sr sc keep ∧ (r1.withCells l).Full l := by
  have hlen1 := hg0.holds.1
  have hpos : 0 < r1.hdr.rows * r1.hdr.cols := mul_pos hrp hcp
  have hkeepin : ∀ rc ∈ ps.filter keep, In r1.hdr (rc.1 - sr, rc.2 - sc) := fun rc hrc =>
    (hki rc (List.mem_filter.1 hrc).1).1 (List.mem_filter.1 hrc).2
  have hrng : ∀ rc ∈ ps.filter keep, 0 ≤ (rc.1 - sr) * r1.hdr.cols + (rc.2 - sc) ∧
      (rc.1 - sr) * r1.hdr.cols + (rc.2 - sc) < r1.hdr.rows * r1.hdr.cols := fun rc hrc => by
    have := hkeepin rc hrc
    exact idx_range this.1 this.2.1 this.2.2.1 this.2.2.2
  obtain ⟨d', e, hl', hget, hrest⟩ := scatter_items
    ((ps.filter keep).map (fun rc => ((rc.1 - sr) * r1.hdr.cols + (rc.2 - sc), maskVals r0 ls0 m.hdr rc)))
    (List.replicate (r1.hdr.rows * r1.hdr.cols).toNat (List.replicate r0.nLyrs.toNat r0.noData))
    (by
      intro it hit
      obtain ⟨rc, hrc, rfl⟩ := List.mem_map.1 hit
      have := hrng rc hrc
      simp only [List.length_replicate]
      omega)
    (by
      intro x hx y hy he
      obtain ⟨rc, hrc, rfl⟩ := List.mem_map.1 hx
      obtain ⟨rc', hrc', rfl⟩ := List.mem_map.1 hy
      have h1 := hkeepin rc hrc
      have h2 := hkeepin rc' hrc'
      have := idx_inj h1.2.2.1 h1.2.2.2 h2.2.2.1 h2.2.2.2 he
      have : rc = rc' := by ext <;> simp only at this <;> omega
      rw [this])
  rw [e] at hs
  have hdl : d' = l := by simpa using hs
  subst hdl
  rw [List.length_replicate] at hl'
  -- every row of the result
  have hcell : ∀ row col : Int, In r1.hdr (row, col) →
      readAt (some d') (row * r1.hdr.cols + col) = .ok (if (row + sr, col + sc) ∈ ps ∧ keep (row + sr, col + sc) = true
        then maskVals r0 ls0 m.hdr (row + sr, col + sc) else List.replicate r0.nLyrs.toNat r0.noData) := by
    intro row col hin
    have hr := idx_range hin.1 hin.2.1 hin.2.2.1 hin.2.2.2
    simp only at hr
    by_cases hk : (row + sr, col + sc) ∈ ps ∧ keep (row + sr, col + sc) = true
    · rw [if_pos hk]
      have := hget _ (List.mem_map.2 ⟨_, List.mem_filter.2 hk, rfl⟩)
      simp only at this
      rw [show row + sr - sr = row by omega, show col + sc - sc = col by omega] at this
      exact this
    · rw [if_neg hk, hrest _ hr.1 (by rw [List.length_replicate]; omega)]
      · rw [readAt_some_int _ _ hr.1 (by rw [List.length_replicate]; omega)]
        simp
      · intro hm2
        rw [List.map_map] at hm2
        obtain ⟨x, hx1, hx2⟩ := List.mem_map.1 hm2
        simp only [Function.comp] at hx2
        have h1 := hkeepin x hx1
        have := idx_inj h1.2.2.1 h1.2.2.2 hin.2.2.1 hin.2.2.2 hx2
        have : x = (row + sr, col + sc) := by ext <;> simp only at this ⊢ <;> omega
        rw [this] at hx1
        exact hk (List.mem_filter.1 hx1)
  have hcells : ∀ c ∈ d', (c.length : Int) = r1.nLyrs := by
    intro c hc
    obtain ⟨i, hi, rfl⟩ := List.mem_iff_getElem.1 hc
    have hi2 : (i : Int) < r1.hdr.rows * r1.hdr.cols := by omega
    have h1 : (i : Int) = (i : Int) / r1.hdr.cols * r1.hdr.cols + (i : Int) % r1.hdr.cols :=
      (Int.ediv_mul_add_emod _ _).symm
    have hin : In r1.hdr ((i : Int) / r1.hdr.cols, (i : Int) % r1.hdr.cols) :=
      ⟨Int.ediv_nonneg (by omega) hcp.le, Int.ediv_lt_of_lt_mul hcp hi2, Int.emod_nonneg _ hcp.ne', Int.emod_lt_of_pos _ hcp⟩
    have h2 := hcell _ _ hin
    rw [← h1, readAt_some_nat _ _ hi] at h2
    have h3 := Out.ok.inj h2
    rw [h3]
    split
    · rw [maskVals_length, hlyrs]; omega
    · rw [List.length_replicate, hlyrs]; omega
  have hd0 : d' ≠ [] := by
    intro h0
    rw [h0] at hl'
    simp at hl'
    omega
  have hh : (r1.withCells d').Holds d' := by
    apply withCells_holds
    · rw [hlyrs]; exact hlen1
    · rw [h2d, hlyrs]; exact hg0.holds.one
    · exact hd0
    · exact hcells
  obtain ⟨d1, d2, hsh⟩ := withCells_shape r1 d'
  generalize hr' : r1.withCells d' = r' at hh hsh
  have ehdr : r'.hdr = r1.hdr := by rw [hsh]
  have hF : r'.Full d' := by
    refine ⟨hh, by rw [ehdr]; exact hrp.le, by rw [ehdr]; exact hcp.le, by rw [ehdr]; omega, ?_, ?_, ?_⟩
    · rw [ehdr, hsh]; exact hn
    · rw [hsh]; exact hpd
    · rw [hsh]; exact hpi
  have hnod' : r'.noData = r0.noData := by rw [hsh]; exact hnod
  have hlyrs' : r'.nLyrs = r0.nLyrs := by rw [hsh]; exact hlyrs
  refine ⟨⟨by rw [ehdr]; exact hcs, by rw [ehdr]; exact hx, by rw [ehdr]; exact hy, sr0, sc0, by rw [ehdr]; exact hrows,
    by rw [ehdr]; exact hcols, hnod', hlyrs', hkm, fun rc h1 h2 => by rw [ehdr]; exact (hki rc h1).1 h2,
    ⟨_, _, Inv.full hF⟩, ?_⟩, hF⟩
  intro row col lyr hin h1 h2
  obtain ⟨hi, hv⟩ := hF.getValue row col lyr hin ⟨h1, by rw [hlyrs']; exact h2⟩
  rw [hv]
  have hin1 : In r1.hdr (row, col) := by rw [← ehdr]; exact hin
  have h3 := hcell row col hin1
  have hr := idx_range hin.1 hin.2.1 hin.2.2.1 hin.2.2.2
  rw [← ehdr, readAt_some_int _ _ hr.1 (by simp only at hr ⊢; omega)] at h3
  rw [Out.ok.inj h3]
  congr 1
  split
  · rfl
  · rw [List.getD_eq_getElem _ _ (by rw [List.length_replicate]; omega)]
    simp

end Raster
end CCGL
