import Verif.Lemmas.MaskRes
import Verif.Spec.Mask
/-!
# Lemmas about masking: from rows and columns to geographic points
-/
namespace CCGL
namespace Raster
open Spec

theorem center_inj {g : Spec.Grid} (hd : 0 < g.dx) {row col row' col' : Int} (h : g.center row col = g.center row' col') :
    row = row' ∧ col = col' := by
  unfold Spec.Grid.center at h
  rw [Prod.mk.injEq] at h
  obtain ⟨h1, h2⟩ := h
  have e1 : (col : ℚ) = col' := by
    have : ((col : ℚ) - col') * g.dx = 0 := by linarith
    rcases mul_eq_zero.1 this with h | h
    · linarith
    · exact absurd h hd.ne'
  have e2 : (row : ℚ) = row' := by
    have : ((row : ℚ) - row') * g.dx = 0 := by linarith
    rcases mul_eq_zero.1 this with h | h
    · linarith
    · exact absurd h hd.ne'
  exact ⟨by exact_mod_cast e2, by exact_mod_cast e1⟩

theorem center_shift {h h' : Header} {sr sc : Int} (hcs : h'.cellsize = h.cellsize)
    (hx : h'.xll = h.xll + sc * h.cellsize)
    (hy : h'.yll = h.yll + ((h.rows - h'.rows - sr : Int) : ℚ) * h.cellsize) (row col : Int) :
    h'.grid.center row col = h.grid.center (row + sr) (col + sc) := by
  rw [← coordOf_eq, ← coordOf_eq]
  unfold coordOf
  rw [hcs, hx, hy]
  refine Prod.ext ?_ ?_ <;> simp only <;> push_cast <;> ring

/-- The positions of the mask. -/
structure MaskPos (mask m : Raster) (ps : List (Int × Int)) : Prop where
  run : mask.maskPositions = .ok (m, ps.length, some ps)
  rows : m.hdr.rows = mask.hdr.rows
  cols : m.hdr.cols = mask.hdr.cols
  cs : m.hdr.cellsize = mask.hdr.cellsize
  xll : m.hdr.xll = mask.hdr.xll
  yll : m.hdr.yll = mask.hdr.yll
  comp : ps = [] ∨ ∃ lsM, m.Compact lsM ps
  mem : ∀ row col : Int, (row, col) ∈ ps ↔ (mask.hdr.grid.CellInside row col ∧
    ∃ v, mask.getValue row col 1 = .ok v ∧ floatEqual v mask.noData = false)

theorem floatEqual_self (v : ℚ) : floatEqual v v = true := by
  unfold floatEqual; simp

theorem maskPos_exists {mask : Raster} (hm : mask.RInv) (hc : CleanMask mask) : ∃ m ps, MaskPos mask m ps := by
  have emptyCase : ∀ {mask : Raster}, mask.Empty → ∃ m ps, MaskPos mask m ps := by
    intro mask h
    refine ⟨mask, [], h.positions, rfl, rfl, rfl, rfl, rfl, .inl rfl, ?_⟩
    intro row col
    simp only [List.not_mem_nil, false_iff, not_and, not_exists]
    intro _ v hv
    rw [h.getValue] at hv
    simp only [Out.ok.injEq] at hv
    subst hv
    simp [floatEqual_self]
  rcases hm with ⟨ls, loc, h⟩ | ⟨h2, h⟩
  · cases h with
    | full h =>
      obtain ⟨m, e, hh, _, _, hcase⟩ := h.positions
      refine ⟨m, _, e, by rw [hh], by rw [hh], by rw [hh], by rw [hh], by rw [hh], hcase, ?_⟩
      intro row col
      unfold validCells
      rw [List.mem_filter, mem_gridCells]
      constructor
      · rintro ⟨hin, hv⟩
        have hin' : 0 ≤ row ∧ row < mask.hdr.rows ∧ 0 ≤ col ∧ col < mask.hdr.cols := hin
        refine ⟨hin', ?_⟩
        obtain ⟨hi, hg⟩ := h.getValue row col 1 hin' ⟨le_rfl, h.holds.1⟩
        refine ⟨_, hg, ?_⟩
        simp only [Bool.not_eq_true'] at hv
        rw [List.getD_eq_getElem _ _ hi] at hv
        have : ls[(row * mask.hdr.cols + col).toNat].headD 0 = ls[(row * mask.hdr.cols + col).toNat].getD ((1 : Int) - 1).toNat 0 := by
          cases ls[(row * mask.hdr.cols + col).toNat] <;> rfl
        rw [← this]; exact hv
      · rintro ⟨hin', v, hv, hf⟩
        refine ⟨hin', ?_⟩
        obtain ⟨hi, hg⟩ := h.getValue row col 1 hin' ⟨le_rfl, h.holds.1⟩
        rw [hg] at hv
        simp only [Bool.not_eq_true']
        rw [List.getD_eq_getElem _ _ hi]
        have : ls[(row * mask.hdr.cols + col).toNat].headD 0 = ls[(row * mask.hdr.cols + col).toNat].getD ((1 : Int) - 1).toNat 0 := by
          cases ls[(row * mask.hdr.cols + col).toNat] <;> rfl
        rw [this]
        simp only [Out.ok.injEq] at hv
        rw [hv]; exact hf
    | comp h =>
      rename_i ps
      refine ⟨mask, ps, h.positions, rfl, rfl, rfl, rfl, rfl, .inr ⟨_, h⟩, ?_⟩
      have hcl : ∀ row col, Spec.Stored mask row col → ∃ v, mask.getValue row col 1 = .ok v ∧ floatEqual v mask.noData = false := by
        rcases hc with h1 | h1
        · rw [h.pd] at h1; simp at h1
        · exact h1
      intro row col
      constructor
      · intro hmem
        refine ⟨h.inside _ hmem, hcl row col ?_⟩
        rw [(Inv.comp h).stored]
        unfold compLoc
        rw [if_pos hmem]; exact ⟨_, rfl⟩
      · rintro ⟨hin, v, hv, hf⟩
        by_contra hno
        rw [(h.getValue_miss row col 1 hin hno).2] at hv
        simp only [Out.ok.injEq] at hv
        subst hv
        simp [floatEqual_self] at hf
    | empty h h1 => exact emptyCase h
  · exact emptyCase h

theorem ReadGrid.grid {r : Raster} (h : ReadGrid r) : ∃ ls, r.Grid ls := by
  cases h with
  | file h data calcPos useMaskExt dflt hr hc hlen =>
    refine ⟨data.map (fun v => [v]), ⟨le_rfl, ?_, ?_⟩, hr.le, hc.le, by rw [List.length_map]; exact hlen, rfl, rfl⟩
    · intro c hc
      obtain ⟨v, _, rfl⟩ := List.mem_map.1 hc
      rfl
    · simp [ofFile, init, List.map_map, Function.comp_def]
  | store h data calcPos useMaskExt dflt hr hc hl hlen hrow =>
    exact ⟨data, ⟨hl, hrow, rfl⟩, hr.le, hc.le, hlen, rfl, rfl⟩
  | store1 h data calcPos useMaskExt dflt hr hc hlen =>
    refine ⟨data.map (fun v => [v]), ⟨le_rfl, ?_, ?_⟩, hr.le, hc.le, by rw [List.length_map]; exact hlen, rfl, rfl⟩
    · intro c hc
      obtain ⟨v, _, rfl⟩ := List.mem_map.1 hc
      rfl
    · simp [ofStore1, ofFile, init, List.map_map, Function.comp_def]

/-- What a raster shows, for a full grid. -/
theorem Grid.shows {r : Raster} {ls} (hg : r.Grid ls) (hd : 0 < r.hdr.cellsize) (row col : Int) (hin : In r.hdr (row, col)) (lyr : Int)
    (v : ℚ) : Shows r (r.hdr.grid.center row col).1 (r.hdr.grid.center row col).2 lyr v ↔
      (1 ≤ lyr ∧ lyr ≤ r.nLyrs) ∧ v = cellAt ls (ix r.hdr (row, col)) (lyr - 1).toNat ∧ floatEqual v r.noData = false := by
  constructor
  · rintro ⟨row', col', hi, hc, hv, hf⟩
    obtain ⟨rfl, rfl⟩ := center_inj (g := r.hdr.grid) hd hc
    by_cases hl : 1 ≤ lyr ∧ lyr ≤ r.nLyrs
    · rw [hg.getValue (row', col') lyr hin hl] at hv
      simp only [Out.ok.injEq] at hv
      exact ⟨hl, hv.symm, hf⟩
    · rw [getValue_outside r row' col' lyr (.inr hl)] at hv
      simp only [Out.ok.injEq] at hv
      subst hv
      simp [floatEqual_self] at hf
  · rintro ⟨hl, rfl, hf⟩
    exact ⟨row, col, hin, rfl, hg.getValue (row, col) lyr hin hl, hf⟩

/-- The placement of mask and raster. -/
structure Placed (r mask : Raster) (ls : List (List ℚ)) (m : Raster) (ps : List (Int × Int)) (dr dc : Int) : Prop where
  grid : r.Grid ls
  cs : 0 < r.hdr.cellsize
  pos : MaskPos mask m ps
  shift : ShiftBy r.hdr m.hdr dr dc
  geo : ∀ row col : Int, mask.hdr.grid.center row col = r.hdr.grid.center (row + dr) (col + dc)

theorem placed_exists {r mask : Raster} (hr : ReadGrid r) (hm : mask.RInv) (hcl : CleanMask mask)
    (hg : CommonGrid r.hdr mask.hdr) : ∃ ls m ps dr dc, Placed r mask ls m ps dr dc := by
  obtain ⟨ls, hgr⟩ := ReadGrid.grid hr
  obtain ⟨m, ps, hp⟩ := maskPos_exists hm hcl
  obtain ⟨hd, hcs, a, b, hx, hy⟩ := hg
  refine ⟨ls, m, ps, r.hdr.rows - mask.hdr.rows - b, a, hgr, hd, hp, ?_, ?_⟩
  · intro rc
    have := under_common (mh := m.hdr) hd (by rw [hp.cs, hcs]) a b (by rw [hp.xll, hx]) (by rw [hp.yll, hy]) rc
    rw [hp.rows] at this
    exact this
  · intro row col
    refine center_shift (sr := r.hdr.rows - mask.hdr.rows - b) (sc := a) hcs hx ?_ row col
    rw [hy]
    congr 3
    omega

theorem Placed.validAt {r mask ls m ps dr dc} (h : Placed r mask ls m ps dr dc) (hmc : 0 < mask.hdr.cellsize) (row col : Int) :
    ValidAt mask (mask.hdr.grid.center row col).1 (mask.hdr.grid.center row col).2 ↔ (row, col) ∈ ps := by
  rw [h.pos.mem]
  constructor
  · rintro ⟨v, row', col', hi, hc, hv, hf⟩
    obtain ⟨rfl, rfl⟩ := center_inj (g := mask.hdr.grid) hmc hc
    exact ⟨hi, v, hv, hf⟩
  · rintro ⟨hi, v, hv, hf⟩
    exact ⟨v, row, col, hi, rfl, hv, hf⟩

theorem Placed.validAt_pt {r mask ls m ps dr dc} (h : Placed r mask ls m ps dr dc) (x y : ℚ) (hv : ValidAt mask x y) :
    ∃ rc ∈ ps, mask.hdr.grid.center rc.1 rc.2 = (x, y) := by
  obtain ⟨v, row, col, hi, hc, hv, hf⟩ := hv
  exact ⟨(row, col), (h.pos.mem row col).2 ⟨hi, v, hv, hf⟩, hc⟩

theorem Placed.matched {r mask ls m ps dr dc} (h : Placed r mask ls m ps dr dc) (rc : Int × Int) :
    ValidAt r (mask.hdr.grid.center rc.1 rc.2).1 (mask.hdr.grid.center rc.1 rc.2).2 ↔ matchedB r ls m.hdr rc = true := by
  rw [h.geo]
  have hl := h.grid.holds.1
  constructor
  · rintro ⟨v, hs⟩
    have hs' := hs
    obtain ⟨row', col', hi, hc, _, _⟩ := hs
    obtain ⟨rfl, rfl⟩ := center_inj (g := r.hdr.grid) h.cs hc
    have hin : In r.hdr (rc.1 + dr, rc.2 + dc) := hi
    rw [h.grid.shows h.cs _ _ hin] at hs'
    obtain ⟨_, e, hf⟩ := hs'
    have hi' := (h.shift.inside rc).2 hin
    unfold matchedB
    rw [hi', h.shift.under rc hi']
    subst e
    simpa using hf
  · intro hmt
    have hi := matched_inside hmt
    have hin := (h.shift.inside rc).1 hi
    refine ⟨_, (h.grid.shows h.cs _ _ hin 1 _).2 ⟨⟨le_rfl, hl⟩, rfl, ?_⟩⟩
    unfold matchedB at hmt
    rw [hi, h.shift.under rc hi] at hmt
    simpa using hmt

theorem maskVals_getD {r : Raster} {ls} (mh : Header) (rc : Int × Int) {lyr : Int} (h1 : 1 ≤ lyr) (h2 : lyr ≤ r.nLyrs) :
    (maskVals r ls mh rc).getD (lyr - 1).toNat 0 = if insideB r.hdr mh rc then
      fillV r.noData r.dflt (cellAt ls (ix r.hdr (under r.hdr mh rc)) (lyr - 1).toNat) else r.noData := by
  unfold maskVals takeVals
  have : (lyr - 1).toNat < r.nLyrs.toNat := by omega
  split
  · rw [List.getD_eq_getElem _ _ (by simpa using this)]
    simp
  · rw [List.getD_eq_getElem _ _ (by simpa using this)]
    simp

/-- The masked raster is right. -/
theorem MaskedAt.right {r mask ls m ps dr dc} (h : Placed r mask ls m ps dr dc) (hmc : 0 < mask.hdr.cellsize)
    {r' : Raster} {sr sc : Int} {keep} (hm : MaskedAt r ls m.hdr ps r' sr sc keep) : MaskedRight r mask r' := by
  have hctr : ∀ row col : Int, r'.hdr.grid.center row col = mask.hdr.grid.center (row + sr) (col + sc) := by
    intro row col
    have := center_shift (h := mask.hdr) (h' := r'.hdr) (sr := sr) (sc := sc) (by rw [hm.cs, h.pos.cs])
      (by rw [hm.xll, h.pos.xll, h.pos.cs]) (by rw [hm.yll, h.pos.yll, h.pos.cs, h.pos.rows]) row col
    exact this
  have hl0 := h.grid.holds.1
  constructor
  · rintro x y lyr v ⟨row, col, hi, hc, hv, hf⟩
    have hin : In r'.hdr (row, col) := hi
    by_cases hl : 1 ≤ lyr ∧ lyr ≤ r.nLyrs
    swap
    · rw [getValue_outside r' row col lyr (.inr (by rw [hm.lyrs]; exact hl))] at hv
      simp only [Out.ok.injEq] at hv
      subst hv
      simp [floatEqual_self] at hf
    rw [hm.val row col lyr hin hl.1 hl.2] at hv
    simp only [Out.ok.injEq] at hv
    rw [hm.nod] at hf
    rw [hctr] at hc
    split at hv
    swap
    · subst hv
      simp [floatEqual_self] at hf
    next hk =>
    have hx : x = (mask.hdr.grid.center (row + sr) (col + sc)).1 := by rw [hc]
    have hy : y = (mask.hdr.grid.center (row + sr) (col + sc)).2 := by rw [hc]
    refine ⟨?_, ?_⟩
    · rw [hx, hy, h.validAt hmc]; exact hk.1
    · rw [maskVals_getD m.hdr _ hl.1 hl.2] at hv
      split at hv
      swap
      · subst hv
        simp [floatEqual_self] at hf
      next hi' =>
      have hin' := (h.shift.inside _).1 hi'
      rw [h.shift.under _ hi'] at hv
      simp only at hin' hv
      rw [hx, hy, h.geo]
      have hsh := h.grid.shows h.cs (row + sr + dr) (col + sc + dc) hin' lyr
      unfold fillV at hv
      split at hv
      · next hd =>
        simp only [Bool.and_eq_true, Bool.not_eq_true'] at hd
        right
        refine ⟨⟨_, _, hin', rfl⟩, ?_, hv.symm⟩
        rintro ⟨w, hw⟩
        rw [hsh] at hw
        obtain ⟨_, e, hf'⟩ := hw
        rw [e, hd.1] at hf'
        simp at hf'
      · left
        rw [hsh]
        exact ⟨hl, hv.symm, hf⟩
  · intro x y lyr v hvm hvr hs
    obtain ⟨rc, hrc, hc⟩ := h.validAt_pt x y hvm
    have hx : x = (mask.hdr.grid.center rc.1 rc.2).1 := by rw [hc]
    have hy : y = (mask.hdr.grid.center rc.1 rc.2).2 := by rw [hc]
    rw [hx, hy, h.matched] at hvr
    have hk := hm.keepMatched rc hrc hvr
    have hin := hm.keepIn rc hrc hk
    have hi := matched_inside hvr
    have hin' := (h.shift.inside rc).1 hi
    rw [hx, hy, h.geo, h.grid.shows h.cs _ _ hin'] at hs
    obtain ⟨hl, e, hf⟩ := hs
    refine ⟨rc.1 - sr, rc.2 - sc, hin, ?_, ?_, by rw [hm.nod]; exact hf⟩
    · rw [hctr, ← hc]
      congr 1 <;> omega
    · rw [hm.val _ _ lyr hin hl.1 hl.2]
      have e1 : (rc.1 - sr + sr, rc.2 - sc + sc) = rc := by ext <;> simp
      rw [e1, if_pos ⟨hrc, hk⟩, maskVals_getD m.hdr rc hl.1 hl.2, if_pos hi, h.shift.under rc hi, ← e]
      unfold fillV
      rw [hf]; rfl

/-- The positions of an initialised raster agree. -/
theorem Inv.agree {r : Raster} {ls loc} (h : Inv r ls loc) (hd : 0 < r.hdr.cellsize) : PositionsAgree r := by
  constructor
  intro i h0 h1
  rw [h.ncells] at h1
  obtain ⟨row, col, hloc⟩ := h.surj i.toNat (by omega)
  have hin := (h.inside hloc).1
  have hpos := h.pos row col
  rw [hloc] at hpos
  simp only at hpos
  have hi : ((i.toNat : Nat) : Int) = i := by omega
  rw [hi] at hpos
  refine ⟨row, col, hin, hpos, ?_, ?_, ?_, ?_, ?_⟩
  · rw [← coordOf_eq]; exact C06_roundtrip r.hdr hd row col hin
  · intro n1 n2 n3
    rw [C07_getPosition_xy r hd row col _ _ n1 n2 n3 hin (center_inCell r.hdr.grid hd row col)]
    exact hpos
  · intro ps hp
    cases h with
    | full h => rw [h.pd] at hp; simp at hp
    | comp h =>
      rw [h.pd] at hp
      simp only [Option.some.injEq] at hp
      subst hp
      unfold compLoc at hloc
      split at hloc
      · next hmem =>
        simp only [Option.some.injEq] at hloc
        rw [← hloc, List.getElem?_eq_getElem (List.idxOf_lt_length_of_mem hmem), List.getElem_idxOf]
      · simp at hloc
    | empty h _ => simp at hloc
  · intro is hp
    cases h with
    | full h => rw [h.pi] at hp; simp at hp
    | comp h =>
      rw [h.pi] at hp
      simp only [Option.some.injEq] at hp
      subst hp
      unfold compLoc at hloc
      split at hloc
      · next hmem =>
        simp only [Option.some.injEq] at hloc
        rw [← hloc, List.getElem?_map, List.getElem?_eq_getElem (List.idxOf_lt_length_of_mem hmem), List.getElem_idxOf]
        rfl
      · simp at hloc
    | empty h _ => simp at hloc
  · intro lyr l1 l2
    have hne : ls ≠ [] := by rintro rfl; simp at h1; omega
    rw [h.val row col lyr ⟨l1, l2⟩, hloc]
    unfold Raster.getValueByIndex
    have hv1 := (h.holds hne).valid
    have hv2 := (validIndex_iff r i).2 ⟨h0, by rw [h.ncells]; exact h1⟩
    have hv3 := (validLayer_iff r lyr).2 ⟨l1, l2⟩
    simp only [hv1, hv2, hv3, Bool.not_true, Bool.or_self, Bool.false_eq_true, if_false]
    have := (h.holds hne).readCell' i.toNat (by omega) lyr l1 l2
    rw [hi] at this
    exact this

end Raster
end CCGL
