import Verif.Lemmas.RasterHist
import Verif.Props.Coord
import Verif.Model.Mask
/-!
# Lemmas about masking
-/
namespace CCGL
namespace Raster

/-- A full raster whose cell number may not have been set yet. -/
structure Grid (r : Raster) (ls : List (List ℚ)) : Prop where
  holds : r.Holds ls
  rows_nn : 0 ≤ r.hdr.rows
  cols_nn : 0 ≤ r.hdr.cols
  len : (ls.length : Int) = r.hdr.rows * r.hdr.cols
  pd : r.posData = none
  pi : r.posIdx = none

theorem Full.toGrid {r : Raster} {ls} (h : r.Full ls) : r.Grid ls :=
  ⟨h.holds, h.rows_nn, h.cols_nn, h.len, h.pd, h.pi⟩

theorem Grid.ofShape {r r' : Raster} {ls ls'} (h : r.Grid ls) (hs : r.SameShape r') (hh : r'.Holds ls')
    (hl : ls'.length = ls.length) : r'.Grid ls' := by
  obtain ⟨a, b, rfl⟩ := hs
  exact ⟨hh, h.rows_nn, h.cols_nn, by rw [hl]; exact h.len, h.pd, h.pi⟩

def In (h : Header) (p : Int × Int) : Prop := 0 ≤ p.1 ∧ p.1 < h.rows ∧ 0 ≤ p.2 ∧ p.2 < h.cols
instance (h : Header) (p : Int × Int) : Decidable (In h p) := by unfold In; infer_instance
def ix (h : Header) (p : Int × Int) : Nat := (p.1 * h.cols + p.2).toNat

theorem Grid.ix_lt {r : Raster} {ls} (h : r.Grid ls) (p : Int × Int) (hin : In r.hdr p) : ix r.hdr p < ls.length := by
  have hr := idx_range hin.1 hin.2.1 hin.2.2.1 hin.2.2.2
  have := h.len
  unfold ix; omega

theorem ix_cast {h : Header} {p : Int × Int} (hin : In h p) : ((ix h p : Nat) : Int) = p.1 * h.cols + p.2 := by
  have hr := idx_range hin.1 hin.2.1 hin.2.2.1 hin.2.2.2
  unfold ix; omega

theorem ix_inj {h : Header} {p q : Int × Int} (hp : In h p) (hq : In h q) (e : ix h p = ix h q) : p = q := by
  have e1 := ix_cast hp
  have e2 := ix_cast hq
  have := idx_inj hp.2.2.1 hp.2.2.2 hq.2.2.1 hq.2.2.2 (by rw [← e1, ← e2, e])
  ext <;> simp [this]

theorem Grid.rowlen {r : Raster} {ls} (h : r.Grid ls) (i : Nat) (hi : i < ls.length) : ((ls.getD i []).length : Int) = r.nLyrs := by
  rw [List.getD_eq_getElem _ _ hi]
  exact h.holds.2.1 _ (List.getElem_mem hi)

theorem Grid.getValue {r : Raster} {ls} (h : r.Grid ls) (p : Int × Int) (lyr : Int) (hin : In r.hdr p)
    (hl : 1 ≤ lyr ∧ lyr ≤ r.nLyrs) : r.getValue p.1 p.2 lyr = .ok (cellAt ls (ix r.hdr p) (lyr - 1).toNat) := by
  have hi := h.ix_lt p hin
  have hin' : r.validRowCol p.1 p.2 = true := (validRowCol_iff r p.1 p.2).2 hin
  have hl' := (validLayer_iff r lyr).2 hl
  unfold Raster.getValue
  simp only [h.holds.valid, hin', hl', h.pd, h.pi, Bool.not_true, Bool.or_self, Bool.false_eq_true,
    if_false, Option.isSome_none, Bool.and_false]
  rw [← ix_cast hin]
  exact h.holds.readCell' _ hi lyr hl.1 hl.2

theorem setValue_nolayer (r : Raster) (row col lyr : Int) (v : ℚ) (hl : ¬ (1 ≤ lyr ∧ lyr ≤ r.nLyrs)) :
    r.setValue row col v lyr = .ok r := by
  rw [← validLayer_iff] at hl
  unfold Raster.setValue
  simp [hl]

theorem Grid.setValue {r : Raster} {ls} (h : r.Grid ls) (p : Int × Int) (lyr : Int) (v : ℚ) (hin : In r.hdr p)
    (hl : 1 ≤ lyr ∧ lyr ≤ r.nLyrs) :
    ∃ r', r.setValue p.1 p.2 v lyr = .ok r' ∧ r.SameShape r' ∧ r'.Grid (setCell ls (ix r.hdr p) (lyr - 1).toNat v) := by
  have hi := h.ix_lt p hin
  have hin' : r.validRowCol p.1 p.2 = true := (validRowCol_iff r p.1 p.2).2 hin
  have hl' := (validLayer_iff r lyr).2 hl
  obtain ⟨r', e1, e2, e3⟩ := h.holds.writeCell _ hi lyr hl.1 hl.2 v
  refine ⟨r', ?_, e2, h.ofShape e2 e3 (by simp)⟩
  have hp : r.getPosition p.1 p.2 = .ok (ix r.hdr p : Int) := by
    unfold Raster.getPosition
    simp only [h.holds.valid, hin', h.pd, Bool.not_true, Bool.or_self, Bool.false_eq_true, if_false, Option.isNone_none,
      Bool.or_true, Bool.true_or, if_true]
    rw [ix_cast hin, Int.mul_comm]
  unfold Raster.setValue
  simp only [h.holds.valid, hin', hl', Bool.not_true, Bool.or_self, Bool.false_eq_true, if_false, hp, Out.ok_bind]
  rw [if_neg (by omega)]; exact e1

/-- The value taken for a cell: the default where the raster has NoData and a default is given. -/
def fillV (noData dflt v : ℚ) : ℚ := if floatEqual v noData && !floatEqual dflt noData then dflt else v

/-- Two storages that agree in all cells but possibly one. -/
def AgreeBut (i : Nat) (ls ls' : List (List ℚ)) : Prop := ls'.length = ls.length ∧ ∀ j l, j ≠ i → cellAt ls' j l = cellAt ls j l

theorem AgreeBut.refl (i ls) : AgreeBut i ls ls := ⟨rfl, fun _ _ _ => rfl⟩
theorem AgreeBut.trans {i a b c} (h : AgreeBut i a b) (h' : AgreeBut i b c) : AgreeBut i a c :=
  ⟨h'.1.trans h.1, fun j l hj => (h'.2 j l hj).trans (h.2 j l hj)⟩

theorem maskLayers_spec (n : Nat) : ∀ (r : Raster) (ls : List (List ℚ)) (p : Int × Int) (lyr : Int), r.Grid ls → In r.hdr p →
    1 ≤ lyr → lyr + n ≤ r.nLyrs →
    ∃ r' ls', maskLayers r p lyr n =
        .ok (r', (List.range n).map (fun (k : Nat) => fillV r.noData r.dflt (cellAt ls (ix r.hdr p) (lyr.toNat + k)))) ∧
      r.SameShape r' ∧ r'.Grid ls' ∧ AgreeBut (ix r.hdr p) ls ls' := by
  induction n with
  | zero => intro r ls p lyr h _ _ _; exact ⟨r, ls, by simp [maskLayers], SameShape.refl r, h, AgreeBut.refl _ _⟩
  | succ n ih =>
    intro r ls p lyr h hin hl hn
    have hi := h.ix_lt p hin
    have hv := h.getValue p (lyr + 1) hin (by omega)
    rw [show (lyr + 1 - 1).toNat = lyr.toNat + 0 by omega] at hv
    unfold maskLayers
    rw [hv]
    simp only [Out.ok_bind]
    -- the raster after the possible write
    have hw : ∃ r1 ls1, (if floatEqual (cellAt ls (ix r.hdr p) (lyr.toNat + 0)) r.noData && !floatEqual r.dflt r.noData then
          (do let r' ← r.setValue p.1 p.2 r.dflt (lyr - 1)
              return (r', r.dflt))
        else .ok (r, cellAt ls (ix r.hdr p) (lyr.toNat + 0)) : Out (Raster × ℚ)) =
          .ok (r1, fillV r.noData r.dflt (cellAt ls (ix r.hdr p) (lyr.toNat + 0))) ∧
        r.SameShape r1 ∧ r1.Grid ls1 ∧ AgreeBut (ix r.hdr p) ls ls1 ∧
        ∀ l, lyr.toNat + 1 ≤ l → cellAt ls1 (ix r.hdr p) l = cellAt ls (ix r.hdr p) l := by
      unfold fillV
      split
      · by_cases hl2 : 1 ≤ lyr - 1 ∧ lyr - 1 ≤ r.nLyrs
        · obtain ⟨r1, e1, e2, e3⟩ := h.setValue p (lyr - 1) r.dflt hin hl2
          rw [e1]
          have hrl : (lyr - 1 - 1).toNat < (ls.getD (ix r.hdr p) []).length := by
            have := h.rowlen _ hi; omega
          refine ⟨r1, _, rfl, e2, e3, ⟨by simp, ?_⟩, ?_⟩
          · intro j l hj
            rw [cellAt_setCell _ _ _ _ hi hrl, if_neg (by tauto)]
          · intro l hl3
            rw [cellAt_setCell _ _ _ _ hi hrl, if_neg (by omega)]
        · rw [setValue_nolayer _ _ _ _ _ hl2]
          exact ⟨r, ls, rfl, SameShape.refl r, h, AgreeBut.refl _ _, fun _ _ => rfl⟩
      · exact ⟨r, ls, rfl, SameShape.refl r, h, AgreeBut.refl _ _, fun _ _ => rfl⟩
    obtain ⟨r1, ls1, e1, hs, hg, hag, hlate⟩ := hw
    rw [e1]
    simp only [Out.ok_bind]
    have hsh : r1.hdr = r.hdr ∧ r1.nLyrs = r.nLyrs ∧ r1.noData = r.noData ∧ r1.dflt = r.dflt := by
      obtain ⟨_, _, rfl⟩ := hs; exact ⟨rfl, rfl, rfl, rfl⟩
    obtain ⟨r2, ls2, e2, hs2, hg2, hag2⟩ := ih r1 ls1 p (lyr + 1) hg (by rw [hsh.1]; exact hin) (by omega)
      (by rw [hsh.2.1]; push_cast at hn; omega)
    rw [e2]
    simp only [Out.ok_bind, Out.pure_eq]
    rw [hsh.1] at hag2
    refine ⟨r2, ls2, ?_, hs.trans hs2, hg2, hag.trans hag2⟩
    rw [List.range_succ_eq_map, List.map_cons, List.map_map, hsh.1, hsh.2.2.1, hsh.2.2.2]
    congr 3
    apply List.map_congr_left
    intro k _
    simp only [Function.comp]
    rw [hlate _ (by omega)]
    congr 2; omega

/-- Values taken for the mask cell that falls on the raster cell `p`. -/
def takeVals (r : Raster) (ls : List (List ℚ)) (p : Int × Int) : List ℚ :=
  (List.range r.nLyrs.toNat).map (fun (l : Nat) => fillV r.noData r.dflt (cellAt ls (ix r.hdr p) l))

/-- The raster cell under a mask cell, as the code finds it. -/
def under (h mh : Header) (rc : Int × Int) : Int × Int :=
  posOfCoord h (coordOf mh rc.1 rc.2).1 (coordOf mh rc.1 rc.2).2

/-- Mask cells on the raster. -/
def insideB (h mh : Header) (rc : Int × Int) : Bool := !decide ((under h mh rc).1 = -1 ∨ (under h mh rc).2 = -1)

/-- Mask cells on valid cells of the raster. -/
def matchedB (r : Raster) (ls : List (List ℚ)) (mh : Header) (rc : Int × Int) : Bool :=
  insideB r.hdr mh rc && !floatEqual (cellAt ls (ix r.hdr (under r.hdr mh rc)) 0) r.noData

/-- The values stored for a mask cell. -/
def maskVals (r : Raster) (ls : List (List ℚ)) (mh : Header) (rc : Int × Int) : List ℚ :=
  if insideB r.hdr mh rc then takeVals r ls (under r.hdr mh rc) else List.replicate r.nLyrs.toNat r.noData

theorem others_eq {r : Raster} {ls} (h : r.Holds ls) :
    1 + (if r.is2d && decide (r.nLyrs > 1) then (r.nLyrs - 1).toNat else 0) = r.nLyrs.toNat := by
  have h1 := h.1
  have h2 := h.2.2
  cases hd : r.is2d
  · simp only [hd, Bool.false_eq_true, if_false] at h2
    simp [h2.1]
  · by_cases hg : r.nLyrs > 1
    · simp only [hg, decide_true, Bool.and_self, if_true]; omega
    · simp only [hg, decide_false, Bool.and_false, Bool.false_eq_true, if_false]; omega

theorem range_one_add (n : Nat) : List.range (1 + n) = 0 :: (List.range n).map (fun k => 1 + k) := by
  rw [Nat.add_comm, List.range_succ_eq_map]
  congr 1
  apply List.map_congr_left
  intro a _; omega

/-- The extent variables after the mask cells `done`. -/
structure BoxInv (mh : Header) (done : List (Int × Int)) (f : Int × Int → Bool) (a : MaskAcc) : Prop where
  maxRow : (∀ rc ∈ done, f rc = true → rc.1 ≤ a.maxRow) ∧ (a.maxRow = -1 ∨ ∃ rc ∈ done, f rc = true ∧ rc.1 = a.maxRow)
  minRow : (∀ rc ∈ done, f rc = true → a.minRow ≤ rc.1) ∧ (a.minRow = mh.rows ∨ ∃ rc ∈ done, f rc = true ∧ rc.1 = a.minRow)
  maxCol : (∀ rc ∈ done, f rc = true → rc.2 ≤ a.maxCol) ∧ (a.maxCol = -1 ∨ ∃ rc ∈ done, f rc = true ∧ rc.2 = a.maxCol)
  minCol : (∀ rc ∈ done, f rc = true → a.minCol ≤ rc.2) ∧ (a.minCol = mh.cols ∨ ∃ rc ∈ done, f rc = true ∧ rc.2 = a.minCol)

/-- The state of the loop after the mask cells `done`. -/
structure LoopInv (r0 : Raster) (ls0 : List (List ℚ)) (mh : Header) (done : List (Int × Int)) (a : MaskAcc) : Prop where
  shape : r0.SameShape a.ras
  grid : ∃ ls, a.ras.Grid ls ∧ ls.length = ls0.length ∧
    ∀ i, (∀ rc ∈ done, insideB r0.hdr mh rc = true → ix r0.hdr (under r0.hdr mh rc) ≠ i) → ∀ l, cellAt ls i l = cellAt ls0 i l
  cells : a.cells = done.map (fun rc => (rc, maskVals r0 ls0 mh rc))
  masked : a.masked = ((done.filter (insideB r0.hdr mh)).length : Int)
  matched : a.matched = ((done.filter (matchedB r0 ls0 mh)).length : Int)
  box : BoxInv mh done (matchedB r0 ls0 mh) a

theorem BoxInv.skip {mh done f a a'} (h : BoxInv mh done f a) (rc : Int × Int) (hf : f rc = false)
    (e1 : a'.maxRow = a.maxRow) (e2 : a'.minRow = a.minRow) (e3 : a'.maxCol = a.maxCol) (e4 : a'.minCol = a.minCol) :
    BoxInv mh (done ++ [rc]) f a' := by
  have hsub : ∀ (P : Int × Int → Prop), (∀ x ∈ done, f x = true → P x) → ∀ x ∈ done ++ [rc], f x = true → P x := by
    intro P hP x hx hfx
    rcases List.mem_append.1 hx with h1 | h1
    · exact hP x h1 hfx
    · rw [List.mem_singleton.1 h1, hf] at hfx; simp at hfx
  have hex : ∀ (P : Int × Int → Prop), (∃ x ∈ done, f x = true ∧ P x) → ∃ x ∈ done ++ [rc], f x = true ∧ P x := by
    rintro P ⟨x, hx, h2⟩; exact ⟨x, List.mem_append_left _ hx, h2⟩
  refine ⟨?_, ?_, ?_, ?_⟩
  · rw [e1]; exact ⟨hsub _ h.maxRow.1, h.maxRow.2.imp id (hex _)⟩
  · rw [e2]; exact ⟨hsub _ h.minRow.1, h.minRow.2.imp id (hex _)⟩
  · rw [e3]; exact ⟨hsub _ h.maxCol.1, h.maxCol.2.imp id (hex _)⟩
  · rw [e4]; exact ⟨hsub _ h.minCol.1, h.minCol.2.imp id (hex _)⟩

theorem BoxInv.add {mh done f a a'} (h : BoxInv mh done f a) (rc : Int × Int) (hf : f rc = true)
    (e1 : a'.maxRow = if a.maxRow < rc.1 then rc.1 else a.maxRow)
    (e2 : a'.minRow = if a.minRow > rc.1 then rc.1 else a.minRow)
    (e3 : a'.maxCol = if a.maxCol < rc.2 then rc.2 else a.maxCol)
    (e4 : a'.minCol = if a.minCol > rc.2 then rc.2 else a.minCol) :
    BoxInv mh (done ++ [rc]) f a' := by
  have hsub : ∀ (P : Int × Int → Prop), (∀ x ∈ done, f x = true → P x) → P rc → ∀ x ∈ done ++ [rc], f x = true → P x := by
    intro P hP hr x hx hfx
    rcases List.mem_append.1 hx with h1 | h1
    · exact hP x h1 hfx
    · rw [List.mem_singleton.1 h1]; exact hr
  have hex : ∀ (P : Int × Int → Prop), (∃ x ∈ done, f x = true ∧ P x) → ∃ x ∈ done ++ [rc], f x = true ∧ P x := by
    rintro P ⟨x, hx, h2⟩; exact ⟨x, List.mem_append_left _ hx, h2⟩
  have hme : rc ∈ done ++ [rc] := by simp
  refine ⟨?_, ?_, ?_, ?_⟩
  · rw [e1]
    by_cases hc : a.maxRow < rc.1
    · rw [if_pos hc]
      exact ⟨hsub _ (fun x hx hfx => le_trans (h.maxRow.1 x hx hfx) hc.le) le_rfl, .inr ⟨rc, hme, hf, rfl⟩⟩
    · rw [if_neg hc]
      exact ⟨hsub _ h.maxRow.1 (by omega), h.maxRow.2.imp id (hex _)⟩
  · rw [e2]
    by_cases hc : a.minRow > rc.1
    · rw [if_pos hc]
      exact ⟨hsub _ (fun x hx hfx => le_trans (le_of_lt hc) (h.minRow.1 x hx hfx)) le_rfl, .inr ⟨rc, hme, hf, rfl⟩⟩
    · rw [if_neg hc]
      exact ⟨hsub _ h.minRow.1 (by omega), h.minRow.2.imp id (hex _)⟩
  · rw [e3]
    by_cases hc : a.maxCol < rc.2
    · rw [if_pos hc]
      exact ⟨hsub _ (fun x hx hfx => le_trans (h.maxCol.1 x hx hfx) hc.le) le_rfl, .inr ⟨rc, hme, hf, rfl⟩⟩
    · rw [if_neg hc]
      exact ⟨hsub _ h.maxCol.1 (by omega), h.maxCol.2.imp id (hex _)⟩
  · rw [e4]
    by_cases hc : a.minCol > rc.2
    · rw [if_pos hc]
      exact ⟨hsub _ (fun x hx hfx => le_trans (le_of_lt hc) (h.minCol.1 x hx hfx)) le_rfl, .inr ⟨rc, hme, hf, rfl⟩⟩
    · rw [if_neg hc]
      exact ⟨hsub _ h.minCol.1 (by omega), h.minCol.2.imp id (hex _)⟩

theorem filter_snoc_len (f : Int × Int → Bool) (l : List (Int × Int)) (x : Int × Int) :
    (((l ++ [x]).filter f).length : Int) = ((l.filter f).length : Int) + if f x then 1 else 0 := by
  rw [List.filter_append, List.length_append]
  cases h : f x <;> simp [h]

/-- One mask cell. -/
theorem maskCell_spec (r0 : Raster) (ls0 : List (List ℚ)) (mh : Header) (done : List (Int × Int)) (a : MaskAcc)
    (h : LoopInv r0 ls0 mh done a) (rc : Int × Int) (hg0 : r0.Grid ls0)
    (hin : insideB r0.hdr mh rc = true → In r0.hdr (under r0.hdr mh rc))
    (hnew : insideB r0.hdr mh rc = true → ∀ x ∈ done, insideB r0.hdr mh x = true →
      ix r0.hdr (under r0.hdr mh x) ≠ ix r0.hdr (under r0.hdr mh rc)) :
    ∃ a', maskCell mh a rc = .ok a' ∧ LoopInv r0 ls0 mh (done ++ [rc]) a' := by
  obtain ⟨ls, hg, hlen, hsame⟩ := h.grid
  have hsh : a.ras.hdr = r0.hdr ∧ a.ras.nLyrs = r0.nLyrs ∧ a.ras.noData = r0.noData ∧ a.ras.dflt = r0.dflt ∧
      a.ras.is2d = r0.is2d := by
    obtain ⟨_, _, e⟩ := h.shape
    rw [e]; exact ⟨rfl, rfl, rfl, rfl, rfl⟩
  obtain ⟨e1, e2, e3, e4, e5⟩ := hsh
  have hoth := others_eq hg0.holds
  have hlyr := hg0.holds.1
  unfold maskCell
  dsimp only
  rw [e1, e2, e3, e4, e5]
  have hu : posOfCoord r0.hdr (coordOf mh rc.1 rc.2).1 (coordOf mh rc.1 rc.2).2 = under r0.hdr mh rc := rfl
  simp only [hu]
  by_cases hi : insideB r0.hdr mh rc = true
  · have hi' : ¬ ((under r0.hdr mh rc).1 = -1 ∨ (under r0.hdr mh rc).2 = -1) := by
      unfold insideB at hi; simpa using hi
    rw [if_neg hi']
    have hIn := hin hi
    have hv := hg.getValue (under r0.hdr mh rc) 1 (by rw [e1]; exact hIn) (by omega)
    have hold : ∀ l, cellAt ls (ix r0.hdr (under r0.hdr mh rc)) l = cellAt ls0 (ix r0.hdr (under r0.hdr mh rc)) l :=
      hsame _ (hnew hi)
    rw [e1, hold] at hv
    rw [hv]
    simp only [Out.ok_bind]
    -- values expected
    have hvals : maskVals r0 ls0 mh rc =
        fillV r0.noData r0.dflt (cellAt ls0 (ix r0.hdr (under r0.hdr mh rc)) 0) ::
          (List.range (if r0.is2d && decide (r0.nLyrs > 1) then (r0.nLyrs - 1).toNat else 0)).map (fun (k : Nat) =>
            fillV r0.noData r0.dflt (cellAt ls0 (ix r0.hdr (under r0.hdr mh rc)) (1 + k))) := by
      unfold maskVals takeVals
      rw [if_pos hi, ← hoth, range_one_add, List.map_cons, List.map_map]
      rfl
    have hoth2 : (1 : Int) + ((if r0.is2d && decide (r0.nLyrs > 1) then (r0.nLyrs - 1).toNat else 0 : Nat) : Int) ≤ r0.nLyrs := by
      have : ((1 + (if r0.is2d && decide (r0.nLyrs > 1) then (r0.nLyrs - 1).toNat else 0) : Nat) : Int) = r0.nLyrs := by
        rw [hoth]; omega
      push_cast at this ⊢
      omega
    -- after the layers
    have key : ∀ (r1 : Raster) (ls1 : List (List ℚ)), r0.SameShape r1 → r1.Grid ls1 → AgreeBut (ix r0.hdr (under r0.hdr mh rc)) ls ls1 →
        (∀ l, 1 ≤ l → cellAt ls1 (ix r0.hdr (under r0.hdr mh rc)) l = cellAt ls0 (ix r0.hdr (under r0.hdr mh rc)) l) →
        ∃ r2 ls2, maskLayers r1 (under r0.hdr mh rc) 1 (if r0.is2d && decide (r0.nLyrs > 1) then (r0.nLyrs - 1).toNat else 0) =
          .ok (r2, (List.range (if r0.is2d && decide (r0.nLyrs > 1) then (r0.nLyrs - 1).toNat else 0)).map (fun (k : Nat) =>
            fillV r0.noData r0.dflt (cellAt ls0 (ix r0.hdr (under r0.hdr mh rc)) (1 + k)))) ∧
          r0.SameShape r2 ∧ r2.Grid ls2 ∧ ls2.length = ls0.length ∧
          ∀ i, (∀ x ∈ done ++ [rc], insideB r0.hdr mh x = true → ix r0.hdr (under r0.hdr mh x) ≠ i) →
            ∀ l, cellAt ls2 i l = cellAt ls0 i l := by
      intro r1 ls1 hs1 hg1 hag1 hlate
      have hq : r1.hdr = r0.hdr ∧ r1.nLyrs = r0.nLyrs ∧ r1.noData = r0.noData ∧ r1.dflt = r0.dflt := by
        obtain ⟨_, _, e⟩ := hs1; rw [e]; exact ⟨rfl, rfl, rfl, rfl⟩
      obtain ⟨r2, ls2, m1, m2, m3, m4⟩ := maskLayers_spec
        (if r0.is2d && decide (r0.nLyrs > 1) then (r0.nLyrs - 1).toNat else 0) r1 ls1
        (under r0.hdr mh rc) 1 hg1 (by rw [hq.1]; exact hIn) (by omega) (by rw [hq.2.1]; exact hoth2)
      refine ⟨r2, ls2, ?_, hs1.trans m2, m3, ?_, ?_⟩
      · rw [m1, hq.1, hq.2.2.1, hq.2.2.2]
        congr 2
        apply List.map_congr_left
        intro k _
        rw [show (1 : Int).toNat = 1 from rfl, hlate _ (by omega)]
      · rw [m4.1, hag1.1, hlen]
      · intro i hne l
        have hi2 : i ≠ ix r0.hdr (under r0.hdr mh rc) := (hne rc (by simp) hi).symm
        rw [hq.1] at m4
        rw [m4.2 i l hi2, hag1.2 i l hi2]
        exact hsame i (fun x hx => hne x (by simp [hx])) l
    by_cases hnd : floatEqual (cellAt ls0 (ix r0.hdr (under r0.hdr mh rc)) (1 - 1 : Int).toNat) r0.noData = true
    · rw [if_pos hnd]
      have hmf : matchedB r0 ls0 mh rc = false := by
        unfold matchedB
        have : floatEqual (cellAt ls0 (ix r0.hdr (under r0.hdr mh rc)) 0) r0.noData = true := hnd
        rw [this]; simp
      have hw : ∃ r1 ls1, (if (!floatEqual r0.dflt r0.noData) = true then
            (do let r' ← a.ras.setValue (under r0.hdr mh rc).1 (under r0.hdr mh rc).2 r0.dflt 1
                return (r', r0.dflt))
          else .ok (a.ras, cellAt ls0 (ix r0.hdr (under r0.hdr mh rc)) (1 - 1 : Int).toNat) : Out (Raster × ℚ)) =
            .ok (r1, fillV r0.noData r0.dflt (cellAt ls0 (ix r0.hdr (under r0.hdr mh rc)) 0)) ∧ r0.SameShape r1 ∧ r1.Grid ls1 ∧
            AgreeBut (ix r0.hdr (under r0.hdr mh rc)) ls ls1 ∧
            (∀ l, 1 ≤ l → cellAt ls1 (ix r0.hdr (under r0.hdr mh rc)) l = cellAt ls0 (ix r0.hdr (under r0.hdr mh rc)) l) := by
        have hnd' : floatEqual (cellAt ls0 (ix r0.hdr (under r0.hdr mh rc)) 0) r0.noData = true := hnd
        unfold fillV
        rw [hnd', Bool.true_and]
        by_cases hdf : (!floatEqual r0.dflt r0.noData) = true
        · rw [if_pos hdf, if_pos hdf]
          have hi2 := hg.ix_lt (under r0.hdr mh rc) (by rw [e1]; exact hIn)
          obtain ⟨r1, w1, w2, w3⟩ := hg.setValue (under r0.hdr mh rc) 1 r0.dflt (by rw [e1]; exact hIn) (by omega)
          rw [e1] at w3 hi2
          rw [w1]
          have hrl : ((1 : Int) - 1).toNat < (ls.getD (ix r0.hdr (under r0.hdr mh rc)) []).length := by
            have := hg.rowlen _ hi2; omega
          refine ⟨r1, _, rfl, h.shape.trans w2, w3, ⟨by simp, ?_⟩, ?_⟩
          · intro j l hj
            rw [cellAt_setCell _ _ _ _ hi2 hrl, if_neg (by tauto)]
          · intro l hl
            rw [cellAt_setCell _ _ _ _ hi2 hrl, if_neg (by omega), hold]
        · rw [if_neg hdf, if_neg hdf]
          exact ⟨a.ras, ls, rfl, h.shape, hg, AgreeBut.refl _ _, fun l _ => hold l⟩
      obtain ⟨r1, ls1, w1, w2, w3, w4, w5⟩ := hw
      rw [w1]
      simp only [Out.ok_bind]
      obtain ⟨r2, ls2, k1, k2, k3, k4, k5⟩ := key r1 ls1 w2 w3 w4 w5
      rw [k1]
      simp only [Out.ok_bind, Out.pure_eq]
      refine ⟨_, rfl, k2, ⟨ls2, k3, k4, k5⟩, ?_, ?_, ?_, h.box.skip rc hmf rfl rfl rfl rfl⟩
      · rw [h.cells, List.map_append, List.map_singleton, hvals]
      · rw [filter_snoc_len, hi, h.masked]; rfl
      · rw [filter_snoc_len, hmf, h.matched]; simp
    · rw [if_neg hnd]
      have hnd' : floatEqual (cellAt ls0 (ix r0.hdr (under r0.hdr mh rc)) 0) r0.noData = false := by
        rw [Bool.not_eq_true] at hnd; exact hnd
      have hmt : matchedB r0 ls0 mh rc = true := by
        unfold matchedB
        rw [hi, hnd']; rfl
      obtain ⟨r2, ls2, k1, k2, k3, k4, k5⟩ := key a.ras ls h.shape hg (AgreeBut.refl _ _) (fun l _ => hold l)
      rw [k1]
      simp only [Out.ok_bind, Out.pure_eq]
      refine ⟨_, rfl, k2, ⟨ls2, k3, k4, k5⟩, ?_, ?_, ?_, h.box.add rc hmt rfl rfl rfl rfl⟩
      · rw [h.cells, List.map_append, List.map_singleton, hvals]
        unfold fillV
        rw [hnd']
        simp
      · rw [filter_snoc_len, hi, h.masked]; rfl
      · rw [filter_snoc_len, hmt, h.matched]; rfl
  · have hi' : (under r0.hdr mh rc).1 = -1 ∨ (under r0.hdr mh rc).2 = -1 := by
      unfold insideB at hi
      by_contra hc
      exact hi (by simpa using hc)
    rw [if_pos hi']
    have hif : insideB r0.hdr mh rc = false := by simpa using hi
    have hmf : matchedB r0 ls0 mh rc = false := by unfold matchedB; rw [hif]; rfl
    refine ⟨_, rfl, h.shape, ⟨ls, hg, hlen, ?_⟩, ?_, ?_, ?_, h.box.skip rc hmf rfl rfl rfl rfl⟩
    · intro i hne l
      exact hsame i (fun x hx => hne x (by simp [hx])) l
    · rw [h.cells, List.map_append, List.map_singleton]
      unfold maskVals
      rw [if_neg hi, ← hoth, Nat.add_comm, List.replicate_succ]
    · rw [filter_snoc_len, hif, h.masked]; simp
    · rw [filter_snoc_len, hmf, h.matched]; simp

/-- The whole loop. -/
theorem maskLoop_spec (r0 : Raster) (ls0 : List (List ℚ)) (mh : Header) (hg0 : r0.Grid ls0) (rest : List (Int × Int)) :
    ∀ (done : List (Int × Int)) (a : MaskAcc), LoopInv r0 ls0 mh done a →
    (∀ rc ∈ rest, insideB r0.hdr mh rc = true → In r0.hdr (under r0.hdr mh rc)) →
    (done ++ rest).Pairwise (fun x y => insideB r0.hdr mh x = true → insideB r0.hdr mh y = true →
      under r0.hdr mh x ≠ under r0.hdr mh y) →
    (∀ rc ∈ done, insideB r0.hdr mh rc = true → In r0.hdr (under r0.hdr mh rc)) →
    ∃ a', maskLoop mh rest a = .ok a' ∧ LoopInv r0 ls0 mh (done ++ rest) a' := by
  induction rest with
  | nil => intro done a h _ _ _; exact ⟨a, rfl, by simpa using h⟩
  | cons rc rest ih =>
    intro done a h hin hpw hdone
    have hnew : insideB r0.hdr mh rc = true → ∀ x ∈ done, insideB r0.hdr mh x = true →
        ix r0.hdr (under r0.hdr mh x) ≠ ix r0.hdr (under r0.hdr mh rc) := by
      intro h1 x hx h2 he
      have := (List.pairwise_append.1 hpw).2.2 x hx rc (by simp) h2 h1
      exact this (ix_inj (hdone x hx h2) (hin rc (by simp) h1) he)
    obtain ⟨a1, e1, h1⟩ := maskCell_spec r0 ls0 mh done a h rc hg0 (hin rc (by simp)) hnew
    have e : done ++ rc :: rest = (done ++ [rc]) ++ rest := by simp
    obtain ⟨a2, e2, h2⟩ := ih (done ++ [rc]) a1 h1 (fun x hx => hin x (by simp [hx])) (by rw [← e]; exact hpw) (by
      intro x hx
      rcases List.mem_append.1 hx with h3 | h3
      · exact hdone x h3
      · rw [List.mem_singleton.1 h3]; exact hin rc (by simp))
    refine ⟨a2, ?_, by rw [e]; exact h2⟩
    unfold maskLoop
    rw [e1]
    exact e2

theorem loop_init (r0 : Raster) (ls0 : List (List ℚ)) (mh : Header) (hg0 : r0.Grid ls0) :
    LoopInv r0 ls0 mh [] ⟨r0, [], -1, mh.rows, -1, mh.cols, 0, 0⟩ :=
  ⟨SameShape.refl _, ⟨ls0, hg0, rfl, fun _ _ _ => rfl⟩, rfl, rfl, rfl,
    ⟨⟨by simp, .inl rfl⟩, ⟨by simp, .inl rfl⟩, ⟨by simp, .inl rfl⟩, ⟨by simp, .inl rfl⟩⟩⟩

end Raster
end CCGL
