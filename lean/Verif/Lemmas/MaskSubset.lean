import Verif.Spec.MaskSubset
import Verif.Lemmas.Built
/-!
# Lemmas about the subsets of the mask
-/
namespace CCGL
namespace Raster
open Spec

theorem foldl_min (f : α → Int) (l : List α) : ∀ a : Int,
    (l.foldl (fun (a : Int) x => if f x < a then f x else a) a ≤ a) ∧
    (∀ x ∈ l, l.foldl (fun (a : Int) x => if f x < a then f x else a) a ≤ f x) ∧
    (l.foldl (fun (a : Int) x => if f x < a then f x else a) a = a ∨
      ∃ x ∈ l, l.foldl (fun (a : Int) x => if f x < a then f x else a) a = f x) := by
  induction l with
  | nil => intro a; simp
  | cons y l ih =>
    intro a
    rw [List.foldl_cons]
    obtain ⟨h1, h2, h3⟩ := ih (if f y < a then f y else a)
    generalize l.foldl (fun (a : Int) x => if f x < a then f x else a) (if f y < a then f y else a) = z at h1 h2 h3
    refine ⟨?_, ?_, ?_⟩
    · split at h1 <;> omega
    · intro x hx
      rcases List.mem_cons.1 hx with rfl | hx
      · split at h1 <;> omega
      · exact h2 x hx
    · rcases h3 with h3 | ⟨x, hx, h3⟩
      · split at h3
        · exact .inr ⟨y, by simp, h3⟩
        · exact .inl h3
      · exact .inr ⟨x, by simp [hx], h3⟩

theorem foldl_max (f : α → Int) (l : List α) : ∀ a : Int,
    (a ≤ l.foldl (fun (a : Int) x => if f x > a then f x else a) a) ∧
    (∀ x ∈ l, f x ≤ l.foldl (fun (a : Int) x => if f x > a then f x else a) a) ∧
    (l.foldl (fun (a : Int) x => if f x > a then f x else a) a = a ∨
      ∃ x ∈ l, l.foldl (fun (a : Int) x => if f x > a then f x else a) a = f x) := by
  induction l with
  | nil => intro a; simp
  | cons y l ih =>
    intro a
    rw [List.foldl_cons]
    obtain ⟨h1, h2, h3⟩ := ih (if f y > a then f y else a)
    generalize l.foldl (fun (a : Int) x => if f x > a then f x else a) (if f y > a then f y else a) = z at h1 h2 h3
    refine ⟨?_, ?_, ?_⟩
    · split at h1 <;> omega
    · intro x hx
      rcases List.mem_cons.1 hx with rfl | hx
      · split at h1 <;> omega
      · exact h2 x hx
    · rcases h3 with h3 | ⟨x, hx, h3⟩
      · split at h3
        · exact .inr ⟨y, by simp, h3⟩
        · exact .inl h3
      · exact .inr ⟨x, by simp [hx], h3⟩

/-- The centre of a cell outside of the grid is rejected. -/
theorem getPositionXY_center_outside (r : Raster) (hd : 0 < r.hdr.cellsize) (row col : Int) (ho : ¬ r.hdr.grid.CellInside row col) :
    r.getPositionXY (r.hdr.grid.center row col).1 (r.hdr.grid.center row col).2 = .ok (-2) := by
  unfold getPositionXY
  dsimp only
  split
  · rfl
  · have hcol : 0 ≤ col → ¬ (col < r.hdr.cols) →
        (r.hdr.grid.center row col).1 > r.hdr.xll - r.hdr.cellsize / 2 + r.hdr.cellsize * r.hdr.cols := by
      intro _ h
      have h' : (r.hdr.cols : ℚ) ≤ col := by exact_mod_cast (by omega : r.hdr.cols ≤ col)
      have := mul_le_mul_of_nonneg_right h' hd.le
      simp only [Spec.Grid.center, Header.grid, Spec.Grid.left]
      linarith
    have hcol' : ¬ 0 ≤ col → (r.hdr.grid.center row col).1 < r.hdr.xll - r.hdr.cellsize / 2 := by
      intro h
      have h' : (col : ℚ) + 1 ≤ 0 := by exact_mod_cast (by omega : col + 1 ≤ 0)
      have := mul_nonneg (by linarith : 0 ≤ - ((col : ℚ) + 1)) hd.le
      simp only [Spec.Grid.center, Header.grid, Spec.Grid.left]
      linarith
    have hrow : 0 ≤ row → ¬ (row < r.hdr.rows) → (r.hdr.grid.center row col).2 < r.hdr.yll - r.hdr.cellsize / 2 := by
      intro _ h
      have h' : (r.hdr.rows : ℚ) ≤ row := by exact_mod_cast (by omega : r.hdr.rows ≤ row)
      have := mul_le_mul_of_nonneg_right h' hd.le
      simp only [Spec.Grid.center, Header.grid, Spec.Grid.top, Spec.Grid.bottom]
      linarith
    have hrow' : ¬ 0 ≤ row → (r.hdr.grid.center row col).2 > r.hdr.yll - r.hdr.cellsize / 2 + r.hdr.cellsize * r.hdr.rows := by
      intro h
      have h' : (row : ℚ) + 1 ≤ 0 := by exact_mod_cast (by omega : row + 1 ≤ 0)
      have := mul_nonneg (by linarith : 0 ≤ - ((row : ℚ) + 1)) hd.le
      simp only [Spec.Grid.center, Header.grid, Spec.Grid.top, Spec.Grid.bottom]
      linarith
    by_cases h1 : 0 ≤ col
    · by_cases h2 : col < r.hdr.cols
      · split
        · rfl
        · rw [if_pos]
          by_cases h3 : 0 ≤ row
          · right
            refine hrow h3 (fun h4 => ho ⟨h3, h4, h1, h2⟩)
          · exact .inl (hrow' h3)
      · rw [if_pos (.inl (hcol h1 h2))]
    · rw [if_pos (.inr (hcol' h1))]

/-- What a cell of the masked raster (in its rows and columns) contributes. -/
def okB (r : Raster) (ls : List (List ℚ)) (loc : Int → Int → Option Nat) (p : Int × Int) : Bool :=
  match loc p.1 p.2 with
  | some i => !floatEqual (cellAt ls i 0) r.noData
  | none => false

/-- No coordinate is taken for a missing one. -/
def CoordsOk (h : Header) : Prop :=
  floatEqual h.xll NODATA = false ∧ floatEqual h.yll NODATA = false ∧ floatEqual h.cellsize NODATA = false

theorem Inv.validAt {r : Raster} {ls loc} (h : Inv r ls loc) (hd : 0 < r.hdr.cellsize) (p : Int × Int) :
    ValidAt r (r.hdr.grid.center p.1 p.2).1 (r.hdr.grid.center p.1 p.2).2 ↔ okB r ls loc p = true := by
  have hv := h.val p.1 p.2 1 ⟨le_rfl, h.lyrs⟩
  unfold okB
  constructor
  · rintro ⟨v, row, col, hin, hc, hg, hf⟩
    obtain ⟨rfl, rfl⟩ := center_inj (g := r.hdr.grid) hd hc
    rw [hv] at hg
    simp only [Out.ok.injEq] at hg
    cases hl : loc p.1 p.2 with
    | none =>
      rw [hl] at hg
      simp only at hg
      subst hg
      simp [floatEqual_self] at hf
    | some i =>
      rw [hl] at hg
      simp only [sub_self, Int.toNat_zero] at hg
      subst hg
      simpa using hf
  · intro ho
    cases hl : loc p.1 p.2 with
    | none => rw [hl] at ho; simp at ho
    | some i =>
      rw [hl] at ho hv
      simp only [Bool.not_eq_true'] at ho
      simp only [sub_self, Int.toNat_zero] at hv
      exact ⟨_, p.1, p.2, (h.inside hl).1, rfl, hv, ho⟩

/-- The loop over the cells of a subset. -/
theorem maskSubLoop_spec {r : Raster} {ls loc} (h : Inv r ls loc) (hd : 0 < r.hdr.cellsize) (hc : 0 < r.hdr.rows → 0 < r.hdr.cols → CoordsOk r.hdr)
    (mh : Header) (vp : List (Int × Int)) (s : Subset) (q : Nat → Int × Int) (is : List Nat)
    (hq : ∀ i ∈ is, ∃ g rc, readAt s.glob i = .ok g ∧ readAt (some vp) g = .ok rc ∧
      mh.grid.center rc.1 rc.2 = r.hdr.grid.center (q i).1 (q i).2) :
    maskSubLoop r mh vp s is =
      .ok (((is.map q).filter (okB r ls loc)).map (fun p => (p, (((loc p.1 p.2).getD 0 : Nat) : Int)))) := by
  induction is with
  | nil => rfl
  | cons i is ih =>
    have ih' := ih (fun j hj => hq j (by simp [hj]))
    obtain ⟨g, rc, e1, e2, e3⟩ := hq i (by simp)
    unfold maskSubLoop
    rw [e1]
    simp only [Out.ok_bind]
    rw [e2]
    simp only [Out.ok_bind, coordOf_eq, e3]
    rw [List.map_cons]
    by_cases hin : r.hdr.grid.CellInside (q i).1 (q i).2
    · have hc := hc (by have := hin.1; have : (q i).1 < r.hdr.rows := hin.2.1; omega)
        (by have := hin.2.2.1; have : (q i).2 < r.hdr.cols := hin.2.2.2; omega)
      rw [C07_getPosition_xy r hd (q i).1 (q i).2 _ _ hc.1 hc.2.1 hc.2.2 hin (center_inCell r.hdr.grid hd _ _)]
      have hp := h.pos (q i).1 (q i).2
      have hv := h.val (q i).1 (q i).2 1 ⟨le_rfl, h.lyrs⟩
      have hpc : posOfCoord r.hdr (r.hdr.grid.center (q i).1 (q i).2).1 (r.hdr.grid.center (q i).1 (q i).2).2 = q i := by
        rw [← coordOf_eq]; exact C06_roundtrip r.hdr hd _ _ hin
      cases hl : loc (q i).1 (q i).2 with
      | none =>
        rw [hl] at hp
        simp only at hp
        rw [List.filter_cons_of_neg (by unfold okB; rw [hl]; simp)]
        rcases hp with hp | hp <;> rw [hp] <;> simp only [Out.ok_bind] <;> rw [if_pos (by omega)] <;> exact ih'
      | some j =>
        rw [hl] at hp hv
        simp only at hp hv
        rw [hp]
        simp only [Out.ok_bind]
        rw [if_neg (by omega), hpc]
        unfold isNoData
        rw [hv]
        simp only [Out.ok_bind, Out.pure_eq, sub_self, Int.toNat_zero]
        by_cases hf : floatEqual (cellAt ls j 0) r.noData = true
        · rw [if_pos hf, List.filter_cons_of_neg (by unfold okB; rw [hl]; simp [hf])]
          exact ih'
        · rw [if_neg hf, List.filter_cons_of_pos (by unfold okB; rw [hl]; simpa using hf), hp, ih']
          simp only [Out.ok_bind, List.map_cons, hl, Option.getD_some]
    · rw [getPositionXY_center_outside r hd _ _ hin]
      simp only [Out.ok_bind]
      rw [if_pos (by omega), List.filter_cons_of_neg]
      · exact ih'
      · unfold okB
        cases hl : loc (q i).1 (q i).2 with
        | none => simp
        | some j => exact absurd (h.inside hl).1 hin

theorem Inv.localRC {r : Raster} {ls loc} (h : Inv r ls loc) (srow scol : Int) {row col : Int} {i : Nat}
    (hl : loc row col = some i) : r.localRC srow scol (i : Int) = .ok (row - srow, col - scol) := by
  obtain ⟨⟨r0, r1, c0, c1⟩, hi⟩ := h.inside hl
  have hdm : ∀ x : Int, x = row * r.hdr.cols + col → Int.tdiv x r.hdr.cols = row ∧ Int.tmod x r.hdr.cols = col := by
    rintro x rfl
    have hnn : 0 ≤ row * r.hdr.cols + col := (idx_range r0 r1 c0 c1).1
    rw [Int.tdiv_eq_ediv_of_nonneg hnn, Int.tmod_eq_emod_of_nonneg hnn]
    constructor
    · rw [Int.add_comm, Int.add_mul_ediv_right _ _ (by omega), Int.ediv_eq_zero_of_lt c0 c1]; omega
    · rw [Int.add_comm, Int.add_mul_emod_self_right, Int.emod_eq_of_lt c0 c1]
  unfold Raster.localRC
  cases h with
  | full h =>
    rw [h.pd, if_pos (by simp), if_neg (by omega)]
    unfold fullLoc at hl
    rw [if_pos ⟨r0, r1, c0, c1⟩] at hl
    simp only [Option.some.injEq] at hl
    have hnn : 0 ≤ row * r.hdr.cols + col := (idx_range r0 r1 c0 c1).1
    obtain ⟨e1, e2⟩ := hdm i (by omega)
    rw [e1, e2]
  | comp h =>
    rw [h.pd, h.pi, if_neg (by simp)]
    unfold compLoc at hl
    split at hl
    · next hm =>
      simp only [Option.some.injEq] at hl
      have hlt := List.idxOf_lt_length_of_mem hm
      have hg : _ := List.getElem_idxOf hlt
      subst hl
      rw [readAt_some_nat _ _ (by simpa using hlt)]
      simp only [Out.ok_bind, List.getElem_map, hg]
      rw [if_neg (by omega)]
      obtain ⟨e1, e2⟩ := hdm _ rfl
      rw [e1, e2]
    · simp at hl
  | empty h _ => simp at hl

/-- One subset: dropped if no point is valid; recomputed with the valid points if asked for. -/
theorem maskSub_spec {r : Raster} {ls loc} (h : Inv r ls loc) (hd : 0 < r.hdr.cellsize) (hc : 0 < r.hdr.rows → 0 < r.hdr.cols → CoordsOk r.hdr)
    (mh : Header) (vp : List (Int × Int)) (s : Subset) (q : Nat → Int × Int) (pts : List (ℚ × ℚ))
    (hn : s.nCells = pts.length) (hp : ∀ (j : Nat) (hj : j < pts.length), pts[j] = r.hdr.grid.center (q j).1 (q j).2)
    (hq : ∀ j < pts.length, ∃ g rc, readAt s.glob j = .ok g ∧ readAt (some vp) g = .ok rc ∧
      mh.grid.center rc.1 rc.2 = r.hdr.grid.center (q j).1 (q j).2) (recalc : Bool) :
    ∃ o, maskSub r mh vp recalc s = .ok o ∧ (validPts r pts = [] → o = none) ∧
      (validPts r pts ≠ [] → recalc = false → o = some { s with nLyrs := r.nLyrs }) ∧
      (validPts r pts ≠ [] → recalc = true → ∃ s', o = some s' ∧ SubsetAt r s' (validPts r pts) ∧ s'.nLyrs = r.nLyrs ∧
        s'.usable = s.usable) := by
  have hloop := maskSubLoop_spec h hd hc mh vp s q (List.range s.nCells.toNat) (by
    intro i hi
    refine hq i ?_
    rw [List.mem_range, hn] at hi
    omega)
  have hlen : s.nCells.toNat = pts.length := by omega
  rw [hlen] at hloop
  generalize hK : ((List.range pts.length).map q).filter (okB r ls loc) = K at hloop
  have hpts : pts = ((List.range pts.length).map q).map (fun p => r.hdr.grid.center p.1 p.2) := by
    apply List.ext_getElem
    · simp
    · intro j h1 h2
      simp [hp j h1]
  have hvp : validPts r pts = K.map (fun p => r.hdr.grid.center p.1 p.2) := by
    unfold validPts
    conv_lhs => rw [hpts]
    rw [List.filter_map, ← hK]
    congr 1
    apply List.filter_congr
    intro p _
    rw [Bool.eq_iff_iff]
    simp only [Function.comp, decide_eq_true_eq]
    exact h.validAt hd p
  have hin : ∀ p ∈ K, ∃ i, loc p.1 p.2 = some i := by
    intro p hpk
    rw [← hK] at hpk
    have := (List.mem_filter.1 hpk).2
    unfold okB at this
    cases hl : loc p.1 p.2 with
    | none => rw [hl] at this; simp at this
    | some i => exact ⟨i, rfl⟩
  unfold maskSub
  rw [hlen, hloop]
  simp only [Out.ok_bind, List.map_eq_nil_iff]
  by_cases hnil : K = []
  · rw [if_pos hnil]
    have : validPts r pts = [] := by rw [hvp, hnil]; rfl
    exact ⟨none, rfl, fun _ => rfl, fun h1 => absurd this h1, fun h1 => absurd this h1⟩
  · rw [if_neg hnil]
    have hne : validPts r pts ≠ [] := by rw [hvp]; simpa using hnil
    cases recalc with
    | false =>
      exact ⟨_, rfl, fun h1 => absurd h1 hne, fun _ _ => rfl, fun _ h2 => by simp at h2⟩
    | true =>
      rw [if_pos rfl]
      simp only [List.foldl_map, List.map_map, Function.comp_def]
      generalize hsr : K.foldl (fun (a : Int) x => if x.1 < a then x.1 else a) r.hdr.rows = srow
      generalize her : K.foldl (fun (a : Int) x => if x.1 > a then x.1 else a) (-1) = erow
      generalize hsc : K.foldl (fun (a : Int) x => if x.2 < a then x.2 else a) r.hdr.cols = scol
      generalize hec : K.foldl (fun (a : Int) x => if x.2 > a then x.2 else a) (-1) = ecol
      have f1 := foldl_min (fun x : Int × Int => x.1) K r.hdr.rows
      have f2 := foldl_max (fun x : Int × Int => x.1) K (-1)
      have f3 := foldl_min (fun x : Int × Int => x.2) K r.hdr.cols
      have f4 := foldl_max (fun x : Int × Int => x.2) K (-1)
      simp only [hsr] at f1
      simp only [her] at f2
      simp only [hsc] at f3
      simp only [hec] at f4
      have hinside : ∀ p ∈ K, r.hdr.grid.CellInside p.1 p.2 := by
        intro p hpk
        obtain ⟨i, hi⟩ := hin p hpk
        exact (h.inside hi).1
      obtain ⟨x0, hx0⟩ := List.exists_mem_of_ne_nil _ hnil
      have hi0 := hinside x0 hx0
      obtain ⟨a1, a2, a3, a4⟩ := hi0
      simp only [Header.grid] at a2 a4
      have t1 : ∃ x ∈ K, srow = x.1 := by
        rcases f1.2.2 with e | e
        · have := f1.2.1 x0 hx0; omega
        · exact e
      have t2 : ∃ x ∈ K, erow = x.1 := by
        rcases f2.2.2 with e | e
        · have := f2.2.1 x0 hx0; omega
        · exact e
      have t3 : ∃ x ∈ K, scol = x.2 := by
        rcases f3.2.2 with e | e
        · have := f3.2.1 x0 hx0; omega
        · exact e
      have t4 : ∃ x ∈ K, ecol = x.2 := by
        rcases f4.2.2 with e | e
        · have := f4.2.1 x0 hx0; omega
        · exact e
      have hmap : (K.map (fun p => (p, (((loc p.1 p.2).getD 0 : Nat) : Int)))).mapM
          (fun (x : (Int × Int) × Int) => r.localRC srow scol x.2) = .ok (K.map (fun p => (p.1 - srow, p.2 - scol))) := by
        rw [mapM_ok (g := fun (x : (Int × Int) × Int) => (x.1.1 - srow, x.1.2 - scol))]
        · rw [List.map_map]; rfl
        · intro x hx
          obtain ⟨p, hpk, rfl⟩ := List.mem_map.1 hx
          obtain ⟨i, hi⟩ := hin p hpk
          simp only [hi, Option.getD_some]
          exact h.localRC srow scol hi
      rw [hmap]
      simp only [Out.ok_bind, Out.pure_eq]
      refine ⟨_, rfl, fun h1 => absurd h1 hne, fun _ h2 => by simp at h2, fun _ _ => ⟨_, rfl, ?_, rfl, rfl⟩⟩
      rw [hvp]
      constructor
      · simp
      · intro j hj
        have hj' : j < K.length := by simpa using hj
        obtain ⟨i, hi⟩ := hin K[j] (List.getElem_mem hj')
        have hpos := h.pos K[j].1 K[j].2
        rw [hi] at hpos
        have hlt := (h.inside hi).2
        refine ⟨K[j].1, K[j].2, i, hinside _ (List.getElem_mem hj'), by simp, ?_, by omega, ?_, hpos, ?_, ?_,
          f1.2.1 _ (List.getElem_mem hj'), f2.2.1 _ (List.getElem_mem hj'), f3.2.1 _ (List.getElem_mem hj'),
          f4.2.1 _ (List.getElem_mem hj')⟩
        · rw [readAt_some_nat _ _ (by simpa using hj')]
          simp [hi]
        · rw [h.ncells]; omega
        · rw [readAt_some_nat _ _ (by simpa using hj')]
          simp
        · rw [readAt_some_nat _ _ (by simpa using hj')]
          simp
      · obtain ⟨x, hx, e⟩ := t1
        exact ⟨x.2, by rw [List.mem_map]; exact ⟨x, hx, by rw [e]⟩⟩
      · obtain ⟨x, hx, e⟩ := t2
        exact ⟨x.2, by rw [List.mem_map]; exact ⟨x, hx, by rw [e]⟩⟩
      · obtain ⟨x, hx, e⟩ := t3
        exact ⟨x.1, by rw [List.mem_map]; exact ⟨x, hx, by rw [e]⟩⟩
      · obtain ⟨x, hx, e⟩ := t4
        exact ⟨x.1, by rw [List.mem_map]; exact ⟨x, hx, by rw [e]⟩⟩

end Raster
end CCGL

namespace CCGL
namespace Raster
open Spec

theorem get_none_of_not_mem {β : Type} (m : IMap β) (k : Int) (h : k ∉ m.map (·.1)) : IMap.get m k = none := by
  induction m with
  | nil => rfl
  | cons e m ih =>
    rw [List.map_cons, List.mem_cons, not_or] at h
    rw [IMap.get_cons, if_neg (fun h1 => h.1 h1.symm), ih h.2]

/-- All subsets. -/
theorem maskSubs_spec {r : Raster} {mh : Header} {vp : List (Int × Int)} {recalc : Bool} (subs : IMap Subset)
    (hs : (subs.map (·.1)).Pairwise (· < ·)) (o : Int → Option Subset)
    (ho : ∀ e ∈ subs, maskSub r mh vp recalc e.2 = .ok (o e.1)) :
    ∃ subs', maskSubs r mh vp recalc subs = .ok subs' ∧ (∀ e ∈ subs', e.1 ∈ subs.map (·.1)) ∧
      ∀ k, IMap.get subs' k = if (IMap.get subs k).isSome then o k else none := by
  induction subs with
  | nil => exact ⟨[], rfl, by simp, fun k => rfl⟩
  | cons e subs ih =>
    rw [List.map_cons, List.pairwise_cons] at hs
    obtain ⟨l, el, hk, hg⟩ := ih hs.2 (fun x hx => ho x (by simp [hx]))
    unfold maskSubs
    rw [ho e (by simp), el]
    simp only [Out.ok_bind, Out.pure_eq]
    have hnl : IMap.get l e.1 = none := by
      apply get_none_of_not_mem
      intro hm
      obtain ⟨x, hx, ex⟩ := List.mem_map.1 hm
      have := hs.1 _ (hk x hx)
      omega
    cases hoe : o e.1 with
    | none =>
      refine ⟨l, rfl, fun x hx => by simp only [List.map_cons, List.mem_cons]; exact .inr (hk x hx), fun k => ?_⟩
      rw [IMap.get_cons]
      by_cases hek : e.1 = k
      · subst hek
        rw [if_pos rfl, hnl, hoe]; rfl
      · rw [if_neg hek]; exact hg k
    | some s =>
      refine ⟨(e.1, s) :: l, rfl, ?_, fun k => ?_⟩
      · intro x hx
        rw [List.map_cons, List.mem_cons]
        rcases List.mem_cons.1 hx with rfl | hx
        · exact .inl rfl
        · exact .inr (hk x hx)
      · rw [IMap.get_cons, IMap.get_cons]
        by_cases hek : e.1 = k
        · subst hek
          simp [hoe]
        · simp only [if_neg hek]; exact hg k

end Raster
end CCGL
