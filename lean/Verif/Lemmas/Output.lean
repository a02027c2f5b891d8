import Verif.Spec.Output
import Verif.Lemmas.SubsetData
import Mathlib.Data.List.Sort
/-! Lemmas for full-size output. -/
namespace CCGL
open Raster Spec

theorem rowCells_flatten (rows cols : Int) : (rowCells rows cols).flatten = gridCells rows cols := by
  unfold rowCells gridCells; rw [List.flatMap_def]

/-- Positions in row-major order are a sublist of the cells of the grid. -/
theorem Raster.Compact.sublist {r : Raster} {ls ps} (h : r.Compact ls ps) :
    ps.Sublist (gridCells r.hdr.rows r.hdr.cols) := by
  have hs := h.sorted
  rw [List.pairwise_map] at hs
  have hg := gridCells_sorted r.hdr.rows r.hdr.cols h.rows_nn h.cols_nn
  rw [List.pairwise_map] at hg
  have : ps = (gridCells r.hdr.rows r.hdr.cols).filter (fun rc => decide (rc ∈ ps)) := by
    haveI : Std.Irrefl (fun a b : Int × Int => a.1 * r.hdr.cols + a.2 < b.1 * r.hdr.cols + b.2) :=
      ⟨fun a => by omega⟩
    haveI : Std.Antisymm (fun a b : Int × Int => a.1 * r.hdr.cols + a.2 < b.1 * r.hdr.cols + b.2) :=
      ⟨fun a b h1 h2 => by omega⟩
    apply List.Pairwise.eq_of_mem_iff hs (hg.sublist List.filter_sublist)
    intro a
    rw [List.mem_filter, mem_gridCells]
    constructor
    · intro ha; exact ⟨h.inside a ha, by simpa using ha⟩
    · rintro ⟨_, ha⟩; simpa using ha
  rw [this]; exact List.filter_sublist

theorem ascScan_spec (ps : List (Int × Int)) (read : Int → Out ℚ) (val : Nat → ℚ) (fill : ℚ) (n : Int)
    (hn : n = ps.length) (hnd : ps.Nodup) (hval : ∀ i : Nat, i < ps.length → read i = .ok (val i)) :
    ∀ (cells : List (Int × Int)) (hc : cells.Nodup) (pre a b : List (Int × Int)), ps = pre ++ (a ++ b) →
      a.Sublist cells → (∀ x ∈ b, x ∉ cells) →
    ascScan (some ps) read fill n pre.length cells =
      .ok (cells.map (fun rc => if rc ∈ a then val (ps.idxOf rc) else fill), (pre.length + a.length : Nat)) := by
  intro cells
  induction cells with
  | nil =>
    intro _ pre a b _ hs _
    have : a = [] := List.sublist_nil.1 hs
    subst this; simp [ascScan]
  | cons c cells ih =>
    intro hc pre a b hps hs hb
    have hcn := List.nodup_cons.1 hc
    have hlen : ps.length = pre.length + (a.length + b.length) := by rw [hps]; simp
    -- not a hit
    have miss : (∀ x ∈ a, x ≠ c) → a.Sublist cells → 
        (do let (vs, e) ← ascScan (some ps) read fill n pre.length cells
            return (fill :: vs, e)) =
        Out.ok ((c :: cells).map (fun rc => if rc ∈ a then val (ps.idxOf rc) else fill),
          ((pre.length + a.length : Nat) : Int)) := by
      intro hx hs'
      rw [ih hcn.2 pre a b hps hs' (fun x hxb hxc => hb x hxb (List.mem_cons_of_mem _ hxc))]
      have : c ∉ a := fun h => hx c h rfl
      simp [this]
    cases a with
    | nil =>
      unfold ascScan
      by_cases hlt : ((pre.length : Nat) : Int) < n
      · rw [if_pos hlt]
        have hb0 : pre.length < ps.length := by omega
        rw [readAt_some_nat _ _ hb0]
        simp only [Out.ok_bind]
        have hne : ¬(ps[pre.length].1 = c.1 ∧ ps[pre.length].2 = c.2) := by
          intro hh
          have hc' : ps[pre.length] = c := Prod.ext hh.1 hh.2
          have hmem : ps[pre.length] ∈ b := by
            have : ps[pre.length] = b[0]'(by simp at hlen; omega) := by
              simp [hps]
            rw [this]; exact List.getElem_mem _
          rw [hc'] at hmem
          exact hb c hmem (List.mem_cons_self)
        rw [if_neg hne]
        exact miss (by simp) (List.nil_sublist _)
      · rw [if_neg hlt]
        exact miss (by simp) (List.nil_sublist _)
    | cons p a =>
      have hlt : ((pre.length : Nat) : Int) < n := by simp at hlen; omega
      have hb0 : pre.length < ps.length := by omega
      have hp : ps[pre.length] = p := by simp [hps]
      unfold ascScan
      rw [if_pos hlt, readAt_some_nat _ _ hb0]
      simp only [Out.ok_bind, hp]
      by_cases hpc : p = c
      · subst hpc
        rw [if_pos ⟨rfl, rfl⟩, hval _ hb0]
        simp only [Out.ok_bind]
        have hs' : a.Sublist cells := by
          rcases List.sublist_cons_iff.1 hs with h | ⟨r, h, h'⟩
          · have := h.subset (List.mem_cons_self); exact absurd this hcn.1
          · injection h with _ h; rw [h]; exact h'
        have := ih hcn.2 (pre ++ [p]) a b (by rw [hps]; simp) hs'
          (fun x hxb hxc => hb x hxb (List.mem_cons_of_mem _ hxc))
        rw [show (((pre ++ [p]).length : Nat) : Int) = (pre.length : Int) + 1 by simp] at this
        rw [this]
        have hidx : ps.idxOf p = pre.length := by
          rw [← hp]; exact hnd.idxOf_getElem _ _
        have hcongr : ∀ rc ∈ cells, (if rc ∈ a then val (ps.idxOf rc) else fill) =
            (if rc ∈ p :: a then val (ps.idxOf rc) else fill) := by
          intro rc hrc
          have : rc ≠ p := by rintro rfl; exact hcn.1 hrc
          simp [this]
        simp only [Out.ok_bind, Out.pure_eq, List.map_cons, List.mem_cons, true_or, if_true, hidx]
        rw [List.map_congr_left hcongr]
        simp [Nat.add_assoc, Nat.add_comm, Nat.add_left_comm, add_comm, add_left_comm]
      · have hne : ¬(p.1 = c.1 ∧ p.2 = c.2) := fun hh => hpc (Prod.ext hh.1 hh.2)
        rw [if_neg hne]
        have hs' : (p :: a).Sublist cells := by
          rcases List.sublist_cons_iff.1 hs with h | ⟨r, h, h'⟩
          · exact h
          · injection h with h; exact absurd h hpc
        refine miss ?_ hs'
        rintro x hx rfl
        exact hcn.1 (hs'.subset hx)

theorem ascScanRows_spec (ps : List (Int × Int)) (read : Int → Out ℚ) (val : Nat → ℚ) (fill : ℚ) (n : Int)
    (hn : n = ps.length) (hnd : ps.Nodup) (hval : ∀ i : Nat, i < ps.length → read i = .ok (val i)) :
    ∀ (rows : List (List (Int × Int))) (_ : rows.flatten.Nodup) (pre a : List (Int × Int)), ps = pre ++ a →
      a.Sublist rows.flatten →
    ascScanRows (some ps) read fill n pre.length rows =
      .ok (rows.map (fun row => row.map (fun rc => if rc ∈ a then val (ps.idxOf rc) else fill))) := by
  intro rows
  induction rows with
  | nil => intro _ pre a _ _; simp [ascScanRows]
  | cons row rows ih =>
    intro hrn pre a hps hs
    rw [List.flatten_cons] at hrn hs
    obtain ⟨hr1, hr2, hdis⟩ := List.nodup_append.1 hrn
    obtain ⟨a1, a2, rfl, h1, h2⟩ := List.sublist_append_iff.1 hs
    unfold ascScanRows
    rw [ascScan_spec ps read val fill n hn hnd hval row hr1 pre a1 a2 hps h1
      (fun x hx hx' => hdis x hx' x (h2.subset hx) rfl)]
    simp only [Out.ok_bind]
    have := ih hr2 (pre ++ a1) a2 (by rw [hps]; simp) h2
    rw [show (pre ++ a1).length = pre.length + a1.length by simp] at this
    rw [this]
    simp only [Out.ok_bind, Out.pure_eq, List.map_cons, Out.ok.injEq, List.cons.injEq]
    constructor
    · apply List.map_congr_left
      intro rc hrc
      have : rc ∉ a2 := fun h => hdis rc hrc rc (h2.subset h) rfl
      simp [this]
    · apply List.map_congr_left
      intro row' hrow'
      apply List.map_congr_left
      intro rc hrc
      have : rc ∉ a1 := fun h => hdis rc (h1.subset h) rc (List.mem_flatten.2 ⟨row', hrow', hrc⟩) rfl
      simp [this]

theorem rowCells_mem {rows cols : Int} {row : List (Int × Int)} (h : row ∈ rowCells rows cols)
    {rc : Int × Int} (hrc : rc ∈ row) : 0 ≤ rc.1 ∧ rc.1 < rows ∧ 0 ≤ rc.2 ∧ rc.2 < cols := by
  rw [← mem_gridCells, ← rowCells_flatten]
  exact List.mem_flatten.2 ⟨row, h, hrc⟩

/-- Rows of values printed row by row. -/
theorem ascFile_grid (pr : ℚ → Str) (h : Header) (g : Int → Int → ℚ) :
    ascFile pr h ((rowCells h.rows h.cols).map (fun row => row.map (fun rc => g rc.1 rc.2))) =
      gridFile pr h g := by
  unfold ascFile gridFile rowCells ascRowText nl
  simp [List.flatMap_map, Function.comp_def]

/-- The value printed in place of a cell without stored value. -/
def fillGrid (ls : List (List ℚ)) (loc : Int → Int → Option Nat) (fill : ℚ) (l : Nat) (row col : Int) : ℚ :=
  match loc row col with
  | some m => cellAt ls m l
  | none => fill

theorem Raster.Full.ascRows {r : Raster} {ls} (h : r.Full ls) (pos fill) (l : Nat) (hl : (l : Int) < r.nLyrs) :
    r.ascLayerRows true pos fill l = .ok ((rowCells r.hdr.rows r.hdr.cols).map (fun row =>
      row.map (fun rc => fillGrid ls (fullLoc r.hdr) fill l rc.1 rc.2))) := by
  unfold ascLayerRows
  rw [if_pos rfl]
  apply mapM_ok
  intro row hrow
  apply mapM_ok
  intro rc hrc
  have hin := rowCells_mem hrow hrc
  have hr := idx_range hin.1 hin.2.1 hin.2.2.1 hin.2.2.2
  have hlen := h.len
  have hi : (rc.1 * r.hdr.cols + rc.2).toNat < ls.length := by omega
  have := h.holds.readCell' _ hi ((l : Int) + 1) (by omega) (by omega)
  rw [show (((rc.1 * r.hdr.cols + rc.2).toNat : Nat) : Int) = rc.1 * r.hdr.cols + rc.2 by omega] at this
  rw [this]
  unfold fillGrid fullLoc
  rw [if_pos hin]
  simp

theorem Raster.Compact.nodup {r : Raster} {ls ps} (h : r.Compact ls ps) : ps.Nodup := by
  have := h.sorted
  rw [List.pairwise_map] at this
  exact this.imp (by rintro a b hab rfl; omega)

theorem Raster.Compact.ascRows {r : Raster} {ls ps} (h : r.Compact ls ps) (fill) (l : Nat)
    (hl : (l : Int) < r.nLyrs) :
    r.ascLayerRows false (some ps) fill l = .ok ((rowCells r.hdr.rows r.hdr.cols).map (fun row =>
      row.map (fun rc => fillGrid ls (compLoc ps) fill l rc.1 rc.2))) := by
  unfold ascLayerRows
  rw [if_neg (by simp)]
  have hsub := h.sublist
  rw [← rowCells_flatten] at hsub
  have hnd : (rowCells r.hdr.rows r.hdr.cols).flatten.Nodup := by
    rw [rowCells_flatten]; exact gridCells_nodup _ _
  have := ascScanRows_spec ps (fun i => r.readCell i ((l : Int) + 1)) (fun i => cellAt ls i l) fill r.nCells
    h.ncells h.nodup
    (by
      intro i hi
      have := h.holds.readCell' i (by rw [h.len]; exact hi) ((l : Int) + 1) (by omega) (by omega)
      simp only [this]
      simp)
    (rowCells r.hdr.rows r.hdr.cols) hnd [] ps rfl hsub
  simp only [List.length_nil, Int.natCast_zero] at this
  rw [this]
  congr 1
  apply List.map_congr_left
  intro row _
  apply List.map_congr_left
  intro rc _
  unfold fillGrid compLoc
  by_cases hm : rc ∈ ps
  · simp [hm]
  · simp [hm]

theorem Raster.Inv.gridOf {r ls loc} (h : Inv r ls loc) (l : Nat) (hl : (l : Int) < r.nLyrs) :
    GridOf r ((l : Int) + 1) (fillGrid ls loc r.noData l) := by
  intro row col _ _ _ _
  rw [h.val row col _ (by omega)]
  unfold fillGrid
  cases loc row col <;> simp

end CCGL

namespace CCGL
open Raster Spec

/-- The stored states with at least one stored cell, or full. -/
theorem built_cases {r : Raster} (hb : Built r) (hv : r.validData = true) (hn : r.is2d = true → 0 < r.nCells) :
    (∃ ls, r.Full ls) ∨ ∃ ls ps, r.Compact ls ps := by
  rcases hb.inv with ⟨ls, loc, h⟩ | ⟨h2, hE⟩
  · cases h with
    | full h => exact .inl ⟨ls, h⟩
    | comp h => exact .inr ⟨ls, _, h⟩
    | empty h h1 =>
      exfalso
      unfold validData at hv
      simp [h1, h.data1 h1] at hv
  · have := hn h2; have := hE.ncells; omega

theorem Raster.Full.outputAsc {r : Raster} {ls} (h : r.Full ls) (pr : ℚ → Str) :
    r.outputAsc pr = .ok (r, true, if r.is2d
      then (List.range r.nLyrs.toNat).map (fun (l : Nat) => (some (l : Int),
        gridFile pr r.hdr (fillGrid ls (fullLoc r.hdr) NODATA l)))
      else [(none, gridFile pr r.hdr (fillGrid ls (fullLoc r.hdr) r.noData 0))]) := by
  unfold Raster.outputAsc
  have h1 := h.holds.1
  simp only [h.pd, h.pi, Option.isSome_none, Bool.or_false, Bool.false_eq_true, if_false, Out.pure_eq, Out.ok_bind]
  cases hd : r.is2d with
  | true =>
    simp only [if_true]
    rw [mapM_ok (g := fun (l : Nat) => (some (l : Int),
      gridFile pr r.hdr (fillGrid ls (fullLoc r.hdr) NODATA l)))]
    · rfl
    · intro l hl
      have hl' : l < r.nLyrs.toNat := List.mem_range.1 hl
      rw [h.ascRows none NODATA l (by omega)]
      simp only [Out.ok_bind]
      rw [ascFile_grid]
  | false =>
    simp only [Bool.false_eq_true, if_false]
    have := h.ascRows none r.noData 0 (by simpa using (show (0 : Int) < r.nLyrs by omega))
    simp only [Int.natCast_zero] at this
    rw [this]
    simp only [Out.ok_bind]
    rw [ascFile_grid]

theorem Raster.Compact.outputAsc {r : Raster} {ls ps} (h : r.Compact ls ps) (pr : ℚ → Str) :
    r.outputAsc pr = .ok (r, true, if r.is2d
      then (List.range r.nLyrs.toNat).map (fun (l : Nat) => (some (l : Int),
        gridFile pr r.hdr (fillGrid ls (compLoc ps) NODATA l)))
      else [(none, gridFile pr r.hdr (fillGrid ls (compLoc ps) r.noData 0))]) := by
  unfold Raster.outputAsc Raster.getPositionData Raster.getPositionIdx
  have h1 := h.holds.1
  simp only [h.pd, h.pi, Option.isSome_some, Option.isNone_some, Bool.or_true, if_true, Out.pure_eq, Out.ok_bind,
    Bool.or_false, Bool.false_eq_true, if_false]
  cases hd : r.is2d with
  | true =>
    simp only [if_true]
    rw [mapM_ok (g := fun (l : Nat) => (some (l : Int),
      gridFile pr r.hdr (fillGrid ls (compLoc ps) NODATA l)))]
    · rfl
    · intro l hl
      have hl' : l < r.nLyrs.toNat := List.mem_range.1 hl
      rw [h.ascRows NODATA l (by omega)]
      simp only [Out.ok_bind]
      rw [ascFile_grid]
  | false =>
    simp only [Bool.false_eq_true, if_false]
    have := h.ascRows r.noData 0 (by simpa using (show (0 : Int) < r.nLyrs by omega))
    simp only [Int.natCast_zero] at this
    rw [this]
    simp only [Out.ok_bind]
    rw [ascFile_grid]

/-! ### GeoTIFF arrays -/

/-- The array `b` of the previous layer, if any, holds the NoData value at all cells without stored value. -/
def GoodBuf (r : Raster) (loc : Int → Int → Option Nat) (b : Ptr ℚ) : Prop :=
  b = none ∨ ∃ l : List ℚ, b = some l ∧ (l.length : Int) = r.hdr.rows * r.hdr.cols ∧
    ∀ row col, 0 ≤ row → row < r.hdr.rows → 0 ≤ col → col < r.hdr.cols → loc row col = none →
      l[(row * r.hdr.cols + col).toNat]? = some r.noData

theorem GoodBuf.alloc {r : Raster} {loc b} (h : GoodBuf r loc b) (hpos : 0 < r.hdr.rows * r.hdr.cols) :
    ∃ l : List ℚ, orAlloc b (r.hdr.rows * r.hdr.cols) r.noData = some l ∧
      (l.length : Int) = r.hdr.rows * r.hdr.cols ∧
      ∀ row col, 0 ≤ row → row < r.hdr.rows → 0 ≤ col → col < r.hdr.cols → loc row col = none →
        l[(row * r.hdr.cols + col).toNat]? = some r.noData := by
  rcases h with rfl | ⟨l, rfl, hl, hv⟩
  · refine ⟨List.replicate (r.hdr.rows * r.hdr.cols).toNat r.noData, ?_, ?_, ?_⟩
    · unfold orAlloc alloc1; simp only; rw [if_neg (by omega)]
    · simp; omega
    · intro row col h1 h2 h3 h4 _
      have := idx_range h1 h2 h3 h4
      rw [List.getElem?_replicate, if_pos (by omega)]
  · exact ⟨l, rfl, hl, hv⟩

theorem IsFullArray.good {r : Raster} {ls loc d} {l : Nat}
    (h : IsFullArray r.hdr d (fillGrid ls loc r.noData l)) : GoodBuf r loc d := by
  obtain ⟨a, e, hl, hv⟩ := h
  refine .inr ⟨a, e, hl, ?_⟩
  intro row col h1 h2 h3 h4 hn
  rw [hv row col h1 h2 h3 h4]
  simp [fillGrid, hn]

theorem Raster.Full.gdalLayer {r : Raster} {ls} (h : r.Full ls) (b : Ptr ℚ)
    (hg : GoodBuf r (fullLoc r.hdr) b) (hpos : 0 < r.hdr.rows * r.hdr.cols) (l : Nat) (hl : (l : Int) < r.nLyrs) :
    ∃ d, r.gdalLayer b l = .ok d ∧ IsFullArray r.hdr d (fillGrid ls (fullLoc r.hdr) r.noData l) := by
  have hlen := h.len
  have hval : ∀ row col, 0 ≤ row → row < r.hdr.rows → 0 ≤ col → col < r.hdr.cols →
      fillGrid ls (fullLoc r.hdr) r.noData l row col = cellAt ls (row * r.hdr.cols + col).toNat l := by
    intro row col h1 h2 h3 h4
    unfold fillGrid fullLoc; rw [if_pos ⟨h1, h2, h3, h4⟩]
  unfold Raster.gdalLayer
  obtain ⟨l0, e0, hl0, _⟩ := hg.alloc hpos
  simp only [h.pd, Option.isNone_none, Bool.true_or, if_true]
  simp only [e0]
  cases hd : r.is2d with
  | true =>
    simp only [if_true]
    have hit : (List.range (r.hdr.rows * r.hdr.cols).toNat).mapM (fun (gi : Nat) => do
        let v ← r.readCell gi ((l : Int) + 1)
        return ((gi : Int), v)) =
      .ok ((List.range (r.hdr.rows * r.hdr.cols).toNat).map (fun (gi : Nat) => ((gi : Int), cellAt ls gi l))) := by
      apply mapM_ok
      intro gi hgi
      have hgi' := List.mem_range.1 hgi
      rw [h.holds.readCell' gi (by omega) ((l : Int) + 1) (by omega) (by omega)]
      simp
    rw [hit]
    simp only [Out.ok_bind]
    obtain ⟨d', e, hdl, hin, -⟩ := scatter_items
      ((List.range (r.hdr.rows * r.hdr.cols).toNat).map (fun (gi : Nat) => ((gi : Int), cellAt ls gi l))) l0
      (by
        intro it hit
        obtain ⟨gi, hgi, rfl⟩ := List.mem_map.1 hit
        have := List.mem_range.1 hgi
        constructor <;> simp <;> omega)
      (by
        intro a ha b hb hab
        obtain ⟨i, _, rfl⟩ := List.mem_map.1 ha
        obtain ⟨j, _, rfl⟩ := List.mem_map.1 hb
        simp only [Int.natCast_inj] at hab
        subst hab; rfl)
    refine ⟨some d', e, d', rfl, by rw [hdl]; exact hl0, ?_⟩
    intro row col h1 h2 h3 h4
    have hr := idx_range h1 h2 h3 h4
    have := hin ((((row * r.hdr.cols + col).toNat : Nat) : Int), cellAt ls (row * r.hdr.cols + col).toNat l)
      (List.mem_map.2 ⟨_, List.mem_range.2 (by omega), rfl⟩)
    rw [hval row col h1 h2 h3 h4]
    simp only at this
    rw [readAt_some_nat _ _ (by omega)] at this
    rw [List.getElem?_eq_getElem (by omega)]
    injection this with this
    rw [this]
  | false =>
    simp only [Bool.false_eq_true, if_false]
    have hh := h.holds.2.2
    simp only [hd, Bool.false_eq_true, if_false] at hh
    have hl1 : l = 0 := by omega
    subst hl1
    refine ⟨r.raster1, rfl, _, hh.2, by simpa using hlen, ?_⟩
    intro row col h1 h2 h3 h4
    have hr := idx_range h1 h2 h3 h4
    rw [hval row col h1 h2 h3 h4, List.getElem?_map, List.getElem?_eq_getElem (by omega)]
    simp only [Option.map_some, Option.some.injEq]
    have hlt : (row * r.hdr.cols + col).toNat < ls.length := by omega
    have hc := h.holds.2.1 _ (List.getElem_mem hlt)
    unfold cellAt
    rw [List.getD_eq_getElem _ _ hlt]
    cases hx : ls[(row * r.hdr.cols + col).toNat] with
    | nil => rw [hx] at hc; simp at hc; omega
    | cons x xs => simp

theorem Raster.Compact.gdalLayer {r : Raster} {ls ps} (h : r.Compact ls ps) (b : Ptr ℚ)
    (hg : GoodBuf r (compLoc ps) b) (l : Nat) (hl : (l : Int) < r.nLyrs) :
    ∃ d, r.gdalLayer b l = .ok d ∧ IsFullArray r.hdr d (fillGrid ls (compLoc ps) r.noData l) := by
  have hpos : 0 < r.hdr.rows * r.hdr.cols := by
    obtain ⟨p, hp⟩ := List.exists_mem_of_ne_nil _ h.ne
    have := h.inside p hp
    exact Int.mul_pos (by omega) (by omega)
  unfold Raster.gdalLayer
  obtain ⟨l0, e0, hl0, hv0⟩ := hg.alloc hpos
  simp only [h.pd, h.pi, Option.isNone_some, Bool.or_false, Bool.false_eq_true, if_false]
  simp only [e0]
  have hn := h.ncells
  have hll := h.len
  have hit : (List.range r.nCells.toNat).mapM (fun (vi : Nat) => do
      let p ← readAt (some (ps.map (fun (rc : Int × Int) => rc.1 * r.hdr.cols + rc.2))) vi
      let v ← r.readCell vi ((l : Int) + 1)
      return (p, v)) =
    .ok ((List.range r.nCells.toNat).map (fun (vi : Nat) =>
      ((ps.map (fun (rc : Int × Int) => rc.1 * r.hdr.cols + rc.2)).getD vi 0, cellAt ls vi l))) := by
    apply mapM_ok
    intro vi hvi
    have hvi' := List.mem_range.1 hvi
    rw [readAt_some_nat _ _ (by simp; omega),
      h.holds.readCell' vi (by omega) ((l : Int) + 1) (by omega) (by omega)]
    rw [List.getD_eq_getElem _ _ (by simp; omega)]
    simp
  rw [hit]
  simp only [Out.ok_bind]
  have hpsi : ∀ vi, vi < ps.length → (ps.map (fun (rc : Int × Int) => rc.1 * r.hdr.cols + rc.2)).getD vi 0 =
      (ps.getD vi (0, 0)).1 * r.hdr.cols + (ps.getD vi (0, 0)).2 := by
    intro vi hvi
    rw [List.getD_eq_getElem _ _ (by simpa using hvi), List.getD_eq_getElem _ _ hvi]; simp
  obtain ⟨d', e, hdl, hin, hout⟩ := scatter_items
    ((List.range r.nCells.toNat).map (fun (vi : Nat) =>
      ((ps.map (fun (rc : Int × Int) => rc.1 * r.hdr.cols + rc.2)).getD vi 0, cellAt ls vi l))) l0
    (by
      intro it hit
      obtain ⟨vi, hvi, rfl⟩ := List.mem_map.1 hit
      have hvi' := List.mem_range.1 hvi
      have hlt : vi < ps.length := by omega
      simp only [hpsi vi hlt]
      rw [List.getD_eq_getElem _ _ hlt]
      have hi := h.inside _ (List.getElem_mem hlt)
      have := idx_range hi.1 hi.2.1 hi.2.2.1 hi.2.2.2
      omega)
    (by
      intro a ha b hb hab
      obtain ⟨i, hi, rfl⟩ := List.mem_map.1 ha
      obtain ⟨j, hj, rfl⟩ := List.mem_map.1 hb
      have hi' := List.mem_range.1 hi
      have hj' := List.mem_range.1 hj
      simp only at hab
      rw [List.getD_eq_getElem _ _ (by simp; omega), List.getD_eq_getElem _ _ (by simp; omega)] at hab
      have hnd : (ps.map (fun (rc : Int × Int) => rc.1 * r.hdr.cols + rc.2)).Nodup :=
        h.sorted.imp (by rintro a b hab rfl; omega)
      have := (List.Nodup.getElem_inj_iff hnd).1 hab
      subst this; rfl)
  refine ⟨some d', e, d', rfl, by rw [hdl]; exact hl0, ?_⟩
  intro row col h1 h2 h3 h4
  have hr := idx_range h1 h2 h3 h4
  by_cases hm : (row, col) ∈ ps
  · have hlt : ps.idxOf (row, col) < ps.length := List.idxOf_lt_length_of_mem hm
    have hx : ps[ps.idxOf (row, col)] = (row, col) := List.getElem_idxOf hlt
    have := hin ((ps.map (fun (rc : Int × Int) => rc.1 * r.hdr.cols + rc.2)).getD (ps.idxOf (row, col)) 0,
        cellAt ls (ps.idxOf (row, col)) l)
      (List.mem_map.2 ⟨_, List.mem_range.2 (by omega), rfl⟩)
    simp only [hpsi _ hlt] at this
    rw [List.getD_eq_getElem _ _ hlt, hx, readAt_some_int _ _ hr.1 (by omega)] at this
    rw [List.getElem?_eq_getElem (by omega)]
    injection this with this
    rw [this]
    simp [fillGrid, compLoc, hm]
  · have hnin : row * r.hdr.cols + col ∉ ((List.range r.nCells.toNat).map (fun (vi : Nat) =>
      ((ps.map (fun (rc : Int × Int) => rc.1 * r.hdr.cols + rc.2)).getD vi 0, cellAt ls vi l))).map (·.1) := by
      intro hc
      simp only [List.map_map, List.mem_map, Function.comp, List.mem_range] at hc
      obtain ⟨vi, hvi, he⟩ := hc
      have hlt : vi < ps.length := by omega
      rw [hpsi vi hlt, List.getD_eq_getElem _ _ hlt] at he
      have hi := h.inside _ (List.getElem_mem hlt)
      have := idx_inj hi.2.2.1 hi.2.2.2 h3 h4 he
      exact hm (by rw [← this.1, ← this.2]; exact List.getElem_mem hlt)
    have := hout _ hr.1 (by omega) hnin
    rw [readAt_some_int _ _ hr.1 (by omega), readAt_some_int _ _ hr.1 (by omega)] at this
    injection this with this
    rw [List.getElem?_eq_getElem (by omega), this]
    have hv := hv0 row col h1 h2 h3 h4 (by simp [compLoc, hm])
    rw [List.getElem?_eq_getElem (by omega)] at hv
    rw [hv]
    simp [fillGrid, compLoc, hm]

theorem gdalLayers_spec {r : Raster} {ls loc} (hstep : ∀ (b : Ptr ℚ) (l : Nat), GoodBuf r loc b →
      (l : Int) < r.nLyrs → ∃ d, r.gdalLayer b l = .ok d ∧ IsFullArray r.hdr d (fillGrid ls loc r.noData l))
    (wr : Int → Bool) : ∀ (lst : List Nat) (_ : ∀ l ∈ lst, (l : Int) < r.nLyrs) (b : Ptr ℚ) (_ : GoodBuf r loc b),
    ∃ ds, r.gdalLayers wr b lst = .ok (lst.all (fun l => wr l), ds) ∧
      List.Forall₂ (fun (l : Nat) (f : Option Int × Ptr ℚ) => f.1 = some ((l : Int) + 1) ∧
        IsFullArray r.hdr f.2 (fillGrid ls loc r.noData l)) (lst.takeWhile (fun l => wr l)) ds := by
  intro lst
  induction lst with
  | nil => intro _ b _; exact ⟨[], rfl, by simp⟩
  | cons l lst ih =>
    intro hl b hg
    obtain ⟨d, e, hd⟩ := hstep b l hg (hl l List.mem_cons_self)
    unfold Raster.gdalLayers
    rw [e]
    simp only [Out.ok_bind]
    cases hw : wr l with
    | true =>
      obtain ⟨ds, e2, hds⟩ := ih (fun x hx => hl x (List.mem_cons_of_mem _ hx)) d (IsFullArray.good hd)
      rw [e2]
      refine ⟨(some ((l : Int) + 1), d) :: ds, ?_, ?_⟩
      · simp [hw]
      · simp only [List.takeWhile_cons, hw, if_true]
        exact .cons ⟨rfl, hd⟩ hds
    | false =>
      refine ⟨[], by simp [hw], ?_⟩
      simp [hw]

end CCGL

namespace CCGL
open Raster Spec

theorem flatten_uniform {α : Type} (n : Nat) : ∀ (ls : List (List α)) (_ : ∀ c ∈ ls, c.length = n) (i k : Nat),
    k < n → i < ls.length → ls.flatten[i * n + k]? = (ls.getD i [])[k]? := by
  intro ls
  induction ls with
  | nil => intro _ i k _ hi; simp at hi
  | cons c ls ih =>
    intro h i k hk hi
    have hc := h c List.mem_cons_self
    cases i with
    | zero =>
      rw [List.flatten_cons, List.getElem?_append_left (by omega)]; simp
    | succ i =>
      rw [List.flatten_cons, List.getElem?_append_right (by rw [hc, Nat.succ_mul]; omega)]
      rw [show (i + 1) * n + k - c.length = i * n + k by rw [hc, Nat.succ_mul]; omega]
      rw [ih (fun x hx => h x (List.mem_cons_of_mem _ hx)) i k hk (by simpa using hi)]
      simp

theorem flatten_uniform_length {α : Type} (n : Nat) (ls : List (List α)) (h : ∀ c ∈ ls, c.length = n) :
    ls.flatten.length = ls.length * n := by
  induction ls with
  | nil => simp
  | cons c ls ih =>
    rw [List.flatten_cons, List.length_append, h c List.mem_cons_self,
      ih (fun x hx => h x (List.mem_cons_of_mem _ hx)), List.length_cons, Nat.succ_mul]; omega

/-- The array handed over directly: all stored cells, layer after layer within a cell. -/
theorem Raster.Holds.pool {r : Raster} {ls} (h : r.Holds ls) :
    ∃ l : List ℚ, (if r.is2d then r.raster2.map List.flatten else r.raster1) = some l ∧
      (l.length : Int) = r.nLyrs * ls.length ∧
      ∀ i k : Nat, i < ls.length → (k : Int) < r.nLyrs →
        l[i * r.nLyrs.toNat + k]? = some (cellAt ls i k) := by
  obtain ⟨hn, hc, hh⟩ := h
  have hc' : ∀ c ∈ ls, c.length = r.nLyrs.toNat := by intro c hx; have := hc c hx; omega
  cases hd : r.is2d with
  | true =>
    simp only [hd, if_true] at hh ⊢
    refine ⟨ls.flatten, by rw [hh]; rfl, ?_, ?_⟩
    · rw [flatten_uniform_length _ _ hc', Nat.mul_comm, Nat.cast_mul]
      congr 1; omega
    · intro i k hi hk
      rw [flatten_uniform _ _ hc' i k (by omega) hi]
      unfold cellAt
      have := hc' _ (List.getElem_mem hi)
      rw [List.getD_eq_getElem _ _ hi, List.getElem?_eq_getElem (by omega), List.getD_eq_getElem _ _ (by omega)]
  | false =>
    simp only [hd, Bool.false_eq_true, if_false] at hh ⊢
    refine ⟨_, hh.2, by simp [hh.1], ?_⟩
    intro i k hi hk
    have hk0 : k = 0 := by omega
    subst hk0
    rw [hh.1]
    have hx := hc' _ (List.getElem_mem hi)
    simp only [Int.toNat_one, Nat.mul_one, Nat.add_zero, List.getElem?_map, List.getElem?_eq_getElem hi,
      Option.map_some, Option.some.injEq]
    unfold cellAt
    rw [List.getD_eq_getElem _ _ hi]
    cases hc : ls[i] with
    | nil => rw [hc] at hx; simp at hx; omega
    | cons x xs => simp

/-- An array of all cells of the grid, layer after layer within a cell. -/
def IsStream (r : Raster) (d : Ptr ℚ) (g : Nat → Int → Int → ℚ) : Prop :=
  ∃ l : List ℚ, d = some l ∧ (l.length : Int) = r.nLyrs * (r.hdr.rows * r.hdr.cols) ∧
    ∀ (row col : Int) (k : Nat), 0 ≤ row → row < r.hdr.rows → 0 ≤ col → col < r.hdr.cols → (k : Int) < r.nLyrs →
      l[((row * r.hdr.cols + col) * r.nLyrs + k).toNat]? = some (g k row col)

theorem Raster.Full.outputStream {r : Raster} {ls} (h : r.Full ls)
    (hne : r.is2d = true → 0 < r.nCells) :
    ∃ d, r.outputStream true = .ok (StreamOut.mk r { r.hdr with cellsnum := r.hdr.rows * r.hdr.cols } d
        (r.nLyrs * (r.hdr.rows * r.hdr.cols))) ∧
      IsStream r d (fun k => fillGrid ls (fullLoc r.hdr) r.noData k) := by
  obtain ⟨l, e, hl, hv⟩ := h.holds.pool
  have hlen := h.len
  have hn := h.holds.1
  have hst : IsStream r (some l) (fun k => fillGrid ls (fullLoc r.hdr) r.noData k) := by
    refine ⟨l, rfl, by rw [hl, hlen], ?_⟩
    intro row col k h1 h2 h3 h4 hk
    have hr := idx_range h1 h2 h3 h4
    have := hv (row * r.hdr.cols + col).toNat k (by omega) hk
    have e1 : ((row * r.hdr.cols + col) * r.nLyrs + k).toNat =
        (row * r.hdr.cols + col).toNat * r.nLyrs.toNat + k := by
      zify
      rw [Int.toNat_of_nonneg hr.1, Int.toNat_of_nonneg (show (0:Int) ≤ r.nLyrs by omega),
        Int.toNat_of_nonneg (add_nonneg (mul_nonneg hr.1 (by omega)) (by omega))]
    rw [e1, this]
    unfold fillGrid fullLoc; simp only; rw [if_pos ⟨h1, h2, h3, h4⟩]
  unfold Raster.outputStream
  simp only [h.pd, h.pi, Option.isSome_none, Bool.or_false, Bool.false_and, Bool.and_true, Bool.not_true,
    Bool.false_eq_true, if_false, Out.pure_eq, Out.ok_bind, Option.isNone_none, Bool.or_true, Bool.and_false,
    if_true]
  have hnc := h.ncells
  cases hd : r.is2d with
  | true =>
    have hp := hne hd
    simp only [hd, if_true] at e ⊢
    have hh := h.holds.2.2
    simp only [hd, if_true] at hh
    have h0 : 0 < ls.length := by omega
    rw [hh] at e ⊢
    have hr0 := readAt_some_nat ls 0 h0
    simp only [Int.natCast_zero] at hr0
    rw [hr0]
    simp only [Out.ok_bind]
    rw [e, hnc]
    exact ⟨_, rfl, hst⟩
  | false =>
    simp only [hd, Bool.false_eq_true, if_false] at e ⊢
    have hh := h.holds.2.2
    simp only [hd, Bool.false_eq_true, if_false] at hh
    rw [e, hnc, hh.1, one_mul]
    exact ⟨_, rfl, hst⟩

theorem Raster.Compact.streamItems {r : Raster} {ls ps} (h : r.Compact ls ps) :
    r.streamItems r.nLyrs (some ps) = .ok ((gridCells r.nCells r.nLyrs).map (fun il =>
      (r.nLyrs * ((ps.getD il.1.toNat (0, 0)).1 * r.hdr.cols + (ps.getD il.1.toNat (0, 0)).2) + il.2,
        cellAt ls il.1.toNat il.2.toNat))) := by
  have hn := h.ncells
  have hll := h.len
  unfold Raster.streamItems
  apply mapM_ok
  intro il hil
  rw [mem_gridCells] at hil
  have hlt : il.1.toNat < ps.length := by omega
  rw [readAt_some_int _ _ hil.1 (by omega)]
  simp only [Out.ok_bind]
  have := h.holds.readCell' il.1.toNat (by omega) (il.2 + 1) (by omega) (by omega)
  rw [show ((il.1.toNat : Nat) : Int) = il.1 by omega] at this
  rw [this, List.getD_eq_getElem _ _ hlt]
  simp

theorem Raster.Compact.outputStream {r : Raster} {ls ps} (h : r.Compact ls ps) :
    ∃ d, r.outputStream true = .ok (StreamOut.mk r { r.hdr with cellsnum := r.hdr.rows * r.hdr.cols } d
        (r.nLyrs * (r.hdr.rows * r.hdr.cols))) ∧
      IsStream r d (fun k => fillGrid ls (compLoc ps) r.noData k) := by
  have hn := h.ncells
  have hll := h.len
  have hlyr := h.holds.1
  have hpos : 0 < r.hdr.rows * r.hdr.cols := by
    obtain ⟨p, hp⟩ := List.exists_mem_of_ne_nil _ h.ne
    have := h.inside p hp
    exact Int.mul_pos (by omega) (by omega)
  have hLpos : 0 < r.nLyrs * (r.hdr.rows * r.hdr.cols) := Int.mul_pos (by omega) hpos
  unfold Raster.outputStream Raster.getPositionData
  have hly : (if r.is2d then r.nLyrs else 1) = r.nLyrs := by
    have hh := h.holds.2.2
    cases hd : r.is2d with
    | true => rfl
    | false => simp only [hd, Bool.false_eq_true, if_false] at hh ⊢; exact hh.1.symm
  simp only [h.pd, h.pi, Option.isSome_some, Bool.or_true, Bool.and_true, if_true, Out.pure_eq, Out.ok_bind,
    Option.isNone_some, Bool.or_false, Bool.false_and, Bool.false_eq_true, if_false]
  rw [hly]
  rw [h.streamItems]
  simp only [Out.ok_bind]
  have ha : alloc1 (r.nLyrs * (r.hdr.rows * r.hdr.cols)) r.noData =
      some (List.replicate (r.nLyrs * (r.hdr.rows * r.hdr.cols)).toNat r.noData) := by
    unfold alloc1; rw [if_neg (by omega)]
  rw [ha]
  have key : ∀ (p p' k k' : Int), 0 ≤ k → k < r.nLyrs → 0 ≤ k' → k' < r.nLyrs →
      r.nLyrs * p + k = r.nLyrs * p' + k' → p = p' ∧ k = k' := by
    intro p p' k k' h1 h2 h3 h4 he
    have e1 : (k + r.nLyrs * p) / r.nLyrs = p := by
      rw [Int.add_mul_ediv_left _ _ (by omega), Int.ediv_eq_zero_of_lt h1 h2]; omega
    have e2 : (k' + r.nLyrs * p') / r.nLyrs = p' := by
      rw [Int.add_mul_ediv_left _ _ (by omega), Int.ediv_eq_zero_of_lt h3 h4]; omega
    have : p = p' := by rw [← e1, ← e2]; congr 1; linarith
    subst this
    exact ⟨rfl, by linarith⟩
  obtain ⟨d', e, hdl, hin, hout⟩ := scatter_items
    ((gridCells r.nCells r.nLyrs).map (fun il =>
      (r.nLyrs * ((ps.getD il.1.toNat (0, 0)).1 * r.hdr.cols + (ps.getD il.1.toNat (0, 0)).2) + il.2,
        cellAt ls il.1.toNat il.2.toNat)))
    (List.replicate (r.nLyrs * (r.hdr.rows * r.hdr.cols)).toNat r.noData)
    (by
      intro it hit
      obtain ⟨il, hil, rfl⟩ := List.mem_map.1 hit
      rw [mem_gridCells] at hil
      have hlt : il.1.toNat < ps.length := by omega
      simp only
      rw [List.getD_eq_getElem _ _ hlt]
      have hi := h.inside _ (List.getElem_mem hlt)
      have := idx_range hi.1 hi.2.1 hi.2.2.1 hi.2.2.2
      generalize ps[il.1.toNat].1 * r.hdr.cols + ps[il.1.toNat].2 = p at this
      constructor
      · have := mul_nonneg (show 0 ≤ r.nLyrs by omega) this.1; omega
      · rw [List.length_replicate]
        have h2 : r.nLyrs * (p + 1) ≤ r.nLyrs * (r.hdr.rows * r.hdr.cols) :=
          mul_le_mul_of_nonneg_left (by omega) (by omega)
        rw [mul_add, mul_one] at h2
        omega)
    (by
      intro a ha b hb hab
      obtain ⟨i, hi, rfl⟩ := List.mem_map.1 ha
      obtain ⟨j, hj, rfl⟩ := List.mem_map.1 hb
      rw [mem_gridCells] at hi hj
      simp only at hab ⊢
      obtain ⟨h1, h2⟩ := key _ _ _ _ hi.2.2.1 hi.2.2.2 hj.2.2.1 hj.2.2.2 hab
      have hlt : i.1.toNat < ps.length := by omega
      have hlt' : j.1.toNat < ps.length := by omega
      rw [List.getD_eq_getElem _ _ hlt, List.getD_eq_getElem _ _ hlt'] at h1
      have a1 := h.inside _ (List.getElem_mem hlt)
      have a2 := h.inside _ (List.getElem_mem hlt')
      have := idx_inj a1.2.2.1 a1.2.2.2 a2.2.2.1 a2.2.2.2 h1
      have heq : ps[i.1.toNat] = ps[j.1.toNat] := Prod.ext this.1 this.2
      have := (List.Nodup.getElem_inj_iff h.nodup).1 heq
      rw [this, h2])
  rw [e]
  refine ⟨some d', rfl, d', rfl, by rw [hdl, List.length_replicate]; omega, ?_⟩
  intro row col k h1 h2 h3 h4 hk
  have hr := idx_range h1 h2 h3 h4
  have hb0 : 0 ≤ (row * r.hdr.cols + col) * r.nLyrs + k :=
    add_nonneg (mul_nonneg hr.1 (by omega)) (by omega)
  have hb1 : (row * r.hdr.cols + col) * r.nLyrs + k < r.nLyrs * (r.hdr.rows * r.hdr.cols) := by
    have h2 : r.nLyrs * ((row * r.hdr.cols + col) + 1) ≤ r.nLyrs * (r.hdr.rows * r.hdr.cols) :=
      mul_le_mul_of_nonneg_left (by omega) (by omega)
    rw [mul_add, mul_one, mul_comm r.nLyrs] at h2
    omega
  have hdl' : (d'.length : Int) = r.nLyrs * (r.hdr.rows * r.hdr.cols) := by
    rw [hdl, List.length_replicate]; omega
  by_cases hm : (row, col) ∈ ps
  · have hlt : ps.idxOf (row, col) < ps.length := List.idxOf_lt_length_of_mem hm
    have hx : ps[ps.idxOf (row, col)] = (row, col) := List.getElem_idxOf hlt
    have := hin _ (List.mem_map.2 ⟨((ps.idxOf (row, col) : Nat), (k : Int)),
      (mem_gridCells _ _ _).2 ⟨by simp, by simp; omega, by simp, by simpa using hk⟩, rfl⟩)
    simp only [Int.toNat_natCast] at this
    rw [List.getD_eq_getElem _ _ hlt, hx] at this
    simp only at this
    rw [mul_comm r.nLyrs, readAt_some_int _ _ hb0 (by omega)] at this
    rw [List.getElem?_eq_getElem (by omega)]
    injection this with this
    rw [this]
    simp [fillGrid, compLoc, hm]
  · have := hout _ hb0 (by rw [List.length_replicate]; omega) (by
      intro hc
      simp only [List.map_map, List.mem_map, Function.comp] at hc
      obtain ⟨il, hil, he⟩ := hc
      rw [mem_gridCells] at hil
      have hlt : il.1.toNat < ps.length := by omega
      rw [List.getD_eq_getElem _ _ hlt, mul_comm (row * r.hdr.cols + col)] at he
      obtain ⟨h5, _⟩ := key _ _ _ _ hil.2.2.1 hil.2.2.2 (by omega) hk he
      have hi := h.inside _ (List.getElem_mem hlt)
      have := idx_inj hi.2.2.1 hi.2.2.2 h3 h4 h5
      exact hm (by rw [← this.1, ← this.2]; exact List.getElem_mem hlt))
    rw [readAt_some_int _ _ hb0 (by omega), readAt_some_int _ _ hb0 (by rw [List.length_replicate]; omega)] at this
    injection this with this
    rw [List.getElem?_eq_getElem (by omega), this]
    simp [fillGrid, compLoc, hm]

/-- De-interleaving one layer. -/
theorem deinterleave_spec (full : List ℚ) (fsize lyrs : Int) (hf : 0 < fsize) (hl : 1 ≤ lyrs)
    (hlen : (full.length : Int) = fsize * lyrs) (l : Nat) (hll : (l : Int) < lyrs) :
    ∃ d : List ℚ, deinterleave (some full) fsize lyrs l = .ok (some d) ∧ (d.length : Int) = fsize ∧
      ∀ gi : Nat, (gi : Int) < fsize → d[gi]? = full[gi * lyrs.toNat + l]? := by
  have hb : ∀ gi : Nat, (gi : Int) < fsize → gi * lyrs.toNat + l < full.length := by
    intro gi hgi
    have h2 : ((gi : Int) + 1) * lyrs ≤ fsize * lyrs := mul_le_mul_of_nonneg_right (by omega) (by omega)
    rw [add_mul, one_mul] at h2
    zify
    rw [Int.toNat_of_nonneg (show (0:Int) ≤ lyrs by omega)]
    omega
  unfold deinterleave
  have hit : (List.range fsize.toNat).mapM (fun (gi : Nat) => do
      let v ← readAt (some full) (gi * lyrs + l)
      return ((gi : Int), v)) =
    .ok ((List.range fsize.toNat).map (fun (gi : Nat) => ((gi : Int), full.getD (gi * lyrs.toNat + l) 0))) := by
    apply mapM_ok
    intro gi hgi
    have hgi' := List.mem_range.1 hgi
    have := hb gi (by omega)
    have hc : ((gi : Int) * lyrs + l) = ((gi * lyrs.toNat + l : Nat) : Int) := by
      push_cast; rw [Int.toNat_of_nonneg (show (0:Int) ≤ lyrs by omega)]
    rw [hc, readAt_some_nat _ _ this, List.getD_eq_getElem _ _ this]
    rfl
  rw [hit]
  simp only [Out.ok_bind]
  have ha : alloc1 fsize NODATA = some (List.replicate fsize.toNat NODATA) := by
    unfold alloc1; rw [if_neg (by omega)]
  rw [ha]
  obtain ⟨d', e, hdl, hin, -⟩ := scatter_items
    ((List.range fsize.toNat).map (fun (gi : Nat) => ((gi : Int), full.getD (gi * lyrs.toNat + l) 0)))
    (List.replicate fsize.toNat NODATA)
    (by
      intro it hit
      obtain ⟨gi, hgi, rfl⟩ := List.mem_map.1 hit
      have := List.mem_range.1 hgi
      rw [List.length_replicate]
      constructor <;> simp <;> omega)
    (by
      intro a ha b hb hab
      obtain ⟨i, _, rfl⟩ := List.mem_map.1 ha
      obtain ⟨j, _, rfl⟩ := List.mem_map.1 hb
      simp only [Int.natCast_inj] at hab
      subst hab; rfl)
  rw [List.length_replicate] at hdl
  refine ⟨d', e, by omega, ?_⟩
  intro gi hgi
  have := hin ((gi : Int), full.getD (gi * lyrs.toNat + l) 0)
    (List.mem_map.2 ⟨gi, List.mem_range.2 (by omega), rfl⟩)
  simp only at this
  rw [readAt_some_nat _ _ (by omega), List.getD_eq_getElem _ _ (hb gi hgi)] at this
  injection this with this
  rw [List.getElem?_eq_getElem (by omega), List.getElem?_eq_getElem (hb gi hgi), this]

end CCGL
