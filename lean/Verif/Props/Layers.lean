import Verif.Props.Coord
import Verif.Lemmas.Built
/-!
# Alignment of layers (C60)
-/
namespace CCGL
open Raster

/-- What adding layers does at every cell of the grid. -/
theorem layers_core {r : Raster} (hb : Spec.Built r) (h1 : r.is2d = false) (hn : 0 < r.nCells)
    (layers : List (Header × List ℚ)) (hl : ∀ l ∈ layers, LayerOk l)
    (hg : ∀ row col, Spec.Stored r row col → ∀ l ∈ layers,
      GoodPoint l.1 (r.hdr.grid.center row col).1 (r.hdr.grid.center row col).2) :
    ∃ r', r.addLayers (layers.map (fun (l : Header × List ℚ) => (l.1, some l.2))) = .ok r' ∧ r'.nLyrs = layers.length + 1 ∧
      r'.is2d = true ∧ r'.nCells = r.nCells ∧ r'.hdr = { r.hdr with layers := layers.length + 1 } ∧ r'.noData = r.noData ∧
      (∀ row col, Spec.Stored r' row col ↔ Spec.Stored r row col) ∧
      (∀ row col lyr, ¬ Spec.Stored r row col → 1 ≤ lyr → lyr ≤ (layers.length : Int) + 1 → r.getValue row col 1 = .ok r.noData ∧ r'.getValue row col lyr = .ok r.noData) ∧
      ∀ row col, Spec.Stored r row col → ∃ first, r.getValue row col 1 = .ok first ∧
        r'.getValue row col 1 = .ok first ∧
        (∀ k (hk : k < layers.length), ∃ v,
          r'.getValue row col (k + 2) = .ok v ∧
          if ((r.posData.isNone && r.posIdx.isNone) && floatEqual r.noData first) = true then v = r.noData
          else Spec.ShowsAt layers[k].1 layers[k].2 r.noData
            (r.hdr.grid.center row col).1 (r.hdr.grid.center row col).2 v) := by
  rcases hb.inv with ⟨ls, loc, hi⟩ | ⟨hd, hE⟩
  swap
  · rw [hd] at h1; simp at h1
  have hnc := hi.ncells
  have hne : ls ≠ [] := by rintro rfl; simp at hnc; omega
  have hh := hi.holds hne
  have hr1 : r.raster1 = some (ls.map (fun c => c.headD 0)) := by
    have := hh.2.2; rw [h1] at this; simpa using this.2
  have hst := hi.stored
  -- the function computing one cell
  let f : Nat → Out (List ℚ) := fun (i : Nat) => do
    let first ← readAt r.raster1 i
    let idx ← if r.posData.isNone && r.posIdx.isNone then .ok (i : Int) else readAt r.posIdx i
    if r.hdr.cols = 0 then .ub
    else do
      let rest ← cellOfLayers r.hdr r.noData (r.posData.isNone && r.posIdx.isNone) first
        (Int.tdiv idx r.hdr.cols) (Int.tmod idx r.hdr.cols) (layers.map (fun (l : Header × List ℚ) => (l.1, some l.2)))
      return first :: rest
  have hf : ∀ i, i < ls.length → ∃ vs, f i = .ok (cellAt ls i 0 :: vs) ∧ vs.length = layers.length ∧
      ∀ row col, loc row col = some i → ∀ k (hk : k < layers.length), ∃ v, vs[k]? = some v ∧
        if ((r.posData.isNone && r.posIdx.isNone) && floatEqual r.noData (cellAt ls i 0)) = true then v = r.noData
        else Spec.ShowsAt layers[k].1 layers[k].2 r.noData
            (r.hdr.grid.center row col).1 (r.hdr.grid.center row col).2 v := by
    intro i hil
    obtain ⟨row, col, hloc, hcp, hrow, hcol, hcol', hidx⟩ := Inv.cellOf hi i hil
    have hrd : readAt r.raster1 i = .ok (cellAt ls i 0) := by
      rw [hr1, readAt_some_nat _ _ (by simpa using hil)]
      simp only [List.getElem_map, cellAt]
      rw [List.getD_eq_getElem _ _ hil]
      cases ls[i] <;> simp
    have hq : Int.tdiv (row * r.hdr.cols + col) r.hdr.cols = row := by
      rw [Int.tdiv_eq_ediv_of_nonneg (by have := Int.mul_nonneg hrow hcp.le; omega)]
      rw [Int.add_comm, Int.add_mul_ediv_right _ _ (by omega), Int.ediv_eq_zero_of_lt hcol hcol']; omega
    have hm : Int.tmod (row * r.hdr.cols + col) r.hdr.cols = col := by
      rw [Int.tmod_eq_emod_of_nonneg (by have := Int.mul_nonneg hrow hcp.le; omega)]
      rw [Int.add_comm, Int.add_mul_emod_self_right, Int.emod_eq_of_lt hcol hcol']
    obtain ⟨vs, e, hlen, hv⟩ := cellOfLayers_spec r.hdr r.noData (r.posData.isNone && r.posIdx.isNone)
      (cellAt ls i 0) row col layers hl (hg row col ((hst row col).2 ⟨i, hloc⟩))
    refine ⟨vs, ?_, hlen, ?_⟩
    · show (do
        let first ← readAt r.raster1 i
        let idx ← if r.posData.isNone && r.posIdx.isNone then .ok (i : Int) else readAt r.posIdx i
        if r.hdr.cols = 0 then .ub
        else do
          let rest ← cellOfLayers r.hdr r.noData (r.posData.isNone && r.posIdx.isNone) first
            (Int.tdiv idx r.hdr.cols) (Int.tmod idx r.hdr.cols) (layers.map (fun (l : Header × List ℚ) => (l.1, some l.2)))
          return first :: rest) = _
      rw [hrd]
      simp only [Out.ok_bind]
      by_cases hs : (r.posData.isNone && r.posIdx.isNone) = true
      · rw [if_pos hs] at hidx ⊢
        simp only [Out.ok.injEq] at hidx
        rw [hidx, if_neg (by omega), hq, hm, e]; rfl
      · rw [if_neg hs] at hidx ⊢
        rw [hidx]
        simp only [Out.ok_bind]
        rw [if_neg (by omega), hq, hm, e]; rfl
    · intro row' col' hloc' k hk
      obtain ⟨rfl, rfl⟩ := hi.inj hloc hloc'
      obtain ⟨v, hv1, hv2⟩ := hv k hk
      exact ⟨v, hv1, hv2⟩
  -- collect
  let g : Nat → List ℚ := fun i => match f i with | .ok a => a | _ => []
  have hfg : ∀ i ∈ List.range ls.length, f i = .ok (g i) := by
    intro i hi'
    obtain ⟨vs, e, _⟩ := hf i (by simpa using hi')
    simp only [g, e]
  have hmap := mapM_ok f g (List.range ls.length) hfg
  have hnat : r.nCells.toNat = ls.length := by omega
  let ls' := (List.range ls.length).map g
  let r' : Raster := { r with raster1 := none, raster2 := some ls', nLyrs := layers.length + 1, is2d := true,
                              hdr := { r.hdr with layers := layers.length + 1 } }
  have hadd : r.addLayers (layers.map (fun (l : Header × List ℚ) => (l.1, some l.2))) = .ok r' := by
    unfold Raster.addLayers
    rw [hnat]
    change ((List.range ls.length).mapM f >>= _) = _
    rw [hmap]
    simp only [Out.ok_bind, Out.pure_eq, List.length_map]; rfl
  have hgi : ∀ i, i < ls.length → ∃ vs, g i = cellAt ls i 0 :: vs ∧ vs.length = layers.length ∧
      ∀ row col, loc row col = some i → ∀ k (hk : k < layers.length), ∃ v, vs[k]? = some v ∧
        if ((r.posData.isNone && r.posIdx.isNone) && floatEqual r.noData (cellAt ls i 0)) = true then v = r.noData
        else Spec.ShowsAt layers[k].1 layers[k].2 r.noData
            (r.hdr.grid.center row col).1 (r.hdr.grid.center row col).2 v := by
    intro i hil
    obtain ⟨vs, e, h2⟩ := hf i hil
    exact ⟨vs, by simp only [g, e], h2⟩
  have hlen' : ls'.length = ls.length := by simp [ls']
  have hholds : r'.Holds ls' := by
    refine ⟨by show (1 : Int) ≤ layers.length + 1; omega, ?_, by simp [r']⟩
    intro c hc
    obtain ⟨i, hi', rfl⟩ := List.mem_map.1 hc
    obtain ⟨vs, e, h2, _⟩ := hgi i (by simpa using hi')
    show ((g i).length : Int) = layers.length + 1
    rw [e]; simp [h2]
  have hinv : Inv r' ls' loc := by
    cases hi with
    | full h =>
      have : r'.Full ls' := ⟨hholds, h.rows_nn, h.cols_nn, by rw [hlen']; exact h.len, h.ncells, h.pd, h.pi⟩
      exact Inv.full this
    | comp h =>
      exact .comp ⟨hholds, h.rows_nn, h.cols_nn, by rw [hlen']; exact h.len, h.ncells, h.ne, h.calcOn, h.pd, h.pi,
        h.inside, h.sorted⟩
    | empty h _ => exact absurd rfl hne
  have hlyr1 : r.nLyrs = 1 := by have := hh.2.2; rw [h1] at this; simpa using this.1
  refine ⟨r', hadd, rfl, rfl, rfl, rfl, rfl, ?_, ?_, ?_⟩
  · intro row col; rw [hinv.stored, hst]
  · intro row col lyr hns l1 l2
    have hloc : loc row col = none := by
      cases hl : loc row col with
      | none => rfl
      | some m => exact absurd ((hst row col).2 ⟨m, hl⟩) hns
    refine ⟨?_, ?_⟩
    · rw [hi.val row col 1 (by omega), hloc]
    · rw [hinv.val row col lyr ⟨l1, l2⟩, hloc]
  · intro row col hs
    obtain ⟨i, hloc⟩ := (hst row col).1 hs
    have hil := (hi.inside hloc).2
    obtain ⟨vs, e, h2, h3⟩ := hgi i hil
    have hlsi : ls'.getD i [] = cellAt ls i 0 :: vs := by
      rw [List.getD_eq_getElem _ _ (by omega)]; simp [ls', e]
    have hlyr : r.nLyrs = 1 := by have := hh.2.2; rw [h1] at this; simpa using this.1
    refine ⟨cellAt ls i 0, ?_, ?_, ?_⟩
    · rw [hi.val row col 1 (by omega), hloc]; rfl
    · rw [hinv.val row col 1 (by show (1 : Int) ≤ 1 ∧ (1 : Int) ≤ layers.length + 1; omega), hloc]
      simp only [cellAt, hlsi]; rfl
    · intro k hk
      obtain ⟨v, hv1, hv2⟩ := h3 row col hloc k hk
      refine ⟨v, ?_, hv2⟩
      rw [hinv.val row col _ (by show (1 : Int) ≤ k + 2 ∧ ((k : Int) + 2) ≤ layers.length + 1; omega), hloc]
      simp only [cellAt, hlsi]
      rw [show ((k : Int) + 2 - 1).toNat = k + 1 by omega]
      simp [hv1]

/-- C60 (partial): adding layers to a single-layer raster (any history, with or without positions) is defined and
gives for each stored cell whose first layer is valid, in layer k+2, what the k-th additional layer shows at the
centre of the cell; the first layer and the set of stored cells do not change. Missing: cell centres that the
coordinate lookup treats wrongly (`GoodPoint`, see `C60_false`, `C60_false_right`), failing file readers. -/
theorem C60_layers_partial {r : Raster} (hb : Spec.Built r) (h1 : r.is2d = false) (hn : 0 < r.nCells)
    (layers : List (Header × List ℚ)) (hl : ∀ l ∈ layers, LayerOk l)
    (hg : ∀ row col, Spec.Stored r row col → ∀ l ∈ layers,
      GoodPoint l.1 (r.hdr.grid.center row col).1 (r.hdr.grid.center row col).2) :
    ∃ r', r.addLayers (layers.map (fun (l : Header × List ℚ) => (l.1, some l.2))) = .ok r' ∧ r'.nLyrs = layers.length + 1 ∧
      (∀ row col, Spec.Stored r' row col ↔ Spec.Stored r row col) ∧
      ∀ row col, Spec.Stored r row col → ∃ first, r.getValue row col 1 = .ok first ∧
        r'.getValue row col 1 = .ok first ∧
        (floatEqual r.noData first = false → ∀ k (hk : k < layers.length), ∃ v,
          r'.getValue row col (k + 2) = .ok v ∧
          Spec.ShowsAt layers[k].1 layers[k].2 r.noData
            (r.hdr.grid.center row col).1 (r.hdr.grid.center row col).2 v) := by
  obtain ⟨r', e, e1, -, -, -, -, e2, -, e3⟩ := layers_core hb h1 hn layers hl hg
  refine ⟨r', e, e1, e2, ?_⟩
  intro row col hs
  obtain ⟨first, f1, f2, f3⟩ := e3 row col hs
  refine ⟨first, f1, f2, ?_⟩
  intro hfl k hk
  obtain ⟨v, v1, v2⟩ := f3 k hk
  rw [if_neg (by simp [hfl])] at v2
  exact ⟨v, v1, v2⟩

/-- A 2x2 grid with one NoData cell. -/
def exRaster2 : Raster := ofArray1 (some [1, -9999, 3, 4]) 2 2 (-9999) 10 5 5

/-- A second layer for the example raster, on the same grid. -/
def exLayer : Header × List ℚ := (⟨2, 2, 10, 5, 5, -1, 1, 4⟩, [11, 12, -1, 14])

/-- Non-vacuity of C60. -/
example : LayerOk exLayer ∧ (∀ row col, Spec.Stored exRaster2 row col →
    GoodPoint exLayer.1 (exRaster2.hdr.grid.center row col).1 (exRaster2.hdr.grid.center row col).2) ∧
    (exRaster2.addLayers [(exLayer.1, some exLayer.2)] >>= fun r => do
      let a ← r.getValue 0 0 2
      let b ← r.getValue 0 1 2
      let c ← r.getValue 1 0 2
      return (a, b, c)) = .ok (11, -9999, -9999) := by
  refine ⟨by unfold LayerOk; decide +kernel, ?_, by decide +kernel⟩
  intro row col h
  have hin : 0 ≤ row ∧ row < exRaster2.hdr.rows ∧ 0 ≤ col ∧ col < exRaster2.hdr.cols := by
    by_contra hno
    obtain ⟨i, hi⟩ := h
    rw [Raster.getPosition_outside _ _ _ hno] at hi
    simp at hi
  exact GoodPoint.same exLayer.1 (by decide +kernel) row col hin

end CCGL
