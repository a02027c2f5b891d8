import Verif.Lemmas.SubObj
import Mathlib.Data.List.Sort
/-! The array loops of `SubsetPositions`. -/
namespace CCGL
namespace SubObj
open Spec

theorem copy1_take {α : Type} (n : Nat) (l : List α) (h : n ≤ l.length) : copy1 (n : Int) l = .ok (l.take n) := by
  unfold copy1
  rw [if_neg (by omega), if_pos (by omega)]
  simp

theorem copy1_all {α : Type} (n : Nat) (l : List α) (h : l.length = n) : copy1 (n : Int) l = .ok l := by
  rw [copy1_take n l (by omega), List.take_of_length_le (by omega)]

theorem copyPairs_all (n : Nat) (l : List (Int × Int)) (h : l.length = n) (hn : 1 ≤ n) : copyPairs (n : Int) l = .ok l := by
  unfold copyPairs
  rw [if_neg (by intro e; rw [e] at h; simp at h; omega), copy1_all n l h]

theorem copyRows_take (n m : Nat) (l : List (List ℚ)) (hn : 1 ≤ n) (hm : 1 ≤ m) (h : n ≤ l.length)
    (hr : ∀ r ∈ l, m ≤ r.length) : copyRows (n : Int) (m : Int) l = .ok ((l.take n).map (List.take m)) := by
  unfold copyRows
  cases l with
  | nil => simp at h; omega
  | cons r0 l =>
    have h0 : readAt (some (r0 :: l)) 0 = .ok r0 := readAt_some_nat (r0 :: l) 0 (by simp)
    have hr0 := hr r0 (by simp)
    have h1 : readAt (some r0) 0 = .ok (r0[0]'(by omega)) := readAt_some_nat r0 0 (by omega)
    rw [h0, Out.ok_bind, h1, Out.ok_bind, copy1_take n _ h, Out.ok_bind]
    refine Raster.mapM_ok _ _ _ ?_
    intro r hrm
    exact copy1_take m r (hr r (List.mem_of_mem_take hrm))

theorem overwrite_take {α : Type} (n : Nat) (dst src : List α) (h1 : n ≤ dst.length) (h2 : n ≤ src.length) :
    overwrite (n : Int) dst src = .ok (src.take n ++ dst.drop n) := by
  unfold overwrite
  rw [if_pos ⟨by omega, by omega⟩]
  simp

theorem overwrite_all {α : Type} (n : Nat) (dst src : List α) (h1 : dst.length = n) (h2 : n ≤ src.length) :
    overwrite (n : Int) dst src = .ok (src.take n) := by
  rw [overwrite_take n dst src (by omega) h2, List.drop_of_length_le (by omega), List.append_nil]

theorem overwrite2_spec (n m M : Nat) (dst src : List (List ℚ)) (h1 : dst.length = n) (h2 : n ≤ src.length)
    (hd : ∀ r ∈ dst, r.length = M) (hs : ∀ r ∈ src, m ≤ r.length) (hm : m ≤ M) :
    ∃ l, overwrite2 (n : Int) (m : Int) dst src = .ok l ∧ l.length = n ∧ (∀ r ∈ l, r.length = M) ∧
      ofRows n m l = ofRows n m src := by
  let F : Nat → List ℚ := fun k => (src.getD k []).take m ++ (dst.getD k []).drop m
  have hrows : (List.range (n : Int).toNat).mapM (fun (i : Nat) => do
      let d ← readAt (some dst) i
      let s ← readAt (some src) i
      overwrite (m : Int) d s) = .ok ((List.range n).map F) := by
    rw [Int.toNat_natCast]
    refine Raster.mapM_ok _ F _ ?_
    intro k hk
    have hk' : k < n := List.mem_range.1 hk
    have e1 : readAt (some dst) (k : Int) = .ok (dst[k]'(by omega)) := readAt_some_nat dst k (by omega)
    have e2 : readAt (some src) (k : Int) = .ok (src[k]'(by omega)) := readAt_some_nat src k (by omega)
    have g1 : dst.getD k [] = dst[k]'(by omega) := by simp [List.getD, List.getElem?_eq_getElem (show k < dst.length by omega)]
    have g2 : src.getD k [] = src[k]'(by omega) := by simp [List.getD, List.getElem?_eq_getElem (show k < src.length by omega)]
    rw [e1, Out.ok_bind, e2, Out.ok_bind, overwrite_take m _ _ (by rw [hd _ (List.getElem_mem _)]; exact hm)
      (hs _ (List.getElem_mem _))]
    simp only [F, g1, g2]
  refine ⟨(List.range n).map F, ?_, by simp, ?_, ?_⟩
  · unfold overwrite2
    rw [hrows, Out.ok_bind, overwrite_all n dst _ h1 (by simp), List.take_of_length_le (by simp)]
  · intro r hr
    obtain ⟨k, hk, rfl⟩ := List.mem_map.1 hr
    have hk' : k < n := List.mem_range.1 hk
    have g1 : dst.getD k [] = dst[k]'(by omega) := by simp [List.getD, List.getElem?_eq_getElem (show k < dst.length by omega)]
    have g2 : src.getD k [] = src[k]'(by omega) := by simp [List.getD, List.getElem?_eq_getElem (show k < src.length by omega)]
    have := hd _ (List.getElem_mem (l := dst) (n := k) (by omega))
    have := hs _ (List.getElem_mem (l := src) (n := k) (by omega))
    simp only [F, g1, g2, List.length_append, List.length_take, List.length_drop]
    omega
  · unfold ofRows
    refine List.map_congr_left ?_
    intro j hj
    have hj' : j < m := List.mem_range.1 hj
    refine List.ext_getElem (by simp; omega) ?_
    intro k hk1 hk2
    have hk' : k < n := by simp at hk2; omega
    have g2 : src.getD k [] = src[k]'(by omega) := by simp [List.getD, List.getElem?_eq_getElem (show k < src.length by omega)]
    have := hs _ (List.getElem_mem (l := src) (n := k) (by omega))
    simp only [List.getElem_map, List.getElem_take, List.getElem_range, F, g2]
    simp only [List.getD_eq_getElem?_getD]
    rw [List.getElem?_append_left (by simp; omega), List.getElem?_take_of_lt hj']

/-! #### full-size arrays -/

theorem lookup_mem {β : Type} : ∀ (l : List (Int × β)), (l.map (·.1)).Nodup → ∀ it ∈ l, l.lookup it.1 = some it.2
  | [], _, it, h => by simp at h
  | (k, v) :: l, hn, it, h => by
    simp only [List.map_cons, List.nodup_cons] at hn
    rcases List.mem_cons.1 h with rfl | h'
    · simp
    · have hne : it.1 ≠ k := by
        intro e; apply hn.1; rw [← e]; exact List.mem_map_of_mem h'
      rw [List.lookup_cons, beq_false_of_ne hne]
      exact lookup_mem l hn.2 it h'

theorem lookup_not_mem {β : Type} (l : List (Int × β)) (k : Int) (h : k ∉ l.map (·.1)) : l.lookup k = none := by
  rw [List.lookup_eq_none_iff]
  intro p hp
  simp only [bne_iff_ne, ne_eq]
  intro e
  exact h (by rw [e]; exact List.mem_map_of_mem hp)

theorem index_lt {s : Shape} {c : Int × Int × Int} (h : 0 ≤ c.2.1 ∧ c.2.1 < s.nrows ∧ 0 ≤ c.2.2 ∧ c.2.2 < s.ncols) :
    0 ≤ s.index c ∧ s.index c < s.size := by
  obtain ⟨h1, h2, h3, h4⟩ := h
  unfold Shape.index Shape.size
  constructor
  · have : 0 ≤ c.2.1 * s.ncols := mul_nonneg h1 (by omega)
    omega
  · have : (c.2.1 + 1) * s.ncols ≤ s.nrows * s.ncols := mul_le_mul_of_nonneg_right (by omega) (by omega)
    have e : (c.2.1 + 1) * s.ncols = c.2.1 * s.ncols + s.ncols := by ring
    omega

theorem Shape.Ok.size_pos {s : Shape} (h : s.Ok) : 0 < s.size := by
  obtain ⟨h1, h2, _⟩ := h
  cases e : s.cells with
  | nil => exact absurd e h1
  | cons c l =>
    have := index_lt (h2 c (by rw [e]; simp))
    omega

theorem Shape.Ok.count_pos {s : Shape} (h : s.Ok) : 1 ≤ s.count := List.length_pos_of_ne_nil h.1

theorem Shape.Ok.nodup {s : Shape} (h : s.Ok) : (s.cells.map s.index).Nodup := by
  rw [List.nodup_iff_pairwise_ne, List.pairwise_map]
  exact h.2.2.imp (fun h => by omega)

/-- The writes of `Output` give the array of the box. -/
theorem scatter_full {s : Shape} (h : s.Ok) (nodata : ℚ) (values : List ℚ) (hv : values.length = s.count) :
    scatter (alloc1 s.size nodata) ((s.cells.map s.index).zip values) = .ok (some (s.full nodata values)) := by
  have hpos := Shape.Ok.size_pos h
  have hal : alloc1 s.size nodata = some (List.replicate s.size.toNat nodata) := by
    unfold alloc1; rw [if_neg (by omega)]
  have hkeys : ((s.cells.map s.index).zip values).map (·.1) = s.cells.map s.index := by
    rw [show (fun (x : Int × ℚ) => x.1) = Prod.fst from rfl, List.map_fst_zip]
    simp [hv, Shape.count]
  have hnd : (((s.cells.map s.index).zip values).map (·.1)).Nodup := by rw [hkeys]; exact Shape.Ok.nodup h
  have hrange : ∀ it ∈ (s.cells.map s.index).zip values, 0 ≤ it.1 ∧ it.1 < s.size := by
    intro it hit
    have : it.1 ∈ s.cells.map s.index := by rw [← hkeys]; exact List.mem_map_of_mem hit
    obtain ⟨c, hc, he⟩ := List.mem_map.1 this
    rw [← he]; exact index_lt (h.2.1 c hc)
  rw [hal]
  obtain ⟨d, hd, hl, hin, hout⟩ := scatter_items ((s.cells.map s.index).zip values) (List.replicate s.size.toNat nodata)
    (by intro it hit
        have := hrange it hit
        rw [List.length_replicate]; omega)
    (by intro a ha b hb e
        have e1 := lookup_mem _ hnd a ha
        have e2 := lookup_mem _ hnd b hb
        rw [e, e2] at e1
        exact (Option.some.inj e1).symm)
  rw [hd]
  congr 2
  rw [List.length_replicate] at hl
  refine List.ext_getElem (by simp [Shape.full, hl]) ?_
  intro k hk1 hk2
  simp only [Shape.full, List.getElem_map, List.getElem_range]
  by_cases hm : (k : Int) ∈ ((s.cells.map s.index).zip values).map (·.1)
  · obtain ⟨it, hit, he⟩ := List.mem_map.1 hm
    have e1 := hin it hit
    have e2 := lookup_mem _ hnd it hit
    rw [he] at e1 e2
    rw [readAt_some_nat d k hk1] at e1
    rw [e2]
    simpa using e1
  · rw [lookup_not_mem _ _ hm]
    have e1 := hout k (by omega) (by rw [List.length_replicate]; omega) hm
    rw [readAt_some_nat d k hk1, readAt_some_nat _ k (by rw [List.length_replicate]; omega)] at e1
    simpa using e1

/-! #### reading a stored file -/

/-- A box all of whose cells belong to the subset: the cells are in the order of the box. -/
theorem sorted_full : ∀ (n : Nat) (l : List Int), l.length = n → l.Pairwise (· < ·) → (∀ x ∈ l, 0 ≤ x ∧ x < (n : Int)) →
    l = (List.range n).map (fun k : Nat => (k : Int)) := by
  intro n
  induction n with
  | zero => intro l h _ _; simp at h; simp [h]
  | succ n ih =>
    intro l hl hp hr
    have hne : l ≠ [] := by intro e; rw [e] at hl; simp at hl
    obtain ⟨l', x, rfl⟩ : ∃ l' x, l = l' ++ [x] := ⟨l.dropLast, l.getLast hne, (List.dropLast_append_getLast hne).symm⟩
    rw [List.pairwise_append] at hp
    simp only [List.length_append, List.length_cons, List.length_nil] at hl
    have hx := hr x (by simp)
    have hlt : ∀ y ∈ l', y < x := fun y hy => hp.2.2 y hy x (by simp)
    have hl' : l' = (List.range n).map (fun k : Nat => (k : Int)) := by
      refine ih l' (by omega) hp.1 ?_
      intro y hy
      have h1 := hr y (by simp [hy])
      have h2 := hlt y hy
      push_cast at hx
      omega
    have hxn : x = n := by
      cases n with
      | zero => push_cast at hx; omega
      | succ m =>
        have := hlt (m : Int) (by rw [hl']; simp)
        push_cast at hx ⊢; omega
    rw [List.range_succ, List.map_append, ← hl', hxn]; simp

theorem cells_full {s : Shape} (h : s.Ok) (hc : (s.count : Int) = s.size) :
    s.cells.map s.index = (List.range s.count).map (fun k : Nat => (k : Int)) := by
  refine sorted_full s.count _ (by simp [Shape.count]) (by rw [List.pairwise_map]; exact h.2.2) ?_
  intro x hx
  obtain ⟨c, hcm, rfl⟩ := List.mem_map.1 hx
  have := index_lt (h.2.1 c hcm)
  rw [hc]; exact this

theorem readAt_getD (l : List ℚ) (k : Int) (h0 : 0 ≤ k) (h : k < l.length) : readAt (some l) k = .ok (l.getD k.toNat 0) := by
  rw [readAt_some_int l k h0 h]
  simp [List.getD, List.getElem?_eq_getElem (show k.toNat < l.length by omega)]

/-- `s.cells[k]`, as a total function. -/
theorem range_cells {β : Type} (s : Shape) (F : Int × Int × Int → β) :
    (List.range s.count).map (fun k => F (s.cells.getD k (0, 0, 0))) = s.cells.map F := by
  refine List.ext_getElem (by simp [Shape.count]) ?_
  intro k h1 h2
  have hk : k < s.cells.length := by simpa using h2
  simp [List.getD, List.getElem?_eq_getElem hk]

theorem lidx_read (s : Shape) (k : Nat) (hk : k < s.count) :
    readAt (some (s.cells.map s.index)) (k : Int) = .ok (s.index (s.cells.getD k (0, 0, 0))) := by
  have hk' : k < s.cells.length := hk
  rw [readAt_some_nat _ k (by simpa using hk')]
  simp [List.getD, List.getElem?_eq_getElem hk']

theorem cell_mem (s : Shape) (k : Nat) (hk : k < s.count) : s.cells.getD k (0, 0, 0) ∈ s.cells := by
  have hk' : k < s.cells.length := hk
  simp only [List.getD, List.getElem?_eq_getElem hk', Option.getD_some]
  exact List.getElem_mem _

theorem pickFull_spec {s : Shape} (h : s.Ok) (db : List ℚ) (hdb : s.size ≤ db.length) :
    pickFull (s.count : Int) (s.cells.map s.index) db = .ok (s.cells.map (fun c => db.getD (s.index c).toNat 0)) := by
  unfold pickFull
  rw [Int.toNat_natCast, ← range_cells s (fun c => db.getD (s.index c).toNat 0)]
  refine Raster.mapM_ok _ _ _ ?_
  intro k hk
  have hk' := List.mem_range.1 hk
  have hi := index_lt (h.2.1 _ (cell_mem s k hk'))
  rw [lidx_read s k hk', Out.ok_bind, readAt_getD db _ hi.1 (by omega)]

theorem pickLayers_spec {s : Shape} (h : s.Ok) (db : List ℚ) (dbn : Int) (m : Nat) (hm : 1 ≤ m)
    (hn : dbn = s.size ∨ dbn = s.count) (hdb : dbn * m ≤ db.length) :
    ∃ rows, pickLayers (s.count : Int) (m : Int) (decide (s.size = dbn)) (s.cells.map s.index) db = .ok rows ∧
      rows.length = s.count ∧ (∀ r ∈ rows, r.length = m) ∧ ofRows s.count m rows = ofFile s dbn m db := by
  let F : Nat → Nat → ℚ := fun k j =>
    if dbn = s.size then db.getD (s.index (s.cells.getD k (0, 0, 0)) * m + j).toNat 0 else db.getD (k * m + j) 0
  refine ⟨(List.range s.count).map (fun k => (List.range m).map (F k)), ?_, by simp, ?_, ?_⟩
  · unfold pickLayers
    rw [Int.toNat_natCast, Int.toNat_natCast]
    refine Raster.mapM_ok _ _ _ ?_
    intro k hk
    have hk' := List.mem_range.1 hk
    refine Raster.mapM_ok _ _ _ ?_
    intro j hj
    have hj' := List.mem_range.1 hj
    by_cases hd : dbn = s.size
    · have hi := index_lt (h.2.1 _ (cell_mem s k hk'))
      rw [if_pos (by simp [hd]), lidx_read s k hk', Out.ok_bind]
      simp only [F, if_pos hd]
      generalize s.index (s.cells.getD k (0, 0, 0)) = x at hi
      have h1 : (x + 1) * (m : Int) ≤ dbn * m := mul_le_mul_of_nonneg_right (by omega) (by omega)
      have h2 : (x + 1) * (m : Int) = x * m + m := by ring
      have h3 : 0 ≤ x * (m : Int) := mul_nonneg hi.1 (by omega)
      exact readAt_getD db _ (by omega) (by omega)
    · have hn' : dbn = s.count := hn.resolve_left hd
      rw [if_neg (by simp; exact fun e => hd e.symm)]
      simp only [F, if_neg hd]
      have h1 : ((k : Int) + 1) * (m : Int) ≤ dbn * m := mul_le_mul_of_nonneg_right (by omega) (by omega)
      have h2 : ((k : Int) + 1) * (m : Int) = k * m + m := by ring
      have h3 : 0 ≤ (k : Int) * (m : Int) := by positivity
      rw [readAt_getD db _ (by omega) (by omega)]
      have : ((k : Int) * m + j).toNat = k * m + j := by
        have : ((k : Int) * m + j) = ((k * m + j : Nat) : Int) := by push_cast; ring
        rw [this, Int.toNat_natCast]
      rw [this]
  · intro r hr
    obtain ⟨k, _, rfl⟩ := List.mem_map.1 hr
    simp
  · unfold ofRows ofFile
    refine List.map_congr_left ?_
    intro j hj
    have hj' := List.mem_range.1 hj
    rw [List.take_of_length_le (by simp), List.map_map]
    have hF : ∀ k, ((fun r : List ℚ => r.getD j 0) ∘ fun k => (List.range m).map (F k)) k = F k j := by
      intro k
      simp [List.getD, hj']
    rw [List.map_congr_left (fun k _ => hF k)]
    by_cases hd : dbn = s.size
    · simp only [F, if_pos hd]
      exact range_cells s (fun c => db.getD (s.index c * m + j).toNat 0)
    · simp only [F, if_neg hd]

/-- One layer whose cells are listed in order. -/
theorem ofFile_one {s : Shape} (h : s.Ok) (db : List ℚ) (hdb : s.count ≤ db.length) :
    ofFile s s.count 1 db = [db.take s.count] := by
  have hr : (List.range s.count).map (fun k => db.getD k 0) = db.take s.count := by
    refine List.ext_getElem (by simp; omega) ?_
    intro k h1 h2
    have : k < db.length := by simp at h2; omega
    simp [List.getD, List.getElem?_eq_getElem this]
  unfold ofFile
  simp only [List.range_one, List.map_cons, List.map_nil, Nat.mul_one, Nat.add_zero, Nat.cast_one, mul_one, Nat.cast_zero, add_zero]
  by_cases hd : (s.count : Int) = s.size
  · rw [if_pos hd, ← hr]
    have : s.cells.map (fun c => db.getD (s.index c).toNat 0) = (s.cells.map s.index).map (fun i => db.getD i.toNat 0) := by
      rw [List.map_map]; rfl
    rw [this, cells_full h hd, List.map_map]
    congr 1
  · rw [if_neg hd, hr]

theorem ofFile_full_one {s : Shape} (db : List ℚ) : ofFile s s.size 1 db = [s.cells.map (fun c => db.getD (s.index c).toNat 0)] := by
  unfold ofFile
  simp

end SubObj
end CCGL
