import Verif.Model.Subset
import Verif.Lemmas.RasterHist
/-! Integer maps, scatter writes, and the loops of `BuildSubSet`. -/
namespace CCGL

/-! #### maps -/
namespace IMap
variable {β : Type}

theorem get_nil (k : Int) : IMap.get ([] : IMap β) k = none := rfl

theorem get_cons (e : Int × β) (m : IMap β) (k : Int) :
    IMap.get (e :: m) k = if e.1 = k then some e.2 else IMap.get m k := by
  unfold IMap.get
  by_cases h : e.1 = k <;> simp [h]

theorem get_set (m : IMap β) (k : Int) (v : β) (k' : Int) :
    IMap.get (IMap.set m k v) k' = if k' = k then some v else IMap.get m k' := by
  induction m with
  | nil =>
    have : IMap.set ([] : IMap β) k v = [(k, v)] := rfl
    rw [this, get_cons, get_nil]
    by_cases h : k' = k
    · simp [h]
    · simp [h, Ne.symm h]
  | cons e m ih =>
    have hs : IMap.set (e :: m) k v = if k < e.1 then (k, v) :: e :: m else if k = e.1 then (k, v) :: m
      else e :: IMap.set m k v := rfl
    rw [hs]
    by_cases h1 : k < e.1
    · rw [if_pos h1, get_cons]
      by_cases h3 : k' = k
      · simp [h3]
      · rw [if_neg (Ne.symm h3), if_neg h3]
    · rw [if_neg h1]
      by_cases h2 : k = e.1
      · rw [if_pos h2, get_cons, get_cons]
        by_cases h3 : k' = k
        · simp [h3]
        · rw [if_neg (Ne.symm h3), if_neg h3, if_neg (by rw [← h2]; exact Ne.symm h3)]
      · rw [if_neg h2, get_cons, get_cons, ih]
        by_cases h3 : k' = k
        · rw [if_pos h3, if_neg (by rw [h3]; exact Ne.symm h2), if_pos h3]
        · rw [if_neg h3, if_neg h3]

theorem mem_set_key (m : IMap β) (k : Int) (v : β) (x : Int) (hx : x ∈ (IMap.set m k v).map (·.1)) :
    x = k ∨ x ∈ m.map (·.1) := by
  induction m with
  | nil =>
    have : IMap.set ([] : IMap β) k v = [(k, v)] := rfl
    rw [this] at hx; left; simpa using hx
  | cons e m ih =>
    have hs : IMap.set (e :: m) k v = if k < e.1 then (k, v) :: e :: m else if k = e.1 then (k, v) :: m
      else e :: IMap.set m k v := rfl
    rw [hs] at hx
    split_ifs at hx with h1 h2
    · simp only [List.map_cons, List.mem_cons] at hx ⊢; exact hx
    · simp only [List.map_cons, List.mem_cons] at hx ⊢
      rcases hx with hx | hx
      · exact .inl hx
      · exact .inr (.inr hx)
    · simp only [List.map_cons, List.mem_cons] at hx ⊢
      rcases hx with hx | hx
      · exact .inr (.inl hx)
      · rcases ih hx with h | h
        · exact .inl h
        · exact .inr (.inr h)

theorem set_sorted (m : IMap β) (k : Int) (v : β) (h : (m.map (·.1)).Pairwise (· < ·)) :
    ((IMap.set m k v).map (·.1)).Pairwise (· < ·) := by
  induction m with
  | nil => have : IMap.set ([] : IMap β) k v = [(k, v)] := rfl
           rw [this]; simp
  | cons e m ih =>
    have hs : IMap.set (e :: m) k v = if k < e.1 then (k, v) :: e :: m else if k = e.1 then (k, v) :: m
      else e :: IMap.set m k v := rfl
    simp only [List.map_cons, List.pairwise_cons] at h
    rw [hs]
    split_ifs with h1 h2
    · simp only [List.map_cons, List.pairwise_cons, List.mem_cons]
      refine ⟨?_, h⟩
      rintro a (rfl | ha)
      · exact h1
      · exact h1.trans (h.1 a ha)
    · simp only [List.map_cons, List.pairwise_cons]
      exact ⟨by rw [h2]; exact h.1, h.2⟩
    · simp only [List.map_cons, List.pairwise_cons]
      refine ⟨?_, ih h.2⟩
      intro a ha
      rcases mem_set_key m k v a ha with rfl | ha
      · omega
      · exact h.1 a ha

theorem mem_iff_get (m : IMap β) (h : (m.map (·.1)).Pairwise (· < ·)) (k : Int) (v : β) :
    (k, v) ∈ m ↔ IMap.get m k = some v := by
  induction m with
  | nil => simp [get_nil]
  | cons e m ih =>
    simp only [List.map_cons, List.pairwise_cons] at h
    rw [get_cons, List.mem_cons, ih h.2]
    constructor
    · rintro (rfl | hm)
      · simp
      · have hmem := (ih h.2).2 hm
        have := h.1 k (List.mem_map.2 ⟨_, hmem, rfl⟩)
        rw [if_neg (by omega), hm]
    · intro hg
      split_ifs at hg with he
      · left; injection hg with hg; rw [← hg, ← he]
      · exact .inr hg

theorem get_mem {m : IMap β} {k : Int} {v : β} (h : IMap.get m k = some v) : (k, v) ∈ m := by
  induction m with
  | nil => simp [get_nil] at h
  | cons e m ih =>
    rw [get_cons] at h
    split_ifs at h with he
    · injection h with h; rw [← h, ← he]; exact List.mem_cons_self
    · exact List.mem_cons_of_mem _ (ih h)

/-- Mapping the values (keys kept). -/
theorem get_mapVal {γ : Type} (m : IMap β) (f : Int → β → γ) (k : Int) :
    IMap.get (m.map (fun e => (e.1, f e.1 e.2))) k = (IMap.get m k).map (f k) := by
  induction m with
  | nil => rfl
  | cons e m ih =>
    rw [List.map_cons, get_cons, get_cons, ih]
    by_cases h : e.1 = k
    · simp [h]
    · simp [h]

end IMap

/-! #### scatter -/

theorem scatter_spec {α : Type} (F : Int → α) : ∀ (items : List (Int × α)) (d : List α),
    (∀ it ∈ items, 0 ≤ it.1 ∧ it.1 < d.length ∧ it.2 = F it.1) →
    ∃ d', scatter (some d) items = .ok (some d') ∧ d'.length = d.length ∧
      ∀ j : Nat, j < d.length → d'[j]? = if (j : Int) ∈ items.map (·.1) then some (F j) else d[j]?
  | [], d, _ => ⟨d, rfl, rfl, fun j _ => by simp⟩
  | it :: items, d, h => by
    obtain ⟨h0, h1, h2⟩ := h it List.mem_cons_self
    have e : scatter (some d) (it :: items) = (writeAt (some d) it.1 it.2 >>= fun p' => scatter p' items) := rfl
    rw [e, writeAt_some d _ _ h0 h1, Out.ok_bind]
    obtain ⟨d', hd, hl, hv⟩ := scatter_spec F items (d.set it.1.toNat it.2) (by
      intro x hx
      have := h x (List.mem_cons_of_mem _ hx)
      rw [List.length_set]; exact this)
    refine ⟨d', hd, by rw [hl, List.length_set], fun j hj => ?_⟩
    rw [hv j (by rw [List.length_set]; exact hj)]
    simp only [List.map_cons, List.mem_cons]
    by_cases hm : (j : Int) ∈ items.map (·.1)
    · rw [if_pos hm, if_pos (.inr hm)]
    · rw [if_neg hm]
      by_cases hji : (j : Int) = it.1
      · rw [if_pos (.inl hji)]
        have : j = it.1.toNat := by omega
        rw [this, List.getElem?_set_self (by omega)]
        rw [h2]; congr 2; omega
      · rw [if_neg (by rintro (h | h); exacts [hji h, hm h]), List.getElem?_set_ne (by omega)]

theorem collectItems_ok {α β : Type} (f : β → Out (Option (Int × α))) (g : β → Int × α) (bs : List β)
    (h : ∀ b ∈ bs, f b = .ok (some (g b))) : collectItems f bs = .ok (some (bs.map g)) := by
  induction bs with
  | nil => rfl
  | cons b bs ih =>
    have e : collectItems f (b :: bs) = (f b >>= fun x => match x with
      | none => .ok none
      | some it => do
        let rest ← collectItems f bs
        return rest.map (it :: ·)) := rfl
    rw [e, h b List.mem_cons_self, Out.ok_bind]
    simp only [ih (fun b hb => h b (List.mem_cons_of_mem _ hb)), Out.ok_bind, Out.pure_eq]
    rfl

/-! #### the loops of `BuildSubSet` -/

/-- The rectangle of `s` is the smallest one containing the positions of the cells `g`. -/
def Tight (pos : Nat → Int × Int) (g : List Nat) (s : Subset) : Prop :=
  (∀ i ∈ g, s.srow ≤ (pos i).1 ∧ (pos i).1 ≤ s.erow ∧ s.scol ≤ (pos i).2 ∧ (pos i).2 ≤ s.ecol) ∧
  (∃ i ∈ g, (pos i).1 = s.srow) ∧ (∃ i ∈ g, (pos i).1 = s.erow) ∧
  (∃ i ∈ g, (pos i).2 = s.scol) ∧ (∃ i ∈ g, (pos i).2 = s.ecol)

/-- State of a subset while cells are added. -/
structure AccOk (pos : Nat → Int × Int) (g : List Nat) (e : Subset × List Int) : Prop where
  idxs : e.2 = g.map (fun (i : Nat) => (i : Int))
  n : e.1.nCells = g.length
  tight : Tight pos g e.1
  fresh : e.1.usable = true ∧ e.1.nLyrs = -1 ∧ e.1.data = none ∧ e.1.data2d = none

structure MapOk (pos : Nat → Int × Int) (sel : Int → Nat → Bool) (L : List Nat) (m : IMap (Subset × List Int)) : Prop where
  sorted : (m.map (·.1)).Pairwise (· < ·)
  none : ∀ k, m.get k = none → L.filter (sel k) = []
  some : ∀ k e, m.get k = some e → L.filter (sel k) ≠ [] ∧ AccOk pos (L.filter (sel k)) e

theorem MapOk.skip {pos sel L m i} (h : MapOk pos sel L m) (hi : ∀ k, sel k i = false) : MapOk pos sel (L ++ [i]) m := by
  refine ⟨h.sorted, fun k hk => ?_, fun k e hk => ?_⟩
  · rw [List.filter_append, h.none k hk]; simp [hi]
  · have : (L ++ [i]).filter (sel k) = L.filter (sel k) := by rw [List.filter_append]; simp [hi]
    rw [this]; exact h.some k e hk

theorem MapOk.add {pos sel L m i k0} (h : MapOk pos sel L m) (hi : ∀ k, sel k i = decide (k0 = k)) :
    MapOk pos sel (L ++ [i]) (addCell m k0 (pos i).1 (pos i).2 i) := by
  have hf : ∀ k, (L ++ [i]).filter (sel k) = L.filter (sel k) ++ (if k0 = k then [i] else []) := by
    intro k
    rw [List.filter_append]
    by_cases hk : k0 = k
    · simp [hi, hk]
    · simp [hi, hk]
  unfold addCell
  refine ⟨IMap.set_sorted _ _ _ h.sorted, fun k hk => ?_, fun k e hk => ?_⟩
  · rw [IMap.get_set] at hk
    split_ifs at hk with hkk
    rw [hf, if_neg (Ne.symm hkk), List.append_nil]; exact h.none k hk
  · rw [IMap.get_set] at hk
    by_cases hkk : k = k0
    · subst hkk
      rw [if_pos rfl] at hk
      injection hk with hk
      rw [hf, if_pos rfl]
      refine ⟨by simp, ?_⟩
      cases hg : IMap.get m k with
      | none =>
        rw [hg] at hk
        rw [h.none k hg]
        simp only [Subset.new, gt_iff_lt, lt_irrefl, if_false, List.nil_append] at hk
        subst hk
        exact ⟨rfl, rfl, ⟨by simp, ⟨i, by simp, rfl⟩, ⟨i, by simp, rfl⟩, ⟨i, by simp, rfl⟩, ⟨i, by simp, rfl⟩⟩,
          rfl, rfl, rfl, rfl⟩
      | some e0 =>
        rw [hg] at hk
        obtain ⟨hne, ha⟩ := h.some k e0 hg
        obtain ⟨t0, ⟨i1, m1, q1⟩, ⟨i2, m2, q2⟩, ⟨i3, m3, q3⟩, ⟨i4, m4, q4⟩⟩ := ha.tight
        simp only at hk
        subst hk
        have hmem : ∀ j ∈ L.filter (sel k), j ∈ L.filter (sel k) ++ [i] := fun j hj => List.mem_append_left _ hj
        have hi' : i ∈ L.filter (sel k) ++ [i] := by simp
        refine ⟨by rw [ha.idxs]; simp, by simp [ha.n], ⟨?_, ?_, ?_, ?_, ?_⟩, ha.fresh⟩
        · intro j hj
          simp only [List.mem_append, List.mem_singleton] at hj
          rcases hj with hj | rfl
          · have := t0 j hj
            simp only
            refine ⟨?_, ?_, ?_, ?_⟩ <;> split_ifs <;> omega
          · simp only
            refine ⟨?_, ?_, ?_, ?_⟩ <;> split_ifs <;> omega
        · simp only; split_ifs
          · exact ⟨i, hi', rfl⟩
          · exact ⟨i1, hmem i1 m1, q1⟩
        · simp only; split_ifs
          · exact ⟨i, hi', rfl⟩
          · exact ⟨i2, hmem i2 m2, q2⟩
        · simp only; split_ifs
          · exact ⟨i, hi', rfl⟩
          · exact ⟨i3, hmem i3 m3, q3⟩
        · simp only; split_ifs
          · exact ⟨i, hi', rfl⟩
          · exact ⟨i4, hmem i4 m4, q4⟩
    · rw [if_neg hkk] at hk
      rw [hf, if_neg (Ne.symm hkk), List.append_nil]
      exact h.some k e hk

/-- The position of the stored cell `i`. -/
def posAt (ps : List (Int × Int)) (i : Nat) : Int × Int := ps.getD i (0, 0)

/-- Cell `i` belongs to group `k`. -/
def selOf (r : Raster) (ls : List (List ℚ)) (groups : IMap Int) (k : Int) (i : Nat) : Bool :=
  !floatEqual (cellAt ls i 0) r.noData && decide (groupOf groups (cellAt ls i 0) = k)

theorem compact_gvi {r : Raster} {ls ps} (h : r.Compact ls ps) (i : Nat) (hi : i < ps.length) :
    r.getValueByIndex i 1 = .ok (cellAt ls i 0) := by
  have hinv : Raster.Inv r ls _ := .comp h
  have hl := h.holds.1
  unfold Raster.getValueByIndex
  rw [h.holds.valid, (Raster.validIndex_iff r i).2 ⟨by omega, by rw [h.ncells]; omega⟩,
    (Raster.validLayer_iff r 1).2 ⟨by omega, hl⟩]
  simp only [Bool.not_true, Bool.or_self, Bool.false_eq_true, if_false]
  rw [h.holds.readCell' i (by rw [h.len]; exact hi) 1 (by omega) hl]
  rfl

theorem compact_pos {r : Raster} {ls ps} (h : r.Compact ls ps) (i : Nat) (hi : i < ps.length) :
    readAt r.posIdx (i : Int) = .ok ((posAt ps i).1 * r.hdr.cols + (posAt ps i).2) ∧
    0 ≤ (posAt ps i).1 ∧ (posAt ps i).1 < r.hdr.rows ∧ 0 ≤ (posAt ps i).2 ∧ (posAt ps i).2 < r.hdr.cols ∧
    Int.tdiv ((posAt ps i).1 * r.hdr.cols + (posAt ps i).2) r.hdr.cols = (posAt ps i).1 ∧
    Int.tmod ((posAt ps i).1 * r.hdr.cols + (posAt ps i).2) r.hdr.cols = (posAt ps i).2 ∧ r.hdr.cols ≠ 0 := by
  have hp : posAt ps i = ps[i] := by unfold posAt; rw [List.getD_eq_getElem _ _ hi]
  obtain ⟨a, b, c, d⟩ := h.inside ps[i] (List.getElem_mem hi)
  rw [hp, h.pi, readAt_some_nat _ i (by simpa using hi)]
  have hc : 0 < r.hdr.cols := by omega
  have hnn : 0 ≤ ps[i].1 * r.hdr.cols + ps[i].2 := by
    have := Int.mul_nonneg a (le_of_lt hc); omega
  refine ⟨by simp, a, b, c, d, ?_, ?_, by omega⟩
  · rw [Int.tdiv_eq_ediv_of_nonneg hnn, Int.add_comm, Int.add_mul_ediv_right _ _ (by omega),
      Int.ediv_eq_zero_of_lt c d]; omega
  · rw [Int.tmod_eq_emod_of_nonneg hnn, Int.add_comm, Int.add_mul_emod_self_right, Int.emod_eq_of_lt c d]

theorem buildLoop_spec {r : Raster} {ls ps} (h : r.Compact ls ps) (groups : IMap Int) : ∀ (rest L : List Nat)
    (m : IMap (Subset × List Int)), (∀ i ∈ rest, i < ps.length) → MapOk (posAt ps) (selOf r ls groups) L m →
    ∃ m', buildLoop r groups rest m = .ok m' ∧ MapOk (posAt ps) (selOf r ls groups) (L ++ rest) m'
  | [], L, m, _, hm => ⟨m, rfl, by simpa using hm⟩
  | i :: rest, L, m, hr, hm => by
    have hi := hr i List.mem_cons_self
    have e : buildLoop r groups (i :: rest) m = (r.getValueByIndex i 1 >>= fun v =>
      if floatEqual v r.noData then buildLoop r groups rest m
      else readAt r.posIdx i >>= fun p => if r.hdr.cols = 0 then .ub else buildLoop r groups rest
        (addCell m (groupOf groups v) (Int.tdiv p r.hdr.cols) (Int.tmod p r.hdr.cols) i)) := rfl
    obtain ⟨hp, -, -, -, -, hd, hmod, hc⟩ := compact_pos h i hi
    have hl : L ++ i :: rest = (L ++ [i]) ++ rest := by simp
    rw [e, compact_gvi h i hi, Out.ok_bind, hl]
    have hrest : ∀ j ∈ rest, j < ps.length := fun j hj => hr j (List.mem_cons_of_mem _ hj)
    by_cases hf : floatEqual (cellAt ls i 0) r.noData = true
    · rw [if_pos hf]
      exact buildLoop_spec h groups rest _ m hrest (hm.skip (by intro k; simp [selOf, hf]))
    · rw [if_neg hf, hp, Out.ok_bind, if_neg hc, hd, hmod]
      exact buildLoop_spec h groups rest _ _ hrest (hm.add (by intro k; simp [selOf, hf]))

/-- A finished subset with cells `g`. -/
structure SubOk (ps : List (Int × Int)) (g : List Nat) (s : Subset) : Prop where
  ne : g ≠ []
  n : s.nCells = g.length
  glob : s.glob = some (g.map (fun (i : Nat) => (i : Int)))
  tight : Tight (posAt ps) g s
  lpos : s.localPos = some (g.map (fun i => ((posAt ps i).1 - s.srow, (posAt ps i).2 - s.scol)))
  lidx : s.localIdx = some (g.map (fun i => ((posAt ps i).1 - s.srow) * (s.ecol - s.scol + 1) +
    ((posAt ps i).2 - s.scol)))

/-- Just built. -/
def SubFresh (s : Subset) : Prop := s.usable = true ∧ s.nLyrs = -1 ∧ s.data = none ∧ s.data2d = none

theorem finishSubset_spec {r : Raster} {ls ps} (h : r.Compact ls ps) (g : List Nat) (e : Subset × List Int)
    (ha : AccOk (posAt ps) g e) (hne : g ≠ []) (hg : ∀ i ∈ g, i < ps.length) :
    ∃ s, finishSubset r e = .ok s ∧ SubOk ps g s ∧ SubFresh s := by
  obtain ⟨s, idx⟩ := e
  obtain ⟨h1, h2, h3, h4⟩ := ha
  simp only at h1 h2 h3 h4
  subst h1
  have hpos : 0 < g.length := List.length_pos_of_ne_nil hne
  have ha1 : ∀ v : Int, alloc1 s.nCells v = some (List.replicate g.length v) := by
    intro v; unfold alloc1; rw [if_neg (by omega), h2]; simp
  have ha2 : alloc2 s.nCells 2 (-1 : Int) = some (List.replicate g.length (List.replicate 2 (-1))) := by
    unfold alloc2; rw [if_neg (by omega), h2]; simp
  have hst : Raster.storeInto (alloc1 s.nCells (0 : Int)) none (g.map (fun (i : Nat) => (i : Int))) =
      .ok (some (g.map (fun (i : Nat) => (i : Int)))) := by
    rw [ha1]; simp [Raster.storeInto]
  unfold finishSubset
  simp only [hst, Out.ok_bind]
  have hm : (List.range s.nCells.toNat).mapM (fun (k : Nat) => (do
      let gi ← readAt (some (g.map (fun (i : Nat) => (i : Int)))) k
      let p ← readAt r.posIdx gi
      (if r.hdr.cols = 0 then .ub
        else .ok (Int.tdiv p r.hdr.cols - s.srow, Int.tmod p r.hdr.cols - s.scol) : Out (Int × Int)) : Out (Int × Int))) =
      .ok ((List.range s.nCells.toNat).map (fun (k : Nat) =>
        ((posAt ps (g.getD k 0)).1 - s.srow, (posAt ps (g.getD k 0)).2 - s.scol))) := by
    apply Raster.mapM_ok
    intro k hk
    have hk' : k < g.length := by rw [List.mem_range, h2] at hk; simpa using hk
    rw [readAt_some_nat _ k (by simpa using hk'), Out.ok_bind]
    simp only [List.getElem_map]
    obtain ⟨hp, -, -, -, -, hd, hmod, hc⟩ := compact_pos h g[k] (hg _ (List.getElem_mem hk'))
    rw [hp, Out.ok_bind, if_neg hc, hd, hmod, List.getD_eq_getElem _ _ hk']
  rw [hm]
  have hmap : (List.range s.nCells.toNat).map (fun (k : Nat) =>
        ((posAt ps (g.getD k 0)).1 - s.srow, (posAt ps (g.getD k 0)).2 - s.scol)) =
      g.map (fun i => ((posAt ps i).1 - s.srow, (posAt ps i).2 - s.scol)) := by
    rw [h2, Int.toNat_natCast]
    apply List.ext_getElem
    · simp
    · intro k hk1 hk2
      have hk' : k < g.length := by simpa using hk2
      simp [List.getElem?_eq_getElem hk']
  rw [hmap, ha1, ha2]
  simp only [Out.ok_bind, Out.pure_eq, Option.map_some, List.map_map]
  exact ⟨_, rfl, ⟨hne, h2, rfl, h3, rfl, rfl⟩, h4⟩

/-- The subset map of a compact raster. -/
structure SubsOk (r : Raster) (ls : List (List ℚ)) (ps : List (Int × Int)) (groups : IMap Int) (subs : IMap Subset) : Prop where
  sorted : (subs.map (·.1)).Pairwise (· < ·)
  none : ∀ k, subs.get k = none → (List.range ps.length).filter (selOf r ls groups k) = []
  some : ∀ k s, subs.get k = some s → SubOk ps ((List.range ps.length).filter (selOf r ls groups k)) s ∧ SubFresh s

theorem buildMap_spec {r : Raster} {ls ps} (h : r.Compact ls ps) (groups : IMap Int) :
    ∃ subs, (buildLoop r groups (List.range r.nCells.toNat) [] >>= fun m =>
        m.mapM (fun (e : Int × (Subset × List Int)) => (do
          let s ← finishSubset r e.2
          return (e.1, s) : Out (Int × Subset)))) = .ok subs ∧ SubsOk r ls ps groups subs := by
  have hn : r.nCells.toNat = ps.length := by rw [h.ncells]; simp
  obtain ⟨m, hm, hok⟩ := buildLoop_spec h groups (List.range r.nCells.toNat) [] []
    (by intro i hi; rw [List.mem_range, hn] at hi; exact hi)
    ⟨by simp, by intro k _; rfl, by intro k e hk; simp [IMap.get_nil] at hk⟩
  rw [List.nil_append, hn] at hok
  have hfin : ∀ e : Int × (Subset × List Int), e ∈ m → ∃ s, finishSubset r e.2 = .ok s ∧
      SubOk ps ((List.range ps.length).filter (selOf r ls groups e.1)) s ∧ SubFresh s := by
    intro e he
    obtain ⟨hne, ha⟩ := hok.some e.1 e.2 ((IMap.mem_iff_get m hok.sorted _ _).1 he)
    exact finishSubset_spec h _ e.2 ha hne (by
      intro i hi; exact List.mem_range.1 (List.mem_filter.1 hi).1)
  let F : Int → Subset × List Int → Subset := fun _ e => match finishSubset r e with
    | .ok s => s
    | _ => e.1
  have hF : ∀ e ∈ m, finishSubset r e.2 = .ok (F e.1 e.2) := by
    intro e he
    obtain ⟨s, hs, -⟩ := hfin e he
    simp only [F, hs]
  refine ⟨m.map (fun e => (e.1, F e.1 e.2)), ?_, ?_, ?_, ?_⟩
  · rw [hm, Out.ok_bind]
    apply Raster.mapM_ok
    intro e he
    rw [hF e he]; rfl
  · rw [List.map_map]; exact hok.sorted
  · intro k hk
    rw [IMap.get_mapVal] at hk
    exact hok.none k (by cases hg : IMap.get m k with
      | none => rfl
      | some e => rw [hg] at hk; simp at hk)
  · intro k s hk
    rw [IMap.get_mapVal] at hk
    cases hg : IMap.get m k with
    | none => rw [hg] at hk; simp at hk
    | some e =>
      rw [hg] at hk
      simp only [Option.map_some, Option.some.injEq] at hk
      have hmem := IMap.get_mem hg
      obtain ⟨s', hs', hok', hfr⟩ := hfin (k, e) hmem
      have : F k e = s' := by simp only [F, hs']
      rw [← hk, this]; exact ⟨hok', hfr⟩

theorem scatter_items {α : Type} (items : List (Int × α)) (d : List α)
    (hr : ∀ it ∈ items, 0 ≤ it.1 ∧ it.1 < d.length)
    (hu : ∀ a ∈ items, ∀ b ∈ items, a.1 = b.1 → a.2 = b.2) :
    ∃ d', scatter (some d) items = .ok (some d') ∧ d'.length = d.length ∧
      (∀ it ∈ items, readAt (some d') it.1 = .ok it.2) ∧
      (∀ n : Int, 0 ≤ n → n < d.length → n ∉ items.map (·.1) → readAt (some d') n = readAt (some d) n) := by
  classical
  by_cases hd : items = []
  · subst hd
    exact ⟨d, rfl, rfl, by simp, fun _ _ _ _ => rfl⟩
  obtain ⟨x0, hx0⟩ := List.exists_mem_of_ne_nil _ hd
  let F : Int → α := fun n => if h : ∃ it, it ∈ items ∧ it.1 = n then (Classical.choose h).2 else x0.2
  have hF : ∀ it ∈ items, it.2 = F it.1 := by
    intro it hit
    have h : ∃ x, x ∈ items ∧ x.1 = it.1 := ⟨it, hit, rfl⟩
    have hs := Classical.choose_spec h
    simp only [F, dif_pos h]
    exact hu _ hit _ hs.1 hs.2.symm
  obtain ⟨d', e, hl, hv⟩ := scatter_spec F items d (fun it hit => ⟨(hr it hit).1, (hr it hit).2, hF it hit⟩)
  refine ⟨d', e, hl, ?_, ?_⟩
  · intro it hit
    obtain ⟨h0, h1⟩ := hr it hit
    rw [readAt_some_int d' it.1 h0 (by rw [hl]; exact h1)]
    have := hv it.1.toNat (by omega)
    rw [show ((it.1.toNat : Nat) : Int) = it.1 by omega, if_pos (List.mem_map.2 ⟨it, hit, rfl⟩),
      List.getElem?_eq_getElem (by omega)] at this
    injection this with this
    rw [this, ← hF it hit]
  · intro n h0 h1 hn
    rw [readAt_some_int d' n h0 (by rw [hl]; exact h1), readAt_some_int d n h0 h1]
    have := hv n.toNat (by omega)
    rw [show ((n.toNat : Nat) : Int) = n by omega, if_neg hn, List.getElem?_eq_getElem (by omega),
      List.getElem?_eq_getElem (by omega)] at this
    injection this with this
    rw [this]

theorem idx_lt_iff {C r c r' c' : Int} (h1 : 0 ≤ c) (h2 : c < C) (h3 : 0 ≤ c') (h4 : c' < C) :
    r * C + c < r' * C + c' ↔ r < r' ∨ (r = r' ∧ c < c') := by
  constructor
  · intro h
    rcases lt_trichotomy r r' with hr | hr | hr
    · exact .inl hr
    · subst hr; exact .inr ⟨rfl, by omega⟩
    · exfalso
      have : (r' + 1) * C ≤ r * C := Int.mul_le_mul_of_nonneg_right (by omega) (by omega)
      rw [Int.add_mul] at this; omega
  · rintro (h | ⟨rfl, h⟩)
    · have : (r + 1) * C ≤ r' * C := Int.mul_le_mul_of_nonneg_right (by omega) (by omega)
      rw [Int.add_mul] at this; omega
    · omega

end CCGL
