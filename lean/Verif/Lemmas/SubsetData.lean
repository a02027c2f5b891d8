import Verif.Props.Subset
/-! Decomposition and combination of subset data. -/
namespace CCGL
open Raster Spec

/-- The subset map lists the cells of the groups (data arbitrary). -/
structure Parts (r : Raster) (ls : List (List ℚ)) (ps : List (Int × Int)) (groups : IMap Int) (subs : IMap Subset) : Prop where
  sorted : (subs.map (·.1)).Pairwise (· < ·)
  none : ∀ k, subs.get k = none → (List.range ps.length).filter (selOf r ls groups k) = []
  some : ∀ k s, subs.get k = some s → SubOk ps ((List.range ps.length).filter (selOf r ls groups k)) s

theorem SubOk.same {ps g s s'} (h : SubOk ps g s) (e : SameCells s s') : SubOk ps g s' := by
  obtain ⟨e1, e2, e3, e4, e5, e6, e7, e8⟩ := e
  refine ⟨h.ne, by rw [e1, h.n], by rw [e6, h.glob], ?_, by rw [e7, h.lpos, e2, e4], by rw [e8, h.lidx, e2, e4, e5]⟩
  unfold Tight
  rw [e2, e3, e4, e5]; exact h.tight

/-- Cells of group `k`. -/
def groupCells (r : Raster) (ls : List (List ℚ)) (ps : List (Int × Int)) (groups : IMap Int) (k : Int) : List Nat :=
  (List.range ps.length).filter (selOf r ls groups k)

theorem groupCells_lt {r ls ps groups k i} (h : i ∈ groupCells r ls ps groups k) : i < ps.length :=
  List.mem_range.1 (List.mem_filter.1 h).1

theorem groupCells_nodup (r ls ps groups k) : (groupCells r ls ps groups k).Nodup := List.nodup_range.filter _

theorem groupCells_disj {r ls ps groups k k' i} (h : i ∈ groupCells r ls ps groups k)
    (h' : i ∈ groupCells r ls ps groups k') : k = k' := by
  have h1 := (List.mem_filter.1 h).2
  have h2 := (List.mem_filter.1 h').2
  rw [selOf_iff] at h1 h2
  rw [← h1.2, ← h2.2]

/-- The linear index of stored cell `i`: its own index or that of its grid cell. -/
def outIdx (r : Raster) (ps : List (Int × Int)) (inc : Bool) (i : Nat) : Int :=
  if inc then (posAt ps i).1 * r.hdr.cols + (posAt ps i).2 else i

theorem outIdx_range {r : Raster} {ls ps} (h : r.Compact ls ps) (inc : Bool) (i : Nat) (hi : i < ps.length) :
    0 ≤ outIdx r ps inc i ∧ outIdx r ps inc i < (if inc then r.hdr.rows * r.hdr.cols else r.nCells) := by
  obtain ⟨-, a, b, c, d, -⟩ := compact_pos h i hi
  unfold outIdx
  cases inc with
  | true => simpa using idx_range a b c d
  | false => have := h.ncells; simp; omega

theorem outIdx_inj {r : Raster} {ls ps} (h : r.Compact ls ps) (inc : Bool) {i j : Nat} (hi : i < ps.length)
    (hj : j < ps.length) (e : outIdx r ps inc i = outIdx r ps inc j) : i = j := by
  obtain ⟨-, a, b, c, d, -⟩ := compact_pos h i hi
  obtain ⟨-, a', b', c', d', -⟩ := compact_pos h j hj
  unfold outIdx at e
  cases inc with
  | true =>
    simp only [if_true] at e
    have := idx_inj c d c' d' e
    exact compact_posAt_inj h hi hj (by ext <;> omega)
  | false => simpa using e

theorem subsetLyrs_spec (lyrs : Int) (hl : 1 ≤ lyrs) : ∀ (subs : IMap Subset) (acc : Int),
    (∀ e ∈ subs, e.2.usable = true → e.2.nLyrs = lyrs ∧ (e.2.data.isSome || e.2.data2d.isSome) = true) →
    (acc = -1 ∨ acc = lyrs) →
    subs.foldl (subsetLyrsStep true) (some acc) =
    some (if acc = lyrs ∨ ∃ e ∈ subs, e.2.usable = true then lyrs else -1)
  | [], acc, _, ha => by
    rcases ha with rfl | rfl
    · simp
    · simp
  | e :: subs, acc, h, ha => by
    have hrest := fun a ha => subsetLyrs_spec lyrs hl subs a (fun x hx => h x (List.mem_cons_of_mem _ hx)) ha
    rw [List.foldl_cons]
    cases hu : e.2.usable with
    | false =>
      have : subsetLyrsStep true (some acc) e = some acc := by simp [subsetLyrsStep, hu]
      have hiff : (acc = lyrs ∨ ∃ x ∈ e :: subs, x.2.usable = true) ↔ (acc = lyrs ∨ ∃ x ∈ subs, x.2.usable = true) := by
        rw [List.exists_mem_cons_iff]
        simp [hu]
      rw [this, hrest acc ha]
      by_cases hc : acc = lyrs ∨ ∃ x ∈ subs, x.2.usable = true
      · rw [if_pos hc, if_pos (hiff.2 hc)]
      · rw [if_neg hc, if_neg (fun h => hc (hiff.1 h))]
    | true =>
      obtain ⟨h1, h2⟩ := h e List.mem_cons_self hu
      have : subsetLyrsStep true (some acc) e = some lyrs := by
        unfold subsetLyrsStep
        simp only [hu, Bool.not_true, Bool.false_eq_true, if_false, Bool.or_false, h2, h1]
        rcases ha with rfl | rfl
        · simp
        · simp
      rw [this, hrest lyrs (.inr rfl)]
      simp [hu]

theorem mem_combCells {subs : IMap Subset} {nd df : ℚ} {lyrs : Int} {x : (Int × Subset × Bool) × (Int × Int)} :
    x ∈ combCells subs nd df lyrs ↔ (x.1.1, x.1.2.1) ∈ subs ∧
      (0 ≤ x.2.1 ∧ x.2.1 < x.1.2.1.nCells ∧ 0 ≤ x.2.2 ∧ x.2.2 < lyrs) ∧
      ((x.1.2.1.usable = true ∧ x.1.2.2 = false) ∨
        (x.1.2.1.usable = false ∧ floatEqual nd df = false ∧ x.1.2.2 = true)) := by
  obtain ⟨⟨k, s, fl⟩, jl⟩ := x
  unfold combCells
  rw [List.mem_flatMap]
  constructor
  · rintro ⟨⟨k', s'⟩, he, hx⟩
    simp only at hx
    split_ifs at hx with h1 h2
    · obtain ⟨y, hy, e⟩ := List.mem_map.1 hx
      simp only [Prod.mk.injEq] at e
      obtain ⟨⟨rfl, rfl, rfl⟩, rfl⟩ := e
      exact ⟨he, (mem_gridCells _ _ _).1 hy, .inl ⟨h1, rfl⟩⟩
    · simp at hx
    · obtain ⟨y, hy, e⟩ := List.mem_map.1 hx
      simp only [Prod.mk.injEq] at e
      obtain ⟨⟨rfl, rfl, rfl⟩, rfl⟩ := e
      exact ⟨he, (mem_gridCells _ _ _).1 hy, .inr ⟨by simpa using h1, by simpa using h2, rfl⟩⟩
  · rintro ⟨he, hg, hc⟩
    refine ⟨(k, s), he, ?_⟩
    have hg' := (mem_gridCells _ _ _).2 hg
    rcases hc with ⟨h1, h2⟩ | ⟨h1, h2, h3⟩
    · simp only at h1 h2 hg' ⊢
      rw [if_pos h1, h2]
      exact List.mem_map.2 ⟨jl, hg', rfl⟩
    · simp only at h1 h2 h3 hg' ⊢
      rw [if_neg (by simp [h1]), if_neg (by simp [h2]), h3]
      exact List.mem_map.2 ⟨jl, hg', rfl⟩

/-- The subset map lists the cells of disjoint groups of stored cells. -/
structure PartsOf (ps : List (Int × Int)) (G : Int → List Nat) (subs : IMap Subset) : Prop where
  sorted : (subs.map (·.1)).Pairwise (· < ·)
  some : ∀ k s, subs.get k = some s → SubOk ps (G k) s
  none : ∀ k, subs.get k = none → G k = []
  lt : ∀ {k i}, i ∈ G k → i < ps.length
  nodup : ∀ k, (G k).Nodup
  disj : ∀ {k k' i}, i ∈ G k → i ∈ G k' → k = k'

theorem Parts.partsOf {r ls ps groups} {subs : IMap Subset} (h : Parts r ls ps groups subs) : PartsOf ps (groupCells r ls ps groups) subs :=
  ⟨h.sorted, h.some, h.none, groupCells_lt, groupCells_nodup r ls ps groups, groupCells_disj⟩

/-- The combination for any partition and any rule giving the written values. -/
theorem comb_any {r : Raster} {ls ps} (hC : r.Compact ls ps) {G : Int → List Nat} {subs : IMap Subset}
    (hP : PartsOf ps G subs) (lyrs : Int) (hl : 1 ≤ lyrs) (oo : Bool) (recls : IMap (List ℚ)) (lr lsub : Int)
    (hlr : reclsLyrs recls = some lr) (hsl : subsetLyrs subs (decide (recls = [])) = some lsub)
    (hly : (if oo then (if lr > 0 then lr else r.nLyrs) else (if lsub < 0 ∧ lr > 0 then lr else lsub)) = lyrs)
    (hne : subs ≠ []) (dv : ℚ) (V : Int → Bool → Int → Int → ℚ)
    (hV : ∀ k s (ud : Bool) (j l : Int), subs.get k = some s → (s.usable = true ∧ ud = false ∨ s.usable = false ∧
        floatEqual r.noData (defaultOf r dv) = false ∧ ud = true) → 0 ≤ j → j < s.nCells → 0 ≤ l → l < lyrs →
      combValue r k s oo ud recls (defaultOf r dv) lyrs j l = .ok (some (V k ud j l))) (inc : Bool) :
    ∃ d, prepareComb ⟨r, subs⟩ oo inc recls dv =
        .ok (some (some d, (if inc then r.hdr.rows * r.hdr.cols else r.nCells) * lyrs, lyrs)) ∧
      (d.length : Int) = (if inc then r.hdr.rows * r.hdr.cols else r.nCells) * lyrs ∧
      (∀ k s (j : Nat) l, subs.get k = some s → (hj : j < (G k).length) → 0 ≤ l → l < lyrs →
        readAt (some d) (outIdx r ps inc (G k)[j] * lyrs + l) =
          .ok (if s.usable then V k false j l else if floatEqual r.noData (defaultOf r dv) then r.noData
            else V k true j l)) ∧
      (∀ n l : Int, 0 ≤ n → n < (if inc then r.hdr.rows * r.hdr.cols else r.nCells) → 0 ≤ l → l < lyrs →
        (∀ k, ∀ i ∈ G k, outIdx r ps inc i ≠ n) →
        readAt (some d) (n * lyrs + l) = .ok r.noData) := by
  classical
  have hmem : ∀ k s, (k, s) ∈ subs ↔ subs.get k = some s := fun k s => IMap.mem_iff_get subs hP.sorted k s
  have hn : ∀ k s, subs.get k = some s → s.nCells = (G k).length := fun k s h => (hP.some k s h).n
  -- the items
  let gi : Int → Int → Nat := fun k j => (G k).getD j.toNat 0
  let g : (Int × Subset × Bool) × (Int × Int) → Int × ℚ := fun x =>
    (outIdx r ps inc (gi x.1.1 x.2.1) * lyrs + x.2.2, V x.1.1 x.1.2.2 x.2.1 x.2.2)
  have hcell : ∀ x ∈ combCells subs r.noData (defaultOf r dv) lyrs, subs.get x.1.1 = some x.1.2.1 ∧
      gi x.1.1 x.2.1 ∈ G x.1.1 ∧ readAt x.1.2.1.glob x.2.1 = .ok (gi x.1.1 x.2.1 : Int) ∧
      (∃ hj : x.2.1.toNat < (G x.1.1).length,
        gi x.1.1 x.2.1 = (G x.1.1)[x.2.1.toNat]) := by
    intro x hx
    obtain ⟨h1, ⟨h2, h3, -, -⟩, -⟩ := mem_combCells.1 hx
    have hg := (hmem _ _).1 h1
    have hlt : x.2.1.toNat < (G x.1.1).length := by
      rw [hn _ _ hg] at h3; omega
    have hgi : gi x.1.1 x.2.1 = (G x.1.1)[x.2.1.toNat] := List.getD_eq_getElem _ _ hlt
    refine ⟨hg, by rw [hgi]; exact List.getElem_mem hlt, ?_, hlt, hgi⟩
    have hgl := (hP.some _ _ hg).glob
    rw [hgl, hgi, readAt_some_int _ _ h2 (by rw [List.length_map]; omega)]
    simp
  have hcollect : collectItems (fun (x : (Int × Subset × Bool) × (Int × Int)) => (do
      let gidx ← readAt x.1.2.1.glob x.2.1
      let p ← readAt r.posIdx gidx
      let v ← combValue r x.1.1 x.1.2.1 oo x.1.2.2 recls (defaultOf r dv) lyrs x.2.1 x.2.2
      let j := if inc then p else gidx
      return v.map (fun v => (j * lyrs + x.2.2, v)) : Out (Option (Int × ℚ))))
      (combCells subs r.noData (defaultOf r dv) lyrs) =
      .ok (some ((combCells subs r.noData (defaultOf r dv) lyrs).map g)) := by
    apply collectItems_ok
    intro x hx
    obtain ⟨hg, hm, hgl, -⟩ := hcell x hx
    obtain ⟨h1, ⟨h2, h3, h4, h5⟩, h6⟩ := mem_combCells.1 hx
    obtain ⟨hp, -⟩ := compact_pos hC _ (hP.lt hm)
    have hv : combValue r x.1.1 x.1.2.1 oo x.1.2.2 recls (defaultOf r dv) lyrs x.2.1 x.2.2 = .ok (some (g x).2) :=
      hV _ _ _ _ _ hg (h6.imp id (fun h => ⟨h.1, by simpa using h.2.1, h.2.2⟩)) h2 h3 h4 h5
    rw [hgl, Out.ok_bind, hp, Out.ok_bind, hv, Out.ok_bind]
    simp only [Out.pure_eq, Option.map_some, g, outIdx]
  -- sizes
  have hN : ∀ i, i < ps.length → 0 ≤ outIdx r ps inc i ∧
      outIdx r ps inc i < (if inc then r.hdr.rows * r.hdr.cols else r.nCells) := fun i hi => outIdx_range hC inc i hi
  have hNpos : 0 < (if inc then r.hdr.rows * r.hdr.cols else r.nCells) := by
    have := hN 0 (List.length_pos_of_ne_nil hC.ne); omega
  generalize hNe : (if inc then r.hdr.rows * r.hdr.cols else r.nCells) = N at hN hNpos ⊢
  have hNl : 0 < N * lyrs := Int.mul_pos hNpos (by omega)
  have halloc : alloc1 (N * lyrs) r.noData = some (List.replicate (N * lyrs).toNat r.noData) := by
    unfold alloc1; rw [if_neg (by omega)]
  have hlen : (((List.replicate (N * lyrs).toNat r.noData).length : Nat) : Int) = N * lyrs := by
    rw [List.length_replicate]; omega
  have hinj : ∀ x ∈ combCells subs r.noData (defaultOf r dv) lyrs, ∀ y ∈ combCells subs r.noData (defaultOf r dv) lyrs,
      (g x).1 = (g y).1 → (g x).2 = (g y).2 := by
    intro x hx y hy hxy
    obtain ⟨hgx, hmx, -, hjx, hex⟩ := hcell x hx
    obtain ⟨hgy, hmy, -, hjy, hey⟩ := hcell y hy
    obtain ⟨-, ⟨x2, x3, x4, x5⟩, x6⟩ := mem_combCells.1 hx
    obtain ⟨-, ⟨y2, y3, y4, y5⟩, y6⟩ := mem_combCells.1 hy
    simp only [g] at hxy
    obtain ⟨e1, e2⟩ := idx_inj x4 x5 y4 y5 hxy
    have e3 := outIdx_inj hC inc (hP.lt hmx) (hP.lt hmy) e1
    have e4 : x.1.1 = y.1.1 := hP.disj hmx (e3 ▸ hmy)
    have e5 : x.2.1 = y.2.1 := by
      rw [hex, hey] at e3
      have : ∀ k (a b : Nat) (ha : a < (G k).length) (hb : b < (G k).length),
          (G k)[a] = (G k)[b] → a = b :=
        fun k a b ha hb h => (hP.nodup k).getElem_inj_iff.1 h
      have h8 := this y.1.1 x.2.1.toNat y.2.1.toNat (by rw [← e4]; exact hjx) hjy (by
        simp only [e4] at e3; exact e3)
      omega
    have e6 : x.1.2.1 = y.1.2.1 := by
      rw [e4, hgy] at hgx; injection hgx with h; exact h.symm
    have e7 : x.1.2.2 = y.1.2.2 := by
      rcases x6 with ⟨u, v⟩ | ⟨u, v, w⟩ <;> rcases y6 with ⟨u', v'⟩ | ⟨u', v', w'⟩
      · rw [v, v']
      · rw [e6, u'] at u; simp at u
      · rw [e6, u'] at u; simp at u
      · rw [w, w']
    simp only [g, e4, e5, e2, e7]
  obtain ⟨d, hs, hdl, hin, hout⟩ := scatter_items ((combCells subs r.noData (defaultOf r dv) lyrs).map g)
    (List.replicate (N * lyrs).toNat r.noData) (by
      intro it hit
      obtain ⟨x, hx, rfl⟩ := List.mem_map.1 hit
      obtain ⟨-, hm, -⟩ := hcell x hx
      obtain ⟨-, ⟨-, -, h4, h5⟩, -⟩ := mem_combCells.1 hx
      have h6 := hN _ (hP.lt hm)
      rw [hlen]
      exact idx_range h6.1 h6.2 h4 h5) (by
      intro a ha b hb hab
      obtain ⟨x, hx, rfl⟩ := List.mem_map.1 ha
      obtain ⟨y, hy, rfl⟩ := List.mem_map.1 hb
      exact hinj x hx y hy hab)
  have hfill : ∀ n : Int, 0 ≤ n → n < N * lyrs → readAt (some (List.replicate (N * lyrs).toNat r.noData)) n = .ok r.noData := by
    intro n h0 h1
    rw [readAt_some_int _ n h0 (by rw [hlen]; exact h1)]
    simp
  refine ⟨d, ?_, by rw [hdl, hlen], ?_, ?_⟩
  · unfold prepareComb
    rw [if_neg hne]
    simp only [hlr, hsl]
    have hl1 : ¬ lyrs < 0 := by omega
    simp only [hly, if_neg hl1, hNe]
    rw [hcollect, Out.ok_bind]
    simp only [halloc, hs, Out.ok_bind, Out.pure_eq]
  · intro k s j l hk hj h0 h1
    by_cases hx : s.usable = false ∧ floatEqual r.noData (defaultOf r dv) = true
    · rw [hx.1, hx.2]
      simp only [Bool.false_eq_true, if_false, if_true]
      have hlt := hP.lt (List.getElem_mem hj)
      obtain ⟨b1, b2⟩ := hN _ hlt
      have hrange := idx_range b1 b2 h0 h1
      rw [hout _ hrange.1 (by rw [hlen]; exact hrange.2), hfill _ hrange.1 hrange.2]
      intro hmem'
      rw [List.map_map] at hmem'
      obtain ⟨x, hxm, hxe⟩ := List.mem_map.1 hmem'
      obtain ⟨hgx, hmx, -, -⟩ := hcell x hxm
      obtain ⟨-, ⟨-, -, x4, x5⟩, x6⟩ := mem_combCells.1 hxm
      simp only [Function.comp, g] at hxe
      obtain ⟨e1, -⟩ := idx_inj x4 x5 h0 h1 hxe
      have e3 := outIdx_inj hC inc (hP.lt hmx) hlt e1
      have e4 : x.1.1 = k := hP.disj hmx (by rw [e3]; exact List.getElem_mem hj)
      rw [e4, hk] at hgx
      injection hgx with hgx
      rw [← hgx, hx.1, hx.2] at x6
      simp at x6
    · let x : (Int × Subset × Bool) × (Int × Int) := ((k, s, !s.usable), ((j : Int), l))
      have hxm : x ∈ combCells subs r.noData (defaultOf r dv) lyrs := by
        rw [mem_combCells]
        refine ⟨(hmem k s).2 hk, ⟨by simp [x], by simp only [x]; rw [hn k s hk]; omega, h0, h1⟩, ?_⟩
        cases hus : s.usable with
        | true => left; simp [x, hus]
        | false =>
          right
          refine ⟨by simp [x, hus], ?_, by simp [x, hus]⟩
          by_contra h; exact hx ⟨hus, by simpa using h⟩
      have := hin (g x) (List.mem_map.2 ⟨x, hxm, rfl⟩)
      have hgi : gi k (j : Int) = (G k)[j] := by
        simp only [gi, Int.toNat_natCast]; exact List.getD_eq_getElem _ _ hj
      simp only [g, x, hgi] at this
      rw [this]
      cases hus : s.usable with
      | true => simp
      | false =>
        have : floatEqual r.noData (defaultOf r dv) = false := by
          by_contra h; exact hx ⟨hus, by simpa using h⟩
        simp [this]
  · intro n l hn0 hn1 h0 h1 hno
    have hrange := idx_range hn0 hn1 h0 h1
    rw [hout _ hrange.1 (by rw [hlen]; exact hrange.2), hfill _ hrange.1 hrange.2]
    intro hmem'
    rw [List.map_map] at hmem'
    obtain ⟨x, hxm, hxe⟩ := List.mem_map.1 hmem'
    obtain ⟨hgx, hmx, -, -⟩ := hcell x hxm
    obtain ⟨-, ⟨-, -, x4, x5⟩, -⟩ := mem_combCells.1 hxm
    simp only [Function.comp, g] at hxe
    obtain ⟨e1, -⟩ := idx_inj x4 x5 h0 h1 hxe
    exact hno _ _ hmx e1

/-- The combination for any rule giving the written values. -/
theorem comb_gen {r : Raster} {ls ps} (hC : r.Compact ls ps) {groups : IMap Int} {subs : IMap Subset}
    (hP : Parts r ls ps groups subs) (lyrs : Int) (hl : 1 ≤ lyrs) (oo : Bool) (recls : IMap (List ℚ)) (lr lsub : Int)
    (hlr : reclsLyrs recls = some lr) (hsl : subsetLyrs subs (decide (recls = [])) = some lsub)
    (hly : (if oo then (if lr > 0 then lr else r.nLyrs) else (if lsub < 0 ∧ lr > 0 then lr else lsub)) = lyrs)
    (hne : subs ≠ []) (dv : ℚ) (V : Int → Bool → Int → Int → ℚ)
    (hV : ∀ k s (ud : Bool) (j l : Int), subs.get k = some s → (s.usable = true ∧ ud = false ∨ s.usable = false ∧
        floatEqual r.noData (defaultOf r dv) = false ∧ ud = true) → 0 ≤ j → j < s.nCells → 0 ≤ l → l < lyrs →
      combValue r k s oo ud recls (defaultOf r dv) lyrs j l = .ok (some (V k ud j l))) (inc : Bool) :
    ∃ d, prepareComb ⟨r, subs⟩ oo inc recls dv =
        .ok (some (some d, (if inc then r.hdr.rows * r.hdr.cols else r.nCells) * lyrs, lyrs)) ∧
      (d.length : Int) = (if inc then r.hdr.rows * r.hdr.cols else r.nCells) * lyrs ∧
      (∀ k s (j : Nat) l, subs.get k = some s → (hj : j < (groupCells r ls ps groups k).length) → 0 ≤ l → l < lyrs →
        readAt (some d) (outIdx r ps inc (groupCells r ls ps groups k)[j] * lyrs + l) =
          .ok (if s.usable then V k false j l else if floatEqual r.noData (defaultOf r dv) then r.noData
            else V k true j l)) ∧
      (∀ n l : Int, 0 ≤ n → n < (if inc then r.hdr.rows * r.hdr.cols else r.nCells) → 0 ≤ l → l < lyrs →
        (∀ k, ∀ i ∈ groupCells r ls ps groups k, outIdx r ps inc i ≠ n) →
        readAt (some d) (n * lyrs + l) = .ok r.noData) :=
  comb_any hC hP.partsOf lyrs hl oo recls lr lsub hlr hsl hly hne dv V hV inc

/-- Combination of the subsets, for any partition. -/
theorem comb_parts {r : Raster} {ls ps} (hC : r.Compact ls ps) {G : Int → List Nat} {subs : IMap Subset}
    (hP : PartsOf ps G subs) (lyrs : Int) (hl : 1 ≤ lyrs) (D : Int → Int → Int → ℚ)
    (hu : ∀ k s, subs.get k = some s → s.usable = true → s.nLyrs = lyrs ∧
      ∀ j l, 0 ≤ j → j < s.nCells → 0 ≤ l → l < lyrs → subsetCell s lyrs j l = .ok (D k j l))
    (hex : ∃ k s, subs.get k = some s ∧ s.usable = true) (inc : Bool) (dv : ℚ) :
    ∃ d, prepareComb ⟨r, subs⟩ false inc [] dv =
        .ok (some (some d, (if inc then r.hdr.rows * r.hdr.cols else r.nCells) * lyrs, lyrs)) ∧
      (d.length : Int) = (if inc then r.hdr.rows * r.hdr.cols else r.nCells) * lyrs ∧
      (∀ k s (j : Nat) l, subs.get k = some s → (hj : j < (G k).length) → 0 ≤ l → l < lyrs →
        readAt (some d) (outIdx r ps inc (G k)[j] * lyrs + l) =
          .ok (if s.usable then D k j l else if floatEqual r.noData (defaultOf r dv) then r.noData else defaultOf r dv)) ∧
      (∀ n l : Int, 0 ≤ n → n < (if inc then r.hdr.rows * r.hdr.cols else r.nCells) → 0 ≤ l → l < lyrs →
        (∀ k, ∀ i ∈ G k, outIdx r ps inc i ≠ n) →
        readAt (some d) (n * lyrs + l) = .ok r.noData) := by
  classical
  obtain ⟨k0, s0, hk0, hu0⟩ := hex
  have hmem : ∀ k s, (k, s) ∈ subs ↔ subs.get k = some s := fun k s => IMap.mem_iff_get subs hP.sorted k s
  have hne : subs ≠ [] := by rintro rfl; simp [IMap.get_nil] at hk0
  have hn : ∀ k s, subs.get k = some s → s.nCells = (G k).length := fun k s h => (hP.some k s h).n
  have hdata : ∀ e ∈ subs, e.2.usable = true → e.2.nLyrs = lyrs ∧ (e.2.data.isSome || e.2.data2d.isSome) = true ∧
      (lyrs = 1 → e.2.data.isSome = true) ∧ (lyrs > 1 → e.2.data2d.isSome = true) := by
    intro e he hue
    have hg := (hmem e.1 e.2).1 he
    obtain ⟨h1, h2⟩ := hu _ _ hg hue
    have hpos : 0 < e.2.nCells := by
      rw [hn _ _ hg]
      have := List.length_pos_of_ne_nil (hP.some _ _ hg).ne
      omega
    have h3 := h2 0 0 le_rfl hpos le_rfl (by omega)
    have a1 : lyrs = 1 → e.2.data.isSome = true := by
      intro h
      cases hd : e.2.data with
      | some _ => rfl
      | none => unfold subsetCell at h3; rw [if_pos h, hd] at h3; simp [readAt] at h3
    have a2 : lyrs > 1 → e.2.data2d.isSome = true := by
      intro h
      cases hd : e.2.data2d with
      | some _ => rfl
      | none => unfold subsetCell at h3; rw [if_neg (by omega), hd] at h3; simp [readAt] at h3
    refine ⟨h1, ?_, a1, a2⟩
    by_cases h : lyrs = 1
    · simp [a1 h]
    · simp [a2 (by omega)]
  have hsl : subsetLyrs subs true = some lyrs := by
    unfold subsetLyrs
    rw [subsetLyrs_spec lyrs hl subs (-1) (fun e he hue => ⟨(hdata e he hue).1, (hdata e he hue).2.1⟩) (.inl rfl),
      if_pos (.inr ⟨(k0, s0), (hmem _ _).2 hk0, hu0⟩)]
  have hl0 : ¬ (lyrs < 0 ∧ (-1 : Int) > 0) := by omega
  obtain ⟨d, e1, e2, e3, e4⟩ := comb_any hC hP lyrs hl false [] (-1) lyrs rfl hsl (by simp [hl0]) hne dv
    (fun k ud j l => if ud then defaultOf r dv else D k j l) (by
      intro k s ud j l hg h6 h2 h3 h4 h5
      obtain ⟨v, hgl⟩ : ∃ v, readAt s.glob j = .ok v := by
        rw [(hP.some k s hg).glob, readAt_some_int _ _ h2 (by
          rw [List.length_map]; have := hn k s hg; omega)]
        exact ⟨_, rfl⟩
      unfold combValue
      rw [hgl, Out.ok_bind]
      simp only [ne_eq, not_true_eq_false, if_false]
      rcases h6 with ⟨h6, h7⟩ | ⟨h6, h7, h8⟩
      · obtain ⟨-, -, a1, a2⟩ := hdata _ ((hmem k s).2 hg) h6
        obtain ⟨-, hD⟩ := hu _ _ hg h6
        have hD := hD j l h2 h3 h4 h5
        rw [h7]
        simp only [Bool.false_eq_true, if_false]
        unfold subsetCell at hD
        by_cases hl1 : lyrs = 1
        · rw [if_pos hl1] at hD
          have := a1 hl1
          simp only [hl1] at hD ⊢
          simp only at this
          simp [this, hD]
        · rw [if_neg hl1] at hD
          have h9 : lyrs > 1 := by omega
          have := a2 h9
          simp only at this
          rw [if_pos (by simp [h9, this])]
          obtain ⟨c, hc1, hc2⟩ := Out.bind_ok hD
          rw [hc1, Out.ok_bind, hc2]; rfl
      · rw [h8]; simp) inc
  refine ⟨d, e1, e2, fun k s j l hk hj h0 h1 => ?_, e4⟩
  rw [e3 k s j l hk hj h0 h1]
  simp

/-- Combination of the subsets of a compact raster. -/
theorem comb_core {r : Raster} {ls ps} (hC : r.Compact ls ps) {groups : IMap Int} {subs : IMap Subset}
    (hP : Parts r ls ps groups subs) (lyrs : Int) (hl : 1 ≤ lyrs) (D : Int → Int → Int → ℚ)
    (hu : ∀ k s, subs.get k = some s → s.usable = true → s.nLyrs = lyrs ∧
      ∀ j l, 0 ≤ j → j < s.nCells → 0 ≤ l → l < lyrs → subsetCell s lyrs j l = .ok (D k j l))
    (hex : ∃ k s, subs.get k = some s ∧ s.usable = true) (inc : Bool) (dv : ℚ) :
    ∃ d, prepareComb ⟨r, subs⟩ false inc [] dv =
        .ok (some (some d, (if inc then r.hdr.rows * r.hdr.cols else r.nCells) * lyrs, lyrs)) ∧
      (d.length : Int) = (if inc then r.hdr.rows * r.hdr.cols else r.nCells) * lyrs ∧
      (∀ k s (j : Nat) l, subs.get k = some s → (hj : j < (groupCells r ls ps groups k).length) → 0 ≤ l → l < lyrs →
        readAt (some d) (outIdx r ps inc (groupCells r ls ps groups k)[j] * lyrs + l) =
          .ok (if s.usable then D k j l else if floatEqual r.noData (defaultOf r dv) then r.noData else defaultOf r dv)) ∧
      (∀ n l : Int, 0 ≤ n → n < (if inc then r.hdr.rows * r.hdr.cols else r.nCells) → 0 ≤ l → l < lyrs →
        (∀ k, ∀ i ∈ groupCells r ls ps groups k, outIdx r ps inc i ≠ n) →
        readAt (some d) (n * lyrs + l) = .ok r.noData) :=
  comb_parts hC hP.partsOf lyrs hl D hu hex inc dv

/-! #### decomposition -/

/-- The local index of the `j`-th cell. -/
def localOf (ps : List (Int × Int)) (s : Subset) (i : Nat) : Int :=
  ((posAt ps i).1 - s.srow) * (s.ecol - s.scol + 1) + ((posAt ps i).2 - s.scol)

theorem localOf_range {ps g s} (h : SubOk ps g s) (i : Nat) (hi : i ∈ g) :
    0 ≤ localOf ps s i ∧ localOf ps s i < (s.erow - s.srow + 1) * (s.ecol - s.scol + 1) := by
  have := h.tight.1 i hi
  exact idx_range (by omega) (by omega) (by omega) (by omega)

theorem localOf_sorted {r : Raster} {ls ps} (hC : r.Compact ls ps) {g s} (h : SubOk ps g s) (hg : g.Pairwise (· < ·))
    (hlt : ∀ i ∈ g, i < ps.length) : (g.map (localOf ps s)).Pairwise (· < ·) := by
  rw [List.pairwise_map]
  refine hg.imp_of_mem ?_
  intro a b ha hb hab
  have hp := List.pairwise_iff_getElem.1 hC.sorted a b (by simpa using hlt a ha) (by simpa using hlt b hb) hab
  obtain ⟨-, -, -, a1, a2, -⟩ := compact_pos hC a (hlt a ha)
  obtain ⟨-, -, -, b1, b2, -⟩ := compact_pos hC b (hlt b hb)
  have ea : posAt ps a = ps[a]'(hlt a ha) := List.getD_eq_getElem _ _ (hlt a ha)
  have eb : posAt ps b = ps[b]'(hlt b hb) := List.getD_eq_getElem _ _ (hlt b hb)
  simp only [List.getElem_map, ← ea, ← eb] at hp
  have ta := h.tight.1 a ha
  have tb := h.tight.1 b hb
  have := (idx_lt_iff a1 a2 b1 b2).1 hp
  unfold localOf
  rw [idx_lt_iff (by omega) (by omega) (by omega) (by omega)]
  omega

/-- A strictly increasing list of `n` numbers below `n` counts from 0. -/
theorem sorted_full_id (l : List Int) (hs : l.Pairwise (· < ·)) (hr : ∀ x ∈ l, 0 ≤ x ∧ x < l.length) (j : Nat)
    (hj : j < l.length) : l[j] = j := by
  have hp := List.pairwise_iff_getElem.1 hs
  have lower : ∀ j (hj : j < l.length), (j : Int) ≤ l[j] := by
    intro j
    induction j with
    | zero => intro hj; simpa using (hr _ (List.getElem_mem hj)).1
    | succ j ih =>
      intro hj
      have h1 := ih (by omega)
      have h2 := hp j (j + 1) (by omega) hj (by omega)
      push_cast; omega
  have upper : ∀ m j (hj : j < l.length), l.length = j + m + 1 → l[j] ≤ j := by
    intro m
    induction m with
    | zero =>
      intro j hj h
      have := (hr _ (List.getElem_mem hj)).2; omega
    | succ m ih =>
      intro j hj h
      have h1 := ih (j + 1) (by omega) (by omega)
      have h2 := hp j (j + 1) hj (by omega) (by omega)
      push_cast at h1; omega
  have h1 := lower j hj
  have h2 := upper (l.length - j - 1) j hj (by omega)
  omega

/-- The values written for one subset, for any rule giving them. -/
theorem decomp_gen {r : Raster} {ls ps} (hC : r.Compact ls ps) {g s}
    (h : SubOk ps g s) (hlt : ∀ i ∈ g, i < ps.length) (hgs : g.Pairwise (· < ·)) (k : Int) (oo inc : Bool)
    (recls : IMap (List ℚ)) (lr lyrs : Int) (hl : 1 ≤ lyrs) (hlr : reclsLyrs recls = some lr)
    (hly : (if oo then (if lr > 0 then lr else r.nLyrs) else s.nLyrs) = lyrs) (dv : ℚ) (V : Nat → Int → ℚ)
    (hV : ∀ (j : Nat) (l : Int), j < g.length → 0 ≤ l → l < lyrs →
      subValue r k s oo recls (defaultOf r dv) lyrs j l = .ok (some (V j l))) :
    ∃ d, prepareSubsetData r k s oo inc recls dv =
        .ok (some (some d, (if inc then (s.erow - s.srow + 1) * (s.ecol - s.scol + 1) else s.nCells) * lyrs, lyrs)) ∧
      (d.length : Int) = (if inc then (s.erow - s.srow + 1) * (s.ecol - s.scol + 1) else s.nCells) * lyrs ∧
      (∀ (j : Nat) (hj : j < g.length) (l : Int), 0 ≤ l → l < lyrs →
        readAt (some d) ((if inc then localOf ps s g[j] else j) * lyrs + l) = .ok (V j l)) ∧
      (∀ n l : Int, 0 ≤ n → n < (if inc then (s.erow - s.srow + 1) * (s.ecol - s.scol + 1) else s.nCells) → 0 ≤ l →
        l < lyrs → (∀ j (hj : j < g.length), (if inc then localOf ps s g[j] else (j : Int)) ≠ n) →
        readAt (some d) (n * lyrs + l) = .ok r.noData) := by
  have hgpos := List.length_pos_of_ne_nil h.ne
  have hn := h.n
  let gi : Int → Nat := fun j => g.getD j.toNat 0
  let li : Int → Int := fun j => if inc then localOf ps s (gi j) else j
  let it : Int × Int → Int × ℚ := fun x => (li x.1 * lyrs + x.2, V x.1.toNat x.2)
  have hgi : ∀ j : Nat, (hj : j < g.length) → gi j = g[j] := by
    intro j hj; simp only [gi, Int.toNat_natCast]; exact List.getD_eq_getElem _ _ hj
  have hcell : ∀ x ∈ gridCells s.nCells lyrs, ∃ j : Nat, x.1 = j ∧ j < g.length ∧ 0 ≤ x.2 ∧ x.2 < lyrs := by
    intro x hx
    obtain ⟨a, b, c, d⟩ := (mem_gridCells _ _ _).1 hx
    exact ⟨x.1.toNat, by omega, by omega, c, d⟩
  have hcollect : collectItems (fun (x : Int × Int) => (do
      let j ← readAt s.localIdx x.1
      let v ← subValue r k s oo recls (defaultOf r dv) lyrs x.1 x.2
      let j' := if inc then j else x.1
      return v.map (fun v => (j' * lyrs + x.2, v)) : Out (Option (Int × ℚ)))) (gridCells s.nCells lyrs) =
      .ok (some ((gridCells s.nCells lyrs).map it)) := by
    apply collectItems_ok
    intro x hx
    obtain ⟨j, hxj, hj, hx0, hx1⟩ := hcell x hx
    have hmem : g[j] ∈ g := List.getElem_mem hj
    have hlt' := hlt _ hmem
    have hls : g[j] < ls.length := by rw [hC.len]; exact hlt'
    have e1 : readAt s.localIdx x.1 = .ok (localOf ps s g[j]) := by
      rw [h.lidx, hxj, readAt_some_nat _ j (by simpa using hj)]; simp [localOf]
    have e2 : readAt s.glob x.1 = .ok (g[j] : Int) := by
      rw [h.glob, hxj, readAt_some_nat _ j (by simpa using hj)]; simp
    have e3 : subValue r k s oo recls (defaultOf r dv) lyrs x.1 x.2 = .ok (some (V j x.2)) := by
      rw [hxj]; exact hV j x.2 hj hx0 hx1
    rw [e1, Out.ok_bind, e3, Out.ok_bind]
    simp only [Out.pure_eq, Option.map_some, it, li, hxj, hgi j hj, Int.toNat_natCast]
  -- sizes
  have hN : ∀ (j : Nat) (hj : j < g.length), 0 ≤ li j ∧
      li j < (if inc then (s.erow - s.srow + 1) * (s.ecol - s.scol + 1) else s.nCells) := by
    intro j hj
    simp only [li, hgi j hj]
    cases inc with
    | true => simpa using localOf_range h g[j] (List.getElem_mem hj)
    | false => simp; omega
  have hlinj : ∀ (j j' : Nat) (hj : j < g.length) (hj' : j' < g.length), li j = li j' → j = j' := by
    intro j j' hj hj' e
    simp only [li, hgi j hj, hgi j' hj'] at e
    cases inc with
    | true =>
      simp only [if_true] at e
      have hp := List.pairwise_iff_getElem.1 (localOf_sorted hC h hgs hlt)
      rcases Nat.lt_trichotomy j j' with hlt | heq | hgt
      · have := hp j j' (by simpa) (by simpa) hlt
        simp only [List.getElem_map] at this; omega
      · exact heq
      · have := hp j' j (by simpa) (by simpa) hgt
        simp only [List.getElem_map] at this; omega
    | false => simpa using e
  have hNpos : 0 < (if inc then (s.erow - s.srow + 1) * (s.ecol - s.scol + 1) else s.nCells) := by
    have := hN 0 hgpos; omega
  have hli : ∀ (j : Nat) (hj : j < g.length), (if inc then localOf ps s g[j] else (j : Int)) = li j := by
    intro j hj; simp only [li, hgi j hj]
  generalize hNe : (if inc then (s.erow - s.srow + 1) * (s.ecol - s.scol + 1) else s.nCells) = N at hN hNpos ⊢
  have hNl : 0 < N * lyrs := Int.mul_pos hNpos (by omega)
  have halloc : alloc1 (N * lyrs) r.noData = some (List.replicate (N * lyrs).toNat r.noData) := by
    unfold alloc1; rw [if_neg (by omega)]
  have hlen : (((List.replicate (N * lyrs).toNat r.noData).length : Nat) : Int) = N * lyrs := by
    rw [List.length_replicate]; omega
  obtain ⟨d, hs, hdl, hin, hout⟩ := scatter_items ((gridCells s.nCells lyrs).map it)
    (List.replicate (N * lyrs).toNat r.noData) (by
      intro a ha
      obtain ⟨x, hx, rfl⟩ := List.mem_map.1 ha
      obtain ⟨j, hxj, hj, hx0, hx1⟩ := hcell x hx
      rw [hlen]
      simp only [it]
      rw [hxj]
      exact idx_range (hN j hj).1 (hN j hj).2 hx0 hx1) (by
      intro a ha b hb hab
      obtain ⟨x, hx, rfl⟩ := List.mem_map.1 ha
      obtain ⟨y, hy, rfl⟩ := List.mem_map.1 hb
      obtain ⟨j, hxj, hj, hx0, hx1⟩ := hcell x hx
      obtain ⟨j', hyj, hj', hy0, hy1⟩ := hcell y hy
      simp only [it] at hab ⊢
      obtain ⟨e1, e2⟩ := idx_inj hx0 hx1 hy0 hy1 hab
      rw [hxj, hyj] at e1 ⊢
      rw [hlinj j j' hj hj' e1, e2])
  refine ⟨d, ?_, by rw [hdl, hlen], ?_, ?_⟩
  · unfold prepareSubsetData
    simp only [hlr, hly]
    have hl1 : ¬ lyrs < 0 := by omega
    rw [if_neg hl1]
    simp only [hNe]
    rw [hcollect, Out.ok_bind]
    simp only [halloc, hs, Out.ok_bind, Out.pure_eq]
  · intro j hj l h0 h1
    have hx : ((j : Int), l) ∈ gridCells s.nCells lyrs := (mem_gridCells _ _ _).2 ⟨by simp, by simp; omega, h0, h1⟩
    have := hin (it ((j : Int), l)) (List.mem_map.2 ⟨_, hx, rfl⟩)
    simp only [it] at this
    rw [hli j hj, this, Int.toNat_natCast]
  · intro n l hn0 hn1 h0 h1 hno
    have hrange := idx_range hn0 hn1 h0 h1
    rw [hout _ hrange.1 (by rw [hlen]; exact hrange.2), readAt_some_int _ _ hrange.1 (by rw [hlen]; exact hrange.2)]
    · simp
    intro hmem'
    rw [List.map_map] at hmem'
    obtain ⟨x, hx, hxe⟩ := List.mem_map.1 hmem'
    obtain ⟨j, hxj, hj, hx0, hx1⟩ := hcell x hx
    simp only [Function.comp, it] at hxe
    obtain ⟨e1, -⟩ := idx_inj hx0 hx1 h0 h1 hxe
    rw [hxj] at e1
    exact hno j hj (by rw [hli j hj, e1])

/-- Values of a subset taken from the raster. -/
theorem decomp_core {r : Raster} {ls ps} (hC : r.Compact ls ps) (h2 : r.is2d = true → 1 < r.nLyrs) {g s}
    (h : SubOk ps g s) (hlt : ∀ i ∈ g, i < ps.length) (hgs : g.Pairwise (· < ·)) (k : Int) (inc : Bool) (dv : ℚ) :
    ∃ d, prepareSubsetData r k s true inc [] dv =
        .ok (some (some d, (if inc then (s.erow - s.srow + 1) * (s.ecol - s.scol + 1) else s.nCells) * r.nLyrs, r.nLyrs)) ∧
      (d.length : Int) = (if inc then (s.erow - s.srow + 1) * (s.ecol - s.scol + 1) else s.nCells) * r.nLyrs ∧
      (∀ (j : Nat) (hj : j < g.length) (l : Int), 0 ≤ l → l < r.nLyrs →
        readAt (some d) ((if inc then localOf ps s g[j] else j) * r.nLyrs + l) = .ok (cellAt ls g[j] l.toNat)) ∧
      (∀ n l : Int, 0 ≤ n → n < (if inc then (s.erow - s.srow + 1) * (s.ecol - s.scol + 1) else s.nCells) → 0 ≤ l →
        l < r.nLyrs → (∀ j (hj : j < g.length), (if inc then localOf ps s g[j] else (j : Int)) ≠ n) →
        readAt (some d) (n * r.nLyrs + l) = .ok r.noData) := by
  have hl := hC.holds.1
  obtain ⟨d, e1, e2, e3, e4⟩ := decomp_gen hC h hlt hgs k true inc [] (-1) r.nLyrs hl rfl (by simp) dv
    (fun j l => cellAt ls (g.getD j 0) l.toNat) (by
    intro j l hj hx0 hx1
    have hmem : g[j] ∈ g := List.getElem_mem hj
    have hlt' := hlt _ hmem
    have hls : g[j] < ls.length := by rw [hC.len]; exact hlt'
    have e2 : readAt s.glob j = .ok (g[j] : Int) := by
      rw [h.glob, readAt_some_nat _ j (by simpa using hj)]; simp
    rw [List.getD_eq_getElem _ _ hj]
    unfold subValue
    rw [e2, Out.ok_bind]
    have hrow := hC.holds.2.1 ls[g[j]] (List.getElem_mem hls)
    have hcellv : cellAt ls g[j] l.toNat = (ls[g[j]]).getD l.toNat 0 := by
      unfold cellAt
      rw [show ls.getD g[j] [] = ls[g[j]] from List.getD_eq_getElem _ _ hls]
    have hH := hC.holds.2.2
    cases hd : r.is2d with
    | true =>
      rw [hd] at hH
      simp only [if_true] at hH
      have h3 := h2 hd
      simp only [ne_eq, not_true_eq_false, if_false, hH, Option.isSome_some, Bool.true_and, Bool.and_true]
      rw [if_pos (by simpa using h3), readAt_some_nat _ _ hls, Out.ok_bind, readAt_some_int _ _ hx0 (by omega), Out.ok_bind,
        hcellv, List.getD_eq_getElem _ _ (by omega)]
      rfl
    | false =>
      rw [hd] at hH
      simp only [Bool.false_eq_true, if_false] at hH
      obtain ⟨hl1, hr1⟩ := hH
      have hx20 : l = 0 := by omega
      simp only [ne_eq, not_true_eq_false, if_false, hl1, hr1, Option.isSome_some, Bool.true_and, Bool.and_true]
      simp only [gt_iff_lt, lt_irrefl, decide_false, Bool.false_and, Bool.false_eq_true, if_false, decide_true, if_true]
      rw [readAt_some_nat _ _ (by simpa using hls), Out.ok_bind, hcellv, hx20]
      simp only [List.getElem_map, Int.toNat_zero]
      have : (ls[g[j]]).headD 0 = (ls[g[j]]).getD 0 0 := by cases ls[g[j]] <;> rfl
      rw [this]; rfl) 
  refine ⟨d, e1, e2, fun j hj l h0 h1 => ?_, e4⟩
  rw [e3 j hj l h0 h1, List.getD_eq_getElem _ _ hj]

/-- Values loaded into a fresh subset. -/
theorem load_core {r : Raster} {ls ps} (hC : r.Compact ls ps) {g s} (h : SubOk ps g s) (hlt : ∀ i ∈ g, i < ps.length)
    (hgs : g.Pairwise (· < ·)) (hf : SubFresh s) (inc : Bool) (L : Int) (hL : 1 ≤ L) (d : List ℚ)
    (hd : (d.length : Int) = (if inc then (s.erow - s.srow + 1) * (s.ecol - s.scol + 1) else s.nCells) * L)
    (V : Nat → Int → ℚ) (hV : ∀ (j : Nat) (hj : j < g.length) (l : Int), 0 ≤ l → l < L →
      readAt (some d) ((if inc then localOf ps s g[j] else j) * L + l) = .ok (V j l)) :
    ∃ s', s.readDb (if inc then (s.erow - s.srow + 1) * (s.ecol - s.scol + 1) else s.nCells) L (some d) = .ok (s', true) ∧
      SameCells s s' ∧ s'.usable = true ∧ s'.nLyrs = L ∧
      ∀ (j : Nat) (l : Int), j < g.length → 0 ≤ l → l < L → subsetCell s' L j l = .ok (V j l) := by
  have hn := h.n
  have hgpos := List.length_pos_of_ne_nil h.ne
  obtain ⟨hu, hly, hdn, hd2⟩ := hf
  generalize hNf : (s.erow - s.srow + 1) * (s.ecol - s.scol + 1) = nfull at hd
  have hloc : ∀ (j : Nat) (hj : j < g.length), readAt s.localIdx j = .ok (localOf ps s g[j]) := by
    intro j hj
    rw [h.lidx, readAt_some_nat _ j (by simpa using hj)]; simp [localOf]
  have hlr : ∀ (j : Nat) (hj : j < g.length), 0 ≤ localOf ps s g[j] ∧ localOf ps s g[j] < nfull := by
    intro j hj
    have := localOf_range h g[j] (List.getElem_mem hj); rw [hNf] at this; exact this
  have hid : s.nCells = nfull → ∀ (j : Nat) (hj : j < g.length), localOf ps s g[j] = j := by
    intro e j hj
    have := sorted_full_id (g.map (localOf ps s)) (localOf_sorted hC h hgs hlt) (by
      intro x hx
      obtain ⟨i, hi, rfl⟩ := List.mem_map.1 hx
      have := localOf_range h i hi
      rw [hNf, ← e, hn] at this
      simpa using this) j (by simpa using hj)
    simpa using this
  generalize hNe : (if inc then nfull else s.nCells) = N at hd ⊢
  have hNN : nfull = N ∨ s.nCells = N := by cases inc <;> simp at hNe <;> omega
  -- the cell `j` of the loaded array when read either way
  have hVn : s.nCells = N → ∀ (j : Nat) (hj : j < g.length) (l : Int), 0 ≤ l → l < L → readAt (some d) (j * L + l) = .ok (V j l) := by
    intro e j hj l h0 h1
    have := hV j hj l h0 h1
    cases inc with
    | true =>
      simp only [if_true] at this hNe
      rw [hid (by omega) j hj] at this; exact this
    | false => simpa using this
  have hVf : nfull = N → ∀ (j : Nat) (hj : j < g.length) (l : Int), 0 ≤ l → l < L →
      readAt (some d) (localOf ps s g[j] * L + l) = .ok (V j l) := by
    intro e j hj l h0 h1
    have := hV j hj l h0 h1
    cases inc with
    | true => simpa using this
    | false =>
      simp only [Bool.false_eq_true, if_false] at this hNe
      rw [hid (by omega) j hj]; exact this
  have hnt : s.nCells.toNat = g.length := by omega
  have ha1 : ∀ v : ℚ, alloc1 s.nCells v = some (List.replicate g.length v) := by
    intro v; unfold alloc1; rw [if_neg (by omega), hnt]
  unfold Subset.readDb
  simp only [hNf]
  rw [if_neg (by omega)]
  by_cases hL1 : L = 1
  · subst hL1
    rw [if_pos rfl]
    by_cases hNc : s.nCells = N
    · rw [if_pos hNc]
      have hdl : d.length = g.length := by omega
      refine ⟨{ s with nLyrs := 1, usable := true, data := some (d.take s.nCells.toNat) }, ?_, ⟨rfl, rfl, rfl, rfl, rfl, rfl, rfl, rfl⟩,
        rfl, rfl, ?_⟩
      · unfold Subset.setData
        simp only [hdn, hNc, ne_eq, not_true_eq_false, if_false]
        rw [if_neg (by omega), ← hNc, ha1]
        rfl
      · intro j l hj h0 h1
        have hl0 : l = 0 := by omega
        subst hl0
        have := hVn hNc j hj 0 h0 h1
        unfold subsetCell
        simp only [if_true]
        rw [show (j : Int) * 1 + 0 = j by omega, readAt_some_nat _ _ (by omega)] at this
        rw [readAt_some_nat _ _ (by simp; omega)]
        simp only [List.getElem_take]
        exact this
    · rw [if_neg hNc]
      have hm : (List.range s.nCells.toNat).mapM (fun (i : Nat) => (do
          let j ← readAt s.localIdx i
          readAt (some d) j : Out ℚ)) = .ok ((List.range s.nCells.toNat).map (fun (i : Nat) => V i 0)) := by
        apply mapM_ok
        intro j hj
        have hj' : j < g.length := by rw [List.mem_range] at hj; omega
        rw [hloc j hj', Out.ok_bind]
        have := hVf (by omega) j hj' 0 le_rfl (by omega)
        rw [show localOf ps s g[j] * 1 + 0 = localOf ps s g[j] by omega] at this
        exact this
      rw [hm, Out.ok_bind]
      simp only [hdn, ha1, Option.map_some]
      refine ⟨_, rfl, ⟨rfl, rfl, rfl, rfl, rfl, rfl, rfl, rfl⟩, rfl, rfl, ?_⟩
      intro j l hj h0 h1
      have hl0 : l = 0 := by omega
      subst hl0
      unfold subsetCell
      simp only [if_true]
      rw [readAt_some_nat _ _ (by simp; omega)]
      simp
  · rw [if_neg hL1]
    have hm : (List.range s.nCells.toNat).mapM (fun (i : Nat) => (List.range L.toNat).mapM (fun (l : Nat) => (do
        if nfull = N then do
          let j ← readAt s.localIdx i
          readAt (some d) (j * L + l)
        else readAt (some d) (i * L + l) : Out ℚ))) =
        .ok ((List.range s.nCells.toNat).map (fun (i : Nat) => (List.range L.toNat).map (fun (l : Nat) => V i l))) := by
      apply mapM_ok
      intro j hj
      have hj' : j < g.length := by rw [List.mem_range] at hj; omega
      apply mapM_ok
      intro l hl
      have hl' : (l : Int) < L := by rw [List.mem_range] at hl; omega
      by_cases hNc : nfull = N
      · rw [if_pos hNc, hloc j hj', Out.ok_bind]
        exact hVf hNc j hj' l (by omega) hl'
      · rw [if_neg hNc]
        exact hVn (by omega) j hj' l (by omega) hl'
    rw [hm, Out.ok_bind]
    have ha2 : alloc2 s.nCells L NODATA = some (List.replicate s.nCells.toNat (List.replicate L.toNat NODATA)) := by
      unfold alloc2; rw [if_neg (by omega)]
    simp only [hd2, ha2, Option.map_some]
    refine ⟨_, rfl, ⟨rfl, rfl, rfl, rfl, rfl, rfl, rfl, rfl⟩, rfl, rfl, ?_⟩
    intro j l hj h0 h1
    unfold subsetCell
    simp only [if_neg hL1]
    rw [readAt_some_nat _ _ (by simp; omega), Out.ok_bind]
    rw [readAt_some_int _ _ h0 (by simp; omega)]
    simp
    congr 1; omega

end CCGL
