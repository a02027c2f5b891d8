import Verif.Props.SubsetData
import Verif.Props.Layers
import Verif.Props.Copy
/-!
# Subset output with a reclassification table (C73), the header of a subset (C14)
-/
namespace CCGL
open Raster Spec

/-! ### the table -/

theorem defaultOf_eq (r : Raster) (dv : ℚ) : defaultOf r dv = fillValue r dv := rfl

theorem reclsLyrs_fold (m : Int) (hm : 0 ≤ m) : ∀ (l : IMap (List ℚ)) (acc : Int), (acc < 0 ∨ acc = m) →
    (∀ e ∈ l, (e.2.length : Int) = m) →
    l.foldl (fun acc e => match acc with
      | none => none
      | some n => if n < 0 then some (e.2.length : Int) else if n ≠ (e.2.length : Int) then none else some n) (some acc) =
      some (if l = [] then acc else m)
  | [], acc, _, _ => by simp
  | e :: l, acc, ha, h => by
    have he := h e List.mem_cons_self
    rw [List.foldl_cons]
    have : (match some acc with
      | none => none
      | some n => if n < 0 then some (e.2.length : Int) else if n ≠ (e.2.length : Int) then none else some n) = some m := by
      simp only [he]
      rcases ha with ha | rfl
      · rw [if_pos ha]
      · rw [if_neg (by omega)]; simp
    rw [this, reclsLyrs_fold m hm l m (.inr rfl) (fun x hx => h x (List.mem_cons_of_mem _ hx))]
    simp

theorem reclsLyrs_table {recls : IMap (List ℚ)} {m : Int} (h : TableOf recls m) : reclsLyrs recls = some m := by
  have := reclsLyrs_fold m (by have := h.2.1; omega) recls (-1) (.inl (by omega)) h.2.2
  rw [if_neg h.1] at this
  exact this

theorem reclsLyrs_none {recls : IMap (List ℚ)} (h : ∃ e ∈ recls, ∃ e' ∈ recls, e.2.length ≠ e'.2.length) :
    reclsLyrs recls = none := by
  -- once none, always none; a value is kept only while all lengths agree
  have hnone : ∀ l : IMap (List ℚ), l.foldl (fun (acc : Option Int) (e : Int × List ℚ) => match acc with
      | none => none
      | some n => if n < 0 then some (e.2.length : Int) else if n ≠ (e.2.length : Int) then none else some n) none = none := by
    intro l; induction l with
    | nil => rfl
    | cons e l ih => exact ih
  have hsome : ∀ (l : IMap (List ℚ)) (acc n : Int), l.foldl (fun (acc : Option Int) (e : Int × List ℚ) => match acc with
      | none => none
      | some n => if n < 0 then some (e.2.length : Int) else if n ≠ (e.2.length : Int) then none else some n) (some acc) =
        some n → (∀ e ∈ l, (e.2.length : Int) = n) ∧ (0 ≤ acc → acc = n) := by
    intro l
    induction l with
    | nil => intro acc n h; simp at h; exact ⟨by simp, fun _ => h⟩
    | cons e l ih =>
      intro acc n h
      rw [List.foldl_cons] at h
      by_cases ha : acc < 0
      · simp only [if_pos ha] at h
        obtain ⟨h1, h2⟩ := ih _ _ h
        have := h2 (by omega)
        exact ⟨fun x hx => by rcases List.mem_cons.1 hx with rfl | hx; exact this; exact h1 x hx, fun h => by omega⟩
      · by_cases hb : acc = (e.2.length : Int)
        · simp only [if_neg ha, hb, ne_eq, not_true_eq_false, if_false] at h
          rw [if_neg (by omega)] at h
          obtain ⟨h1, h2⟩ := ih _ _ h
          have := h2 (by omega)
          exact ⟨fun x hx => by rcases List.mem_cons.1 hx with rfl | hx; exact this; exact h1 x hx, fun _ => by omega⟩
        · simp only [if_neg ha, ne_eq, hb, not_false_eq_true, if_true] at h
          rw [hnone] at h; simp at h
  unfold reclsLyrs
  cases hf : recls.foldl (fun (acc : Option Int) (e : Int × List ℚ) => match acc with
      | none => none
      | some n => if n < 0 then some (e.2.length : Int) else if n ≠ (e.2.length : Int) then none else some n) (some (-1)) with
  | none => rfl
  | some n =>
    obtain ⟨h1, -⟩ := hsome _ _ _ hf
    obtain ⟨e, he, e', he', hne⟩ := h
    have a := h1 e he
    have b := h1 e' he'
    omega

/-- The value found by the code. -/
theorem recls_lookup (recls : IMap (List ℚ)) (key l : Int) (h0 : 0 ≤ l) (d : ℚ) :
    (match IMap.get recls key with
      | some v => if (v.length : Int) > l then readAt (some v) l else .ok d
      | none => .ok d : Out ℚ) = .ok (tableValue recls key l d) := by
  unfold tableValue IMap.get
  cases hf : recls.find? (fun e => e.1 = key) with
  | none => rfl
  | some e =>
    simp only [Option.map_some]
    split_ifs with hl
    · rw [readAt_some_int _ _ h0 (by omega), List.getD_eq_getElem _ _ (by omega)]
    · rw [List.getD_eq_default _ _ (by omega)]

theorem recls_id (r : Raster) (recls : IMap (List ℚ)) (k : Int) (d : ℚ) (g l : Int) (h0 : 0 ≤ l) :
    reclsValue r recls k false d g l = .ok (tableValue recls k l d) := by
  unfold reclsValue
  simp only [Bool.false_eq_true, if_false, Out.ok_bind]
  exact recls_lookup recls k l h0 d

theorem subsetLyrs_recls (n : Int) : ∀ (subs : IMap Subset) (acc : Int),
    (∀ e ∈ subs, e.2.usable = true → e.2.nLyrs = n) → (acc = -1 ∨ acc = n) →
    ∃ x, subs.foldl (subsetLyrsStep false) (some acc) = some x ∧ (x = acc ∨ x = n) ∧
      ((∃ e ∈ subs, e.2.usable = true) → x = n)
  | [], acc, _, _ => ⟨acc, rfl, .inl rfl, by simp⟩
  | e :: subs, acc, h, ha => by
    have hrest := fun a ha => subsetLyrs_recls n subs a (fun x hx => h x (List.mem_cons_of_mem _ hx)) ha
    rw [List.foldl_cons]
    cases hu : e.2.usable with
    | false =>
      have : subsetLyrsStep false (some acc) e = some acc := by simp [subsetLyrsStep, hu]
      rw [this]
      obtain ⟨x, h1, h2, h3⟩ := hrest acc ha
      refine ⟨x, h1, h2, ?_⟩
      rintro ⟨y, hy, hyu⟩
      rcases List.mem_cons.1 hy with rfl | hy
      · rw [hu] at hyu; simp at hyu
      · exact h3 ⟨y, hy, hyu⟩
    | true =>
      have h1 := h e List.mem_cons_self hu
      have : subsetLyrsStep false (some acc) e = some n := by
        unfold subsetLyrsStep
        simp only [hu, Bool.not_true, Bool.false_eq_true, if_false, Bool.not_false, Bool.or_true, h1]
        rcases ha with rfl | rfl
        · simp
        · simp
      rw [this]
      obtain ⟨x, h1, h2, h3⟩ := hrest n (.inr rfl)
      have : x = n := by rcases h2 with h | h <;> exact h
      exact ⟨x, h1, .inr this, fun _ => this⟩

theorem get_none_iff {β : Type} (m : IMap β) (k : Int) : m.get k = none ↔ k ∉ m.map (·.1) := by
  unfold IMap.get
  rw [Option.map_eq_none_iff, List.find?_eq_none, List.mem_map]
  constructor
  · rintro h ⟨x, hx, rfl⟩; exact h x hx (by simp)
  · intro h x hx hxe; exact h ⟨x, hx, by simpa using hxe⟩

theorem parts_same {r ls ps groups} {subs subs' : IMap Subset} (hok : SubsOk r ls ps groups subs)
    (hkeys : subs'.map (·.1) = subs.map (·.1))
    (hsame : ∀ k s s', subs.get k = some s → subs'.get k = some s' → SameCells s s') : Parts r ls ps groups subs' := by
  have hgetn : ∀ k, subs'.get k = none ↔ subs.get k = none := by
    intro k; rw [get_none_iff, get_none_iff, hkeys]
  refine ⟨by rw [hkeys]; exact hok.sorted, fun k hk => hok.none k ((hgetn k).1 hk), fun k s hk => ?_⟩
  cases hg : subs.get k with
  | none => rw [(hgetn k).2 hg] at hk; simp at hk
  | some s0 => exact (hok.some k s0 hg).1.same (hsame k s0 s hg hk)

/-- The original value of a stored cell as read by the code with a table and `out_origin`. -/
theorem recls_origin {r : Raster} {ls ps} (hC : r.Compact ls ps) (i : Nat) (hi : i < ps.length) (l : Int) (h0 : 0 ≤ l)
    (h2 : r.is2d = true → l < r.nLyrs) (ht : r.is2d = true → r.raster1 = none) (recls : IMap (List ℚ)) (k : Int)
    (d : ℚ) : reclsValue r recls k true d i l =
      .ok (tableValue recls (truncQ (cellAt ls i (if r.is2d then l.toNat else 0))) l d) := by
  have hls : i < ls.length := by rw [hC.len]; exact hi
  have hrow := hC.holds.2.1 ls[i] (List.getElem_mem hls)
  have hcellv : ∀ n, cellAt ls i n = (ls[i]).getD n 0 := by
    intro n
    unfold cellAt
    rw [show ls.getD i [] = ls[i] from List.getD_eq_getElem _ _ hls]
  have hH := hC.holds.2.2
  have hL := hC.holds.1
  unfold reclsValue
  cases hd : r.is2d with
  | true =>
    rw [hd] at hH
    simp only [if_true] at hH
    have hn1 : r.raster1 = none := ht hd
    simp only [if_true, hH, hn1, Option.isSome_none, Option.isSome_some, Bool.false_eq_true, if_false]
    have := h2 hd
    rw [readAt_some_nat _ _ hls, Out.ok_bind, readAt_some_int _ _ h0 (by omega), Out.ok_bind, Out.pure_eq, Out.ok_bind, hcellv,
      List.getD_eq_getElem _ _ (by omega)]
    exact recls_lookup recls _ l h0 d
  | false =>
    rw [hd] at hH
    simp only [Bool.false_eq_true, if_false] at hH
    obtain ⟨hl1, hr1⟩ := hH
    simp only [if_true, hr1, Option.isSome_some, Bool.false_eq_true, if_false]
    rw [readAt_some_nat _ _ (by simpa using hls), Out.ok_bind, Out.pure_eq, Out.ok_bind, hcellv]
    simp only [List.getElem_map]
    have : (ls[i]).headD 0 = (ls[i]).getD 0 0 := by cases ls[i] <;> rfl
    rw [this]
    exact recls_lookup recls _ l h0 d

/-- Where a cell of a subset is found. -/
theorem part_cell {r : Raster} {ls ps groups} {subs : IMap Subset} (hP : Parts r ls ps groups subs) (inc : Bool) {k s}
    {j : Nat} {lr lc g : Int} (hk : subs.get k = some s) (h1 : readAt s.localPos j = .ok (lr, lc))
    (h2 : readAt s.glob j = .ok g) :
    ∃ hj : j < (groupCells r ls ps groups k).length, (j : Int) < s.nCells ∧
      outIdx r ps inc (groupCells r ls ps groups k)[j] = (if inc then (s.srow + lr) * r.hdr.cols + (s.scol + lc) else g) ∧
      posAt ps (groupCells r ls ps groups k)[j] = (s.srow + lr, s.scol + lc) ∧
      g = (groupCells r ls ps groups k)[j] := by
  have ho := hP.some k s hk
  have ho : SubOk ps (groupCells r ls ps groups k) s := ho
  by_cases hj : j < (groupCells r ls ps groups k).length
  · rw [ho.lpos, readAt_some_nat _ j (by simpa using hj)] at h1
    rw [ho.glob, readAt_some_nat _ j (by simpa using hj)] at h2
    injection h1 with h1
    injection h2 with h2
    simp only [List.getElem_map, Prod.mk.injEq] at h1 h2
    have hp : posAt ps (groupCells r ls ps groups k)[j] = (s.srow + lr, s.scol + lc) := by
      ext
      · simp only; omega
      · simp only; omega
    refine ⟨hj, by rw [ho.n]; omega, ?_, hp, h2.symm⟩
    unfold outIdx
    rw [hp, h2]
  · rw [ho.lpos, readAt_oob _ _ (.inr (by rw [List.length_map]; omega))] at h1
    simp at h1

/-- C73, combination by subset id: with a table of `m` values per key and without `out_origin`, every cell of a usable
subset gets the table's value of the subset's id, the default value if the table has none. Cells of an unusable subset stay
NoData if the default value is NoData, but are reclassified like the others if it is not. All other cells are NoData. The
output has the layers of the subsets' data, or those of the table if no usable subset has data. -/
theorem C73_combine_id_partial {r : Raster} (hb : Spec.Built r) (groups : IMap Int) {rs' b}
    (e : buildSubSet ⟨r, []⟩ groups = .ok (rs', b)) (subs' : IMap Subset) (hne : subs' ≠ [])
    (hkeys : subs'.map (·.1) = rs'.subs.map (·.1))
    (hsame : ∀ k s s', rs'.subs.get k = some s → subs'.get k = some s' → SameCells s s')
    (recls : IMap (List ℚ)) (m lyrs : Int) (ht : TableOf recls m) (hl : 1 ≤ lyrs)
    (hly : ((∃ k s, subs'.get k = some s ∧ s.usable = true) ∧ ∀ k s, subs'.get k = some s → s.usable = true → s.nLyrs = lyrs) ∨
      ((∀ k s, subs'.get k = some s → s.usable = true → s.nLyrs = -1) ∧ lyrs = m)) (inc : Bool) (dv : ℚ) :
    ∃ d, prepareComb ⟨rs'.ras, subs'⟩ false inc recls dv =
        .ok (some (some d, (if inc then r.hdr.rows * r.hdr.cols else rs'.ras.nCells) * lyrs, lyrs)) ∧
      (d.length : Int) = (if inc then r.hdr.rows * r.hdr.cols else rs'.ras.nCells) * lyrs ∧
      (∀ k s (j : Nat) (l lr lc g : Int), subs'.get k = some s → readAt s.localPos j = .ok (lr, lc) →
        readAt s.glob j = .ok g → 0 ≤ l → l < lyrs →
        readAt (some d) ((if inc then (s.srow + lr) * r.hdr.cols + (s.scol + lc) else g) * lyrs + l) =
          .ok (if s.usable = false ∧ floatEqual r.noData (fillValue r dv) then r.noData
            else tableValue recls k l (fillValue r dv))) ∧
      (inc = true → ∀ row col l : Int, 0 ≤ row → row < r.hdr.rows → 0 ≤ col → col < r.hdr.cols → 0 ≤ l → l < lyrs →
        (∀ k s, subs'.get k = some s → ¬ InSubset s row col) →
        readAt (some d) ((row * r.hdr.cols + col) * lyrs + l) = .ok r.noData) := by
  obtain ⟨hrw, hcl, hnd, hny, h2d, hdf, hv, ⟨ls, ps, hC, hok⟩ | hn⟩ := build_cases2 hb e
  · have hP := parts_same hok hkeys hsame
    have hmem : ∀ k s, (k, s) ∈ subs' ↔ subs'.get k = some s := fun k s => IMap.mem_iff_get subs' hP.sorted k s
    obtain ⟨lsub, hls, hlx⟩ : ∃ lsub, subsetLyrs subs' false = some lsub ∧
        (if lsub < 0 ∧ m > 0 then m else lsub) = lyrs := by
      have hm := ht.2.1
      rcases hly with ⟨⟨k, s, hk, hu⟩, hall⟩ | ⟨hall, hlm⟩
      · obtain ⟨x, h1, h2, h3⟩ := subsetLyrs_recls lyrs subs' (-1)
          (fun e he hu => hall e.1 e.2 ((hmem _ _).1 he) hu) (.inl rfl)
        have hx := h3 ⟨(k, s), (hmem _ _).2 hk, hu⟩
        exact ⟨x, h1, by rw [hx, if_neg (by omega)]⟩
      · obtain ⟨x, h1, h2, h3⟩ := subsetLyrs_recls (-1) subs' (-1)
          (fun e he hu => hall e.1 e.2 ((hmem _ _).1 he) hu) (.inl rfl)
        have hx : x = -1 := by rcases h2 with h | h <;> exact h
        exact ⟨x, h1, by rw [hx, if_pos (by omega), hlm]⟩
    have hdef : defaultOf rs'.ras dv = fillValue r dv := by unfold defaultOf fillValue; rw [hdf]; rfl
    obtain ⟨d, e1, e2, e3, e4⟩ := comb_gen hC hP lyrs hl false recls m lsub (reclsLyrs_table ht)
      (by rw [decide_eq_false ht.1]; exact hls) (by simpa using hlx) hne dv
      (fun k _ _ l => tableValue recls k l (fillValue r dv)) (by
        intro k s ud j l hk _ h0 h1 h2 h3
        obtain ⟨v, hgl⟩ : ∃ v, readAt s.glob j = .ok v := by
          have ho := hP.some k s hk
          have hn := ho.n
          rw [ho.glob, readAt_some_int _ _ h0 (by rw [List.length_map]; omega)]
          exact ⟨_, rfl⟩
        unfold combValue
        rw [hgl, Out.ok_bind, if_pos ht.1, hdef]
        rw [recls_id _ recls k _ v l h2, Out.ok_bind]
        rfl) inc
    rw [hdef] at e3
    simp only [hrw, hcl, hnd] at e1 e2 e3 e4
    refine ⟨d, e1, e2, ?_, ?_⟩
    · intro k s j l lr lc g hk h1 h2 h3 h4
      obtain ⟨hj, -, hx, -, -⟩ := part_cell hP inc hk h1 h2
      have := e3 k s j l hk hj h3 h4
      rw [hx, hcl] at this
      rw [this]
      cases hus : s.usable with
      | true => simp
      | false => simp
    · intro hinc row col l r0 r1 c0 c1 l0 l1 hnot
      subst hinc
      have hr := idx_range r0 r1 c0 c1
      apply e4 _ l hr.1 (by simpa using hr.2) l0 l1
      intro k i hi heq
      unfold outIdx at heq
      simp only [if_true, hcl] at heq
      obtain ⟨-, -, -, p3, p4, -⟩ := compact_pos hC i (groupCells_lt hi)
      rw [hcl] at p4
      have := idx_inj p3 p4 c0 c1 heq
      cases hk : subs'.get k with
      | none =>
        have := hP.none k hk
        unfold groupCells at hi
        rw [this] at hi; simp at hi
      | some s => exact hnot k s hk (((hP.some k s hk).in_iff row col).2 ⟨i, hi, by ext <;> omega⟩)
  · rw [hn] at hkeys
    simp only [List.map_nil, List.map_eq_nil_iff] at hkeys
    exact absurd hkeys hne

/-- C73, combination by original value: with `out_origin` the key is the raster's own value at the cell (truncated to an
integer), of the same layer for a raster with layers. A raster with layers needs at least as many layers as the table (else
its rows are read past their ends, see `C73_false_layers`). -/
theorem C73_combine_origin_partial {r : Raster} (hb : Spec.Built r) (groups : IMap Int) {rs' b}
    (e : buildSubSet ⟨r, []⟩ groups = .ok (rs', b)) (subs' : IMap Subset) (hne : subs' ≠ [])
    (hkeys : subs'.map (·.1) = rs'.subs.map (·.1))
    (hsame : ∀ k s s', rs'.subs.get k = some s → subs'.get k = some s' → SameCells s s')
    (recls : IMap (List ℚ)) (m : Int) (ht : TableOf recls m) (h2 : r.is2d = true → m ≤ r.nLyrs)
    (hly : ∃ n, ∀ k s, subs'.get k = some s → s.usable = true → s.nLyrs = n) (inc : Bool) (dv : ℚ) :
    ∃ d, prepareComb ⟨rs'.ras, subs'⟩ true inc recls dv =
        .ok (some (some d, (if inc then r.hdr.rows * r.hdr.cols else rs'.ras.nCells) * m, m)) ∧
      (d.length : Int) = (if inc then r.hdr.rows * r.hdr.cols else rs'.ras.nCells) * m ∧
      (∀ k s (j : Nat) (l lr lc g : Int), subs'.get k = some s → readAt s.localPos j = .ok (lr, lc) →
        readAt s.glob j = .ok g → 0 ≤ l → l < m →
        ∃ v, r.getValue (s.srow + lr) (s.scol + lc) (if r.is2d then l + 1 else 1) = .ok v ∧
        readAt (some d) ((if inc then (s.srow + lr) * r.hdr.cols + (s.scol + lc) else g) * m + l) =
          .ok (if s.usable = false ∧ floatEqual r.noData (fillValue r dv) then r.noData
            else tableValue recls (truncQ v) l (fillValue r dv))) ∧
      (inc = true → ∀ row col l : Int, 0 ≤ row → row < r.hdr.rows → 0 ≤ col → col < r.hdr.cols → 0 ≤ l → l < m →
        (∀ k s, subs'.get k = some s → ¬ InSubset s row col) →
        readAt (some d) ((row * r.hdr.cols + col) * m + l) = .ok r.noData) := by
  have hbt : rs'.ras.Tidy := by
    obtain ⟨rs1, b1, e1, hb1, -⟩ := build_spec hb groups
    rw [e] at e1
    injection e1 with e1
    injection e1 with ea eb
    subst ea
    exact hb1.tidy
  obtain ⟨hrw, hcl, hnd, hny, h2d, hdf, hv, ⟨ls, ps, hC, hok⟩ | hn⟩ := build_cases2 hb e
  · obtain ⟨hiff, -⟩ := build_cases hb e
    have hP := parts_same hok hkeys hsame
    have hmem : ∀ k s, (k, s) ∈ subs' ↔ subs'.get k = some s := fun k s => IMap.mem_iff_get subs' hP.sorted k s
    obtain ⟨n, hall⟩ := hly
    have hm := ht.2.1
    obtain ⟨lsub, hls, -⟩ : ∃ lsub, subsetLyrs subs' false = some lsub ∧ True := by
      obtain ⟨x, h1, -, -⟩ := subsetLyrs_recls n subs' (-1)
        (fun e he hu => hall e.1 e.2 ((hmem _ _).1 he) hu) (.inl rfl)
      exact ⟨x, h1, trivial⟩
    have hdef : defaultOf rs'.ras dv = fillValue r dv := by unfold defaultOf fillValue; rw [hdf]; rfl
    obtain ⟨d, e1, e2, e3, e4⟩ := comb_gen hC hP m hm true recls m lsub (reclsLyrs_table ht)
      (by rw [decide_eq_false ht.1]; exact hls) (by simp; omega) hne dv
      (fun k _ j l => tableValue recls (truncQ (cellAt ls ((groupCells rs'.ras ls ps groups k).getD j.toNat 0)
        (if rs'.ras.is2d then l.toNat else 0))) l (fillValue r dv)) (by
        intro k s ud j l hk _ h0 h1 h3 h4
        have ho := hP.some k s hk
        have ho : SubOk ps (groupCells rs'.ras ls ps groups k) s := ho
        have hjl : j.toNat < (groupCells rs'.ras ls ps groups k).length := by have := ho.n; omega
        have hgl : readAt s.glob j = .ok ((groupCells rs'.ras ls ps groups k)[j.toNat] : Int) := by
          rw [ho.glob, readAt_some_int _ _ h0 (by rw [List.length_map]; omega)]
          simp
        unfold combValue
        rw [hgl, Out.ok_bind, if_pos ht.1, hdef, recls_origin hC _ (groupCells_lt (List.getElem_mem hjl)) l h3
          (by rw [h2d, hny]; intro h; have := h2 h; omega) hbt.n1, Out.ok_bind, List.getD_eq_getElem _ _ hjl]
        rfl) inc
    rw [hdef] at e3
    simp only [hrw, hcl, hnd] at e1 e2 e3 e4
    refine ⟨d, e1, e2, ?_, ?_⟩
    · intro k s j l lr lc g hk h1 h2' h3 h4
      obtain ⟨hj, -, hx, hp, -⟩ := part_cell hP inc hk h1 h2'
      have := e3 k s j l hk hj h3 h4
      rw [hx, hcl] at this
      have hval := group_valid hC (List.getElem_mem hj)
      rw [hp] at hval
      refine ⟨cellAt ls (groupCells rs'.ras ls ps groups k)[j] (if rs'.ras.is2d then l.toNat else 0), ?_, ?_⟩
      · rw [← hv _ _ _ _ ((hiff _ _ _).2 hval)]
        have hlt := groupCells_lt (List.getElem_mem hj)
        rw [← h2d]
        cases hd : rs'.ras.is2d with
        | true =>
          have := compact_cell hC _ hlt l h3 (by rw [hny]; rw [h2d] at hd; have := h2 hd; omega)
          rw [hp] at this
          simpa using this
        | false =>
          have := compact_cell hC _ hlt 0 le_rfl hC.holds.1
          rw [hp] at this
          simpa using this
      · rw [this]
        simp only [Int.toNat_natCast, List.getD_eq_getElem _ _ hj]
        cases hus : s.usable with
        | true => simp
        | false => simp
    · intro hinc row col l r0 r1 c0 c1 l0 l1 hnot
      subst hinc
      have hr := idx_range r0 r1 c0 c1
      apply e4 _ l hr.1 (by simpa using hr.2) l0 l1
      intro k i hi heq
      unfold outIdx at heq
      simp only [if_true, hcl] at heq
      obtain ⟨-, -, -, p3, p4, -⟩ := compact_pos hC i (groupCells_lt hi)
      rw [hcl] at p4
      have := idx_inj p3 p4 c0 c1 heq
      cases hk : subs'.get k with
      | none =>
        have := hP.none k hk
        unfold groupCells at hi
        rw [this] at hi; simp at hi
      | some s => exact hnot k s hk (((hP.some k s hk).in_iff row col).2 ⟨i, hi, by ext <;> omega⟩)
  · rw [hn] at hkeys
    simp only [List.map_nil, List.map_eq_nil_iff] at hkeys
    exact absurd hkeys hne

/-- The cells of one subset output: where they are. -/
theorem sub_cell {ps g s} (h : SubOk ps g s) (inc : Bool) {j : Nat} {lr lc : Int}
    (h1 : readAt s.localPos j = .ok (lr, lc)) :
    ∃ hj : j < g.length, (if inc then localOf ps s g[j] else (j : Int)) =
      (if inc then lr * (s.ecol - s.scol + 1) + lc else (j : Int)) ∧ posAt ps g[j] = (s.srow + lr, s.scol + lc) := by
  by_cases hj : j < g.length
  · rw [h.lpos, readAt_some_nat _ j (by simpa using hj)] at h1
    injection h1 with h1
    simp only [List.getElem_map, Prod.mk.injEq] at h1
    refine ⟨hj, ?_, ?_⟩
    · unfold localOf; rw [h1.1, h1.2]
    · ext
      · simp only; omega
      · simp only; omega
  · rw [h.lpos, readAt_oob _ _ (.inr (by rw [List.length_map]; omega))] at h1
    simp at h1

theorem sub_outside {ps g s} (h : SubOk ps g s) {row col : Int} (c0 : s.scol ≤ col) (c1 : col ≤ s.ecol)
    (hnot : ¬ InSubset s row col) (j : Nat) (hj : j < g.length) :
    localOf ps s g[j] ≠ (row - s.srow) * (s.ecol - s.scol + 1) + (col - s.scol) := by
  intro heq
  apply hnot
  have hm : g[j] ∈ g := List.getElem_mem hj
  have ht := h.tight.1 _ hm
  unfold localOf at heq
  have := idx_inj (by omega) (by omega) (by omega) (by omega) heq
  exact (h.in_iff row col).2 ⟨_, hm, by ext <;> omega⟩

/-- C73, one subset by original value: every cell gets the table's value of the raster's own value there; with NoData cells
included, the other cells of the subset's rectangle are NoData. -/
theorem C73_subset_origin_partial {r : Raster} (hb : Spec.Built r) (groups : IMap Int) {rs' b}
    (e : buildSubSet ⟨r, []⟩ groups = .ok (rs', b)) (k : Int) (s : Subset) (hk : rs'.subs.get k = some s)
    (recls : IMap (List ℚ)) (m : Int) (ht : TableOf recls m) (h2 : r.is2d = true → m ≤ r.nLyrs) (inc : Bool) (dv : ℚ) :
    ∃ d, prepareSubsetData rs'.ras k s true inc recls dv =
        .ok (some (some d, (if inc then (s.erow - s.srow + 1) * (s.ecol - s.scol + 1) else s.nCells) * m, m)) ∧
      (d.length : Int) = (if inc then (s.erow - s.srow + 1) * (s.ecol - s.scol + 1) else s.nCells) * m ∧
      (∀ (j : Nat) (l lr lc : Int), readAt s.localPos j = .ok (lr, lc) → 0 ≤ l → l < m →
        ∃ v, r.getValue (s.srow + lr) (s.scol + lc) (if r.is2d then l + 1 else 1) = .ok v ∧
        readAt (some d) ((if inc then lr * (s.ecol - s.scol + 1) + lc else (j : Int)) * m + l) =
          .ok (tableValue recls (truncQ v) l (fillValue r dv))) ∧
      (inc = true → ∀ row col l : Int, s.srow ≤ row → row ≤ s.erow → s.scol ≤ col → col ≤ s.ecol → 0 ≤ l → l < m →
        ¬ InSubset s row col →
        readAt (some d) (((row - s.srow) * (s.ecol - s.scol + 1) + (col - s.scol)) * m + l) = .ok r.noData) := by
  have hbt : rs'.ras.Tidy := by
    obtain ⟨rs1, b1, e1, hb1, -⟩ := build_spec hb groups
    rw [e] at e1
    injection e1 with e1
    injection e1 with ea eb
    subst ea
    exact hb1.tidy
  obtain ⟨hrw, hcl, hnd, hny, h2d, hdf, hv, ⟨ls, ps, hC, hok⟩ | hn⟩ := build_cases2 hb e
  · obtain ⟨hiff, -⟩ := build_cases hb e
    obtain ⟨ho, -⟩ := hok.some k s hk
    have ho : SubOk ps (groupCells rs'.ras ls ps groups k) s := ho
    have hm := ht.2.1
    have hdef : defaultOf rs'.ras dv = fillValue r dv := by unfold defaultOf fillValue; rw [hdf]; rfl
    obtain ⟨d, e1, e2, e3, e4⟩ := decomp_gen hC ho (fun i hi => groupCells_lt hi)
      (groupCells_sorted rs'.ras ls ps groups k) k true inc recls m m hm (reclsLyrs_table ht) (by simp; omega) dv
      (fun j l => tableValue recls (truncQ (cellAt ls ((groupCells rs'.ras ls ps groups k).getD j 0)
        (if rs'.ras.is2d then l.toNat else 0))) l (fillValue r dv)) (by
        intro j l hj h3 h4
        have hgl : readAt s.glob j = .ok ((groupCells rs'.ras ls ps groups k)[j] : Int) := by
          rw [ho.glob, readAt_some_nat _ _ (by simpa using hj)]
          simp
        unfold subValue
        rw [hgl, Out.ok_bind, if_pos ht.1, hdef, recls_origin hC _ (groupCells_lt (List.getElem_mem hj)) l h3
          (by rw [h2d, hny]; intro h; have := h2 h; omega) hbt.n1, Out.ok_bind, List.getD_eq_getElem _ _ hj]
        rfl)
    refine ⟨d, e1, e2, ?_, ?_⟩
    · intro j l lr lc h1 h3 h4
      obtain ⟨hj, hx, hp⟩ := sub_cell ho inc h1
      have := e3 j hj l h3 h4
      rw [hx] at this
      have hval := group_valid hC (List.getElem_mem hj)
      rw [hp] at hval
      refine ⟨cellAt ls (groupCells rs'.ras ls ps groups k)[j] (if rs'.ras.is2d then l.toNat else 0), ?_, ?_⟩
      · rw [← hv _ _ _ _ ((hiff _ _ _).2 hval)]
        have hlt := groupCells_lt (List.getElem_mem hj)
        rw [← h2d]
        cases hd : rs'.ras.is2d with
        | true =>
          have := compact_cell hC _ hlt l h3 (by rw [hny]; rw [h2d] at hd; have := h2 hd; omega)
          rw [hp] at this
          simpa using this
        | false =>
          have := compact_cell hC _ hlt 0 le_rfl hC.holds.1
          rw [hp] at this
          simpa using this
      · rw [this, List.getD_eq_getElem _ _ hj]
    · intro hinc row col l r0 r1 c0 c1 l0 l1 hnot
      subst hinc
      have hr := idx_range (rows := s.erow - s.srow + 1) (cols := s.ecol - s.scol + 1) (i := row - s.srow) (j := col - s.scol)
        (by omega) (by omega) (by omega) (by omega)
      rw [e4 _ l hr.1 (by simpa using hr.2) l0 l1 (by
        intro j hj; simpa using sub_outside ho c0 c1 hnot j hj), hnd]
  · rw [hn] at hk; simp [IMap.get_nil] at hk

/-- C73, one subset by its id: the subset must have a known number of layers (data must have been set), else the call fails
(`C73_subset_fresh`). -/
theorem C73_subset_id_partial {r : Raster} (hb : Spec.Built r) (groups : IMap Int) {rs' b}
    (e : buildSubSet ⟨r, []⟩ groups = .ok (rs', b)) (k : Int) (s s' : Subset) (hk : rs'.subs.get k = some s)
    (hs : SameCells s s') (hl : 1 ≤ s'.nLyrs)
    (recls : IMap (List ℚ)) (m : Int) (ht : TableOf recls m) (inc : Bool) (dv : ℚ) :
    ∃ d, prepareSubsetData rs'.ras k s' false inc recls dv =
        .ok (some (some d, (if inc then (s.erow - s.srow + 1) * (s.ecol - s.scol + 1) else s.nCells) * s'.nLyrs, s'.nLyrs)) ∧
      (∀ (j : Nat) (l lr lc : Int), readAt s.localPos j = .ok (lr, lc) → 0 ≤ l → l < s'.nLyrs →
        readAt (some d) ((if inc then lr * (s.ecol - s.scol + 1) + lc else (j : Int)) * s'.nLyrs + l) =
          .ok (tableValue recls k l (fillValue r dv))) ∧
      (inc = true → ∀ row col l : Int, s.srow ≤ row → row ≤ s.erow → s.scol ≤ col → col ≤ s.ecol → 0 ≤ l → l < s'.nLyrs →
        ¬ InSubset s row col →
        readAt (some d) (((row - s.srow) * (s.ecol - s.scol + 1) + (col - s.scol)) * s'.nLyrs + l) = .ok r.noData) := by
  obtain ⟨hrw, hcl, hnd, hny, h2d, hdf, hv, ⟨ls, ps, hC, hok⟩ | hn⟩ := build_cases2 hb e
  · obtain ⟨ho0, -⟩ := hok.some k s hk
    have ho0 : SubOk ps (groupCells rs'.ras ls ps groups k) s := ho0
    have ho := ho0.same hs
    have hdef : defaultOf rs'.ras dv = fillValue r dv := by unfold defaultOf fillValue; rw [hdf]; rfl
    obtain ⟨d, e1, e2, e3, e4⟩ := decomp_gen hC ho (fun i hi => groupCells_lt hi)
      (groupCells_sorted rs'.ras ls ps groups k) k false inc recls m s'.nLyrs hl (reclsLyrs_table ht) (by simp) dv
      (fun _ l => tableValue recls k l (fillValue r dv)) (by
        intro j l hj h3 h4
        have hgl : readAt s'.glob j = .ok ((groupCells rs'.ras ls ps groups k)[j] : Int) := by
          rw [ho.glob, readAt_some_nat _ _ (by simpa using hj)]
          simp
        unfold subValue
        rw [hgl, Out.ok_bind, if_pos ht.1, hdef, recls_id _ recls k _ _ l h3, Out.ok_bind]
        rfl)
    obtain ⟨q1, q2, q3, q4, q5, q6, q7, q8⟩ := hs
    rw [q1, q2, q3, q4, q5] at e1 e4
    refine ⟨d, e1, ?_, ?_⟩
    · intro j l lr lc h1 h3 h4
      obtain ⟨hj, hx, hp⟩ := sub_cell ho inc (by rw [q7]; exact h1)
      have := e3 j hj l h3 h4
      rw [hx, q4, q5] at this
      exact this
    · intro hinc row col l r0 r1 c0 c1 l0 l1 hnot
      subst hinc
      have hr := idx_range (rows := s.erow - s.srow + 1) (cols := s.ecol - s.scol + 1) (i := row - s.srow) (j := col - s.scol)
        (by omega) (by omega) (by omega) (by omega)
      rw [e4 _ l hr.1 (by simpa using hr.2) l0 l1 (by
        intro j hj
        have := sub_outside ho0 c0 c1 hnot j hj
        unfold localOf at this ⊢
        rw [q2, q4, q5]
        simpa using this), hnd]
  · rw [hn] at hk; simp [IMap.get_nil] at hk

/-- C73: reclassifying a single just built subset by its id fails, whatever the table: its number of layers is not known. -/
theorem C73_subset_fresh {r : Raster} (hb : Spec.Built r) (groups : IMap Int) {rs' b}
    (e : buildSubSet ⟨r, []⟩ groups = .ok (rs', b)) (k : Int) (s : Subset) (hk : rs'.subs.get k = some s)
    (recls : IMap (List ℚ)) (inc : Bool) (dv : ℚ) :
    prepareSubsetData rs'.ras k s false inc recls dv = .ok none := by
  obtain ⟨-, -, -, -, -, -, -, ⟨ls, ps, hC, hok⟩ | hn⟩ := build_cases2 hb e
  · obtain ⟨-, -, hl, -⟩ := hok.some k s hk
    unfold prepareSubsetData
    cases reclsLyrs recls with
    | none => rfl
    | some lr => simp [hl]
  · rw [hn] at hk; simp [IMap.get_nil] at hk

/-- C73: a table whose entries differ in length is refused. -/
theorem C73_inconsistent (rs : RasterS) (k : Int) (s : Subset) (oo inc : Bool) (recls : IMap (List ℚ)) (dv : ℚ)
    (h : ∃ e ∈ recls, ∃ e' ∈ recls, e.2.length ≠ e'.2.length) :
    prepareComb rs oo inc recls dv = .ok none ∧ prepareSubsetData rs.ras k s oo inc recls dv = .ok none := by
  have := reclsLyrs_none h
  unfold prepareComb prepareSubsetData
  rw [this]
  exact ⟨by split_ifs <;> rfl, rfl⟩

theorem collectItems_none {α β : Type} (f : β → Out (Option (Int × α))) : ∀ (bs : List β), (∀ b ∈ bs, ∃ x, f b = .ok x) →
    (∃ b ∈ bs, f b = .ok none) → collectItems f bs = .ok none
  | [], _, h => by obtain ⟨b, hb, -⟩ := h; simp at hb
  | b :: bs, h1, h2 => by
    have hc : collectItems f (b :: bs) = (f b >>= fun x => match x with
      | none => .ok none
      | some it => do
        let rest ← collectItems f bs
        return rest.map (it :: ·)) := rfl
    obtain ⟨x, hx⟩ := h1 b List.mem_cons_self
    rw [hc, hx, Out.ok_bind]
    cases x with
    | none => rfl
    | some it =>
      have : collectItems f bs = .ok none := by
        apply collectItems_none f bs (fun c hc => h1 c (List.mem_cons_of_mem _ hc))
        obtain ⟨c, hc, hcn⟩ := h2
        rcases List.mem_cons.1 hc with rfl | hc
        · rw [hx] at hcn; simp at hcn
        · exact ⟨c, hc, hcn⟩
      simp only [this, Out.ok_bind, Out.pure_eq, Option.map_none]

/-- C15: combining with `out_origin` and without a table always fails once a subset is usable, whatever data the subsets
have: the code has no branch for it. -/
theorem C15_origin_fails {r : Raster} (hb : Spec.Built r) (groups : IMap Int) {rs' b}
    (e : buildSubSet ⟨r, []⟩ groups = .ok (rs', b)) (subs' : IMap Subset)
    (hkeys : subs'.map (·.1) = rs'.subs.map (·.1))
    (hsame : ∀ k s s', rs'.subs.get k = some s → subs'.get k = some s' → SameCells s s')
    (hex : ∃ k s, subs'.get k = some s ∧ s.usable = true) (inc : Bool) (dv : ℚ) :
    prepareComb ⟨rs'.ras, subs'⟩ true inc [] dv = .ok none := by
  obtain ⟨hrw, hcl, hnd, hny, h2d, hdf, hv, ⟨ls, ps, hC, hok⟩ | hn⟩ := build_cases2 hb e
  · have hP := parts_same hok hkeys hsame
    have hmem : ∀ k s, (k, s) ∈ subs' ↔ subs'.get k = some s := fun k s => IMap.mem_iff_get subs' hP.sorted k s
    obtain ⟨k0, s0, hk0, hu0⟩ := hex
    have hne : subs' ≠ [] := by rintro rfl; simp [IMap.get_nil] at hk0
    have hL := hC.holds.1
    unfold prepareComb
    rw [if_neg hne]
    simp only [reclsLyrs, List.foldl_nil, decide_true]
    cases hsl : subsetLyrs subs' true with
    | none => rfl
    | some lsub =>
      have hl1 : ¬ rs'.ras.nLyrs < 0 := by omega
      simp only [if_true, show ¬ ((-1 : Int) > 0) by omega, if_false, hl1]
      rw [collectItems_none _ _ ?_ ?_]
      · rfl
      · intro x hx
        obtain ⟨h1, ⟨h2, h3, h4, h5⟩, h6⟩ := mem_combCells.1 hx
        have hg := (hmem _ _).1 h1
        have ho : SubOk ps (groupCells rs'.ras ls ps groups x.1.1) x.1.2.1 := hP.some _ _ hg
        have hlt : x.2.1.toNat < (groupCells rs'.ras ls ps groups x.1.1).length := by have := ho.n; omega
        have hgl : readAt x.1.2.1.glob x.2.1 = .ok ((groupCells rs'.ras ls ps groups x.1.1)[x.2.1.toNat] : Int) := by
          rw [ho.glob, readAt_some_int _ _ h2 (by rw [List.length_map]; omega)]
          simp
        obtain ⟨hp, -⟩ := compact_pos hC _ (groupCells_lt (List.getElem_mem hlt))
        obtain ⟨v, hv⟩ : ∃ v, combValue rs'.ras x.1.1 x.1.2.1 true x.1.2.2 [] (defaultOf rs'.ras dv) rs'.ras.nLyrs x.2.1 x.2.2 =
            .ok v := by
          unfold combValue
          rw [hgl, Out.ok_bind]
          simp only [ne_eq, not_true_eq_false, if_false, Bool.not_true, Bool.false_and, Bool.false_eq_true]
          split_ifs
          · exact ⟨_, rfl⟩
          · exact ⟨_, rfl⟩
        exact ⟨_, by rw [hgl, Out.ok_bind, hp, Out.ok_bind, hv, Out.ok_bind]; rfl⟩
      · have ho : SubOk ps (groupCells rs'.ras ls ps groups k0) s0 := hP.some _ _ hk0
        have hpos := List.length_pos_of_ne_nil ho.ne
        have hgl : readAt s0.glob 0 = .ok ((groupCells rs'.ras ls ps groups k0)[0] : Int) := by
          rw [ho.glob]
          have := readAt_some_nat ((groupCells rs'.ras ls ps groups k0).map (fun (i : Nat) => (i : Int))) 0 (by simpa using hpos)
          simpa using this
        obtain ⟨hp, -⟩ := compact_pos hC _ (groupCells_lt (List.getElem_mem hpos))
        refine ⟨((k0, s0, false), (0, 0)), mem_combCells.2 ⟨(hmem _ _).2 hk0, ⟨le_rfl, by simp only; rw [ho.n]; omega, le_rfl,
          by simp only; omega⟩, .inl ⟨hu0, rfl⟩⟩, ?_⟩
        simp only
        rw [hgl, Out.ok_bind, hp, Out.ok_bind]
        unfold combValue
        rw [hgl, Out.ok_bind]
        simp
  · obtain ⟨k, s, hk, -⟩ := hex
    rw [hn] at hkeys
    simp only [List.map_nil, List.map_eq_nil_iff] at hkeys
    rw [hkeys] at hk; simp [IMap.get_nil] at hk

/-! ### the header of a subset -/

/-- C14: the header given to the file of a subset describes the subset's rectangle: its size, cell size and NoData value
are right, and the center of each of its cells is the center of the raster's cell there. -/
theorem C14_header (s : Subset) (h : Header) (nd : ℚ) (lr lc : Int) :
    (s.getHeader h.xll h.yll h.rows h.cellsize nd).grid.center lr lc = h.grid.center (s.srow + lr) (s.scol + lc) ∧
    (s.getHeader h.xll h.yll h.rows h.cellsize nd).rows = s.erow - s.srow + 1 ∧
    (s.getHeader h.xll h.yll h.rows h.cellsize nd).cols = s.ecol - s.scol + 1 ∧
    (s.getHeader h.xll h.yll h.rows h.cellsize nd).cellsize = h.cellsize ∧
    (s.getHeader h.xll h.yll h.rows h.cellsize nd).noData = nd := by
  refine ⟨?_, rfl, rfl, rfl, rfl⟩
  simp only [Subset.getHeader, Header.grid, Grid.center, Grid.left, Grid.top, Grid.bottom, Prod.mk.injEq]
  push_cast
  constructor <;> ring

/-- C14: a subset object made for the rows `r0` to `r1` and the columns `c0` to `c1` describes this rectangle: its header has one row per row and one column per
column, every cell at its place in the grid. -/
theorem C14_new (r0 r1 c0 c1 : Int) (h : Header) (nd : ℚ) (lr lc : Int) :
    ((Subset.new r0 r1 c0 c1).getHeader h.xll h.yll h.rows h.cellsize nd).grid.center lr lc = h.grid.center (r0 + lr) (c0 + lc) ∧
    (((Subset.new r0 r1 c0 c1).getHeader h.xll h.yll h.rows h.cellsize nd).grid.CellInside lr lc ↔
      r0 ≤ r0 + lr ∧ r0 + lr ≤ r1 ∧ c0 ≤ c0 + lc ∧ c0 + lc ≤ c1) := by
  refine ⟨(C14_header (Subset.new r0 r1 c0 c1) h nd lr lc).1, ?_⟩
  show (0 ≤ lr ∧ lr < r1 - r0 + 1 ∧ 0 ≤ lc ∧ lc < c1 - c0 + 1) ↔ _
  omega

/-! ### concrete cases -/

/-- The table {1: [10, 11], 2: [20, 21]}. -/
def exTable : IMap (List ℚ) := [(1, [10, 11]), (2, [20, 21])]

theorem exTable_ok : TableOf exTable 2 := ⟨by decide, by decide, by decide⟩

/-- Two layers of output, by subset id (value 3 belongs to group 1). -/
example : prepareComb exSubs.1 false true exTable (-9999) =
    .ok (some (some [10, 11, 10, 11, 20, 21, -9999, -9999, 20, 21, 10, 11], 12, 2)) := by decide +kernel

/-- By original value: the table has no entry for 3, the default value 7 is used. -/
example : prepareComb exSubs.1 true true exTable 7 =
    .ok (some (some [10, 11, 10, 11, 20, 21, -9999, -9999, 20, 21, 7, 7], 12, 2)) := by decide +kernel

/-- One subset: columns 1 and 2 of both rows, the cell (1, 2) belongs to the other one. -/
example : (match exSubs.1.subs.get 2 with
    | some s => prepareSubsetData exSubs.1.ras 2 s true true exTable 7
    | none => .ub) = .ok (some (some [-9999, -9999, 20, 21, 20, 21, -9999, -9999], 8, 2)) := by decide +kernel

/-- A subset made unusable is reclassified all the same if the default value is not NoData. -/
theorem C73_false_unusable : prepareComb ⟨exSubs.1.ras, exSubs.1.subs.map (fun e => (e.1, { e.2 with usable := false }))⟩
      false true [(1, [10])] 7 = .ok (some (some [10, 10, 7, -9999, 7, 10], 6, 1)) ∧
    prepareComb ⟨exSubs.1.ras, exSubs.1.subs.map (fun e => (e.1, { e.2 with usable := false }))⟩
      false true [(1, [10])] (-9999) = .ok (some (some [-9999, -9999, -9999, -9999, -9999, -9999], 6, 1)) := by
  constructor <;> decide +kernel

/-- A table with more layers than the raster: `out_origin` reads past the end of a cell's layers. -/
theorem C73_false_layers : (do
    let x ← buildSubSet ⟨ofArray2 (some [[1, 2], [2, 1]]) 2 1 2 (-9999) 1 0 0, []⟩ []
    prepareComb x.1 true true [(1, [10, 11, 12])] 0) = .ub := by decide +kernel

/-- Without a table. -/
example : prepareComb exSubs.1 true true [] 0 = .ok none := by decide +kernel

end CCGL
