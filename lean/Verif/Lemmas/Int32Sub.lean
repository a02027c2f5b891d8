import Verif.Lemmas.Int32
import Verif.Lemmas.Subset
/-!
# The 32-bit arithmetic of `BuildSubSet`
-/
namespace CCGL
namespace I32
open Raster

/-- A number an `int` can hold. -/
def IsInt (x : Int) : Prop := -2147483648 ≤ x ∧ x ≤ intMax

theorem groupOf_eq (groups : IMap Int) (v : ℚ) (h : IsInt (truncQ v)) : groupOf groups v = .ok (CCGL.groupOf groups v) := by
  unfold groupOf CCGL.groupOf
  rw [chk_ok h.1 h.2]
  rfl

theorem buildLoop_eq {r : Raster} {ls ps} (h : r.Compact ls ps) (groups : IMap Int)
    (hv : ∀ i < ps.length, floatEqual (cellAt ls i 0) r.noData = false → IsInt (truncQ (cellAt ls i 0))) : ∀ (rest : List Nat) (m : IMap (Subset × List Int)),
    (∀ i ∈ rest, i < ps.length) → buildLoop r groups rest m = CCGL.buildLoop r groups rest m := by
  intro rest
  induction rest with
  | nil => intro m _; rfl
  | cons i rest ih =>
    intro m hr
    have hi := hr i (by simp)
    have e : buildLoop r groups (i :: rest) m = (r.getValueByIndex i 1 >>= fun v =>
      if floatEqual v r.noData then buildLoop r groups rest m
      else groupOf groups v >>= fun g => readAt r.posIdx i >>= fun p => if r.hdr.cols = 0 then .ub else buildLoop r groups rest
        (addCell m g (Int.tdiv p r.hdr.cols) (Int.tmod p r.hdr.cols) i)) := rfl
    have e' : CCGL.buildLoop r groups (i :: rest) m = (r.getValueByIndex i 1 >>= fun v =>
      if floatEqual v r.noData then CCGL.buildLoop r groups rest m
      else readAt r.posIdx i >>= fun p => if r.hdr.cols = 0 then .ub else CCGL.buildLoop r groups rest
        (addCell m (CCGL.groupOf groups v) (Int.tdiv p r.hdr.cols) (Int.tmod p r.hdr.cols) i)) := rfl
    have ih' := fun m => ih m (fun j hj => hr j (by simp [hj]))
    rw [e, e', compact_gvi h i hi, Out.ok_bind, Out.ok_bind]
    by_cases hf : floatEqual (cellAt ls i 0) r.noData = true
    · rw [if_pos hf, if_pos hf, ih']
    · rw [if_neg hf, if_neg hf, groupOf_eq _ _ (hv i hi (by simpa using hf)), Out.ok_bind]
      obtain ⟨hp, -⟩ := compact_pos h i hi
      rw [hp, Out.ok_bind, Out.ok_bind, ih']

/-- What every result of `mapM` satisfies. -/
theorem mapM_all {α β : Type} (f : α → Out β) (P : β → Prop) : ∀ (l : List α) {ys : List β}, (∀ x ∈ l, ∀ y, f x = .ok y → P y) →
    l.mapM f = .ok ys → ∀ y ∈ ys, P y := by
  intro l
  induction l with
  | nil => intro ys _ e; cases e; simp
  | cons a l ih =>
    intro ys h e
    rw [List.mapM_cons] at e
    obtain ⟨y, e1, e⟩ := Out.bind_ok e
    obtain ⟨ys', e2, e⟩ := Out.bind_ok e
    cases e
    intro z hz
    rcases List.mem_cons.1 hz with rfl | hz
    · exact h a (by simp) _ e1
    · exact ih (fun x hx => h x (by simp [hx])) e2 z hz

/-- A box inside a grid has no more cells than the grid. -/
theorem box_le {a b rows cols : Int} (h1 : 0 ≤ a) (h2 : a ≤ rows) (h3 : 0 ≤ b) (h4 : b ≤ cols) : a * b ≤ rows * cols :=
  le_trans (mul_le_mul_of_nonneg_right h2 h3) (mul_le_mul_of_nonneg_left h4 (by omega))

theorem finishSubset_eq {r : Raster} {ls ps} (h : r.Compact ls ps) (hm : r.hdr.rows * r.hdr.cols * 2 ≤ intMax) (g : List Nat) (e : Subset × List Int)
    (ha : AccOk (posAt ps) g e) (hne : g ≠ []) (hg : ∀ i ∈ g, i < ps.length) (hnd : g.Nodup) :
    finishSubset r e = CCGL.finishSubset r e := by
  have hS := Sized.of_rinv (.inl ⟨ls, _, .comp h⟩)
  have hsub : g ⊆ List.range ps.length := fun i hi => List.mem_range.2 (hg i hi)
  have hlen := (List.subperm_of_subset hnd hsub).length_le
  rw [List.length_range] at hlen
  have hn : e.1.nCells ≤ r.hdr.rows * r.hdr.cols := by
    have := hS.cells_le
    rw [h.ncells] at this
    rw [ha.n]; omega
  have hn0 : 0 ≤ e.1.nCells := by rw [ha.n]; omega
  obtain ⟨t0, ⟨i1, m1, t1⟩, ⟨i2, m2, t2⟩, ⟨i3, m3, t3⟩, ⟨i4, m4, t4⟩⟩ := ha.tight
  obtain ⟨-, a1, a2, a3, a4, -, -, hc⟩ := compact_pos h i1 (hg _ m1)
  obtain ⟨-, b1, b2, b3, b4, -, -, -⟩ := compact_pos h i2 (hg _ m2)
  obtain ⟨-, c1, c2, c3, c4, -, -, -⟩ := compact_pos h i3 (hg _ m3)
  obtain ⟨-, d1, d2, d3, d4, -, -, -⟩ := compact_pos h i4 (hg _ m4)
  have q1 := t0 i1 m1
  have hrc : r.hdr.rows ≤ r.hdr.rows * r.hdr.cols := by
    have := mul_le_mul_of_nonneg_left (show (1 : Int) ≤ r.hdr.cols by omega) h.rows_nn
    rw [mul_one] at this; exact this
  have hrc' : r.hdr.cols ≤ r.hdr.rows * r.hdr.cols := by
    have := mul_le_mul_of_nonneg_right (show (1 : Int) ≤ r.hdr.rows by omega) h.cols_nn
    rw [one_mul] at this; exact this
  have hbox : (e.1.erow - e.1.srow + 1) * (e.1.ecol - e.1.scol + 1) ≤ r.hdr.rows * r.hdr.cols :=
    box_le (by omega) (by omega) (by omega) (by omega)
  obtain ⟨hst, -⟩ : Raster.storeInto (alloc1 e.1.nCells (0 : Int)) none e.2 = .ok (some e.2) ∧ True := by
    refine ⟨?_, trivial⟩
    have hpos : 0 < g.length := List.length_pos_of_ne_nil hne
    have h2 := ha.n
    have : alloc1 e.1.nCells (0 : Int) = some (List.replicate g.length 0) := by
      unfold alloc1; rw [if_neg (by omega), h2]; simp
    rw [this, ha.idxs]; simp [Raster.storeInto]
  unfold finishSubset CCGL.finishSubset
  dsimp only
  have k1 : mul e.1.nCells 2 = .ok (e.1.nCells * 2) := mul_ok (by omega) (by omega)
  have k2 : sub e.1.erow e.1.srow = .ok (e.1.erow - e.1.srow) := chk_ok (by omega) (by omega)
  have k3 : add (e.1.erow - e.1.srow) 1 = .ok (e.1.erow - e.1.srow + 1) := chk_ok (by omega) (by omega)
  have k4 : sub e.1.ecol e.1.scol = .ok (e.1.ecol - e.1.scol) := chk_ok (by omega) (by omega)
  have k5 : add (e.1.ecol - e.1.scol) 1 = .ok (e.1.ecol - e.1.scol + 1) := chk_ok (by omega) (by omega)
  rw [hst, Out.ok_bind, Out.ok_bind, k1, Out.ok_bind, k2, Out.ok_bind, k3, Out.ok_bind, k4, Out.ok_bind, k5, Out.ok_bind]
  have hk : ∀ k ∈ List.range e.1.nCells.toNat, ∃ i ∈ g, readAt (some e.2) ((k : Nat) : Int) = .ok (i : Int) := by
    intro k hk
    have hk' : k < g.length := by rw [List.mem_range, ha.n] at hk; simpa using hk
    refine ⟨g[k], List.getElem_mem hk', ?_⟩
    rw [ha.idxs, readAt_some_nat _ k (by simpa using hk')]
    simp
  have hG : ∀ k ∈ List.range e.1.nCells.toNat, ∃ p : Int × Int, (0 ≤ p.1 ∧ p.1 < e.1.erow - e.1.srow + 1 ∧ 0 ≤ p.2 ∧ p.2 < e.1.ecol - e.1.scol + 1) ∧
      (do
        let gi ← readAt (some e.2) ((k : Nat) : Int)
        let p ← readAt r.posIdx gi
        if r.hdr.cols = 0 then Out.ub
        else do
          let lr ← sub (Int.tdiv p r.hdr.cols) e.1.srow
          let lc ← sub (Int.tmod p r.hdr.cols) e.1.scol
          return (lr, lc) : Out (Int × Int)) = .ok p ∧
      (do
        let gi ← readAt (some e.2) ((k : Nat) : Int)
        let p ← readAt r.posIdx gi
        (if r.hdr.cols = 0 then .ub
          else .ok (Int.tdiv p r.hdr.cols - e.1.srow, Int.tmod p r.hdr.cols - e.1.scol) : Out (Int × Int)) : Out (Int × Int)) = .ok p := by
    intro k hkm
    obtain ⟨i, hi, e1⟩ := hk k hkm
    obtain ⟨hp, x1, x2, x3, x4, hd, hmod, -⟩ := compact_pos h i (hg i hi)
    have q := t0 i hi
    refine ⟨((posAt ps i).1 - e.1.srow, (posAt ps i).2 - e.1.scol), ⟨?_, ?_, ?_, ?_⟩, ?_, ?_⟩
    · dsimp only; omega
    · dsimp only; omega
    · dsimp only; omega
    · dsimp only; omega
    · have s1 : sub (posAt ps i).1 e.1.srow = .ok ((posAt ps i).1 - e.1.srow) := chk_ok (by omega) (by omega)
      have s2 : sub (posAt ps i).2 e.1.scol = .ok ((posAt ps i).2 - e.1.scol) := chk_ok (by omega) (by omega)
      rw [e1, Out.ok_bind, hp, Out.ok_bind, if_neg hc, hd, hmod, s1, s2]
      rfl
    · rw [e1, Out.ok_bind, hp, Out.ok_bind, if_neg hc, hd, hmod]
  rw [mapM_eq _ _ _ (fun k hkm => by obtain ⟨p, -, u, w⟩ := hG k hkm; exact u.trans w.symm)]
  cases hlp : (List.range e.1.nCells.toNat).mapM (fun (k : Nat) => (do
        let gi ← readAt (some e.2) ((k : Nat) : Int)
        let p ← readAt r.posIdx gi
        (if r.hdr.cols = 0 then .ub
          else .ok (Int.tdiv p r.hdr.cols - e.1.srow, Int.tmod p r.hdr.cols - e.1.scol) : Out (Int × Int)) : Out (Int × Int))) with
  | ok lp =>
    rw [Out.ok_bind, Out.ok_bind]
    have hmem : ∀ q ∈ lp, 0 ≤ q.1 ∧ q.1 < e.1.erow - e.1.srow + 1 ∧ 0 ≤ q.2 ∧ q.2 < e.1.ecol - e.1.scol + 1 := by
      have := mapM_all _ (fun q : Int × Int => 0 ≤ q.1 ∧ q.1 < e.1.erow - e.1.srow + 1 ∧ 0 ≤ q.2 ∧ q.2 < e.1.ecol - e.1.scol + 1) _ (fun k hkm q hq => by
        obtain ⟨p, hp, -, w⟩ := hG k hkm
        rw [w] at hq; cases hq; exact hp) hlp
      exact this
    rw [mapM_pure _ (fun rc : Int × Int => rc.1 * (e.1.ecol - e.1.scol + 1) + rc.2) lp (fun q hq => by
      obtain ⟨x1, x2, x3, x4⟩ := hmem q hq
      exact index_ok x1 x2 x3 x4 (by omega)), Out.ok_bind]
  | ub => rfl
  | exn => rfl

theorem buildMap_eq {r : Raster} {ls ps} (h : r.Compact ls ps) (hm : r.hdr.rows * r.hdr.cols * 2 ≤ intMax) (groups : IMap Int)
    (hv : ∀ i < ps.length, floatEqual (cellAt ls i 0) r.noData = false → IsInt (truncQ (cellAt ls i 0))) :
    (buildLoop r groups (List.range r.nCells.toNat) [] >>= fun m =>
        m.mapM (fun (e : Int × (Subset × List Int)) => (do
          let s ← finishSubset r e.2
          return (e.1, s) : Out (Int × Subset)))) =
    (CCGL.buildLoop r groups (List.range r.nCells.toNat) [] >>= fun m =>
        m.mapM (fun (e : Int × (Subset × List Int)) => (do
          let s ← CCGL.finishSubset r e.2
          return (e.1, s) : Out (Int × Subset)))) := by
  have hn : r.nCells.toNat = ps.length := by rw [h.ncells]; simp
  have hr : ∀ i ∈ List.range r.nCells.toNat, i < ps.length := by intro i hi; rw [List.mem_range, hn] at hi; exact hi
  rw [buildLoop_eq h groups hv _ _ hr]
  obtain ⟨m, hmm, hok⟩ := buildLoop_spec h groups (List.range r.nCells.toNat) [] [] hr
    ⟨by simp, by intro k _; rfl, by intro k e hk; simp [IMap.get_nil] at hk⟩
  rw [List.nil_append, hn] at hok
  rw [hmm, Out.ok_bind, Out.ok_bind]
  refine mapM_eq _ _ _ (fun e he => ?_)
  obtain ⟨hne, ha⟩ := hok.some e.1 e.2 ((IMap.mem_iff_get m hok.sorted _ _).1 he)
  rw [finishSubset_eq h hm _ e.2 ha hne (by intro i hi; exact List.mem_range.1 (List.mem_filter.1 hi).1)
    (List.nodup_range.filter _)]

theorem buildSubSet_eq {r : Raster} (hi : r.RInv) (h3 : r.hdr.rows * r.hdr.cols * 2 ≤ intMax)
    (hl : r.is2d = true → r.hdr.rows * r.hdr.cols * r.nLyrs ≤ intMax)
    (hv : ∀ i v, r.getValueByIndex i 1 = .ok v → floatEqual v r.noData = false → IsInt (truncQ v)) (groups : IMap Int) :
    buildSubSet ⟨r, []⟩ groups = CCGL.buildSubSet ⟨r, []⟩ groups := by
  have hS := Sized.of_rinv hi
  have hlyr := hS.lyrs
  unfold buildSubSet CCGL.buildSubSet
  dsimp only
  rw [setCalcPositions_eq hS.rows_nn hS.cols_nn (by omega) h3 hl]
  by_cases hvd : (!r.validData) = true
  · rw [if_pos hvd, if_pos hvd]
  rw [if_neg hvd, if_neg hvd]
  -- the compacted raster, if there is one
  have key : ∀ r' b, (if r.posData.isNone || r.posIdx.isNone then r.setCalcPositions else .ok (r, true) : Out (Raster × Bool)) = .ok (r', b) →
      b = true → r'.hdr.rows = r.hdr.rows ∧ r'.hdr.cols = r.hdr.cols ∧ (r'.nCells = 0 ∨ ∃ ls ps, r'.Compact ls ps ∧
        ∀ i < ps.length, floatEqual (cellAt ls i 0) r'.noData = false → IsInt (truncQ (cellAt ls i 0))) := by
    intro r' b e hb
    have hE : r.Empty → r'.hdr.rows = r.hdr.rows ∧ r'.hdr.cols = r.hdr.cols ∧ r'.nCells = 0 := by
      intro h
      rw [if_pos (by rw [h.pi]; simp)] at e
      unfold Raster.setCalcPositions at e
      rw [if_neg hvd, if_pos (by rw [h.calcOn, h.pd]; rfl)] at e
      cases e
      cases hb
    rcases hi with ⟨ls, loc, hi⟩ | ⟨_, hi⟩
    · cases hi with
      | full h =>
        rw [if_pos (by rw [h.pi]; simp)] at e
        unfold Raster.setCalcPositions at e
        rw [if_neg hvd, if_neg (by rw [h.pd, h.pi]; simp)] at e
        obtain ⟨⟨r1, c⟩, e1, e⟩ := Out.bind_ok e
        cases e
        have hF : Raster.Full { r with calcPos := true } ls := ⟨h.holds, h.rows_nn, h.cols_nn, h.len, h.ncells, h.pd, h.pi⟩
        unfold Raster.calcNoMask at e1
        rw [if_pos rfl, if_pos (by show (r.posData.isNone || r.posIdx.isNone) = true; rw [h.pi]; simp)] at e1
        obtain ⟨r2, e2, e1⟩ := Out.bind_ok e1
        cases e1
        obtain ⟨r3, e3, hh, hnd, -, -, -, -, hnc, hcase⟩ := hF.calc
        rw [e2] at e3
        cases e3
        refine ⟨by rw [hh], by rw [hh], ?_⟩
        rcases hcase with ⟨_, hE⟩ | hC
        · exact .inl hE.ncells
        · refine .inr ⟨_, _, hC, fun i hlt hf => ?_⟩
          rw [hnd] at hf
          have hmem := List.getElem_mem hlt
          obtain ⟨g1, g2⟩ := List.mem_filter.1 hmem
          obtain ⟨a1, a2, a3, a4⟩ := (mem_gridCells _ _ _).1 g1
          generalize hp : (Raster.validCells { r with calcPos := true } ls)[i] = p at *
          obtain ⟨b0, b1, b2⟩ := idx_lt a1 a2 a3 a4
          have hcell : cellAt ((Raster.validCells { r with calcPos := true } ls).map (fun rc => ls.getD (rc.1 * r.hdr.cols + rc.2).toNat [])) i 0 =
              cellAt ls (p.1 * r.hdr.cols + p.2).toNat 0 := by
            unfold cellAt
            have hlt2 : i < ((Raster.validCells { r with calcPos := true } ls).map (fun rc => ls.getD (rc.1 * r.hdr.cols + rc.2).toNat [])).length := by
              rw [List.length_map]; exact hlt
            rw [List.getD_eq_getElem _ [] hlt2, List.getElem_map, hp]
          have hlt' : (p.1 * r.hdr.cols + p.2).toNat < ls.length := by
            have := h.len
            dsimp only at b1 b2
            omega
          have hget : r.getValueByIndex ((p.1 * r.hdr.cols + p.2).toNat : Nat) 1 = .ok (cellAt ls (p.1 * r.hdr.cols + p.2).toNat 0) := by
            unfold Raster.getValueByIndex
            rw [h.holds.valid, (Raster.validIndex_iff r _).2 ⟨by omega, by have := h.len; rw [h.ncells]; omega⟩,
              (Raster.validLayer_iff r _).2 ⟨le_rfl, hlyr⟩, if_neg (by simp), h.holds.readCell _ hlt' _ le_rfl hlyr]
            unfold cellAt
            rw [List.getD_eq_getElem _ _ hlt']
            rfl
          rw [hcell] at hf ⊢
          exact hv _ _ hget hf
      | @comp _ ps h =>
        rw [if_neg (by rw [h.pd, h.pi]; simp)] at e
        cases e
        exact ⟨rfl, rfl, .inr ⟨ls, ps, h, fun i hlt hf => hv i _ (compact_gvi h i hlt) hf⟩⟩
      | empty h _ => obtain ⟨a, b, c⟩ := hE h; exact ⟨a, b, .inl c⟩
    · obtain ⟨a, b, c⟩ := hE hi; exact ⟨a, b, .inl c⟩
  cases hsc : (if r.posData.isNone || r.posIdx.isNone then r.setCalcPositions else .ok (r, true) : Out (Raster × Bool)) with
  | ok x =>
    obtain ⟨r', b⟩ := x
    rw [Out.ok_bind, Out.ok_bind]
    dsimp only
    cases b with
    | false => rfl
    | true =>
      obtain ⟨k1, k2, k3⟩ := key r' true hsc rfl
      rw [if_neg (by simp), if_neg (by simp), if_neg (by simp), if_neg (by simp)]
      rcases k3 with h0 | ⟨ls, ps, hC, hval⟩
      · rw [h0]; rfl
      · have := buildMap_eq hC (by rw [k1, k2]; exact h3) groups hval
        have hb := congrArg (fun o : Out (IMap Subset) => o >>= fun subs => (Out.ok ((⟨r', subs⟩ : RasterS), true) : Out (RasterS × Bool))) this
        simp only [bind_assoc] at hb
        exact hb
  | ub => rfl
  | exn => rfl

end I32
end CCGL
