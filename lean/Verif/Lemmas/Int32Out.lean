import Verif.Lemmas.Int32Sub
import Verif.Lemmas.Output
import Verif.Lemmas.SubsetData
/-!
# The 32-bit arithmetic of the output functions
-/
namespace CCGL
namespace I32
open Raster

theorem readAt_mem {α : Type} {l : List α} {i : Int} {x : α} (e : readAt (some l) i = .ok x) : x ∈ l := by
  unfold readAt at e
  dsimp only at e
  split at e
  · split at e
    · next h => cases e; exact List.mem_of_getElem? h
    · cases e
  · cases e

theorem streamItems_eq {r : Raster} (h : Sized r) (lyrs : Int) (hm : r.hdr.rows * r.hdr.cols ≤ intMax)
    (hml : r.hdr.rows * r.hdr.cols * lyrs ≤ intMax) : streamItems r lyrs r.posData = r.streamItems lyrs r.posData := by
  unfold streamItems Raster.streamItems
  refine mapM_eq _ _ _ (fun il hil => ?_)
  obtain ⟨a1, a2, a3, a4⟩ := (mem_gridCells _ _ _).1 hil
  cases hp : readAt r.posData il.1 with
  | ok p =>
    rw [Out.ok_bind, Out.ok_bind]
    cases hps : r.posData with
    | none => rw [hps] at hp; cases hp
    | some ps =>
      rw [hps] at hp
      obtain ⟨b1, b2, b3, b4⟩ := h.pos ps hps p (readAt_mem hp)
      obtain ⟨c1, c2, c3⟩ := idx_lt b1 b2 b3 b4
      rw [index_ok b1 b2 b3 b4 hm, Out.ok_bind]
      obtain ⟨d1, d2, d3⟩ := idx_lt c2 c3 a3 a4
      have hmul : lyrs * (p.1 * r.hdr.cols + p.2) = (p.1 * r.hdr.cols + p.2) * lyrs := mul_comm _ _
      have e1 : mul lyrs (p.1 * r.hdr.cols + p.2) = .ok (lyrs * (p.1 * r.hdr.cols + p.2)) := mul_ok (by omega) (by omega)
      have e2 : add (lyrs * (p.1 * r.hdr.cols + p.2)) il.2 = .ok (lyrs * (p.1 * r.hdr.cols + p.2) + il.2) := chk_nn (by omega) (by omega)
      rw [e1, Out.ok_bind, e2, Out.ok_bind]
  | ub => rfl
  | exn => rfl

theorem rinv_pos {r : Raster} (h : r.RInv) : r.posIdx.isSome = true → r.posData.isSome = true := by
  intro hs
  rcases h with ⟨ls, loc, h⟩ | ⟨_, h⟩
  · cases h with
    | full h => rw [h.pi] at hs; cases hs
    | comp h => rw [h.pd]; rfl
    | empty h _ => rw [h.pd]; rfl
  · rw [h.pd]; rfl

theorem lyrs_1d {r : Raster} (h : r.RInv) : r.is2d = false → r.nLyrs = 1 := by
  intro h1
  rcases h with ⟨ls, loc, h⟩ | ⟨h2, _⟩
  · cases h with
    | full h => have := h.holds.2.2; rw [h1] at this; exact this.1
    | comp h => have := h.holds.2.2; rw [h1] at this; exact this.1
    | empty h h1 => exact h.lyrs1 h1
  · rw [h1] at h2; cases h2

theorem outputStream_eq {r : Raster} (hb : Spec.Built r) (h2 : r.hdr.rows * r.hdr.cols * 2 ≤ intMax)
    (hl : r.is2d = true → r.hdr.rows * r.hdr.cols * r.nLyrs ≤ intMax) (inc : Bool) : outputStream r inc = r.outputStream inc := by
  have hS := Sized.of_rinv hb.inv
  have hlyr := hS.lyrs
  have hN := mul_nonneg hS.rows_nn hS.cols_nn
  -- the rest, for the raster the first part returns
  unfold outputStream Raster.outputStream
  by_cases h1 : ((r.posData.isSome || r.posIdx.isSome) && inc) = true
  · simp only [Bool.and_eq_true, Bool.or_eq_true] at h1
    obtain ⟨hp, hinc⟩ := h1
    have hpd : r.posData.isSome = true := hp.elim id (rinv_pos hb.inv)
    subst hinc
    have e1 : r.getPositionData = .ok (r, r.nCells, r.posData) := by
      unfold Raster.getPositionData; rw [if_pos hpd]
    have e1' : getPositionData r = .ok (r, r.nCells, r.posData) := by
      unfold getPositionData; rw [if_pos hpd]
    rw [e1, e1', if_pos (by simp [hpd])]
    simp only [Out.ok_bind, Out.pure_eq, Bool.not_true, Bool.and_false, Bool.false_eq_true, if_false, if_true]
    rw [mul_ok hN (by omega), Out.ok_bind]
    have hml : r.hdr.rows * r.hdr.cols * (if r.is2d = true then r.nLyrs else 1) ≤ intMax := by
      by_cases hd : r.is2d = true
      · rw [if_pos hd]; exact hl hd
      · rw [if_neg hd]; omega
    have hl0 : 0 ≤ (if r.is2d = true then r.nLyrs else 1) := by split <;> omega
    rw [streamItems_eq hS _ (by omega) hml]
    have hcomm : (if r.is2d = true then r.nLyrs else 1) * (r.hdr.rows * r.hdr.cols) = r.hdr.rows * r.hdr.cols * (if r.is2d = true then r.nLyrs else 1) := mul_comm _ _
    have e3 : mul (if r.is2d = true then r.nLyrs else 1) (r.hdr.rows * r.hdr.cols) = .ok ((if r.is2d = true then r.nLyrs else 1) * (r.hdr.rows * r.hdr.cols)) :=
      mul_ok (by rw [hcomm]; exact mul_nonneg hN hl0) (by rw [hcomm]; exact hml)
    rw [e3, Out.ok_bind]
  · have h1' : ((r.posData.isSome || r.posIdx.isSome) && inc) = false := by simpa using h1
    rw [h1']
    simp only [Out.ok_bind, Out.pure_eq, Bool.false_eq_true, if_false, if_true]
    -- the direct part
    have tail : ∀ r2 : Raster, Sized r2 → SameDims r r2 →
        (do
          let nfull ← mul r2.hdr.rows r2.hdr.cols
          let hdr := if inc then { r2.hdr with cellsnum := nfull } else r2.hdr
          if r2.is2d then do
            let _ ← readAt r2.raster2 0
            let len ← mul r2.nLyrs r2.nCells
            Out.ok { raster := r2, hdr := hdr, data := r2.raster2.map List.flatten, len := len }
          else Out.ok { raster := r2, hdr := hdr, data := r2.raster1, len := r2.nCells } : Out StreamOut) =
        (if r2.is2d then do
            let _ ← readAt r2.raster2 0
            Out.ok { raster := r2, hdr := if inc then { r2.hdr with cellsnum := r2.hdr.rows * r2.hdr.cols } else r2.hdr, data := r2.raster2.map List.flatten, len := r2.nLyrs * r2.nCells }
          else Out.ok { raster := r2, hdr := if inc then { r2.hdr with cellsnum := r2.hdr.rows * r2.hdr.cols } else r2.hdr, data := r2.raster1, len := r2.nCells } : Out StreamOut) := by
      intro r2 hS2 hd
      obtain ⟨d1, d2, d3, d4⟩ := hd
      have hN2 := mul_nonneg hS2.rows_nn hS2.cols_nn
      rw [mul_ok hN2 (by rw [d1, d2]; omega), Out.ok_bind]
      by_cases h2d : r2.is2d = true
      · rw [if_pos h2d, if_pos h2d]
        have hle : r2.nLyrs * r2.nCells ≤ r2.nLyrs * (r2.hdr.rows * r2.hdr.cols) := mul_le_mul_of_nonneg_left hS2.cells_le (by have := hS2.lyrs; omega)
        have hmax : r2.nLyrs * (r2.hdr.rows * r2.hdr.cols) ≤ intMax := by
          rw [d1, d2, d3, mul_comm]; exact hl (by rw [← d4]; exact h2d)
        have e3 : mul r2.nLyrs r2.nCells = .ok (r2.nLyrs * r2.nCells) :=
          mul_ok (mul_nonneg (by have := hS2.lyrs; omega) hS2.cells_nn) (le_trans hle hmax)
        rw [e3]
        rfl
      · rw [if_neg h2d, if_neg h2d]
    by_cases hc : ((r.posData.isNone || r.posIdx.isNone) && !inc) = true
    · rw [if_pos hc, if_pos hc, setCalcPositions_eq hS.rows_nn hS.cols_nn (by omega) h2 hl]
      cases hsc : r.setCalcPositions with
      | ok x =>
        obtain ⟨r1, b⟩ := x
        have hd1 := SameDims.setCalc hsc
        have hb1 : Spec.Built r1 := .step .setCalcPositions hb (by show (r.setCalcPositions >>= fun x => (Out.ok x.1 : Out Raster)) = _; rw [hsc]; rfl)
        have hS1 := Sized.of_rinv hb1.inv
        have hlyr1 := hS1.lyrs
        obtain ⟨d1, d2, d3, d4⟩ := hd1
        simp only [Out.ok_bind]
        rw [getPositionData_eq hS1.rows_nn hS1.cols_nn (by omega) (by rw [d1, d2]; exact h2)
          (by rw [d1, d2, d3, d4]; exact hl)]
        cases hpd : r1.getPositionData with
        | ok y =>
          obtain ⟨r2, n, p⟩ := y
          have hd2 := SameDims.posData hpd
          have hb2 : Spec.Built r2 := .step .getPositionData hb1 (by show (r1.getPositionData >>= fun x => (Out.ok x.1 : Out Raster)) = _; rw [hpd]; rfl)
          simp only [Out.ok_bind]
          exact tail r2 (Sized.of_rinv hb2.inv) (SameDims.trans ⟨d1, d2, d3, d4⟩ hd2)
        | ub => rfl
        | exn => rfl
      | ub => rfl
      | exn => rfl
    · rw [if_neg hc, if_neg hc]
      simp only [Out.ok_bind]
      exact tail r hS (.refl r)

theorem collectItems_eq {α β : Type} (f g : β → Out (Option (Int × α))) : ∀ l : List β, (∀ x ∈ l, f x = g x) → collectItems f l = collectItems g l := by
  intro l
  induction l with
  | nil => intro _; rfl
  | cons b l ih =>
    intro h
    unfold collectItems
    rw [h b (by simp), ih (fun x hx => h x (by simp [hx]))]

theorem readAt_range {α : Type} {l : List α} {i : Int} {x : α} (e : readAt (some l) i = .ok x) : 0 ≤ i ∧ i < l.length := by
  unfold readAt at e
  dsimp only at e
  split at e
  · next h0 =>
    split at e
    · next h => obtain ⟨h, -⟩ := List.getElem?_eq_some_iff.1 h; omega
    · cases e
  · cases e

theorem prepareComb_eq {rs : RasterS} {ls ps} (h : rs.ras.Compact ls ps) (L : Int) (hm : rs.ras.hdr.rows * rs.ras.hdr.cols ≤ intMax)
    (hL : rs.ras.hdr.rows * rs.ras.hdr.cols * L ≤ intMax) (recls : IMap (List ℚ)) (h1 : rs.ras.nLyrs ≤ L) (h2 : ∀ lr, reclsLyrs recls = some lr → lr ≤ L)
    (h3 : ∀ n, subsetLyrs rs.subs (decide (recls = [])) = some n → n ≤ L) (outOrigin inc : Bool) (dv : ℚ) :
    prepareComb rs outOrigin inc recls dv = CCGL.prepareComb rs outOrigin inc recls dv := by
  have hS := Sized.of_rinv (.inl ⟨ls, _, .comp h⟩)
  have hN := mul_nonneg hS.rows_nn hS.cols_nn
  unfold prepareComb CCGL.prepareComb
  by_cases hs : rs.subs = []
  · rw [if_pos hs, if_pos hs]
  rw [if_neg hs, if_neg hs]
  cases hr : reclsLyrs recls with
  | none => rfl
  | some lr =>
    dsimp only
    cases hsl : subsetLyrs rs.subs (decide (recls = [])) with
    | none => rfl
    | some n =>
      dsimp only
      have a1 := h2 lr hr
      have a2 := h3 n hsl
      generalize hly : (if outOrigin then (if lr > 0 then lr else rs.ras.nLyrs) else (if n < 0 ∧ lr > 0 then lr else n)) = lyrs
      have hle : lyrs ≤ L := by
        rw [← hly]
        split
        · split
          · exact a1
          · exact h1
        · split
          · exact a1
          · exact a2
      by_cases hneg : lyrs < 0
      · rw [if_pos hneg, if_pos hneg]
      rw [if_neg hneg, if_neg hneg]
      have hNl : rs.ras.hdr.rows * rs.ras.hdr.cols * lyrs ≤ intMax := le_trans (mul_le_mul_of_nonneg_left hle hN) hL
      have e1 : (if inc = true then mul rs.ras.hdr.rows rs.ras.hdr.cols else .ok rs.ras.nCells : Out Int) =
          .ok (if inc = true then rs.ras.hdr.rows * rs.ras.hdr.cols else rs.ras.nCells) := by
        cases inc
        · rfl
        · exact mul_ok hN hm
      have hg1 : (if inc = true then rs.ras.hdr.rows * rs.ras.hdr.cols else rs.ras.nCells) ≤ rs.ras.hdr.rows * rs.ras.hdr.cols := by
        have := hS.cells_le
        split <;> omega
      have hg0 : 0 ≤ (if inc = true then rs.ras.hdr.rows * rs.ras.hdr.cols else rs.ras.nCells) := by
        have := hS.cells_nn
        split <;> omega
      have e2 : mul (if inc = true then rs.ras.hdr.rows * rs.ras.hdr.cols else rs.ras.nCells) lyrs =
          .ok ((if inc = true then rs.ras.hdr.rows * rs.ras.hdr.cols else rs.ras.nCells) * lyrs) :=
        mul_ok (mul_nonneg hg0 (by omega)) (le_trans (mul_le_mul_of_nonneg_right hg1 (by omega)) hNl)
      rw [e1, Out.ok_bind, e2, Out.ok_bind]
      rw [collectItems_eq _ (fun (x : (Int × Subset × Bool) × (Int × Int)) => (do
            let gidx ← readAt x.1.2.1.glob x.2.1
            let p ← readAt rs.ras.posIdx gidx
            let v ← combValue rs.ras x.1.1 x.1.2.1 outOrigin x.1.2.2 recls (defaultOf rs.ras dv) lyrs x.2.1 x.2.2
            let j := if inc then p else gidx
            return v.map (fun v => (j * lyrs + x.2.2, v)) : Out (Option (Int × ℚ)))) _ ?_]
      · cases collectItems _ _ <;> rfl
      intro x hx
      obtain ⟨-, ⟨-, -, b1, b2⟩, -⟩ := mem_combCells.1 hx
      cases hg : readAt x.1.2.1.glob x.2.1 with
      | ok gidx =>
        rw [Out.ok_bind, Out.ok_bind]
        cases hp : readAt rs.ras.posIdx gidx with
        | ok p =>
          rw [Out.ok_bind, Out.ok_bind]
          cases combValue rs.ras x.1.1 x.1.2.1 outOrigin x.1.2.2 recls (defaultOf rs.ras dv) lyrs x.2.1 x.2.2 with
          | ok v =>
            rw [Out.ok_bind, Out.ok_bind]
            dsimp only
            rw [h.pi] at hp
            obtain ⟨c1, c2⟩ := readAt_range hp
            rw [List.length_map] at c2
            have c3 := hS.cells_le
            rw [h.ncells] at c3
            obtain ⟨d1, d2⟩ := hS.idx _ h.pi p (readAt_mem hp)
            have hj : 0 ≤ (if inc = true then p else gidx) ∧ (if inc = true then p else gidx) < rs.ras.hdr.rows * rs.ras.hdr.cols := by
              split <;> omega
            obtain ⟨f1, f2, f3⟩ := idx_lt hj.1 hj.2 b1 b2
            have e3 : mul (if inc = true then p else gidx) lyrs = .ok ((if inc = true then p else gidx) * lyrs) := mul_ok f1 (by omega)
            have e4 : add ((if inc = true then p else gidx) * lyrs) x.2.2 = .ok ((if inc = true then p else gidx) * lyrs + x.2.2) := chk_nn f2 (by omega)
            rw [e3, Out.ok_bind, e4, Out.ok_bind]
          | ub => rfl
          | exn => rfl
        | ub => rfl
        | exn => rfl
      | ub => rfl
      | exn => rfl

theorem prepareSubsetData_eq {r : Raster} {ls ps} (h : r.Compact ls ps) {g : List Nat} {s : Subset} (ho : SubOk ps g s) (hg : ∀ i ∈ g, i < ps.length)
    (hnd : g.Nodup) (L : Int) (hm : r.hdr.rows * r.hdr.cols ≤ intMax) (hL : r.hdr.rows * r.hdr.cols * L ≤ intMax) (recls : IMap (List ℚ)) (h1 : r.nLyrs ≤ L)
    (h2 : ∀ lr, reclsLyrs recls = some lr → lr ≤ L) (h3 : s.nLyrs ≤ L) (id : Int) (outOrigin inc : Bool) (dv : ℚ) :
    prepareSubsetData r id s outOrigin inc recls dv = CCGL.prepareSubsetData r id s outOrigin inc recls dv := by
  have hS := Sized.of_rinv (.inl ⟨ls, _, .comp h⟩)
  have hN := mul_nonneg hS.rows_nn hS.cols_nn
  have hsub : g ⊆ List.range ps.length := fun i hi => List.mem_range.2 (hg i hi)
  have hlen := (List.subperm_of_subset hnd hsub).length_le
  rw [List.length_range] at hlen
  have hcl := hS.cells_le
  rw [h.ncells] at hcl
  have hn := ho.n
  obtain ⟨t0, ⟨i1, m1, t1⟩, ⟨i2, m2, t2⟩, ⟨i3, m3, t3⟩, ⟨i4, m4, t4⟩⟩ := ho.tight
  obtain ⟨-, a1, a2, a3, a4, -, -, hc⟩ := compact_pos h i1 (hg _ m1)
  obtain ⟨-, b1, b2, b3, b4, -, -, -⟩ := compact_pos h i2 (hg _ m2)
  obtain ⟨-, c1, c2, c3, c4, -, -, -⟩ := compact_pos h i3 (hg _ m3)
  obtain ⟨-, d1, d2, d3, d4, -, -, -⟩ := compact_pos h i4 (hg _ m4)
  have q1 := t0 i1 m1
  have hrc : r.hdr.rows ≤ r.hdr.rows * r.hdr.cols := by
    have := mul_le_mul_of_nonneg_left (show (1 : Int) ≤ r.hdr.cols by omega) h.rows_nn
    rw [mul_one] at this; exact this
  have hrc' : r.hdr.cols ≤ r.hdr.rows * r.hdr.cols := by
    have := mul_le_mul_of_nonneg_right (show (1 : Int) ≤ r.hdr.rows by omega) h.cols_nn
    rw [one_mul] at this; exact this
  have hbox : (s.erow - s.srow + 1) * (s.ecol - s.scol + 1) ≤ r.hdr.rows * r.hdr.cols :=
    box_le (by omega) (by omega) (by omega) (by omega)
  have hbox0 : 0 ≤ (s.erow - s.srow + 1) * (s.ecol - s.scol + 1) := mul_nonneg (by omega) (by omega)
  unfold prepareSubsetData CCGL.prepareSubsetData
  cases hr : reclsLyrs recls with
  | none => rfl
  | some lr =>
    dsimp only
    have a1' := h2 lr hr
    generalize hly : (if outOrigin then (if lr > 0 then lr else r.nLyrs) else s.nLyrs) = lyrs
    have hle : lyrs ≤ L := by
      rw [← hly]
      split
      · split
        · exact a1'
        · exact h1
      · exact h3
    by_cases hneg : lyrs < 0
    · rw [if_pos hneg, if_pos hneg]
    rw [if_neg hneg, if_neg hneg]
    have hNl : r.hdr.rows * r.hdr.cols * lyrs ≤ intMax := le_trans (mul_le_mul_of_nonneg_left hle hN) hL
    have k2 : sub s.erow s.srow = .ok (s.erow - s.srow) := chk_ok (by omega) (by omega)
    have k3 : add (s.erow - s.srow) 1 = .ok (s.erow - s.srow + 1) := chk_ok (by omega) (by omega)
    have k4 : sub s.ecol s.scol = .ok (s.ecol - s.scol) := chk_ok (by omega) (by omega)
    have k5 : add (s.ecol - s.scol) 1 = .ok (s.ecol - s.scol + 1) := chk_ok (by omega) (by omega)
    have e1 : (if inc = true then mul (s.erow - s.srow + 1) (s.ecol - s.scol + 1) else .ok s.nCells : Out Int) =
        .ok (if inc = true then (s.erow - s.srow + 1) * (s.ecol - s.scol + 1) else s.nCells) := by
      cases inc
      · rfl
      · exact mul_ok hbox0 (by omega)
    have hg1 : (if inc = true then (s.erow - s.srow + 1) * (s.ecol - s.scol + 1) else s.nCells) ≤ r.hdr.rows * r.hdr.cols := by
      split <;> omega
    have hg0 : 0 ≤ (if inc = true then (s.erow - s.srow + 1) * (s.ecol - s.scol + 1) else s.nCells) := by
      split <;> omega
    have e2 : mul (if inc = true then (s.erow - s.srow + 1) * (s.ecol - s.scol + 1) else s.nCells) lyrs =
        .ok ((if inc = true then (s.erow - s.srow + 1) * (s.ecol - s.scol + 1) else s.nCells) * lyrs) :=
      mul_ok (mul_nonneg hg0 (by omega)) (le_trans (mul_le_mul_of_nonneg_right hg1 (by omega)) hNl)
    rw [k2, Out.ok_bind, k3, Out.ok_bind, k4, Out.ok_bind, k5, Out.ok_bind, e1, Out.ok_bind, e2, Out.ok_bind]
    rw [collectItems_eq _ (fun (x : Int × Int) => (do
        let j ← readAt s.localIdx x.1
        let v ← subValue r id s outOrigin recls (defaultOf r dv) lyrs x.1 x.2
        let j' := if inc then j else x.1
        return v.map (fun v => (j' * lyrs + x.2, v)) : Out (Option (Int × ℚ)))) _ ?_]
    · cases collectItems _ _ <;> rfl
    intro x hx
    obtain ⟨u1, u2, u3, u4⟩ := (mem_gridCells _ _ _).1 hx
    cases hj : readAt s.localIdx x.1 with
    | ok j =>
      rw [Out.ok_bind, Out.ok_bind]
      cases subValue r id s outOrigin recls (defaultOf r dv) lyrs x.1 x.2 with
      | ok v =>
        rw [Out.ok_bind, Out.ok_bind]
        dsimp only
        rw [ho.lidx] at hj
        obtain ⟨i, hi, rfl⟩ := List.mem_map.1 (readAt_mem hj)
        have q := t0 i hi
        obtain ⟨w1, w2, w3⟩ := idx_lt (row := (posAt ps i).1 - s.srow) (rows := s.erow - s.srow + 1) (cols := s.ecol - s.scol + 1) (col := (posAt ps i).2 - s.scol)
          (by omega) (by omega) (by omega) (by omega)
        generalize ((posAt ps i).1 - s.srow) * (s.ecol - s.scol + 1) + ((posAt ps i).2 - s.scol) = j at *
        have hj' : 0 ≤ (if inc = true then j else x.1) ∧ (if inc = true then j else x.1) < r.hdr.rows * r.hdr.cols := by
          split <;> omega
        obtain ⟨f1, f2, f3⟩ := idx_lt hj'.1 hj'.2 u3 u4
        have e3 : mul (if inc = true then j else x.1) lyrs = .ok ((if inc = true then j else x.1) * lyrs) := mul_ok f1 (by omega)
        have e4 : add ((if inc = true then j else x.1) * lyrs) x.2 = .ok ((if inc = true then j else x.1) * lyrs + x.2) := chk_nn f2 (by omega)
        rw [e3, Out.ok_bind, e4, Out.ok_bind]
      | ub => rfl
      | exn => rfl
    | ub => rfl
    | exn => rfl

end I32
end CCGL
