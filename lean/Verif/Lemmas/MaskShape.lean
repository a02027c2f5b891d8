import Verif.Lemmas.Built
/-!
# The flags and the unused arrays of a masked raster
-/
namespace CCGL
namespace Raster

/-- Same raster but for the values in the array in use. -/
def SameButCells (r r' : Raster) : Prop :=
  r.SameShape r' ∧ (r.is2d = true → r'.raster1 = r.raster1) ∧ (r.is2d = false → r'.raster2 = r.raster2)

theorem SameShape.is2d {r r' : Raster} (h : r.SameShape r') : r'.is2d = r.is2d := by
  obtain ⟨a, b, rfl⟩ := h
  rfl

theorem SameButCells.refl (r : Raster) : r.SameButCells r := ⟨SameShape.refl r, fun _ => rfl, fun _ => rfl⟩

theorem SameButCells.trans {a b c : Raster} (h : a.SameButCells b) (h' : b.SameButCells c) : a.SameButCells c := by
  have e := h.1.is2d
  exact ⟨h.1.trans h'.1, fun q => (h'.2.1 (by rw [e]; exact q)).trans (h.2.1 q),
    fun q => (h'.2.2 (by rw [e]; exact q)).trans (h.2.2 q)⟩

theorem SameButCells.writeCell {r r' : Raster} {i l v} (e : r.writeCell i l v = .ok r') : r.SameButCells r' := by
  unfold Raster.writeCell at e
  split at e
  · next h2 =>
    obtain ⟨row, _, e⟩ := Out.bind_ok e
    obtain ⟨row', _, e⟩ := Out.bind_ok e
    split at e
    · obtain ⟨d, _, e⟩ := Out.bind_ok e
      simp only [Out.pure_eq, Out.ok.injEq] at e
      subst e
      exact ⟨⟨_, _, rfl⟩, fun _ => rfl, fun h' => absurd h2 (by simp [h'])⟩
    · cases e
  · next h2 =>
    obtain ⟨d, _, e⟩ := Out.bind_ok e
    simp only [Out.pure_eq, Out.ok.injEq] at e
    subst e
    exact ⟨⟨_, _, rfl⟩, fun h' => absurd h' h2, fun _ => rfl⟩

theorem SameButCells.setValue {r r' : Raster} {row col l v} (e : r.setValue row col v l = .ok r') : r.SameButCells r' := by
  unfold Raster.setValue at e
  split at e
  · cases e; exact SameButCells.refl _
  · obtain ⟨i, _, e⟩ := Out.bind_ok e
    split at e
    · cases e; exact SameButCells.refl _
    · exact SameButCells.writeCell e

theorem SameButCells.maskLayers (p : Int × Int) : ∀ (n : Nat) (lyr : Int) {r : Raster} {x : Raster × List ℚ},
    Raster.maskLayers r p lyr n = .ok x → r.SameButCells x.1 := by
  intro n
  induction n with
  | zero => intro lyr r x e; simp [Raster.maskLayers] at e; subst e; exact SameButCells.refl _
  | succ n ih =>
    intro lyr r x e
    unfold Raster.maskLayers at e
    obtain ⟨v, _, e⟩ := Out.bind_ok e
    obtain ⟨⟨r1, v1⟩, e1, e⟩ := Out.bind_ok e
    obtain ⟨⟨r2, vs⟩, e2, e⟩ := Out.bind_ok e
    simp only [Out.pure_eq, Out.ok.injEq] at e
    subst e
    have t2 := ih _ e2
    refine SameButCells.trans ?_ t2
    split at e1
    · obtain ⟨r3, e3, e1⟩ := Out.bind_ok e1
      simp only [Out.pure_eq, Out.ok.injEq, Prod.mk.injEq] at e1
      rw [← e1.1]
      exact SameButCells.setValue e3
    · simp only [Out.ok.injEq, Prod.mk.injEq] at e1
      rw [← e1.1]
      exact SameButCells.refl _

theorem SameButCells.maskCell {mh : Header} {a a' : MaskAcc} {rc : Int × Int} (e : Raster.maskCell mh a rc = .ok a') :
    a.ras.SameButCells a'.ras := by
  unfold Raster.maskCell at e
  dsimp only at e
  split at e
  · simp only [Out.pure_eq, Out.ok.injEq] at e
    subst e
    exact SameButCells.refl _
  · obtain ⟨v, _, e⟩ := Out.bind_ok e
    split at e
    · obtain ⟨⟨r1, v1⟩, e1, e⟩ := Out.bind_ok e
      obtain ⟨⟨r2, vs⟩, e2, e⟩ := Out.bind_ok e
      simp only [Out.pure_eq, Out.ok.injEq] at e
      subst e
      refine SameButCells.trans ?_ (SameButCells.maskLayers _ _ _ e2)
      split at e1
      · obtain ⟨r3, e3, e1⟩ := Out.bind_ok e1
        simp only [Out.pure_eq, Out.ok.injEq, Prod.mk.injEq] at e1
        rw [← e1.1]
        exact SameButCells.setValue e3
      · simp only [Out.ok.injEq, Prod.mk.injEq] at e1
        rw [← e1.1]
        exact SameButCells.refl _
    · obtain ⟨⟨r2, vs⟩, e2, e⟩ := Out.bind_ok e
      simp only [Out.pure_eq, Out.ok.injEq] at e
      subst e
      exact SameButCells.maskLayers _ _ _ e2

theorem SameButCells.maskLoop {mh : Header} (ps : List (Int × Int)) : ∀ {a a' : MaskAcc}, Raster.maskLoop mh ps a = .ok a' →
    a.ras.SameButCells a'.ras := by
  induction ps with
  | nil => intro a a' e; simp [Raster.maskLoop] at e; subst e; exact SameButCells.refl _
  | cons rc ps ih =>
    intro a a' e
    unfold Raster.maskLoop at e
    obtain ⟨a1, e1, e⟩ := Out.bind_ok e
    exact (SameButCells.maskCell e1).trans (ih e)

/-- The members of a masked raster that do not depend on the cells. -/
structure MaskShape (m : Raster) (x : Raster) : Prop where
  n1 : x.is2d = true → x.raster1 = none
  n2 : x.is2d = false → x.raster2 = none
  np : x.posData = none ↔ x.calcPos = false
  lyrs : x.hdr.layers = x.nLyrs
  nd : x.hdr.noData = x.noData
  num : m.hdr.cellsnum = m.nCells → x.hdr.cellsnum = x.nCells

theorem MaskShape.withCells {m x : Raster} (h : MaskShape m x) (cs : List (List ℚ)) : MaskShape m (x.withCells cs) := by
  unfold Raster.withCells
  obtain ⟨a, b, c, d, e, f⟩ := h
  split
  · next h2 => exact ⟨a, fun q => absurd (show x.is2d = false from q) (by simp [h2]), c, d, e, f⟩
  · next h2 => exact ⟨fun q => absurd (show x.is2d = true from q) h2, b, c, d, e, f⟩

theorem alloc2_some {α : Type} [Inhabited α] {n : Int} (hn : 0 ≤ n) (v : α) : alloc2 n 2 v ≠ none := by
  unfold alloc2
  split <;> simp_all <;> omega

theorem maskFinish_shape {old m : Raster} {ps : List (Int × Int)} {a : MaskAcc} {res : MaskRes}
    (e : maskFinish old m ps a = .ok res) (h1 : a.ras.is2d = true → a.ras.raster1 = none)
    (h2 : a.ras.is2d = false → a.ras.raster2 = none) (hm : m.posData ≠ none) : MaskShape m res.ras := by
  unfold maskFinish at e
  dsimp only at e
  have hfl : ∀ w u c x : Bool, ((maskFlags w u c x).recalcPos = true → (maskFlags w u c x).updNum = true ∧
        (maskFlags w u c x).calcPos = true) ∧
      ((maskFlags w u c x).storeFull = true → (maskFlags w u c x).updNum = true ∧ (maskFlags w u c x).calcPos = false) ∧
      ((maskFlags w u c x).storeFull = false → (maskFlags w u c x).calcPos = true) := by decide
  replace hfl := hfl (decide (a.maxRow - a.minRow + 1 = m.hdr.rows) && decide (a.maxCol - a.minCol + 1 = m.hdr.cols))
    a.ras.useMaskExt a.ras.calcPos (decide (a.matched = (ps.length : Int)))
  generalize maskFlags (decide (a.maxRow - a.minRow + 1 = m.hdr.rows) && decide (a.maxCol - a.minCol + 1 = m.hdr.cols))
    a.ras.useMaskExt a.ras.calcPos (decide (a.matched = (ps.length : Int))) = fl at e hfl
  obtain ⟨hf1, hf2, hf3⟩ := hfl
  by_cases q1 : (decide (a.maxRow - a.minRow + 1 = m.hdr.rows) && decide (a.maxCol - a.minCol + 1 = m.hdr.cols) &&
      decide (a.masked ≠ (ps.length : Int))) = true
  · rw [if_pos q1] at e; simp at e
  rw [if_neg q1] at e
  by_cases q2 : ((a.ras.posData.isSome || a.ras.posIdx.isSome) && !a.ras.storePos) = true
  · rw [if_pos q2] at e; simp at e
  rw [if_neg q2] at e
  by_cases q3 : (!a.ras.validData) = true
  · rw [if_pos q3] at e; simp at e
  rw [if_neg q3] at e
  have hH : ∀ b : Bool, ∀ H0 : Header, (if b = true then ({ m.hdr with
        noData := a.ras.noData, layers := a.ras.nLyrs, rows := a.maxRow - a.minRow + 1, cols := a.maxCol - a.minCol + 1,
        xll := m.hdr.xll + a.minCol * m.hdr.cellsize,
        yll := m.hdr.yll + ((m.hdr.rows - a.maxRow - 1 : Int) : ℚ) * m.hdr.cellsize, cellsize := m.hdr.cellsize } : Header)
      else { m.hdr with noData := a.ras.noData, layers := a.ras.nLyrs }) = H0 →
      H0.noData = a.ras.noData ∧ H0.layers = a.ras.nLyrs ∧ H0.cellsnum = m.hdr.cellsnum := by
    rintro b H0 rfl
    cases b <;> exact ⟨rfl, rfl, rfl⟩
  replace hH := hH fl.updRowCol
  generalize (if fl.updRowCol = true then ({ m.hdr with
        noData := a.ras.noData, layers := a.ras.nLyrs, rows := a.maxRow - a.minRow + 1, cols := a.maxCol - a.minCol + 1,
        xll := m.hdr.xll + a.minCol * m.hdr.cellsize,
        yll := m.hdr.yll + ((m.hdr.rows - a.maxRow - 1 : Int) : ℚ) * m.hdr.cellsize, cellsize := m.hdr.cellsize } : Header)
      else { m.hdr with noData := a.ras.noData, layers := a.ras.nLyrs }) = H at e hH
  obtain ⟨g1, g2, g3⟩ := hH H rfl
  by_cases k1 : fl.recalcPos = true
  · rw [if_pos k1] at e
    obtain ⟨u1, u2⟩ := hf1 k1
    injection e with e
    subst e
    apply MaskShape.withCells
    refine ⟨h1, h2, ?_, ?_, ?_, ?_⟩
    · dsimp only
      rw [u2]
      simp only [Option.map_eq_none_iff, reduceCtorEq, iff_false]
      exact alloc2_some (by omega) _
    · dsimp only; rw [if_pos u1]; exact g2
    · dsimp only; rw [if_pos u1]; exact g1
    · intro _; dsimp only; rw [if_pos u1]
  rw [if_neg k1] at e
  by_cases k2 : fl.storeFull = true
  · rw [if_pos k2] at e
    obtain ⟨u1, u2⟩ := hf2 k2
    have base : MaskShape m { a.ras with
        hdr := if fl.updNum = true then { H with cellsnum := H.cols * H.rows } else H, calcPos := fl.calcPos,
        nCells := H.cols * H.rows, storePos := false, posData := none, posIdx := none } := by
      refine ⟨h1, h2, ?_, ?_, ?_, ?_⟩
      · dsimp only; rw [u2]; simp
      · dsimp only; rw [if_pos u1]; exact g2
      · dsimp only; rw [if_pos u1]; exact g1
      · intro _; dsimp only; rw [if_pos u1]
    by_cases h3 : old.hdr.rows * old.hdr.cols = H.cols * H.rows
    · rw [if_pos h3] at e
      injection e with e
      subst e
      exact base
    · rw [if_neg h3] at e
      obtain ⟨d, _, e⟩ := Out.bind_ok e
      obtain ⟨l, _, e⟩ := Out.bind_ok e
      injection e with e
      subst e
      exact base.withCells _
  · rw [if_neg k2] at e
    have u2 := hf3 (by simpa using k2)
    injection e with e
    subst e
    apply MaskShape.withCells
    refine ⟨h1, h2, ?_, ?_, ?_, ?_⟩
    · dsimp only; rw [u2]
      simp only [reduceCtorEq, iff_false]
      exact hm
    · dsimp only; split
      · exact g2
      · exact g2
    · dsimp only; split
      · exact g1
      · exact g1
    · intro hnum; dsimp only; split
      · rfl
      · rw [g3]; exact hnum

theorem maskRaster_shape {r mask m : Raster} {n : Int} {pd : Ptr (Int × Int)} {res : MaskRes}
    (e : maskRaster r mask = .ok res) (hp : mask.maskPositions = .ok (m, n, pd)) (hm : m.posData ≠ none) (hc : 0 ≤ res.code)
    (h1 : r.is2d = true → r.raster1 = none) (h2 : r.is2d = false → r.raster2 = none) : MaskShape m res.ras := by
  unfold maskRaster at e
  rw [hp, Out.ok_bind] at e
  dsimp only at e
  split at e
  · cases e
  obtain ⟨ps, _, e⟩ := Out.bind_ok e
  obtain ⟨a, ea, e⟩ := Out.bind_ok e
  have hs := SameButCells.maskLoop _ ea
  split at e
  · injection e with e
    subst e
    dsimp only at hc
    omega
  · refine maskFinish_shape e (fun q => ?_) (fun q => ?_) hm
    · rw [hs.1.is2d] at q
      exact (hs.2.1 q).trans (h1 q)
    · rw [hs.1.is2d] at q
      exact (hs.2.2 q).trans (h2 q)

end Raster

open Raster in
theorem Spec.ReadGrid.unused {r : Raster} (h : Spec.ReadGrid r) :
    (r.is2d = true → r.raster1 = none) ∧ (r.is2d = false → r.raster2 = none) := by
  cases h with
  | file => exact ⟨by simp [ofFile, init], by simp [ofFile, init]⟩
  | store => exact ⟨by simp [ofStore, init], by simp [ofStore, init]⟩
  | store1 => exact ⟨by simp [ofStore1, ofFile, init], by simp [ofStore1, ofFile, init]⟩

/-- The shape of a masked raster, and the mask as the call leaves it. -/
theorem masked_shape {r mask : Raster} {res : Raster.MaskRes} (hr : Spec.ReadGrid r) (hm : mask.RInv) (hcl : Spec.CleanMask mask)
    (hg : Spec.CommonGrid r.hdr mask.hdr) (hp : Spec.Maskable r mask) (e : Raster.maskRaster r mask = .ok res)
    (hc : 0 ≤ res.code) : ∃ (m : Raster) (n : Int) (pd : Ptr (Int × Int)), mask.maskPositions = .ok (m, n, pd) ∧ Raster.MaskShape m res.ras := by
  obtain ⟨res', ls, m, ps, dr, dc, h, e', -, -, hcase⟩ := mask_full hr hm hcl hg hp.overlap hp.extCalc hp.plain
  rw [e] at e'
  cases e'
  rcases hcase with ⟨h1, -⟩ | ⟨-, lsM, sr, sc, keep, hcp, -⟩
  · omega
  · refine ⟨m, _, _, h.pos.run, Raster.maskRaster_shape e h.pos.run ?_ hc hr.unused.1 hr.unused.2⟩
    rw [hcp.pd]
    simp

end CCGL
