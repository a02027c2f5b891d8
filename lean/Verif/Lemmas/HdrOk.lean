import Verif.Props.Copy
/-!
# The header of a raster built by the API names its layers, its NoData value and the number of stored cells
-/
namespace CCGL
namespace Raster

structure HdrOk (r : Raster) : Prop where
  lyrs : r.hdr.layers = r.nLyrs
  nd : r.hdr.noData = r.noData
  num : r.hdr.cellsnum = r.nCells

theorem HdrOk.writeCell {r r' : Raster} (h : r.HdrOk) {i l v} (e : r.writeCell i l v = .ok r') : r'.HdrOk ∧ r'.noData = r.noData := by
  unfold Raster.writeCell at e
  split at e
  · obtain ⟨row, _, e⟩ := Out.bind_ok e
    obtain ⟨row', _, e⟩ := Out.bind_ok e
    split at e
    · obtain ⟨d, _, e⟩ := Out.bind_ok e
      simp only [Out.pure_eq, Out.ok.injEq] at e
      subst e
      exact ⟨⟨h.lyrs, h.nd, h.num⟩, rfl⟩
    · cases e
  · obtain ⟨d, _, e⟩ := Out.bind_ok e
    simp only [Out.pure_eq, Out.ok.injEq] at e
    subst e
    exact ⟨⟨h.lyrs, h.nd, h.num⟩, rfl⟩

theorem HdrOk.passCells {f : ℚ → Out (Option ℚ)} (il : List (Int × Int)) : ∀ {r r' : Raster}, r.HdrOk →
    Raster.passCells f r il = .ok r' → r'.HdrOk := by
  induction il with
  | nil => intro r r' h e; simp [Raster.passCells] at e; subst e; exact h
  | cons q il ih =>
    intro r r' h e
    unfold Raster.passCells at e
    obtain ⟨x, _, e⟩ := Out.bind_ok e
    obtain ⟨y, _, e⟩ := Out.bind_ok e
    obtain ⟨r1, e1, e⟩ := Out.bind_ok e
    refine ih ?_ e
    cases y with
    | none => simp at e1; subst e1; exact h
    | some v => exact (h.writeCell e1).1

theorem HdrOk.calcValid {r r' : Raster} (h : r.HdrOk) (e : r.calcValidPositions = .ok r') : r'.HdrOk := by
  unfold calcValidPositions at e
  obtain ⟨vs, _, e⟩ := Out.bind_ok e
  dsimp only at e
  split at e
  · cases e
  · obtain ⟨pd, epd, e⟩ := Out.bind_ok e
    obtain ⟨pi, _, e⟩ := Out.bind_ok e
    simp only [Out.pure_eq, Out.ok.injEq] at e
    subst e
    exact ⟨h.lyrs, h.nd, rfl⟩

theorem HdrOk.step {r r' : Raster} (h : r.HdrOk) (op : Op) (e : r.step op = .ok r') : r'.HdrOk := by
  cases op with
  | setValue row col v lyr =>
    simp only [Raster.step, Raster.setValue] at e
    split at e
    · cases e; exact h
    · obtain ⟨i, _, e⟩ := Out.bind_ok e
      split at e
      · cases e; exact h
      · exact (h.writeCell e).1
  | setCalcPositions =>
    simp only [Raster.step] at e
    obtain ⟨x, e1, e⟩ := Out.bind_ok e
    cases e
    unfold Raster.setCalcPositions at e1
    split at e1
    · cases e1; exact h
    · split at e1
      · cases e1; exact h
      · obtain ⟨⟨r1, code⟩, e2, e3⟩ := Out.bind_ok e1
        simp only [Out.pure_eq, Out.ok.injEq] at e3
        subst e3
        unfold calcNoMask at e2
        simp only [if_true] at e2
        split at e2
        · obtain ⟨r2, e4, e5⟩ := Out.bind_ok e2
          simp only [Out.pure_eq, Out.ok.injEq, Prod.mk.injEq] at e5
          obtain ⟨rfl, _⟩ := e5
          exact HdrOk.calcValid (r := { r with calcPos := true }) ⟨h.lyrs, h.nd, h.num⟩ e4
        · simp only [Out.ok.injEq, Prod.mk.injEq] at e2
          obtain ⟨rfl, _⟩ := e2
          exact ⟨h.lyrs, h.nd, h.num⟩
  | getPositionIdx =>
    simp only [Raster.step] at e
    obtain ⟨x, e1, e⟩ := Out.bind_ok e
    cases e
    unfold Raster.getPositionIdx at e1
    split at e1
    · cases e1; exact h
    · split at e1
      · cases e1; exact h
      · obtain ⟨r1, e2, e3⟩ := Out.bind_ok e1
        cases e3
        exact h.calcValid e2
  | getPositionData =>
    simp only [Raster.step] at e
    obtain ⟨x, e1, e⟩ := Out.bind_ok e
    cases e
    unfold Raster.getPositionData at e1
    split at e1
    · cases e1; exact h
    · split at e1
      · cases e1; exact h
      · obtain ⟨r1, e2, e3⟩ := Out.bind_ok e1
        cases e3
        exact h.calcValid e2
  | replaceNoData v =>
    simp only [Raster.step, Raster.replaceNoData] at e
    obtain ⟨r1, e1, e⟩ := Out.bind_ok e
    simp only [Out.pure_eq, Out.ok.injEq] at e
    subst e
    have := h.passCells _ e1
    exact ⟨this.lyrs, rfl, this.num⟩
  | reclassify m => exact h.passCells _ e
  | getValue row col lyr => simp only [Raster.step] at e; obtain ⟨x, _, e⟩ := Out.bind_ok e; cases e; exact h
  | getValueByIndex i lyr => simp only [Raster.step] at e; obtain ⟨x, _, e⟩ := Out.bind_ok e; cases e; exact h
  | getPosition row col => simp only [Raster.step] at e; obtain ⟨x, _, e⟩ := Out.bind_ok e; cases e; exact h
  | isNoData row col lyr => simp only [Raster.step] at e; obtain ⟨x, _, e⟩ := Out.bind_ok e; cases e; exact h

theorem HdrOk.maskPositions {r m : Raster} (h : r.HdrOk) {n : Int} {pd : Ptr (Int × Int)} (e : r.maskPositions = .ok (m, n, pd)) :
    m.HdrOk := by
  unfold Raster.maskPositions at e
  obtain ⟨m1, e1, e⟩ := Out.bind_ok e
  have h1 : m1.HdrOk := by
    split at e1
    · exact h.step .setCalcPositions e1
    · cases e1; exact h
  exact h1.step .getPositionData (by simp only [Raster.step, e, Out.ok_bind]; rfl)

end Raster
open Raster

theorem Spec.Built.hdrOk {r : Raster} (h : Spec.Built r) : r.HdrOk := by
  induction h with
  | grid1 => exact ⟨rfl, rfl, rfl⟩
  | grid2 => exact ⟨rfl, rfl, rfl⟩
  | file h data calcPos ume dflt hr hc hl hlen e =>
    unfold Raster.calcNoMask at e
    split at e
    · next hcp =>
      split at e
      · obtain ⟨r1, e1, e⟩ := Out.bind_ok e
        simp only [Out.pure_eq, Out.ok.injEq, Prod.mk.injEq] at e
        obtain ⟨rfl, _⟩ := e
        rw [← calcValidPositions_ncells (ofFile h data calcPos ume dflt) h.cellsnum] at e1
        exact HdrOk.calcValid (r := { ofFile h data calcPos ume dflt with nCells := h.cellsnum }) ⟨hl, rfl, rfl⟩ e1
      · next hp => simp [ofFile, init] at hp
    · simp only [Out.ok.injEq, Prod.mk.injEq] at e
      obtain ⟨rfl, _⟩ := e
      exact ⟨hl, rfl, rfl⟩
  | store h data calcPos ume dflt hr hc hl hlen hrow e =>
    unfold Raster.calcNoMask at e
    split at e
    · next hcp =>
      split at e
      · obtain ⟨r1, e1, e⟩ := Out.bind_ok e
        simp only [Out.pure_eq, Out.ok.injEq, Prod.mk.injEq] at e
        obtain ⟨rfl, _⟩ := e
        rw [← calcValidPositions_ncells (ofStore h data calcPos ume dflt) h.cellsnum] at e1
        exact HdrOk.calcValid (r := { ofStore h data calcPos ume dflt with nCells := h.cellsnum }) ⟨rfl, rfl, rfl⟩ e1
      · next hp => simp [ofStore, init] at hp
    · simp only [Out.ok.injEq, Prod.mk.injEq] at e
      obtain ⟨rfl, _⟩ := e
      exact ⟨rfl, rfl, rfl⟩
  | files layers _ h1 hn e ih =>
    unfold Raster.addLayers at e
    obtain ⟨cells, e1, e⟩ := Out.bind_ok e
    simp only [Out.pure_eq, Out.ok.injEq] at e
    subst e
    exact ⟨rfl, ih.nd, ih.num⟩
  | masked hr hm hcl hg hp e hc ih =>
    obtain ⟨m, n, pd, hpos, hs⟩ := masked_shape hr hm.inv hcl hg hp e hc
    exact ⟨hs.lyrs, hs.nd, hs.num (ih.maskPositions hpos).num⟩
  | direct h data dflt hm e h0 h1 h2 hn hl hlen hrow ih =>
    obtain ⟨lsM, hc, q2⟩ := mask_compact hm.inv e h0
    exact ⟨rfl, rfl, hn.trans q2⟩
  | step op _ e ih => exact ih.step op e

end CCGL
