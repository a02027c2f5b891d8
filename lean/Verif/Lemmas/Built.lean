import Verif.Lemmas.MaskRun
/-!
# The storage invariant of every raster a program gets
-/
namespace CCGL
open Raster

/-- Positions of a mask. -/
theorem RInv.positions {m : Raster} (h : m.RInv) {ps : List (Int × Int)} (hp : m.posData = some ps) (hne : ps ≠ []) : ∃ ls, m.Compact ls ps := by
  rcases h with ⟨ls, loc, hi⟩ | ⟨-, hE⟩
  · cases hi with
    | full h => rw [h.pd] at hp; cases hp
    | comp h =>
      have := h.pd
      rw [hp] at this
      injection this with this
      subst this
      exact ⟨ls, h⟩
    | empty h _ => rw [h.pd] at hp; injection hp with hp; exact absurd hp.symm hne
  · rw [hE.pd] at hp; injection hp with hp; exact absurd hp.symm hne

theorem RInv.step {r r' : Raster} (h : r.RInv) (op : Op) (e : r.step op = .ok r') : r'.RInv := by
  rcases h with ⟨ls, loc, hi⟩ | ⟨hd, hE⟩
  · rcases hi.step op with e' | ⟨r', e', hr⟩
    · rw [e'] at e; simp at e
    · rw [e'] at e; cases e; exact hr
  · rcases hE.step2 hd op with ⟨r', e', hr⟩ | ⟨_, hr⟩
    · rw [e'] at e; cases e; exact .inr hr
    · exact .inr (hr _ e)

theorem getPositionData_pos {r m : Raster} {n : Int} {pd : Ptr (Int × Int)} (e : r.getPositionData = .ok (m, n, pd)) (h : pd.isSome = true) :
    m.posData = pd ∧ m.nCells = n := by
  unfold Raster.getPositionData at e
  split at e
  · simp only [Out.ok.injEq, Prod.mk.injEq] at e
    obtain ⟨rfl, rfl, rfl⟩ := e
    exact ⟨rfl, rfl⟩
  · split at e
    · simp only [Out.ok.injEq, Prod.mk.injEq] at e
      obtain ⟨rfl, rfl, rfl⟩ := e
      cases h
    · obtain ⟨x, ex, e⟩ := Out.bind_ok e
      simp only [Out.pure_eq, Out.ok.injEq, Prod.mk.injEq] at e
      obtain ⟨rfl, rfl, rfl⟩ := e
      exact ⟨rfl, rfl⟩

theorem mask_compact {mask m : Raster} {n : Int} {ps : List (Int × Int)} (h : mask.RInv) (e : mask.getPositionData = .ok (m, n, some ps)) (h0 : 0 < n) :
    ∃ lsM, m.Compact lsM ps ∧ n = ps.length := by
  have hmi : m.RInv := RInv.step h .getPositionData (by simp only [Raster.step, e, Out.ok_bind]; rfl)
  obtain ⟨q1, q2⟩ := getPositionData_pos e rfl
  have hne : ps ≠ [] := by
    rintro rfl
    rcases hmi with ⟨ls, loc, hi⟩ | ⟨-, hE⟩
    · cases hi with
      | full h => rw [h.pd] at q1; cases q1
      | comp h => have := h.pd; rw [q1] at this; injection this with this; exact h.ne this.symm
      | empty h _ => have := h.ncells; omega
    · have := hE.ncells; omega
  obtain ⟨lsM, hc⟩ := RInv.positions hmi q1 hne
  exact ⟨lsM, hc, by rw [← q2, hc.ncells]⟩

theorem direct_compact {m : Raster} {lsM : List (List ℚ)} {ps : List (Int × Int)} (hc : m.Compact lsM ps) {h : Header} {data : List (List ℚ)} (dflt : ℚ)
    (h1 : h.rows = m.hdr.rows) (h2 : h.cols = m.hdr.cols) (hl : 1 ≤ h.layers) (hlen : data.length = ps.length)
    (hrow : ∀ c ∈ data, (c.length : Int) = h.layers) : (ofDirect h data ps dflt).Compact data ps := by
  refine ⟨⟨hl, hrow, ?_⟩, by rw [show (ofDirect h data ps dflt).hdr = h from rfl, h1]; exact hc.rows_nn,
    by rw [show (ofDirect h data ps dflt).hdr = h from rfl, h2]; exact hc.cols_nn, hlen, rfl, hc.ne, rfl, rfl, rfl, ?_, ?_⟩
  · by_cases q : h.layers = 1
    · show if decide (h.layers ≠ 1) = true then _ else _
      rw [if_neg (by simp [q])]
      refine ⟨q, ?_⟩
      show (if h.layers = 1 then some (data.map (fun c => c.headD 0)) else none) = _
      rw [if_pos q]
    · show if decide (h.layers ≠ 1) = true then _ else _
      rw [if_pos (by simp [q])]
      show (if h.layers = 1 then none else some data) = _
      rw [if_neg q]
  · intro rc hrc
    have := hc.inside rc hrc
    show 0 ≤ rc.1 ∧ rc.1 < h.rows ∧ 0 ≤ rc.2 ∧ rc.2 < h.cols
    rw [h1, h2]; exact this
  · have := hc.sorted
    show (ps.map (fun rc => rc.1 * h.cols + rc.2)).Pairwise (· < ·)
    rw [h2]; exact this

theorem Spec.Built.inv {r : Raster} (h : Spec.Built r) : r.RInv := by
  induction h with
  | grid1 data rows cols nodata dx xll yll hlen =>
    exact .inl ⟨_, _, .full (ofArray1_full data rows cols hlen nodata dx xll yll)⟩
  | grid2 data rows cols lyrs nodata dx xll yll hlen hl hrow =>
    exact .inl ⟨_, _, .full (ofArray2_full data rows cols lyrs hlen hl hrow nodata dx xll yll)⟩
  | file h data calcPos ume dflt hr hc hl hlen e =>
    rw [← calcNoMask_ncells (ofFile h data calcPos ume dflt) (h.rows * h.cols) rfl] at e
    exact (ofFile_full h data calcPos ume dflt hr hc hlen).calcNoMask_inv e
  | store h data calcPos ume dflt hr hc hl hlen hrow e =>
    exact (ofStore_full h data calcPos ume dflt hr hc hl hlen hrow).calcNoMask_inv e
  | files layers hb h1 hn e ih =>
    rcases ih with ⟨ls, loc, hi⟩ | ⟨hd, hE⟩
    · obtain ⟨ls', hi'⟩ := hi.addLayers hn e
      exact .inl ⟨ls', loc, hi'⟩
    · rw [hd] at h1; cases h1
  | masked hr hm hcl hg hp e hc ih =>
    obtain ⟨res, ls, m, ps, dr, dc, h, e', -, -, hcase⟩ := mask_full hr ih hcl hg hp.overlap hp.extCalc hp.plain
    rw [e] at e'
    cases e'
    rcases hcase with ⟨h1, -⟩ | ⟨-, lsM, sr, sc, keep, -, hat, -⟩
    · omega
    · obtain ⟨ls', loc', hi⟩ := hat.inv
      exact .inl ⟨ls', loc', hi⟩
  | direct h data dflt hm e h0 h1 h2 hn hl hlen hrow ih =>
    obtain ⟨lsM, hc, q2⟩ := mask_compact ih e h0
    exact .inl ⟨_, _, .comp (direct_compact hc dflt h1 h2 hl (by rw [q2] at hlen; exact_mod_cast hlen) hrow)⟩
  | step op hb e ih => exact RInv.step ih op e

end CCGL
