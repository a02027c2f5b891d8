import Verif.Lemmas.AppRecls
import Verif.Props.MaskSubset
/-!
# Masking with a mask that has subsets, for the jobs of `mask_rasterio`
-/
namespace CCGL
open Raster

theorem maskSub_kept {r : Raster} {mh : Header} {vp : List (Int × Int)} {s : Subset} {o : Option Subset} (e : maskSub r mh vp false s = .ok o) :
    o = none ∨ o = some { s with nLyrs := r.nLyrs } := by
  unfold maskSub at e
  obtain ⟨l, -, e⟩ := Out.bind_ok e
  by_cases hl : l = []
  · rw [if_pos hl] at e
    simp only [Out.pure_eq, Out.ok.injEq] at e
    exact .inl e.symm
  · rw [if_neg hl] at e
    simp only [Bool.false_eq_true, if_false, Out.pure_eq, Out.ok.injEq] at e
    exact .inr e.symm

theorem maskSubs_kept {r : Raster} {mh : Header} {vp : List (Int × Int)} : ∀ (subs : IMap Subset) {subs' : IMap Subset},
    maskSubs r mh vp false subs = .ok subs' → (subs'.map (·.1)).Sublist (subs.map (·.1)) ∧
      ∀ e ∈ subs', ∃ s, (e.1, s) ∈ subs ∧ e.2 = { s with nLyrs := r.nLyrs } := by
  intro subs
  induction subs with
  | nil =>
    intro subs' e
    have e : Out.ok [] = .ok subs' := e
    injection e with e
    subst e
    exact ⟨List.Sublist.refl _, fun e h => by cases h⟩
  | cons x rest ih =>
    intro subs' e
    unfold maskSubs at e
    obtain ⟨o, eo, e⟩ := Out.bind_ok e
    obtain ⟨l, el, e⟩ := Out.bind_ok e
    obtain ⟨i1, i2⟩ := ih el
    simp only [Out.pure_eq, Out.ok.injEq] at e
    rcases maskSub_kept eo with rfl | rfl
    · dsimp only at e
      subst e
      refine ⟨i1.trans (List.sublist_cons_self _ _), ?_⟩
      intro y hy
      obtain ⟨s, a, b⟩ := i2 y hy
      exact ⟨s, List.mem_cons_of_mem _ a, b⟩
    · dsimp only at e
      subst e
      refine ⟨i1.cons_cons _, ?_⟩
      intro y hy
      rcases List.mem_cons.1 hy with rfl | hy
      · exact ⟨x.2, List.mem_cons_self, rfl⟩
      · obtain ⟨s, a, b⟩ := i2 y hy
        exact ⟨s, List.mem_cons_of_mem _ a, b⟩

theorem compact_of {r : Raster} (hb : Spec.Built r) {ps : List (Int × Int)} (hp : r.posData = some ps) (hne : ps ≠ []) :
    ∃ ls, r.Compact ls ps := by
  rcases hb.inv with ⟨ls', loc, hi⟩ | ⟨-, hE⟩
  · cases hi with
    | full h => rw [h.pd] at hp; cases hp
    | comp h =>
      rw [h.pd] at hp
      injection hp with hp
      subst hp
      exact ⟨_, h⟩
    | empty h' _ =>
      rw [h'.pd] at hp
      injection hp with hp
      exact absurd hp.symm hne
  · rw [hE.pd] at hp
    injection hp with hp
    exact absurd hp.symm hne

end CCGL

namespace CCGL
namespace App
open Fs Disk Main Raster Disk.Spec App.Spec

/-- Subsets that are used and have no data of their own. -/
def Bare (subs : IMap Subset) : Prop := ∀ e ∈ subs, e.2.usable = true ∧ e.2.data = none ∧ e.2.data2d = none

theorem built_bare {r : Raster} (hb : CCGL.Spec.Built r) {rs' : RasterS} {b : Bool} (e : buildSubSet ⟨r, []⟩ [] = .ok (rs', b)) : Bare rs'.subs := by
  obtain ⟨-, -, -, -, -, -, -, ⟨ls, ps, hC, hok⟩ | hn⟩ := build_cases2 hb e
  · intro x hx
    have := (hok.some x.1 x.2 ((IMap.mem_iff_get _ hok.sorted _ _).1 hx)).2
    exact ⟨this.1, this.2.2.1, this.2.2.2⟩
  · rw [hn]
    intro x hx
    cases hx

/-- A mask object with subsets stands for the mask file. -/
structure CutMask (m : RasterS) (hM : Header) (vM : Int → Int → ℚ) : Prop where
  built : CCGL.Spec.Built m.ras
  clean : CCGL.Spec.CleanMask m.ras
  grid : m.ras.hdr.grid = hM.grid
  nd : m.ras.noData = hM.noData
  valid : ∀ row col x, CCGL.Spec.ValidCell m.ras row col x ↔ HasValue hM vM row col ∧ x = vM row col
  cut : ∃ ls ps G, Cut m ls ps G
  ne : m.subs ≠ []
  bare : Bare m.subs
  grp : ∀ k row col, byValue hM vM k row col ↔ ∃ s, m.subs.get k = some s ∧ CCGL.Spec.InSubset s row col

theorem value_total {r : Raster} (hb : CCGL.Spec.Built r) (row col lyr : Int) : ∃ x, r.getValue row col lyr = .ok x := by
  obtain ⟨_, _, _, _, _, h⟩ := C11_replaceNoData hb 0
  obtain ⟨x, hx, _⟩ := h row col lyr
  exact ⟨x, hx⟩

theorem CutMask.isMask {m hM vM} (h : CutMask m hM vM) : IsMask m.ras hM vM := by
  refine ⟨⟨m.ras, h.built, h.clean, h.grid, h.nd, ?_, rfl⟩⟩
  intro row col hin
  obtain ⟨x, hx⟩ := value_total h.built row col 1
  refine ⟨x, hx, ?_⟩
  cases hf : floatEqual x m.ras.noData with
  | false =>
    obtain ⟨⟨-, h1⟩, h2⟩ := (h.valid row col x).1 ⟨hx, hf⟩
    exact h1.symm
  | true =>
    cases hv : floatEqual (vM row col) hM.noData with
    | true => rfl
    | false =>
      have := (h.valid row col (vM row col)).2 ⟨⟨hin, hv⟩, rfl⟩
      rw [this.1] at hx
      injection hx with hx
      rw [hx] at this
      rw [this.2] at hf
      cases hf

/-- `BuildSubSet` on a loaded mask. -/
theorem cutMask_of {M : Raster} {hM : Header} {vM : Int → Int → ℚ} (hb : CCGL.Spec.Built M) (hcl : CCGL.Spec.CleanMask M) (hg : M.hdr.grid = hM.grid)
    (hn : M.noData = hM.noData) (hv : ∀ row col, hM.grid.CellInside row col → M.getValue row col 1 = .ok (vM row col)) (h2 : M.is2d = false)
    (hex : ∃ row col, HasValue hM vM row col) :
    ∃ m b, buildSubSet ⟨M, []⟩ [] = .ok (m, b) ∧ CutMask m hM vM := by
  obtain ⟨m, b, e, H⟩ := ready_own (dv := 0) hb h2 hg hn hv rfl
  obtain ⟨q1, q2, q3, q4, q5⟩ := C74_built hb [] e
  obtain ⟨m1, b1, e1, -, -, -, -, -, -, -, -, hv2, -⟩ := build_spec hb []
  rw [e] at e1
  injection e1 with e1
  injection e1 with e1 _
  subst e1
  have hne : m.subs ≠ [] := by
    obtain ⟨row, col, hx⟩ := hex
    exact H.any.1 ⟨_, row, col, hx, rfl⟩
  refine ⟨m, b, e, q1, q4 hcl hne, H.grid, H.nd, ?_, H.cut hne, hne, built_bare hb e, H.grp⟩
  intro row col x
  constructor
  · intro hx
    have hx := hv2 row col x hx
    have hin : hM.grid.CellInside row col := by
      by_contra hno
      have := getValue_outside M row col 1 (.inl (by
        intro hh
        apply hno
        rw [← hg]
        exact hh))
      rw [hx.1] at this
      injection this with this
      have h2 := hx.2
      rw [this, floatEqual_self] at h2
      cases h2
    have he : x = vM row col := by
      have := hv row col hin
      rw [hx.1] at this
      injection this
    refine ⟨⟨hin, ?_⟩, he⟩
    rw [← he, ← hn]
    exact hx.2
  · rintro ⟨hx, rfl⟩
    exact ⟨H.val _ row col ⟨hx, rfl⟩, by rw [H.nd]; exact hx.2⟩

/-- Masking a file with a mask that has subsets. -/
theorem file_masked_groups {d : Disk} {s : Str} {hM hR : Header} {vM vR : Int → Int → ℚ} {m : RasterS} (hm : CutMask m hM vM)
    (H : RasterFile d s hR vR) (hg : CCGL.Spec.CommonGrid hR hM) (hco : CCGL.Spec.CoordsPresent hM) (hov : Overlaps hM vM hR) (dv : ℚ) :
    ∃ x res subs', fileExists d.fs s = true ∧ decode d s = .ok (some x) ∧
      maskRasterS (fileRaster x false true dv) [] m = .ok (res, subs') ∧ res.code = 2 ∧ res.mask = m.ras ∧
      CCGL.Spec.Built res.ras ∧ 0 < res.ras.nCells ∧ res.ras.is2d = false ∧ res.ras.nLyrs = 1 ∧ res.ras.dflt = checkDefault dv hR.noData ∧
      res.ras.hdr.grid = hM.grid ∧ res.ras.noData = hR.noData ∧
      (∀ row col, hM.grid.CellInside row col → res.ras.getValue row col 1 = .ok (maskedVal hM vM hR vR dv row col)) ∧
      Bare subs' ∧ (∀ r' : Raster, CCGL.Spec.Built r' → r'.posData = res.ras.posData → ∃ ls ps G, Cut ⟨r', subs'⟩ ls ps G) ∧
      ∀ k row col, having (byValue hM vM) (fun row col => floatEqual (maskedVal hM vM hR vR dv row col) hR.noData = false) k row col ↔
        ∃ s, subs'.get k = some s ∧ CCGL.Spec.InSubset s row col := by
  obtain ⟨x, res, hex, ex, em, hcode, -, hb, hnc, h2d, hly, hgr, hnd, hval⟩ := file_masked hm.isMask H hg hov dv
  obtain ⟨-, h', cells, e, hgr0, hn0, hl0, hlen, hv0⟩ := file_decode H
  rw [e] at ex
  injection ex with ex
  injection ex with ex
  subst ex
  have hfr : fileRaster (h', some cells) false true dv = ofFile h' cells false true dv := rfl
  rw [hfr] at em
  have hgr' := hgr0
  unfold Header.grid at hgr'
  injection hgr' with g1 g2 g3 g4 g5
  have hMg' := hm.grid
  unfold Header.grid at hMg'
  injection hMg' with m1 m2 m3 m4 m5
  have hr0 : 0 < h'.rows := by rw [g1]; exact H.rows
  have hc0 : 0 < h'.cols := by rw [g2]; exact H.cols
  have hrd : CCGL.Spec.ReadGrid (ofFile h' cells false true dv) := .file h' cells false true dv hr0 hc0 hlen
  have hcg : CCGL.Spec.CommonGrid (ofFile h' cells false true dv).hdr m.ras.hdr := by
    obtain ⟨a1, a2, a, b, a3, a4⟩ := hg
    refine ⟨?_, ?_, a, b, ?_, ?_⟩
    · show 0 < h'.cellsize; rw [g3]; exact a1
    · show m.ras.hdr.cellsize = h'.cellsize; rw [g3, m3]; exact a2
    · show m.ras.hdr.xll = h'.xll + a * h'.cellsize; rw [g3, g4, m4]; exact a3
    · show m.ras.hdr.yll = h'.yll + b * h'.cellsize; rw [g3, g5, m5]; exact a4
  have hgrid : (ofFile h' cells false true dv).hdr.grid = hR.grid := hgr0
  obtain ⟨lsM, psM, GM, hcut⟩ := hm.cut
  have hcoM : CCGL.Spec.CoordsPresent m.ras.hdr := by
    unfold CCGL.Spec.CoordsPresent at hco ⊢
    rw [m1, m2, m3, m4, m5]
    exact hco
  have hov' : ∃ x y, CCGL.Spec.ValidAt m.ras x y ∧ CCGL.Spec.Covers (ofFile h' cells false true dv) x y := by
    obtain ⟨row, col, i, j, hq, q3, q4⟩ := hov
    obtain ⟨y1, y2⟩ := (hm.valid row col _).2 ⟨hq, rfl⟩
    refine ⟨(hM.grid.center row col).1, (hM.grid.center row col).2, ⟨vM row col, row, col, by rw [hm.grid]; exact hq.1, by rw [hm.grid],
      y1, y2⟩, i, j, by rw [hgrid]; exact q3, ?_⟩
    rw [hgrid, q4]
  have hat : ∀ k s, m.subs.get k = some s → CCGL.Spec.SubsetAt m.ras s
      ((GM k).map (fun i => m.ras.hdr.grid.center (posAt psM i).1 (posAt psM i).2)) :=
    fun k s hk => Raster.SubOk.subsetAt hcut.comp (hcut.part.some k s hk) (fun i hi => hcut.part.lt hi)
  obtain ⟨res2, subs', es, -, hfol⟩ := C74_same_partial (own := []) hrd hm.built hm.clean hcg (by rw [hcut.comp.pd]; rfl) hcoM hm.ne
    hcut.part.sorted (fun k s hk => ⟨_, hat k s hk⟩) (by
      obtain ⟨x, y, a, b⟩ := hov'
      exact ⟨x, y, a, by rw [if_pos ⟨rfl, rfl⟩]; exact b⟩) (.inl rfl) (fun h => by cases h)
  obtain ⟨res3, ls3, m3', ps3, dr, dc, hpl, em3, hvp3, hmk3, hcase⟩ := mask_full hrd hm.built.inv hm.clean hcg
    (fun h => absurd ⟨rfl, rfl⟩ h) (fun _ h => by cases h) (fun h => by cases h)
  rw [em] at em3
  injection em3 with em3
  subst em3
  rcases hcase with ⟨-, h2⟩ | ⟨-, lsM3, sr, sc, keep, hcm, hma, -, -, hup, hpd, -⟩
  · obtain ⟨x, y, a, b⟩ := hov'
    exact absurd b (h2 x y a)
  obtain ⟨hself, -⟩ := placed_self hpl hm.built (by rw [hcut.comp.pd]; rfl) hcm.ne
  have hmask : res.mask = m.ras := by rw [hmk3, hself]
  have hpos : res.ras.posData = some psM := by
    rw [hpd (.inl rfl) (fun h => by cases h), hself, hcut.comp.pd]
  have hupf : res.updRowCol = false := by
    rw [← Bool.not_eq_true, hup]
    rintro ⟨h, -⟩
    cases h
  have es' := es
  unfold maskRasterS at es'
  rw [em] at es'
  simp only [Out.ok_bind] at es'
  rw [if_neg (by rw [hcode]; simp [hm.ne])] at es'
  obtain ⟨l, el, es'⟩ := Out.bind_ok es'
  simp only [Out.pure_eq, Out.ok.injEq, Prod.mk.injEq] at es'
  obtain ⟨hres, hl⟩ := es'
  subst hres hl
  rw [hupf, Bool.and_false] at el
  obtain ⟨hsub, hkept⟩ := maskSubs_kept _ el
  have hsorted : (l.map (·.1)).Pairwise (· < ·) := hcut.part.sorted.sublist hsub
  have hget : ∀ k s', l.get k = some s' → ∃ s, m.subs.get k = some s ∧ s' = { s with nLyrs := res.ras.nLyrs } := by
    intro k s' hk
    obtain ⟨s, a, b⟩ := hkept (k, s') ((IMap.mem_iff_get _ hsorted _ _).2 hk)
    exact ⟨s, (IMap.mem_iff_get _ hcut.part.sorted _ _).1 a, b⟩
  have hvals : ∀ row col, hM.grid.CellInside row col → res.ras.getValue row col 1 = .ok (maskedVal hM vM hR vR dv row col) := by
    intro row col hin
    obtain ⟨w, w1, w2⟩ := hval row col hin
    rw [w1, masked_eq w2]
  refine ⟨(h', some cells), res, l, hex, e, es, hcode, hmask, hb, hnc, h2d, hly, ?_, hgr, hnd, hvals, ?_, ?_, ?_⟩
  · rw [maskRaster_dflt em, ← hn0]
    rfl
  · intro x hx
    obtain ⟨s, a, b⟩ := hkept x hx
    have := hm.bare _ a
    rw [b]
    exact this
  · intro r' hb' hp'
    obtain ⟨ls', hC'⟩ := compact_of hb' (by rw [hp']; exact hpos) hcut.comp.ne
    refine ⟨ls', psM, fun k => if (l.get k).isSome then GM k else [], hC', ⟨hsorted, ?_, ?_, ?_, ?_, ?_⟩, ?_, hb'.tidy.n1, ?_, res.ras.nLyrs, ?_⟩
    · intro k s' hk
      have hk : l.get k = some s' := hk
      obtain ⟨s, a, b⟩ := hget k s' hk
      simp only [hk, Option.isSome_some, if_true]
      exact (hcut.part.some k s a).same (by rw [b]; exact ⟨rfl, rfl, rfl, rfl, rfl, rfl, rfl, rfl⟩)
    · intro k hk
      have hk : l.get k = none := hk
      simp [hk]
    · intro k i hi
      split at hi
      · exact hcut.part.lt hi
      · cases hi
    · intro k
      split
      · exact hcut.part.nodup k
      · exact List.nodup_nil
    · intro k k' i hi hi'
      split at hi
      · split at hi'
        · exact hcut.part.disj hi hi'
        · cases hi'
      · cases hi
    · intro k
      split
      · exact hcut.asc k
      · exact List.Pairwise.nil
    · intro k s' hk
      obtain ⟨s, a, b⟩ := hget k s' hk
      rw [b]
      exact hcut.use k s a
    · intro k s' hk
      obtain ⟨s, a, b⟩ := hget k s' hk
      rw [b]
  · -- the groups
    have hcell : ∀ k s row col, m.subs.get k = some s → CCGL.Spec.InSubset s row col → hM.grid.CellInside row col := fun k s row col a b =>
      ((hm.grp k row col).2 ⟨s, a, b⟩).1.1
    have hvalid : ∀ k s, m.subs.get k = some s → (CCGL.Spec.validPts res.ras
        ((GM k).map (fun i => m.ras.hdr.grid.center (posAt psM i).1 (posAt psM i).2)) ≠ [] ↔
        ∃ row col, CCGL.Spec.InSubset s row col ∧ floatEqual (maskedVal hM vM hR vR dv row col) hR.noData = false) := by
      intro k s hk
      have ho := hcut.part.some k s hk
      unfold CCGL.Spec.validPts
      rw [Ne, List.filter_eq_nil_iff]
      push Not
      have hcs : 0 < hM.cellsize := by rw [hg.2.1]; exact hg.1
      constructor
      · rintro ⟨pt, h1, h2⟩
        obtain ⟨i, hi, rfl⟩ := List.mem_map.1 h1
        simp only [decide_eq_true_eq] at h2
        obtain ⟨v, row, col, a1, a2, a3, a4⟩ := h2
        have hin := (ho.in_iff (posAt psM i).1 (posAt psM i).2).2 ⟨i, hi, rfl⟩
        rw [hgr, hm.grid] at a2
        obtain ⟨b1, b2⟩ := center_inj (g := hM.grid) hcs a2
        rw [b1, b2, hvals _ _ (hcell k s _ _ hk hin)] at a3
        injection a3 with a3
        refine ⟨_, _, hin, ?_⟩
        rw [a3, ← hnd]
        exact a4
      · rintro ⟨row, col, hin, hv⟩
        obtain ⟨i, hi, hp⟩ := (ho.in_iff row col).1 hin
        refine ⟨_, List.mem_map.2 ⟨i, hi, rfl⟩, ?_⟩
        simp only [decide_eq_true_eq]
        rw [hp]
        refine ⟨_, row, col, by rw [hgr]; exact hcell k s _ _ hk hin, by rw [hgr, hm.grid], hvals _ _ (hcell k s _ _ hk hin), by rw [hnd]; exact hv⟩
    intro k row col
    constructor
    · rintro ⟨hk, row', col', hk', hP⟩
      obtain ⟨s, a, b⟩ := (hm.grp k row col).1 hk
      obtain ⟨s2, a2, b2⟩ := (hm.grp k row' col').1 hk'
      rw [a] at a2
      injection a2 with a2
      subst a2
      obtain ⟨s', c1, -⟩ := hfol.here k s _ a (hat k s a) ((hvalid k s a).2 ⟨row', col', b2, hP⟩)
      refine ⟨s', c1, ?_⟩
      obtain ⟨s3, d1, d2⟩ := hget k s' c1
      rw [a] at d1
      injection d1 with d1
      subst d1
      rw [d2]
      exact b
    · rintro ⟨s', c1, c2⟩
      obtain ⟨s, d1, d2⟩ := hget k s' c1
      rw [d2] at c2
      have c2 : CCGL.Spec.InSubset s row col := c2
      have hne : CCGL.Spec.validPts res.ras ((GM k).map (fun i => m.ras.hdr.grid.center (posAt psM i).1 (posAt psM i).2)) ≠ [] := by
        intro h0
        rw [hfol.gone k s _ d1 (hat k s d1) h0] at c1
        cases c1
      obtain ⟨row', col', e1, e2⟩ := (hvalid k s d1).1 hne
      exact ⟨(hm.grp k row col).2 ⟨s, d1, c2⟩, row', col', (hm.grp k row' col').2 ⟨s, d1, e1⟩, e2⟩

end App
end CCGL
