import Verif.Spec.AppLayers
import Verif.Props.AppRun
import Verif.Props.AppRecls
import Verif.Props.Layers
/-!
# Jobs of `mask_rasterio` with several input files (C92)
-/
namespace CCGL
namespace App
open Fs Disk Main Raster Disk.Spec App.Spec

/-- The centres of the cells of a grid are points on which the lookup in another grid with the same lines is right. -/
theorem common_good {h g : Header} (hg : CCGL.Spec.CommonGrid h g) (row col : Int) : GoodPoint h (g.grid.center row col).1 (g.grid.center row col).2 := by
  obtain ⟨h1, h2, a, b, h3, h4⟩ := hg
  have hx : (g.grid.center row col).1 = h.xll + ((col + a : Int) : ℚ) * h.cellsize := by
    simp only [CCGL.Spec.Grid.center, Header.grid, CCGL.Spec.Grid.left]
    rw [h2, h3]; push_cast; ring
  have hy : (g.grid.center row col).2 = h.yll + ((b + g.rows - 1 - row : Int) : ℚ) * h.cellsize := by
    simp only [CCGL.Spec.Grid.center, Header.grid, CCGL.Spec.Grid.top, CCGL.Spec.Grid.bottom]
    rw [h2, h4]; push_cast; ring
  rw [hx, hy]
  generalize col + a = x
  generalize b + g.rows - 1 - row = y
  have step : ∀ u v : Int, u < v → (u : ℚ) * h.cellsize + h.cellsize ≤ v * h.cellsize := by
    intro u v huv
    have : (u : ℚ) + 1 ≤ v := by exact_mod_cast huv
    have := mul_le_mul_of_nonneg_right this h1.le
    linarith
  have nn : ∀ u : Int, 0 ≤ u → 0 ≤ (u : ℚ) * h.cellsize := fun u hu => mul_nonneg (by exact_mod_cast hu) h1.le
  unfold GoodPoint
  simp only [CCGL.Spec.Grid.left, Header.grid, CCGL.Spec.Grid.right, CCGL.Spec.Grid.bottom, CCGL.Spec.Grid.top]
  by_cases x0 : 0 ≤ x
  · by_cases x1 : x < h.cols
    · by_cases y0 : 0 ≤ y
      · by_cases y1 : y < h.rows
        · have q1 := step x h.cols x1
          have q2 := step y h.rows y1
          have q3 := nn x x0
          have q4 := nn y y0
          refine .inr ⟨?_, ?_, ?_, ?_⟩ <;> linarith
        · have q := nn (y - h.rows) (by omega)
          push_cast at q
          rw [sub_mul] at q
          refine .inl (.inr (.inr (.inr ?_)))
          linarith
      · have q := step y 0 (by omega)
        simp only [Int.cast_zero, zero_mul] at q
        refine .inl (.inr (.inr (.inl ?_)))
        linarith
    · have q := nn (x - h.cols) (by omega)
      push_cast at q
      rw [sub_mul] at q
      refine .inl (.inr (.inl ?_))
      linarith
  · have q := step x 0 (by omega)
    simp only [Int.cast_zero, zero_mul] at q
    refine .inl (.inl ?_)
    linarith

theorem inCell_center {g : CCGL.Spec.Grid} (hd : 0 < g.dx) {i j i' j' : Int} (h : g.InCell i j (g.center i' j').1 (g.center i' j').2) : i = i' ∧ j = j' := by
  obtain ⟨x0, x1, y0, y1⟩ := h
  unfold CCGL.Spec.Grid.center at x0 x1 y0 y1
  simp only at x0 x1 y0 y1
  have a1 : (j : ℚ) < j' + 1 := by
    by_contra hc
    have := mul_le_mul_of_nonneg_right (not_lt.1 hc) hd.le
    linarith
  have a2 : (j' : ℚ) < j + 1 := by
    by_contra hc
    have := mul_le_mul_of_nonneg_right (not_lt.1 hc) hd.le
    linarith
  have b1 : (i : ℚ) < i' + 1 := by
    by_contra hc
    have := mul_le_mul_of_nonneg_right (not_lt.1 hc) hd.le
    linarith
  have b2 : (i' : ℚ) < i + 1 := by
    by_contra hc
    have := mul_le_mul_of_nonneg_right (not_lt.1 hc) hd.le
    linarith
  have a1' : j < j' + 1 := by exact_mod_cast a1
  have a2' : j' < j + 1 := by exact_mod_cast a2
  have b1' : i < i' + 1 := by exact_mod_cast b1
  have b2' : i' < i + 1 := by exact_mod_cast b2
  omega

/-- The centre of a cell of one grid is the centre of a cell (perhaps outside) of the other. -/
theorem common_center {h g : Header} (hg : CCGL.Spec.CommonGrid h g) (row col : Int) : ∃ i j : Int, h.grid.center i j = g.grid.center row col := by
  obtain ⟨h1, h2, a, b, h3, h4⟩ := hg
  refine ⟨h.rows - 1 - (b + g.rows - 1 - row), col + a, ?_⟩
  simp only [CCGL.Spec.Grid.center, Header.grid, CCGL.Spec.Grid.left, CCGL.Spec.Grid.top, CCGL.Spec.Grid.bottom, Prod.mk.injEq]
  rw [h2, h3, h4]
  constructor <;> push_cast <;> ring

theorem shows_layer {l : LayerFile} {g : Header} (hg : CCGL.Spec.CommonGrid l.hdr g) {h' : Header} {cells : List ℚ} (hgr : h'.grid = l.hdr.grid) (hn : h'.noData = l.hdr.noData)
    (hv : ∀ row col, l.hdr.grid.CellInside row col → cells.getD (row * h'.cols + col).toNat 0 = l.val row col) {nd w : ℚ} {row col : Int}
    (H : CCGL.Spec.ShowsAt h' cells nd (g.grid.center row col).1 (g.grid.center row col).2 w) :
    (∀ i j, SameCell l.hdr g i j row col → w = if floatEqual (l.val i j) l.hdr.noData then nd else l.val i j) ∧
    ((¬ ∃ i j, SameCell l.hdr g i j row col) → w = nd) := by
  have hd : 0 < l.hdr.grid.dx := hg.1
  rcases H with ⟨i, j, h1, h2, h3⟩ | ⟨h1, h2⟩
  · rw [hgr] at h1 h2
    obtain ⟨i', j', e⟩ := common_center hg row col
    rw [← e] at h2
    obtain ⟨rfl, rfl⟩ := inCell_center hd h2
    rw [hv i j h1, hn] at h3
    constructor
    · intro i2 j2 hs
      have he := hs.2
      rw [← e] at he
      obtain ⟨rfl, rfl⟩ := center_inj hd he
      exact h3
    · intro hno
      exact absurd ⟨i, j, h1, e⟩ hno
  · constructor
    · intro i j hs
      refine absurd ?_ (h1 i j (by rw [hgr]; exact hs.1))
      rw [hgr, ← hs.2]
      exact center_inCell _ hd i j
    · exact fun _ => h2

/-- The decoded file of a layer. -/
structure Decoded (l : LayerFile) (x : Header × List ℚ) : Prop where
  grid : x.1.grid = l.hdr.grid
  nodata : x.1.noData = l.hdr.noData
  len : (x.2.length : Int) = x.1.rows * x.1.cols
  val : ∀ row col, l.hdr.grid.CellInside row col → x.2.getD (row * x.1.cols + col).toNat 0 = l.val row col

theorem read_layers {d : Disk} {rest : List LayerFile} (H : ∀ l ∈ rest, RasterFile d l.path l.hdr l.val) :
    ∃ layers : List (Header × List ℚ), (rest.map (·.path)).mapM (readLayer d) = .ok (layers.map (fun l => (l.1, some l.2))) ∧
      List.Forall₂ Decoded rest layers := by
  induction rest with
  | nil => exact ⟨[], rfl, .nil⟩
  | cons l rest ih =>
    obtain ⟨layers, e, hf⟩ := ih (fun x hx => H x (by simp [hx]))
    obtain ⟨-, h', cells, e1, hg, hn, -, hlen, hv⟩ := file_decode (H l (by simp))
    refine ⟨(h', cells) :: layers, ?_, .cons ⟨hg, hn, hlen, hv⟩ hf⟩
    rw [List.map_cons, List.mapM_cons]
    have : readLayer d l.path = .ok (h', some cells) := by
      unfold readLayer
      rw [e1]
      rfl
    rw [this, Out.ok_bind, e]
    rfl

/-- Adding the further files to a raster with one layer. `K` are the cells that get values. -/
theorem add_files {d : Disk} {rest : List LayerFile} (H : ∀ l ∈ rest, RasterFile d l.path l.hdr l.val) {g : Header}
    (hc : ∀ l ∈ rest, CCGL.Spec.CommonGrid l.hdr g) {r : Raster} (hb : CCGL.Spec.Built r) (h1 : r.is2d = false) (hn : 0 < r.nCells) (hgr : r.hdr.grid = g.grid)
    {K : Int → Int → Prop}
    (hK : ∀ row col, g.grid.CellInside row col → (K row col ↔ CCGL.Spec.Stored r row col ∧
      ∀ x, r.getValue row col 1 = .ok x → ((r.posData.isNone && r.posIdx.isNone) && floatEqual r.noData x) = false)) :
    ∃ layers r', (rest.map (·.path)).mapM (readLayer d) = .ok layers ∧ r.addLayers layers = .ok r' ∧ CCGL.Spec.Built r' ∧ r'.is2d = true ∧
      r'.nLyrs = rest.length + 1 ∧ r'.nCells = r.nCells ∧ r'.hdr.grid = g.grid ∧ r'.hdr.noData = r.hdr.noData ∧ r'.noData = r.noData ∧
      (∀ row col, g.grid.CellInside row col → r'.getValue row col 1 = r.getValue row col 1) ∧
      ∀ row col, g.grid.CellInside row col → ∀ k (hk : k < rest.length), ∃ w, r'.getValue row col (k + 2) = .ok w ∧
        (K row col → ∀ i j, SameCell rest[k].hdr g i j row col →
          w = if floatEqual (rest[k].val i j) rest[k].hdr.noData then r.noData else rest[k].val i j) ∧
        ((¬ K row col ∨ ¬ ∃ i j, SameCell rest[k].hdr g i j row col) → w = r.noData) := by
  obtain ⟨layers, e, hf⟩ := read_layers H
  have hlen : rest.length = layers.length := hf.length_eq
  have hget : ∀ k (hk : k < rest.length), Decoded rest[k] (layers[k]'(by omega)) := fun k hk => hf.get hk (by omega)
  have hmem : ∀ x ∈ layers, ∃ l ∈ rest, Decoded l x := by
    intro x hx
    obtain ⟨k, hk, rfl⟩ := List.getElem_of_mem hx
    exact ⟨rest[k], List.getElem_mem _, hget k (by omega)⟩
  have hl : ∀ x ∈ layers, LayerOk x := by
    intro x hx
    obtain ⟨l, hl, hd⟩ := hmem x hx
    have hg := hd.grid
    unfold Header.grid at hg
    injection hg with g1 g2 g3 g4 g5
    exact ⟨by rw [g3]; exact (hc l hl).1, by rw [g1]; exact (H l hl).rows.le, by rw [g2]; exact (H l hl).cols.le, hd.len⟩
  have hgood : ∀ row col, ∀ x ∈ layers, GoodPoint x.1 (r.hdr.grid.center row col).1 (r.hdr.grid.center row col).2 := by
    intro row col x hx
    obtain ⟨l, hl, hd⟩ := hmem x hx
    have := common_good (hc l hl) row col
    rw [hgr]
    have hg := hd.grid
    unfold GoodPoint at this ⊢
    have hx1 : x.1.xll = l.hdr.xll := by unfold Header.grid at hg; injection hg
    have hx2 : x.1.yll = l.hdr.yll := by unfold Header.grid at hg; injection hg
    rw [hg, hx1, hx2]
    exact this
  obtain ⟨r', e1, e2, e3, e4, e5, e6, e7, e8, e9⟩ := layers_core hb h1 hn layers hl (fun row col _ => hgood row col)
  refine ⟨_, r', e, e1, hb.files _ h1 hn e1, e3, by rw [e2, hlen], e4, by rw [e5, ← hgr]; rfl, by rw [e5], e6, ?_, ?_⟩
  · intro row col hin
    by_cases hs : CCGL.Spec.Stored r row col
    · obtain ⟨first, f1, f2, -⟩ := e9 row col hs
      rw [f1, f2]
    · obtain ⟨f1, f2⟩ := e8 row col 1 hs le_rfl (by omega)
      rw [f1, f2]
  · intro row col hin k hk
    have hk' : k < layers.length := by omega
    by_cases hs : CCGL.Spec.Stored r row col
    · obtain ⟨first, f1, f2, f3⟩ := e9 row col hs
      obtain ⟨w, w1, w2⟩ := f3 k hk'
      refine ⟨w, w1, ?_⟩
      by_cases hskip : ((r.posData.isNone && r.posIdx.isNone) && floatEqual r.noData first) = true
      · rw [if_pos hskip] at w2
        have hnk : ¬ K row col := by
          intro h
          have := ((hK row col hin).1 h).2 first f1
          rw [hskip] at this
          cases this
        exact ⟨fun h => absurd h hnk, fun _ => w2⟩
      · rw [if_neg hskip, hgr] at w2
        have hdk := hget k hk
        obtain ⟨s1, s2⟩ := shows_layer (hc _ (List.getElem_mem hk)) hdk.grid hdk.nodata hdk.val w2
        refine ⟨fun _ => s1, ?_⟩
        rintro (h | h)
        · refine absurd ((hK row col hin).2 ⟨hs, ?_⟩) h
          intro x hx
          rw [f1] at hx
          injection hx with hx
          rw [← hx]
          exact Bool.eq_false_iff.2 hskip
        · exact s2 h
    · obtain ⟨f1, f2⟩ := e8 row col (k + 2) hs (by omega) (by omega)
      exact ⟨_, f2, fun h => absurd ((hK row col hin).1 h).1 hs, fun _ => rfl⟩

/-- Renaming NoData keeps the stored cells. -/
theorem stored_same {r r' : Raster} (hb : CCGL.Spec.Built r) (hn : 0 < r.nCells) (hb' : CCGL.Spec.Built r') (hn' : 0 < r'.nCells) (hp : r'.posData = r.posData)
    (hr : r'.hdr.rows = r.hdr.rows) (hc : r'.hdr.cols = r.hdr.cols) (row col : Int) : CCGL.Spec.Stored r' row col ↔ CCGL.Spec.Stored r row col := by
  rcases built_cases hb (built_valid hb hn) (fun _ => hn) with ⟨ls, hf⟩ | ⟨ls, ps, hf⟩ <;>
    rcases built_cases hb' (built_valid hb' hn') (fun _ => hn') with ⟨ls', hf'⟩ | ⟨ls', ps', hf'⟩
  · rw [(Raster.Inv.full hf).stored, (Raster.Inv.full hf').stored]
    unfold fullLoc
    rw [hr, hc]
  · rw [hf.pd, hf'.pd] at hp
    cases hp
  · rw [hf.pd, hf'.pd] at hp
    cases hp
  · rw [hf.pd, hf'.pd] at hp
    injection hp with hp
    rw [(Raster.Inv.comp hf).stored, (Raster.Inv.comp hf').stored, hp]

/-- Renaming NoData and writing all layers. -/
theorem layers_written {env : Env} {fmt : Disk.Fmt} {d : Disk} {r : Raster} (hb : CCGL.Spec.Built r) (hn : 0 < r.nCells) (h2 : r.is2d = true) {n : Nat} (hl : r.nLyrs = n)
    {h : Header} (hgr : r.hdr.grid = h.grid) {nd : ℚ} (hnd : r.noData = nd) {V : Nat → Int → Int → ℚ → Prop}
    (hV : ∀ row col, h.grid.CellInside row col → ∀ l : Nat, l < n → ∃ w, r.getValue row col ((l : Int) + 1) = .ok w ∧ V l row col w)
    {upd : Bool} {new : ℚ} {p : Path} {dt core suf : Str} {first : Int} (ho : OutLayers env fmt d p dt core suf n first)
    {K : Int → Int → Prop} (hK : ∀ row col, h.grid.CellInside row col → (K row col ↔ CCGL.Spec.Stored r row col))
    (hh : CarriesHeader suf { h with noData := renamedNd upd nd new })
    (hcv : ∀ row col, h.grid.CellInside row col → ∀ l : Nat, l < n → ∀ w, V l row col w → CarriesValue fmt suf (renamed upd nd new w))
    (hnv : CarriesValue fmt suf (renamedNd upd nd new)) (subs : IMap Subset) :
    ∃ r1 d', (if upd then r.replaceNoData new else .ok r : Out Raster) = .ok r1 ∧
      outputToFile env fmt d ⟨r1, subs⟩ (dt ++ core ++ '.' :: suf) true = .ok (⟨r1, subs⟩, true, d') ∧
      Rewritten d d' (fun q => ∃ l : Nat, l < n ∧ q = p ++ [core ++ '_' :: intToDec ((l : Int) + first) ++ '.' :: suf]) ∧
      LayersOut d' dt core suf first h upd nd new n K V := by
  obtain ⟨r1, e3, hb', hnc', h2d', hly', hhdr, hnd', hval'⟩ := rename_step hb upd new
  rw [hnd] at hhdr hnd' hval'
  have hgr2 : r1.hdr.grid = h.grid := by rw [hhdr]; exact hgr
  have hnd2 : r1.hdr.noData = renamedNd upd nd new := by rw [hhdr]
  have hgr3 := hgr2
  unfold Header.grid at hgr3
  injection hgr3 with g1 g2 g3 g4 g5
  have hch : CarriesHeader suf r1.hdr := by
    unfold CarriesHeader at hh ⊢
    rw [g1, g2, g3, g4, g5, hnd2]
    exact hh
  have h2' : r1.is2d = true := by rw [h2d', h2]
  have hl' : r1.nLyrs = n := by rw [hly', hl]
  have hn' : 0 < r1.nCells := by rw [hnc']; exact hn
  have hv := built_valid hb' hn'
  have hc : ∀ row col lyr v, 0 ≤ row → row < r1.hdr.rows → 0 ≤ col → col < r1.hdr.cols → 1 ≤ lyr → lyr ≤ r1.nLyrs →
      r1.getValue row col lyr = .ok v → CarriesValue fmt suf v := by
    intro row col lyr v a1 a2 a3 a4 a5 a6 e
    rw [hl'] at a6
    have hin : h.grid.CellInside row col := ⟨a1, by rw [g1] at a2; exact a2, a3, by rw [g2] at a4; exact a4⟩
    have hly : ((lyr - 1).toNat : Int) + 1 = lyr := by omega
    obtain ⟨w, w1, w2⟩ := hV row col hin (lyr - 1).toNat (by omega)
    rw [hly] at w1
    obtain ⟨y, y1, y2⟩ := hval' row col lyr
    rw [w1] at y1
    cases y1
    rw [e] at y2
    cases y2
    exact hcv row col hin _ (by omega) w w2
  have hnv' : CarriesValue fmt suf r1.noData := by rw [hnd']; exact hnv
  have fin : (∃ d', outputToFile env fmt d ⟨r1, subs⟩ (dt ++ core ++ '.' :: suf) true = .ok (⟨r1, subs⟩, true, d') ∧
      Rewritten d d' (fun q => ∃ l : Nat, (l : Int) < r1.nLyrs ∧ q = p ++ [wholeCore core r1.is2d first l ++ '.' :: suf]) ∧
      ∀ l : Nat, (l : Int) < r1.nLyrs → ∃ v, ReadsAs d' (dt ++ wholeCore core r1.is2d first l ++ '.' :: suf) r1.hdr v ∧
        ∀ row col, 0 ≤ row → row < r1.hdr.rows → 0 ≤ col → col < r1.hdr.cols →
          (CCGL.Spec.Stored r1 row col ∨ IsTifSuffix suf → r1.getValue row col ((l : Int) + 1) = .ok (v row col)) ∧
          (¬ CCGL.Spec.Stored r1 row col → IsAscSuffix suf → r1.getValue row col ((l : Int) + 1) = .ok r1.noData ∧ v row col = -9999)) →
      ∃ r1' d', (if upd then r.replaceNoData new else .ok r : Out Raster) = .ok r1' ∧
      outputToFile env fmt d ⟨r1', subs⟩ (dt ++ core ++ '.' :: suf) true = .ok (⟨r1', subs⟩, true, d') ∧
      Rewritten d d' (fun q => ∃ l : Nat, l < n ∧ q = p ++ [core ++ '_' :: intToDec ((l : Int) + first) ++ '.' :: suf]) ∧
      LayersOut d' dt core suf first h upd nd new n K V := by
    rintro ⟨d', e, hrw, hR⟩
    have hcore : ∀ l : Nat, wholeCore core r1.is2d first l = core ++ '_' :: intToDec ((l : Int) + first) := by
      intro l
      unfold wholeCore
      rw [h2', if_pos rfl]
    refine ⟨r1, d', e3, e, ?_, ?_⟩
    · have hp : (fun q => ∃ l : Nat, (l : Int) < r1.nLyrs ∧ q = p ++ [wholeCore core r1.is2d first l ++ '.' :: suf]) =
          (fun q => ∃ l : Nat, l < n ∧ q = p ++ [core ++ '_' :: intToDec ((l : Int) + first) ++ '.' :: suf]) := by
        funext q
        apply propext
        constructor
        · rintro ⟨l, hl1, rfl⟩
          exact ⟨l, by omega, by rw [hcore]⟩
        · rintro ⟨l, hl1, rfl⟩
          exact ⟨l, by omega, by rw [hcore]⟩
      rw [hp] at hrw
      exact hrw
    · intro l hln
      obtain ⟨v, v1, v2⟩ := hR l (by omega)
      rw [hcore] at v1
      have v1' : ReadsAs d' (dt ++ core ++ '_' :: intToDec ((l : Int) + first) ++ '.' :: suf) r1.hdr v := by
        have : dt ++ (core ++ '_' :: intToDec ((l : Int) + first)) ++ '.' :: suf = dt ++ core ++ '_' :: intToDec ((l : Int) + first) ++ '.' :: suf := by simp
        rw [← this]
        exact v1
      refine ⟨v, ReadsAs.change v1' hgr2.symm hnd2.symm (fun _ _ _ => rfl), ?_⟩
      intro row col hin
      obtain ⟨w, w1, w2⟩ := hV row col hin l hln
      obtain ⟨y, y1, y2⟩ := hval' row col ((l : Int) + 1)
      rw [w1] at y1
      cases y1
      obtain ⟨z1, z2⟩ := v2 row col hin.1 (by rw [g1]; exact hin.2.1) hin.2.2.1 (by rw [g2]; exact hin.2.2.2)
      have hst1 : CCGL.Spec.Stored r1 row col ↔ K row col := (stored_same hb hn hb' hn' (rename_pos e3).1 (by rw [hhdr]) (by rw [hhdr]) row col).trans (hK row col hin).symm
      rw [hst1] at z1 z2
      refine ⟨fun hh => ?_, fun hk ha => (z2 hk ha).2⟩
      by_cases hk : K row col ∨ IsTifSuffix suf
      · rw [z1 hk] at y2
        injection y2 with y2
        exact ⟨w, w2, y2⟩
      · have hk' : ¬ K row col := fun h => hk (.inl h)
        have ht : ¬ IsTifSuffix suf := fun h => hk (.inr h)
        have ha : IsAscSuffix suf := by
          rcases ho.suf with h | h
          · exact h.1
          · exact absurd h.1 ht
        obtain ⟨x1, x2⟩ := z2 hk' ha
        rw [x1] at y2
        injection y2 with y2
        refine ⟨w, w2, ?_⟩
        rw [x2, ← y2, hnd']
        rcases hh with h | h | h
        · exact absurd h hk'
        · exact absurd h ht
        · exact h.symm
  have hw : ∀ l : Nat, (l : Int) < r1.nLyrs → Writable env d.fs (p ++ [wholeCore core r1.is2d first l ++ '.' :: suf]) := by
    intro l hl1
    unfold wholeCore
    rw [h2', if_pos rfl]
    exact ho.write l (by omega)
  apply fin
  rcases ho.suf with ⟨hs, rfl, hnine⟩ | ⟨hs, rfl, hty⟩
  · obtain ⟨d', e, q1, q2⟩ := C75_whole_asc_gaps hb' hv (fun _ => hn') subs ho.name hs ho.nodir hw hch (fun _ _ _ _ _ _ _ _ => hnine) hc hnv'
    refine ⟨d', e, q1, fun l hl => ?_⟩
    obtain ⟨v, v1, v2⟩ := q2 l hl
    refine ⟨v, v1, fun row col a1 a2 a3 a4 => ?_⟩
    obtain ⟨z1, z2⟩ := v2 row col a1 a2 a3 a4
    rw [h2', if_pos rfl] at z2
    exact ⟨fun h => z1 (h.resolve_right (fun ht => asc_not_tif hs ht)), fun h _ => z2 h⟩
  · obtain ⟨d', e, q1, q2⟩ := C75_whole_tif_partial hb' hv (fun _ => hn') subs ho.name hs hty ho.nodir hw hch hc hnv'
    refine ⟨d', e, q1, fun l hl => ?_⟩
    obtain ⟨v, v1, v2⟩ := q2 l hl
    exact ⟨v, v1, fun row col a1 a2 a3 a4 => ⟨fun _ => v2 row col a1 a2 a3 a4, fun _ ha => (asc_not_tif ha hs).elim⟩⟩

theorem carried_layer {fmt : Disk.Fmt} {suf : Str} {hR : Header} {vR : Int → Int → ℚ} {dv : ℚ} {upd : Bool} {new : ℚ} (h : Carried fmt suf hR vR dv upd new) {l : LayerFile}
    (hl : ∀ i j, l.hdr.grid.CellInside i j → CarriesValue fmt suf (l.val i j)) {hM : Header} {vM : Int → Int → ℚ} {row col : Int} {w : ℚ}
    (hw : LayerCell hM vM hR.noData l row col w) : CarriesValue fmt suf (renamed upd hR.noData new w) := by
  unfold renamed
  split
  · next hu => exact h.new hu.1
  · by_cases hv : HasValue hM vM row col
    · by_cases hx : ∃ i j, SameCell l.hdr hM i j row col
      · obtain ⟨i, j, hij⟩ := hx
        rw [hw.taken hv i j hij]
        split
        · exact h.nodata
        · exact hl i j hij.1
      · rw [hw.none (.inr hx)]; exact h.nodata
    · rw [hw.none (.inl hv)]; exact h.nodata

/-- Running a job of the mode MASK whose raster is known. -/
theorem layer_job {sys : Sys} {d : Disk} {mask mask' : Option RasterS} {j : Job} {r r1 : Raster} {subs : IMap Subset} {d' : Disk} {ok : Bool} {rs1 : RasterS}
    (hin : j.inFmt = .sfile) (hfe : filesExist d.fs j.inputs = true)
    (hi : initFiles d j.inputs false mask true j.default.toQ = .ok (some ⟨r, subs⟩, mask'))
    (e3 : (if j.update then r.replaceNoData j.nodata.toQ else .ok r : Out Raster) = .ok r1) (hre : j.recls = false) (hout : j.outFmt = .sfile)
    (o1 : outputToFile sys.env (sys.fmt j.type) d ⟨r1, subs⟩ j.out true = .ok (rs1, ok, d')) :
    layerJob sys .mask (d, mask) j = .ok (d', mask') := by
  unfold layerJob
  rw [if_pos ⟨hin, hfe⟩, hi]
  simp only [Out.ok_bind]
  rw [e3]
  simp only [Out.ok_bind, hre, Bool.false_eq_true, if_false, Out.pure_eq]
  unfold writeJob
  rw [if_neg (by rw [hout]; simp), hre]
  simp only [Bool.false_eq_true, if_false]
  have q1 : outSubset .mask = false := by decide
  have q2 : outAll .mask = true := by decide
  rw [q1, q2]
  simp only [Bool.false_eq_true, if_false, if_true, Out.pure_eq, Out.ok_bind]
  rw [o1]
  rfl

theorem exist_all {d : Disk} {s : Str} {h : Header} {v : Int → Int → ℚ} {rest : List LayerFile} (H : RasterFile d s h v)
    (hl : ∀ l ∈ rest, RasterFile d l.path l.hdr l.val) : filesExist d.fs (s :: rest.map (·.path)) = true := by
  unfold filesExist
  rw [if_neg (by simp), List.all_cons, (file_decode H).1, Bool.true_and, List.all_eq_true]
  intro x hx
  obtain ⟨l, h1, rfl⟩ := List.mem_map.1 hx
  exact (file_decode (hl l h1)).1

theorem init_files {d : Disk} {s : Str} {rest : List LayerFile} (hne : rest ≠ []) (hfe : filesExist d.fs (s :: rest.map (·.path)) = true) {mask mask' : Option RasterS} {dv : ℚ}
    {r r' : Raster} {layers : List (Header × Ptr ℚ)} (hi : initFile d s false mask true dv = .ok (some ⟨r, []⟩, mask'))
    (hl : (rest.map (·.path)).mapM (readLayer d) = .ok layers) (ha : r.addLayers layers = .ok r') :
    initFiles d (s :: rest.map (·.path)) false mask true dv = .ok (some ⟨r', []⟩, mask') := by
  unfold initFiles
  rw [hfe]
  simp only [Bool.not_true, Bool.false_eq_true, if_false]
  cases rest with
  | nil => exact absurd rfl hne
  | cons l rest =>
    rw [List.map_cons] at hl ⊢
    dsimp only
    rw [hi]
    simp only [Out.ok_bind]
    rw [hl]
    simp only [Out.ok_bind]
    rw [ha]
    rfl

end App
end CCGL
