import Verif.Lemmas.AppReclsL
/-!
# C98: reclassification jobs of `mask_rasterio` with several input files
-/
namespace CCGL
namespace App
open Fs Disk Main Raster Disk.Spec App.Spec

theorem addLayers_keeps {r r' : Raster} {layers : List (Header × Ptr ℚ)} (e : r.addLayers layers = .ok r') :
    r'.dflt = r.dflt ∧ r'.posData = r.posData ∧ r'.posIdx = r.posIdx := by
  unfold Raster.addLayers at e
  obtain ⟨cs, -, e⟩ := Out.bind_ok e
  simp only [Out.pure_eq, Out.ok.injEq] at e
  rw [← e]
  exact ⟨rfl, rfl, rfl⟩

/-- As `plain_layers` below; no positions. -/
theorem plain_layers_pos {d : Disk} {hR : Header} {vR : Int → Int → ℚ} {s : Str} {rest : List LayerFile} (hne : rest ≠ []) (H : RasterFile d s hR vR)
    (Hl : ∀ l ∈ rest, RasterFile d l.path l.hdr l.val) (hgl : ∀ l ∈ rest, CCGL.Spec.CommonGrid l.hdr hR) (dv : ℚ) :
    ∃ r', initFiles d (s :: rest.map (·.path)) false none true dv = .ok (some ⟨r', []⟩, none) ∧ filesExist d.fs (s :: rest.map (·.path)) = true ∧
      CCGL.Spec.Built r' ∧ 0 < r'.nCells ∧ r'.is2d = true ∧ r'.nLyrs = rest.length + 1 ∧ r'.hdr.grid = hR.grid ∧ r'.noData = hR.noData ∧
      r'.dflt = checkDefault dv hR.noData ∧ r'.posData = none ∧
      ∀ row col, hR.grid.CellInside row col → ∀ l : Nat, l < rest.length + 1 → ∃ w, r'.getValue row col ((l : Int) + 1) = .ok w ∧
        PlainLayers hR vR rest l row col w := by
  obtain ⟨M, eM, hb, -, hgM, hnM, hvM, h2M, hlM, hcM⟩ := mask_file H dv
  have hpos : M.posData = none ∧ M.posIdx = none := by
    obtain ⟨hex, h', cells, e, -⟩ := file_decode H
    have := readFromFile_none d s _ hex e dv
    rw [eM] at this
    injection this with this
    injection this with this
    rw [this]
    exact ⟨rfl, rfl⟩
  have hst : ∀ row col, hR.grid.CellInside row col → CCGL.Spec.Stored M row col := by
    intro row col hin
    rcases hb.inv with ⟨ls, loc, hi⟩ | ⟨-, hE⟩
    · have hst' := hi.stored
      cases hi with
      | full h =>
        refine (hst' row col).2 ?_
        unfold fullLoc
        have : 0 ≤ row ∧ row < M.hdr.rows ∧ 0 ≤ col ∧ col < M.hdr.cols := by
          have h : M.hdr.grid.CellInside row col := by rw [hgM]; exact hin
          exact h
        rw [if_pos this]
        exact ⟨_, rfl⟩
      | comp h => rw [h.pd] at hpos; cases hpos.1
      | empty h _ => rw [h.pd] at hpos; cases hpos.1
    · rw [hE.pd] at hpos; cases hpos.1
  have hK : ∀ row col, hR.grid.CellInside row col → (HasValue hR vR row col ↔ CCGL.Spec.Stored M row col ∧
      ∀ x, M.getValue row col 1 = .ok x → ((M.posData.isNone && M.posIdx.isNone) && floatEqual M.noData x) = false) := by
    intro row col hc
    rw [hpos.1, hpos.2]
    have hsym : ∀ x, floatEqual hR.noData x = floatEqual x hR.noData := fun x => by (unfold floatEqual; rw [abs_sub_comm])
    constructor
    · rintro ⟨-, h⟩
      refine ⟨hst row col hc, fun x hx => ?_⟩
      rw [hvM row col hc] at hx
      injection hx with hx
      rw [← hx, hnM, hsym, h]
      rfl
    · rintro ⟨-, h⟩
      have := h _ (hvM row col hc)
      rw [hnM, hsym] at this
      simp only [Option.isNone_none, Bool.true_and] at this
      exact ⟨hc, this⟩
  obtain ⟨layers, r', el, er, hb', h2', hl', hnc', hgr', hnd', hnd2, hv1, hv2⟩ := add_files Hl hgl hb h2M hcM hgM hK
  have hfe := exist_all H Hl
  have hi : initFile d s false none true dv = .ok (some ⟨M, []⟩, none) := by
    unfold initFile
    dsimp only
    rw [eM]
    rfl
  have hi2 := init_files hne hfe hi el er
  have hVal : ∀ row col, hR.grid.CellInside row col → ∀ l : Nat, l < rest.length + 1 → ∃ w, r'.getValue row col ((l : Int) + 1) = .ok w ∧
      PlainLayers hR vR rest l row col w := by
    intro row col hin l hln
    cases l with
    | zero =>
      refine ⟨vR row col, ?_, fun _ => rfl, fun k hk h => by cases h⟩
      show r'.getValue row col (0 + 1) = _
      rw [zero_add, hv1 row col hin, hvM row col hin]
    | succ k =>
      obtain ⟨w, w1, w2, w3⟩ := hv2 row col hin k (by omega)
      refine ⟨w, ?_, ⟨fun h => absurd h (by omega), ?_⟩⟩
      · rw [← w1]; congr 1
      · intro k' hk' h
        have : k = k' := by omega
        subst this
        rw [hnM] at w2 w3
        exact ⟨w2, w3⟩
  refine ⟨r', hi2, hfe, hb', (by rw [hnc']; assumption), h2', hl', hgr', hnd2.trans hnM, ?_, (by rw [(addLayers_keeps er).2.1, hpos.1]), hVal⟩
  rw [(addLayers_keeps er).1]
  obtain ⟨hex, h', cells, e, -, hn', -⟩ := file_decode H
  have e1 := readFromFile_none d s _ hex e dv
  rw [eM] at e1
  injection e1 with e1
  injection e1 with e1
  rw [e1, ← hn']
  rfl

/-- The raster read from several files without mask. -/
theorem plain_layers {d : Disk} {hR : Header} {vR : Int → Int → ℚ} {s : Str} {rest : List LayerFile} (hne : rest ≠ []) (H : RasterFile d s hR vR)
    (Hl : ∀ l ∈ rest, RasterFile d l.path l.hdr l.val) (hgl : ∀ l ∈ rest, CCGL.Spec.CommonGrid l.hdr hR) (dv : ℚ) :
    ∃ r', initFiles d (s :: rest.map (·.path)) false none true dv = .ok (some ⟨r', []⟩, none) ∧ filesExist d.fs (s :: rest.map (·.path)) = true ∧
      CCGL.Spec.Built r' ∧ 0 < r'.nCells ∧ r'.is2d = true ∧ r'.nLyrs = rest.length + 1 ∧ r'.hdr.grid = hR.grid ∧ r'.noData = hR.noData ∧
      r'.dflt = checkDefault dv hR.noData ∧
      ∀ row col, hR.grid.CellInside row col → ∀ l : Nat, l < rest.length + 1 → ∃ w, r'.getValue row col ((l : Int) + 1) = .ok w ∧
        PlainLayers hR vR rest l row col w := by
  obtain ⟨r', h1, h2, h3, h4, h5, h6, h7, h8, h9, -, h11⟩ := plain_layers_pos hne H Hl hgl dv
  exact ⟨r', h1, h2, h3, h4, h5, h6, h7, h8, h9, h11⟩

theorem stored_mem {r : Raster} (hb : CCGL.Spec.Built r) (hc : 0 < r.nCells) (hl : 1 ≤ r.nLyrs) {ps : List (Int × Int)} (hp : r.posData = some ps)
    {row col : Int} (hin : r.hdr.grid.CellInside row col) : CCGL.Spec.Stored r row col ↔ (row, col) ∈ ps := by
  rcases built_cases hb (built_valid hb hc) (fun _ => hc) with ⟨ls, hf⟩ | ⟨ls, ps', hc⟩
  · rw [hf.pd] at hp; cases hp
  · have hps : ps' = ps := by
      have := hc.pd
      rw [hp] at this
      injection this with this
      exact this.symm
    subst hps
    constructor
    · rintro ⟨i, hi⟩
      rcases hc.getPosition row col hin with ⟨m, hm, q1, q2⟩ | ⟨q1, -⟩
      · rw [← q2]; exact List.getElem_mem hm
      · rw [q1] at hi
        injection hi with hi
        omega
    · intro hm
      obtain ⟨i, hi, e⟩ := List.getElem_of_mem hm
      exact ⟨i, (hc.getValue_hit row col 1 i hi e ⟨le_rfl, hl⟩).1⟩

/-- As `masked_layers` below, with the stored cells. -/
theorem masked_layers_pos {d : Disk} {m : Raster} {hM hR : Header} {vM vR : Int → Int → ℚ} (hm : IsMask m hM vM) {s : Str} {rest : List LayerFile}
    (hne : rest ≠ []) (H : RasterFile d s hR vR)
    (Hl : ∀ l ∈ rest, RasterFile d l.path l.hdr l.val) (hg : CCGL.Spec.CommonGrid hR hM) (hgl : ∀ l ∈ rest, CCGL.Spec.CommonGrid l.hdr hM)
    (hov : Overlaps hM vM hR) (dv : ℚ) :
    ∃ r' m', initFiles d (s :: rest.map (·.path)) false (some ⟨m, []⟩) true dv = .ok (some ⟨r', []⟩, some ⟨m', []⟩) ∧ IsMask m' hM vM ∧
      filesExist d.fs (s :: rest.map (·.path)) = true ∧
      CCGL.Spec.Built r' ∧ 0 < r'.nCells ∧ r'.is2d = true ∧ r'.nLyrs = rest.length + 1 ∧ r'.hdr.grid = hM.grid ∧ r'.noData = hR.noData ∧
      r'.dflt = checkDefault dv hR.noData ∧
      (∃ ps, r'.posData = some ps ∧ ∀ row col, hM.grid.CellInside row col → ((row, col) ∈ ps ↔ HasValue hM vM row col)) ∧
      ∀ row col, hM.grid.CellInside row col → ∀ l : Nat, l < rest.length + 1 → ∃ w, r'.getValue row col ((l : Int) + 1) = .ok w ∧
        MaskedLayers hM vM hR vR dv rest l row col w := by
  obtain ⟨x, res, hex, e1, e2, hcode, hm', hb, hnc, h2d, hly, hgr, hnd, hpd, hst, hval⟩ := file_masked_stored hm H hg hov dv
  have hK : ∀ row col, hM.grid.CellInside row col → (HasValue hM vM row col ↔ CCGL.Spec.Stored res.ras row col ∧
      ∀ x, res.ras.getValue row col 1 = .ok x → ((res.ras.posData.isNone && res.ras.posIdx.isNone) && floatEqual res.ras.noData x) = false) := by
    intro row col hc
    rw [hst row col hc, hpd]
    exact ⟨fun h => ⟨h, fun _ _ => rfl⟩, fun h => h.1⟩
  obtain ⟨layers, r', el, er, hb', h2', hl', hnc', hgr', hnd', hnd2, hv1, hv2⟩ := add_files Hl hgl hb h2d hnc hgr hK
  have hfe := exist_all H Hl
  have hi : initFile d s false (some ⟨m, []⟩) true dv = .ok (some ⟨res.ras, []⟩, some ⟨res.mask, []⟩) := by
    unfold initFile
    rw [hex]
    simp only [Bool.not_true, Bool.false_eq_true, if_false]
    rw [e1]
    simp only [Out.ok_bind]
    unfold maskRasterS
    rw [e2]
    simp only [Out.ok_bind, or_true, if_true, Out.pure_eq, hcode]
    rfl
  have hi2 := init_files hne hfe hi el er
  have hVal : ∀ row col, hM.grid.CellInside row col → ∀ l : Nat, l < rest.length + 1 → ∃ w, r'.getValue row col ((l : Int) + 1) = .ok w ∧
      MaskedLayers hM vM hR vR dv rest l row col w := by
    intro row col hin l hln
    cases l with
    | zero =>
      obtain ⟨w, w1, w2⟩ := hval row col hin
      refine ⟨w, ?_, fun _ => w2, fun k hk h => by cases h⟩
      show r'.getValue row col (0 + 1) = _
      rw [zero_add, hv1 row col hin, w1]
    | succ k =>
      obtain ⟨w, w1, w2, w3⟩ := hv2 row col hin k (by omega)
      refine ⟨w, ?_, ⟨fun h => absurd h (by omega), ?_⟩⟩
      · rw [← w1]; congr 1
      · intro k' hk' h
        have : k = k' := by omega
        subst this
        rw [hnd] at w2 w3
        exact ⟨w2, w3⟩
  refine ⟨r', res.mask, hi2, hm', hfe, hb', (by rw [hnc']; assumption), h2', hl', hgr', hnd2.trans hnd, ?_, ?_, hVal⟩
  rotate_left
  · cases hp : res.ras.posData with
    | none => rw [hp] at hpd; cases hpd
    | some ps =>
      refine ⟨ps, by rw [(addLayers_keeps er).2.1, hp], fun row col hc => ?_⟩
      rw [← stored_mem hb hnc (by rw [hly]) hp (by rw [hgr]; exact hc), hst row col hc]
  obtain ⟨-, h', cells, e, -, hn', -⟩ := file_decode H
  rw [e] at e1
  injection e1 with e1
  injection e1 with e1
  subst e1
  rw [(addLayers_keeps er).1, maskRaster_dflt e2, ← hn']
  rfl

/-- The raster read from several files with a mask (no subsets). -/
theorem masked_layers {d : Disk} {m : Raster} {hM hR : Header} {vM vR : Int → Int → ℚ} (hm : IsMask m hM vM) {s : Str} {rest : List LayerFile}
    (hne : rest ≠ []) (H : RasterFile d s hR vR)
    (Hl : ∀ l ∈ rest, RasterFile d l.path l.hdr l.val) (hg : CCGL.Spec.CommonGrid hR hM) (hgl : ∀ l ∈ rest, CCGL.Spec.CommonGrid l.hdr hM)
    (hov : Overlaps hM vM hR) (dv : ℚ) :
    ∃ r' m', initFiles d (s :: rest.map (·.path)) false (some ⟨m, []⟩) true dv = .ok (some ⟨r', []⟩, some ⟨m', []⟩) ∧ IsMask m' hM vM ∧
      filesExist d.fs (s :: rest.map (·.path)) = true ∧
      CCGL.Spec.Built r' ∧ 0 < r'.nCells ∧ r'.is2d = true ∧ r'.nLyrs = rest.length + 1 ∧ r'.hdr.grid = hM.grid ∧ r'.noData = hR.noData ∧
      r'.dflt = checkDefault dv hR.noData ∧
      ∀ row col, hM.grid.CellInside row col → ∀ l : Nat, l < rest.length + 1 → ∃ w, r'.getValue row col ((l : Int) + 1) = .ok w ∧
        MaskedLayers hM vM hR vR dv rest l row col w := by
  obtain ⟨r', m', h1, h2, h3, h4, h5, h6, h7, h8, h9, h10, -, h11⟩ := masked_layers_pos hm hne H Hl hg hgl hov dv
  exact ⟨r', m', h1, h2, h3, h4, h5, h6, h7, h8, h9, h10, h11⟩

theorem cut_lyrs {r : Raster} {subs : IMap Subset} {ls ps G} (h : Cut ⟨r, subs⟩ ls ps G) (n : Int) :
    Cut ⟨r, subs.map (fun e => (e.1, { e.2 with nLyrs := n }))⟩ ls ps G := by
  have hget : ∀ k, IMap.get (subs.map (fun e => (e.1, { e.2 with nLyrs := n }))) k = (IMap.get subs k).map (fun s => { s with nLyrs := n }) :=
    fun k => IMap.get_mapVal subs (fun _ s => { s with nLyrs := n }) k
  have hs : ∀ k s', IMap.get (subs.map (fun e => (e.1, { e.2 with nLyrs := n }))) k = some s' → ∃ s, subs.get k = some s ∧ s' = { s with nLyrs := n } := by
    intro k s' hk
    rw [hget] at hk
    obtain ⟨s, a, b⟩ := Option.map_eq_some_iff.1 hk
    exact ⟨s, a, b.symm⟩
  refine ⟨h.comp, ⟨?_, ?_, ?_, h.part.lt, h.part.nodup, h.part.disj⟩, h.asc, h.one, ?_, n, ?_⟩
  · have := h.part.sorted
    dsimp only at this ⊢
    rw [List.map_map]
    exact this
  · intro k s' hk
    obtain ⟨s, a, rfl⟩ := hs k s' hk
    exact (h.part.some k s a).same ⟨rfl, rfl, rfl, rfl, rfl, rfl, rfl, rfl⟩
  · intro k hk
    dsimp only at hk
    rw [hget, Option.map_eq_none_iff] at hk
    exact h.part.none k hk
  · intro k s' hk
    obtain ⟨s, a, rfl⟩ := hs k s' hk
    exact h.use k s a
  · intro k s' hk
    obtain ⟨s, a, rfl⟩ := hs k s' hk
    rfl

theorem in_lyrs {subs : IMap Subset} (n : Int) (k row col : Int) :
    (∃ s, IMap.get (subs.map (fun e => (e.1, { e.2 with nLyrs := n }))) k = some s ∧ CCGL.Spec.InSubset s row col) ↔
      ∃ s, subs.get k = some s ∧ CCGL.Spec.InSubset s row col := by
  have hget : IMap.get (subs.map (fun e => (e.1, { e.2 with nLyrs := n }))) k = (IMap.get subs k).map (fun s => { s with nLyrs := n }) :=
    IMap.get_mapVal subs (fun _ s => { s with nLyrs := n }) k
  rw [hget]
  constructor
  · rintro ⟨s, a, b⟩
    obtain ⟨s', c, rfl⟩ := Option.map_eq_some_iff.1 a
    exact ⟨s', c, b⟩
  · rintro ⟨s, a, b⟩
    exact ⟨{ s with nLyrs := n }, by rw [a]; rfl, b⟩

theorem init_filesS {d : Disk} {s : Str} {rest : List LayerFile} (hne : rest ≠ []) (hfe : filesExist d.fs (s :: rest.map (·.path)) = true) {mask mask' : Option RasterS} {dv : ℚ}
    {r r' : Raster} {subs : IMap Subset} {layers : List (Header × Ptr ℚ)} (hi : initFile d s false mask true dv = .ok (some ⟨r, subs⟩, mask'))
    (hl : (rest.map (·.path)).mapM (readLayer d) = .ok layers) (ha : r.addLayers layers = .ok r') :
    initFiles d (s :: rest.map (·.path)) false mask true dv =
      .ok (some ⟨r', subs.map (fun e => (e.1, { e.2 with nLyrs := (rest.length : Int) + 1 }))⟩, mask') := by
  unfold initFiles
  rw [hfe]
  simp only [Bool.not_true, Bool.false_eq_true, if_false]
  cases rest with
  | nil => exact absurd rfl hne
  | cons l rest =>
    rw [List.map_cons] at hl ⊢
    dsimp only
    rw [hi]
    simp only [Out.ok_bind]
    rw [hl]
    simp only [Out.ok_bind]
    rw [ha]
    simp only [Out.ok_bind, List.length_cons, List.length_map]
    rfl

/-- The raster read from several files with a mask that has subsets. -/
theorem grouped_layers_pos {d : Disk} {m : RasterS} {hM hR : Header} {vM vR : Int → Int → ℚ} (hm : CutMask m hM vM) {s : Str} {rest : List LayerFile}
    (hne : rest ≠ []) (H : RasterFile d s hR vR)
    (Hl : ∀ l ∈ rest, RasterFile d l.path l.hdr l.val) (hg : CCGL.Spec.CommonGrid hR hM) (hco : CCGL.Spec.CoordsPresent hM)
    (hgl : ∀ l ∈ rest, CCGL.Spec.CommonGrid l.hdr hM) (hov : Overlaps hM vM hR) (dv : ℚ) :
    ∃ r' subs, initFiles d (s :: rest.map (·.path)) false (some m) true dv = .ok (some ⟨r', subs⟩, some m) ∧
      filesExist d.fs (s :: rest.map (·.path)) = true ∧
      CCGL.Spec.Built r' ∧ 0 < r'.nCells ∧ r'.is2d = true ∧ r'.nLyrs = rest.length + 1 ∧ r'.hdr.grid = hM.grid ∧ r'.noData = hR.noData ∧
      r'.dflt = checkDefault dv hR.noData ∧
      (∀ row col, hM.grid.CellInside row col → r'.getValue row col 1 = .ok (maskedVal hM vM hR vR dv row col)) ∧
      (∀ row col, hM.grid.CellInside row col → ∀ l : Nat, l < rest.length + 1 → ∃ w, r'.getValue row col ((l : Int) + 1) = .ok w ∧
        MaskedLayers hM vM hR vR dv rest l row col w) ∧
      Bare subs ∧
      (∃ ps, r'.posData = some ps ∧ ∀ row col, hM.grid.CellInside row col → ((row, col) ∈ ps ↔ HasValue hM vM row col)) ∧
      (∀ r2 : Raster, CCGL.Spec.Built r2 → r2.posData = r'.posData → ∃ ls ps G, Cut ⟨r2, subs⟩ ls ps G) ∧
      ∀ k row col, having (byValue hM vM) (fun row col => floatEqual (maskedVal hM vM hR vR dv row col) hR.noData = false) k row col ↔
        ∃ s, subs.get k = some s ∧ CCGL.Spec.InSubset s row col := by
  obtain ⟨x, res, subs', hex, ex, em, hcode, hmk, hb, hnc, h2d, hly, hdf, hgr, hnd, hval, hbare, hcut, hgrp⟩ := file_masked_groups hm H hg hco hov dv
  obtain ⟨x2, res2, -, ex2, em2, -, -, -, -, -, -, -, -, hpd, hst, hval2⟩ := file_masked_stored hm.isMask H hg hov dv
  rw [ex] at ex2
  injection ex2 with ex2
  injection ex2 with ex2
  subst ex2
  have hres : res2 = res := by
    have em' := em
    unfold maskRasterS at em'
    rw [em2] at em'
    simp only [Out.ok_bind] at em'
    split at em'
    · simp only [Out.pure_eq, Out.ok.injEq, Prod.mk.injEq] at em'
      exact em'.1
    · obtain ⟨y, -, em'⟩ := Out.bind_ok em'
      simp only [Out.pure_eq, Out.ok.injEq, Prod.mk.injEq] at em'
      exact em'.1
  subst hres
  have hK : ∀ row col, hM.grid.CellInside row col → (HasValue hM vM row col ↔ CCGL.Spec.Stored res2.ras row col ∧
      ∀ x, res2.ras.getValue row col 1 = .ok x → ((res2.ras.posData.isNone && res2.ras.posIdx.isNone) && floatEqual res2.ras.noData x) = false) := by
    intro row col hc
    rw [hst row col hc, hpd]
    exact ⟨fun h => ⟨h, fun _ _ => rfl⟩, fun h => h.1⟩
  obtain ⟨layers, r', el, er, hb', h2', hl', hnc', hgr', hnd', hnd2, hv1, hv2⟩ := add_files Hl hgl hb h2d hnc hgr hK
  have hfe := exist_all H Hl
  have hi : initFile d s false (some m) true dv = .ok (some ⟨res2.ras, subs'⟩, some m) := by
    unfold initFile
    rw [hex]
    simp only [Bool.not_true, Bool.false_eq_true, if_false]
    rw [ex]
    simp only [Out.ok_bind]
    rw [em]
    simp only [Out.ok_bind, Out.pure_eq, hcode, hmk]
    rfl
  have hi2 := init_filesS hne hfe hi el er
  refine ⟨r', _, hi2, hfe, hb', by rw [hnc']; exact hnc, h2', hl', hgr', hnd2.trans hnd, by rw [(addLayers_keeps er).1, hdf], ?_, ?_, ?_, ?_, ?_, ?_⟩
  · intro row col hin
    rw [hv1 row col hin, hval row col hin]
  · intro row col hin l hln
    cases l with
    | zero =>
      obtain ⟨w, w1, w2⟩ := hval2 row col hin
      refine ⟨w, ?_, fun _ => w2, fun k hk h => by cases h⟩
      show r'.getValue row col (0 + 1) = _
      rw [zero_add, hv1 row col hin, w1]
    | succ k =>
      obtain ⟨w, w1, w2, w3⟩ := hv2 row col hin k (by omega)
      refine ⟨w, ?_, ⟨fun h => absurd h (by omega), ?_⟩⟩
      · rw [← w1]; congr 1
      · intro k' hk' h
        have : k = k' := by omega
        subst this
        rw [hnd] at w2 w3
        exact ⟨w2, w3⟩
  · intro e he
    obtain ⟨e', h1, rfl⟩ := List.mem_map.1 he
    exact hbare e' h1
  · cases hp : res2.ras.posData with
    | none => rw [hp] at hpd; cases hpd
    | some ps =>
      refine ⟨ps, by rw [(addLayers_keeps er).2.1, hp], fun row col hc => ?_⟩
      rw [← stored_mem hb hnc (by rw [hly]) hp (by rw [hgr]; exact hc), hst row col hc]
  · intro r2 hb2 hp2
    obtain ⟨ls, ps, G, hC⟩ := hcut r2 hb2 (by rw [hp2, (addLayers_keeps er).2.1])
    exact ⟨ls, ps, G, cut_lyrs hC _⟩
  · intro k row col
    rw [in_lyrs]
    exact hgrp k row col

theorem grouped_layers {d : Disk} {m : RasterS} {hM hR : Header} {vM vR : Int → Int → ℚ} (hm : CutMask m hM vM) {s : Str} {rest : List LayerFile}
    (hne : rest ≠ []) (H : RasterFile d s hR vR)
    (Hl : ∀ l ∈ rest, RasterFile d l.path l.hdr l.val) (hg : CCGL.Spec.CommonGrid hR hM) (hco : CCGL.Spec.CoordsPresent hM)
    (hgl : ∀ l ∈ rest, CCGL.Spec.CommonGrid l.hdr hM) (hov : Overlaps hM vM hR) (dv : ℚ) :
    ∃ r' subs, initFiles d (s :: rest.map (·.path)) false (some m) true dv = .ok (some ⟨r', subs⟩, some m) ∧
      filesExist d.fs (s :: rest.map (·.path)) = true ∧
      CCGL.Spec.Built r' ∧ 0 < r'.nCells ∧ r'.is2d = true ∧ r'.nLyrs = rest.length + 1 ∧ r'.hdr.grid = hM.grid ∧ r'.noData = hR.noData ∧
      r'.dflt = checkDefault dv hR.noData ∧
      (∀ row col, hM.grid.CellInside row col → r'.getValue row col 1 = .ok (maskedVal hM vM hR vR dv row col)) ∧
      (∀ row col, hM.grid.CellInside row col → ∀ l : Nat, l < rest.length + 1 → ∃ w, r'.getValue row col ((l : Int) + 1) = .ok w ∧
        MaskedLayers hM vM hR vR dv rest l row col w) ∧
      Bare subs ∧
      (∀ r2 : Raster, CCGL.Spec.Built r2 → r2.posData = r'.posData → ∃ ls ps G, Cut ⟨r2, subs⟩ ls ps G) ∧
      ∀ k row col, having (byValue hM vM) (fun row col => floatEqual (maskedVal hM vM hR vR dv row col) hR.noData = false) k row col ↔
        ∃ s, subs.get k = some s ∧ CCGL.Spec.InSubset s row col := by
  obtain ⟨r', subs, h1, h2, h3, h4, h5, h6, h7, h8, h9, h10, h11, h12, -, h13, h14⟩ := grouped_layers_pos hm hne H Hl hg hco hgl hov dv
  exact ⟨r', subs, h1, h2, h3, h4, h5, h6, h7, h8, h9, h10, h11, h12, h13, h14⟩

/-- What `BuildSubSet` makes of a raster with layers: groups by the first one. -/
theorem ready_ownL {r : Raster} (hb : CCGL.Spec.Built r) {h : Header} {v : Int → Int → ℚ} {V : Nat → Int → Int → ℚ → Prop} {dv fill : ℚ} {m : Int} {n : Nat}
    (h2 : r.is2d = true) (hl : r.nLyrs = n) (hmn : m ≤ n)
    (hg : r.hdr.grid = h.grid) (hn : r.noData = h.noData) (hv : ∀ row col, h.grid.CellInside row col → r.getValue row col 1 = .ok (v row col))
    (hV : ∀ row col, h.grid.CellInside row col → ∀ l : Nat, l < n → ∀ x, r.getValue row col ((l : Int) + 1) = .ok x → V l row col x)
    (hf : CCGL.Spec.fillValue r dv = fill) :
    ∃ rs' b, buildSubSet ⟨r, []⟩ [] = .ok (rs', b) ∧ ReadyL rs' h V (byValue h v) m dv fill ∧ rs'.ras.is2d = r.is2d ∧ rs'.ras.nLyrs = r.nLyrs := by
  obtain ⟨rs', b, e, -⟩ := build_spec hb []
  obtain ⟨n0, hhdr⟩ := build_hdr e
  obtain ⟨hrw, hcl, hndr, hly, h2d, hdf, hval, -⟩ := build_cases2 hb e
  have hsub : ∀ x, CCGL.Spec.subsetId [] x = truncQ x := fun _ => rfl
  have hins : ∀ row col x, CCGL.Spec.ValidCell r row col x → h.grid.CellInside row col := by
    intro row col x hx
    by_contra hno
    have := getValue_outside r row col 1 (.inl (by
      intro hh
      apply hno
      rw [← hg]
      exact hh))
    rw [hx.1] at this
    injection this with this
    have h2 := hx.2
    rw [this, floatEqual_self] at h2
    cases h2
  have hhas : ∀ row col, HasValue h v row col → CCGL.Spec.ValidCell r row col (v row col) :=
    fun row col hh => ⟨hv row col hh.1, by rw [hn]; exact hh.2⟩
  refine ⟨rs', b, e, ?_, h2d, hly⟩
  refine ⟨?_, fun _ => by rw [hly, hl]; exact hmn, by rw [hhdr]; exact hg, by rw [hndr, hn], ?_, ?_, ?_, ?_⟩
  · intro hne
    exact cut_build hb e hne
  · rw [hhdr]
    show r.hdr.noData = _
    rw [hb.hdrOk.nd, hn]
  · rw [← hf]
    unfold CCGL.Spec.fillValue
    rw [hdf]
  · intro k row col
    constructor
    · rintro ⟨hh, hk⟩
      obtain ⟨⟨s, a, c⟩, -⟩ := C13_partition hb [] e row col _ (hhas row col hh)
      rw [hsub, hk] at a
      exact ⟨s, a, c⟩
    · rintro ⟨s, a, c⟩
      obtain ⟨x, x1, x2⟩ := (C13_only hb [] e k s a).1 row col c
      have hin := hins row col x x1
      have hx : v row col = x := by
        have := hv row col hin
        rw [x1.1] at this
        injection this with this
        exact this.symm
      rw [hsub] at x2
      refine ⟨⟨hin, ?_⟩, by rw [hx]; exact x2⟩
      rw [hx, ← hn]
      exact x1.2
  · rintro k row col l x ⟨hh, -⟩ hlm hx
    rw [h2d, h2, if_pos rfl, hval row col _ _ (hhas row col hh)] at hx
    exact hV row col hh.1 l (by omega) x hx

theorem recls_jobL (sys : Sys) {d : Disk} {mode : IOMode} {j : Job} {mk mk' : Option RasterS} {r r' : Raster} {subs : IMap Subset} {rs : RasterS} {b : Bool}
    {h V g p dt core suf m fill} (hin : j.inFmt = .sfile) (hout : j.outFmt = .sfile) (hre : j.recls = true) (hfe : filesExist d.fs j.inputs = true)
    (hi : initFiles d j.inputs false mk true j.default.toQ = .ok (some ⟨r, subs⟩, mk'))
    (e3 : (if j.update then r.replaceNoData j.nodata.toQ else .ok r : Out Raster) = .ok r') (eb : buildSubSet ⟨r', subs⟩ [] = .ok (rs, b))
    (H : ReadyL rs h V g m j.default.toQ fill) (W : CanWrite sys d mode j h g fill p dt core suf m) :
    ∃ d', layerJob sys mode (d, mk) j = .ok (d', mk') ∧ Rewritten d d' (Targets mode g p core suf m) ∧
      ReclsOutputL d' mode j h V g fill dt core suf m := by
  obtain ⟨d', e, h1, h2⟩ := write_reclsL hout hre H W
  refine ⟨d', ?_, h1, h2⟩
  unfold layerJob
  rw [if_pos ⟨hin, hfe⟩]
  dsimp only
  rw [hi]
  simp only [Out.ok_bind]
  rw [e3]
  simp only [Out.ok_bind, hre, if_true]
  rw [eb]
  simp only [Out.ok_bind, Out.pure_eq]
  rw [e]
  rfl


/-- C98: a reclassification job with several input files and no mask, in any mode. The groups are those of the first file; column `l` of the table (which has
at most as many columns as there are files) is looked up with the number of file `l`. -/
theorem C98_plain_partial (sys : Sys) {d : Disk} {mode : IOMode} {j : Job} {s : Str} {rest : List LayerFile} {hR : Header} {vR : Int → Int → ℚ} (hin : j.inFmt = .sfile)
    (hs : j.inputs = s :: rest.map (·.path)) (hne : rest ≠ []) (H : RasterFile d s hR vR)
    (Hl : ∀ l ∈ rest, RasterFile d l.path l.hdr l.val) (hgl : ∀ l ∈ rest, CCGL.Spec.CommonGrid l.hdr hR)
    (hout : j.outFmt = .sfile) (hre : j.recls = true) {p : Path} {dt core suf : Str} {m : Int} (hm : m ≤ rest.length + 1)
    (W : CanWrite sys d mode j (plainHdr j hR) (byValue (plainHdr j hR) (plainVal j hR vR)) (jobFill j hR) p dt core suf m) :
    ∃ d', layerJob sys mode (d, none) j = .ok (d', none) ∧
      Rewritten d d' (Targets mode (byValue (plainHdr j hR) (plainVal j hR vR)) p core suf m) ∧
      ReclsOutputL d' mode j (plainHdr j hR) (plainNum j hR vR rest) (byValue (plainHdr j hR) (plainVal j hR vR)) (jobFill j hR) dt core suf m := by
  obtain ⟨r, hi, hfe, hb, hnc, h2, hl, hgr, hnd, hdf, hval⟩ := plain_layers hne H Hl hgl j.default.toQ
  obtain ⟨r', e3, hb', hnc', h2d', hly', hhdr, hnd', hval'⟩ := rename_step hb j.update j.nodata.toQ
  have hdf' : r'.dflt = if j.update then j.nodata.toQ else checkDefault j.default.toQ hR.noData := by
    rw [rename_dflt e3, hdf]
  have hV : ∀ row col, (plainHdr j hR).grid.CellInside row col → ∀ l : Nat, l < rest.length + 1 → ∀ x, r'.getValue row col ((l : Int) + 1) = .ok x →
      plainNum j hR vR rest l row col x := by
    intro row col hij l hln x hx
    obtain ⟨w, w1, w2⟩ := hval row col hij l hln
    obtain ⟨y, y1, y2⟩ := hval' row col ((l : Int) + 1)
    rw [w1] at y1
    cases y1
    rw [y2] at hx
    cases hx
    exact ⟨w, w2, by rw [hnd]⟩
  obtain ⟨rs, b, eb, HR, -⟩ := ready_ownL (h := plainHdr j hR) (v := plainVal j hR vR) (V := plainNum j hR vR rest) (dv := j.default.toQ) (fill := jobFill j hR) (m := m) (n := rest.length + 1)
    hb' (by rw [h2d', h2]) (by rw [hly', hl]; push_cast; rfl) (by push_cast; exact hm)
    (by rw [hhdr]; exact hgr) (by rw [hnd', hnd]; rfl) (by
      intro row col hij
      obtain ⟨w, w1, w2⟩ := hval row col hij 0 (by omega)
      obtain ⟨y, y1, y2⟩ := hval' row col 1
      have w1 : r.getValue row col 1 = .ok w := w1
      rw [w1] at y1
      cases y1
      rw [y2, hnd, w2.1 rfl]
      rfl) hV (fill_unlisted hdf')
  exact recls_jobL sys hin hout hre (by rw [hs]; exact hfe) (by rw [hs]; exact hi) e3 eb HR W

/-- C98: the same in the mode MASK with a mask. -/
theorem C98_mask_partial (sys : Sys) {d : Disk} {m : Raster} {hM hR : Header} {vM vR : Int → Int → ℚ} (hm : IsMask m hM vM) {j : Job} {s : Str} {rest : List LayerFile}
    (hin : j.inFmt = .sfile) (hs : j.inputs = s :: rest.map (·.path)) (hne : rest ≠ []) (H : RasterFile d s hR vR)
    (Hl : ∀ l ∈ rest, RasterFile d l.path l.hdr l.val) (hg : CCGL.Spec.CommonGrid hR hM) (hgl : ∀ l ∈ rest, CCGL.Spec.CommonGrid l.hdr hM)
    (hov : Overlaps hM vM hR) (hout : j.outFmt = .sfile) (hre : j.recls = true) {p : Path} {dt core suf : Str} {n : Int} (hmn : n ≤ rest.length + 1)
    (W : CanWrite sys d .mask j (maskHdr j hM hR) (byValue (maskHdr j hM hR) (maskVal j hM vM hR vR)) (jobFill j hR) p dt core suf n) :
    ∃ d' m', layerJob sys .mask (d, some ⟨m, []⟩) j = .ok (d', some ⟨m', []⟩) ∧ IsMask m' hM vM ∧
      Rewritten d d' (Targets .mask (byValue (maskHdr j hM hR) (maskVal j hM vM hR vR)) p core suf n) ∧
      ReclsOutputL d' .mask j (maskHdr j hM hR) (maskNum j hM vM hR vR rest) (byValue (maskHdr j hM hR) (maskVal j hM vM hR vR)) (jobFill j hR) dt core suf n := by
  obtain ⟨r, m', hi, hm', hfe, hb, hnc, h2, hl, hgr, hnd, hdf, hval⟩ := masked_layers hm hne H Hl hg hgl hov j.default.toQ
  obtain ⟨r', e3, hb', hnc', h2d', hly', hhdr, hnd', hval'⟩ := rename_step hb j.update j.nodata.toQ
  have hdf' : r'.dflt = if j.update then j.nodata.toQ else checkDefault j.default.toQ hR.noData := by
    rw [rename_dflt e3, hdf]
  have hV : ∀ row col, (maskHdr j hM hR).grid.CellInside row col → ∀ l : Nat, l < rest.length + 1 → ∀ x, r'.getValue row col ((l : Int) + 1) = .ok x →
      maskNum j hM vM hR vR rest l row col x := by
    intro row col hij l hln x hx
    obtain ⟨w, w1, w2⟩ := hval row col hij l hln
    obtain ⟨y, y1, y2⟩ := hval' row col ((l : Int) + 1)
    rw [w1] at y1
    cases y1
    rw [y2] at hx
    cases hx
    exact ⟨w, w2, by rw [hnd]⟩
  obtain ⟨rs, b, eb, HR, -⟩ := ready_ownL (h := maskHdr j hM hR) (v := maskVal j hM vM hR vR) (V := maskNum j hM vM hR vR rest) (dv := j.default.toQ) (fill := jobFill j hR) (m := n)
    (n := rest.length + 1) hb' (by rw [h2d', h2]) (by rw [hly', hl]; push_cast; rfl) (by push_cast; exact hmn)
    (by rw [hhdr]; exact hgr) (by rw [hnd', hnd]; rfl) (by
      intro row col hij
      obtain ⟨w, w1, w2⟩ := hval row col hij 0 (by omega)
      obtain ⟨y, y1, y2⟩ := hval' row col 1
      have w1 : r.getValue row col 1 = .ok w := w1
      rw [w1] at y1
      cases y1
      rw [y2, hnd, masked_eq (w2.1 rfl)]
      rfl) hV (fill_unlisted hdf')
  obtain ⟨d', o1, o2, o3⟩ := recls_jobL sys hin hout hre (by rw [hs]; exact hfe) (by rw [hs]; exact hi) e3 eb HR W
  exact ⟨d', m', o1, hm', o2, o3⟩

/-- If no group of the mask has a value of the raster, the raster has no values. -/
theorem no_groups {j : Job} {hM hR : Header} {vM vR : Int → Int → ℚ}
    (hgrp : ∀ k row col, having (byValue hM vM) (fun row col => floatEqual (maskedVal hM vM hR vR j.default.toQ row col) hR.noData = false) k row col ↔
        ∃ s, IMap.get ([] : IMap Subset) k = some s ∧ CCGL.Spec.InSubset s row col) :
    byValue (maskHdr j hM hR) (maskVal j hM vM hR vR) = maskGroups j hM vM hR vR := by
  have hno : ∀ row col, hM.grid.CellInside row col → floatEqual (maskedVal hM vM hR vR j.default.toQ row col) hR.noData = true := by
    intro row col hin
    by_contra hf
    rw [Bool.not_eq_true] at hf
    have hh : HasValue hM vM row col := by
      by_contra hh
      unfold maskedVal at hf
      rw [dif_neg (fun h => hh h.1), floatEqual_self] at hf
      cases hf
    obtain ⟨s', hs', -⟩ := (hgrp (truncQ (vM row col)) row col).1 ⟨⟨hh, rfl⟩, row, col, ⟨hh, rfl⟩, hf⟩
    cases hs'
  funext k row col
  apply propext
  constructor
  · rintro ⟨⟨h1, h2⟩, -⟩
    exfalso
    have := hno row col h1
    unfold maskVal renamed maskHdr renamedNd at h2
    dsimp only at h2
    cases hu : j.update with
    | false =>
      rw [hu, if_neg (by simp)] at h2
      simp only [Bool.false_eq_true, if_false] at h2
      rw [this] at h2
      cases h2
    | true =>
      rw [hu, if_pos ⟨rfl, this⟩] at h2
      simp only [if_true] at h2
      rw [floatEqual_self] at h2
      cases h2
  · rintro ⟨-, row', col', h1, h2⟩
    rw [hno row' col' h1.1.1] at h2
    cases h2

/-- C98: the same in the modes DEC and MASKDEC with a mask, whose subsets have been built: the groups are those of the mask. -/
theorem C98_groups_partial (sys : Sys) {d : Disk} {m : RasterS} {hM hR : Header} {vM vR : Int → Int → ℚ} (hm : CutMask m hM vM) {mode : IOMode} {j : Job} {s : Str} {rest : List LayerFile}
    (hin : j.inFmt = .sfile) (hs : j.inputs = s :: rest.map (·.path)) (hne : rest ≠ []) (H : RasterFile d s hR vR)
    (Hl : ∀ l ∈ rest, RasterFile d l.path l.hdr l.val) (hg : CCGL.Spec.CommonGrid hR hM) (hco : CCGL.Spec.CoordsPresent hM)
    (hgl : ∀ l ∈ rest, CCGL.Spec.CommonGrid l.hdr hM) (hov : Overlaps hM vM hR) (hout : j.outFmt = .sfile) (hre : j.recls = true)
    {p : Path} {dt core suf : Str} {n : Int} (hmn : n ≤ rest.length + 1)
    (W : CanWrite sys d mode j (maskHdr j hM hR) (maskGroups j hM vM hR vR) (jobFill j hR) p dt core suf n) :
    ∃ d', layerJob sys mode (d, some m) j = .ok (d', some m) ∧
      Rewritten d d' (Targets mode (maskGroups j hM vM hR vR) p core suf n) ∧
      ReclsOutputL d' mode j (maskHdr j hM hR) (maskNum j hM vM hR vR rest) (maskGroups j hM vM hR vR) (jobFill j hR) dt core suf n := by
  obtain ⟨r, subs', hi, hfe, hb, hnc, h2, hl, hgr, hnd, hdf, hval1, hval, -, hcut, hgrp⟩ := grouped_layers hm hne H Hl hg hco hgl hov j.default.toQ
  obtain ⟨r', e3, hb', hnc', h2d', hly', hhdr, hnd', hval'⟩ := rename_step hb j.update j.nodata.toQ
  have hdf' : r'.dflt = if j.update then j.nodata.toQ else checkDefault j.default.toQ hR.noData := by
    rw [rename_dflt e3, hdf]
  have hvals : ∀ row col, (maskHdr j hM hR).grid.CellInside row col → r'.getValue row col 1 = .ok (maskVal j hM vM hR vR row col) := by
    intro row col hij
    obtain ⟨y, y1, y2⟩ := hval' row col 1
    rw [hval1 row col hij] at y1
    cases y1
    rw [y2, hnd]
    rfl
  have hV : ∀ row col, (maskHdr j hM hR).grid.CellInside row col → ∀ l : Nat, l < rest.length + 1 → ∀ x, r'.getValue row col ((l : Int) + 1) = .ok x →
      maskNum j hM vM hR vR rest l row col x := by
    intro row col hij l hln x hx
    obtain ⟨w, w1, w2⟩ := hval row col hij l hln
    obtain ⟨y, y1, y2⟩ := hval' row col ((l : Int) + 1)
    rw [w1] at y1
    cases y1
    rw [y2] at hx
    cases hx
    exact ⟨w, w2, by rw [hnd]⟩
  have hgr' : r'.hdr.grid = (maskHdr j hM hR).grid := by rw [hhdr]; exact hgr
  have hfe' : filesExist d.fs j.inputs = true := by rw [hs]; exact hfe
  have hi' : initFiles d j.inputs false (some m) true j.default.toQ = .ok (some ⟨r, subs'⟩, some m) := by rw [hs]; exact hi
  have hly2 : r'.nLyrs = ((rest.length + 1 : Nat) : Int) := by rw [hly', hl]; push_cast; rfl
  have hmn' : n ≤ ((rest.length + 1 : Nat) : Int) := by push_cast; exact hmn
  by_cases hne : subs' = []
  · subst hne
    obtain ⟨rs, b, eb, HR, -⟩ := ready_ownL (h := maskHdr j hM hR) (v := maskVal j hM vM hR vR) (V := maskNum j hM vM hR vR rest) (dv := j.default.toQ) (fill := jobFill j hR) (m := n)
      (n := rest.length + 1) hb' (by rw [h2d', h2]) hly2 hmn' hgr' (by rw [hnd', hnd]; rfl) hvals hV (fill_unlisted hdf')
    rw [no_groups hgrp] at HR
    exact recls_jobL sys hin hout hre hfe' hi' e3 eb HR W
  · obtain ⟨ls, ps, G, hC⟩ := hcut r' hb' (rename_pos e3).1
    have HR : ReadyL ⟨r', subs'⟩ (maskHdr j hM hR) (maskNum j hM vM hR vR rest) (maskGroups j hM vM hR vR) n j.default.toQ (jobFill j hR) := by
      refine ⟨fun _ => ⟨ls, ps, G, hC⟩, fun _ => by rw [hly2]; exact hmn', hgr', by rw [hnd', hnd]; rfl, by rw [hhdr, hnd]; rfl, fill_unlisted hdf', hgrp, ?_⟩
      rintro k row col l x ⟨⟨hk, -⟩, -⟩ hlm hx
      dsimp only at hx
      rw [h2d', h2, if_pos rfl] at hx
      exact hV row col hk.1 l (by omega) x hx
    exact recls_jobL sys hin hout hre hfe' hi' e3 (build_kept hC hne) HR W

end App
end CCGL
