import Verif.Spec.AppGfsLayers
import Verif.Lemmas.AppGfsDec
import Verif.Props.AppReclsL
/-!
# C92: jobs of the mode MASK with several input files whose result goes to GridFS
-/
namespace CCGL
namespace App
open Fs Disk Main Raster Gfs Disk.Spec App.Spec

/-- All cells of the layers of a raster are stored. -/
theorem store_stack {rnd : ℚ → ℚ} (hrnd : ∀ v, CCGL.Spec.Representable .float v → rnd v = v) {st : Store} {j : Job} {jd : JobDb} {r : Raster} {h : Header}
    {n : Nat} {w : Nat → Int → Int → ℚ} (hb : CCGL.Spec.Built r) (hc : 0 < r.nCells) (hn : 0 < n) (hl : r.nLyrs = n) (hgr : r.hdr.grid = h.grid)
    (hh : r.hdr.noData = h.noData) (hval : ∀ row col, h.grid.CellInside row col → ∀ l : Nat, l < n → r.getValue row col ((l : Int) + 1) = .ok (w l row col))
    (ho : BucketLayers st j jd h n) (hv : ∀ row col, h.grid.CellInside row col → ∀ l : Nat, l < n → Fits j.type (w l row col)) :
    ∃ st' ok, outputToMongo rnd .double jd.rm jd.att st r jd.own jd.core (storedName j.out) (jobOpts true j.type) true =
        .ok (r, outOpts .double jd.own (wholeOpts j.type) true, st', ok) ∧
      (ok = true ↔ ∃ i, i < 4 ∧ (jd.att i).reported = true) ∧
      (∀ R : CCGL.Spec.Key, R.name ≠ storedName j.out → CCGL.Spec.filesOf st' R = CCGL.Spec.filesOf st R) ∧
      (ok = true → HoldsLayers rnd st' (storedName j.out) (wholeOpts j.type) h n w) ∧
      (ok = false → CCGL.Spec.filesOf st' ⟨storedName j.out, wholeOpts j.type⟩ = []) := by
  unfold Header.grid at hgr
  injection hgr with g1 g2 g3 g4 g5
  obtain ⟨cells, e1, hlen, hcell⟩ := C10_stream hb ⟨built_valid hb hc, fun _ => hc⟩
  have hly : r.hdr.layers = n := by rw [hb.hdrOk.lyrs, hl]
  have hH : ({ r.hdr with cellsnum := r.hdr.rows * r.hdr.cols } : Header) = { h with layers := (n : Int), cellsnum := h.rows * h.cols } := by
    dsimp only
    rw [g1, g2, g3, g4, g5, hh, hly]
  have H : AllCells h n w cells := by
    refine ⟨by rw [hlen, hl, g1, g2, mul_comm], ?_⟩
    intro row col l hin hln
    obtain ⟨x, x1, x2⟩ := hcell row col l hin.1 (by rw [g1]; exact hin.2.1) hin.2.2.1 (by rw [g2]; exact hin.2.2.2) (by rw [hl]; exact hln)
    rw [hval row col hin l (by exact_mod_cast hln)] at x1
    injection x1 with x1
    rw [hl, g2] at x2
    rw [x1, ← x2]
  have hcells : ∀ x ∈ cells, Fits j.type x := H.fits ho.header.cols.1 (by exact_mod_cast hn)
    (fun row col l hin hln => hv row col hin l (by exact_mod_cast hln))
  have hwt := type_kept jd.own ho.type.1
  obtain ⟨st1, okb, k, info, w1, w2, w3, w4, w5, w6⟩ := write_step (rnd := rnd) hrnd (T := .double) (O := j.type) (rm := jd.rm) (att := jd.att) st
    (name := storedName j.out) (h := { h with layers := (n : Int), cellsnum := h.rows * h.cols }) (cells := cells)
    (opts := outOpts .double jd.own (wholeOpts j.type) true) (ty := rdtToString j.type.code) (by rw [hwt]; exact ho.key) ho.header
    (by rw [hwt]; exact type_mem jd.own ho.type.1) (C25_roundtrip j.type) (.inr ho.type) (fun x hx => hcells x hx) ho.rm ho.att
  rw [hwt] at w4 w6
  have w6' := w6 ⟨storedName j.out, wholeOpts j.type⟩ rfl (opts_sub jd.own ho.type.1) ho.old
  refine ⟨st1, okb, ?_, w2, w5, ?_, ?_⟩
  · unfold outputToMongo
    rw [e1, Out.ok_bind]
    dsimp only
    rw [if_neg (by unfold storedName; simp), hH, jobOpts_true, w1, Out.ok_bind]
    rfl
  · intro hok
    rw [hok] at w6'
    exact holds_file hrnd (own := jd.own) H ho.type.1 ho.key.name ho.header hcells w3 w4 w6'
  · intro hok
    rw [hok] at w6'
    exact w6'

theorem fits_layer {ty hR vR dv upd new rest} (h : FitLayers ty hR vR dv upd new rest) {l : LayerFile} (hl : l ∈ rest) {hM : Header} {vM : Int → Int → ℚ}
    {row col : Int} {w : ℚ} (hw : LayerCell hM vM hR.noData l row col w) : Fits ty (renamed upd hR.noData new w) := by
  unfold renamed
  split
  · next hu => exact h.first.new hu.1
  · by_cases hv : HasValue hM vM row col
    · by_cases hx : ∃ i j, SameCell l.hdr hM i j row col
      · obtain ⟨i, j, hij⟩ := hx
        rw [hw.taken hv i j hij]
        split
        · exact h.first.nodata
        · exact h.more l hl i j hij.1
      · rw [hw.none (.inr hx)]; exact h.first.nodata
    · rw [hw.none (.inl hv)]; exact h.first.nodata

/-- The end of a job of the mode MASK with several layers whose result is stored. -/
theorem finish_stack {sys : Sys} (hrnd : ∀ v, CCGL.Spec.Representable .float v → sys.rnd v = v) {d : Disk} {st : Store} {mask mask' : Option RasterS}
    {j : Job} {jd : JobDb} {r : Raster} {subs : IMap Subset} {h : Header} {nd : ℚ} {n : Nat} {L : Nat → Int → Int → ℚ → Prop} (hb : CCGL.Spec.Built r) (hc : 0 < r.nCells)
    (hn : 0 < n) (hl : r.nLyrs = n) (hgr : r.hdr.grid = h.grid) (hnd : r.noData = nd)
    (hval : ∀ row col, h.grid.CellInside row col → ∀ l : Nat, l < n → ∃ w, r.getValue row col ((l : Int) + 1) = .ok w ∧ L l row col w)
    (hout : j.outFmt = .gfs) (hre : j.recls = false)
    (ho : BucketLayers st j jd { h with noData := renamedNd j.update nd j.nodata.toQ } n)
    (hv : ∀ row col, h.grid.CellInside row col → ∀ l : Nat, l < n → ∀ w, L l row col w → Fits j.type (renamed j.update nd j.nodata.toQ w)) :
    ∃ st', finishJobDb sys true .mask (d, st, mask) (j, jd) (some ⟨r, subs⟩, mask') = .ok (d, st', mask') ∧ StoredLayers sys st st' j jd h nd n L := by
  obtain ⟨r', e, k1, k2, k3, k4, k5, k6, k7⟩ := rename_step hb j.update j.nodata.toQ
  have hex : ∀ x : Nat × Int × Int, ∃ w, h.grid.CellInside x.2.1 x.2.2 → x.1 < n → r.getValue x.2.1 x.2.2 ((x.1 : Int) + 1) = .ok w ∧ L x.1 x.2.1 x.2.2 w := by
    intro x
    by_cases hx : h.grid.CellInside x.2.1 x.2.2 ∧ x.1 < n
    · obtain ⟨w, w1, w2⟩ := hval _ _ hx.1 _ hx.2
      exact ⟨w, fun _ _ => ⟨w1, w2⟩⟩
    · exact ⟨0, fun a b => absurd ⟨a, b⟩ hx⟩
  choose w hw using hex
  have hgr' : r'.hdr.grid = ({ h with noData := renamedNd j.update nd j.nodata.toQ } : Header).grid := by rw [k5]; exact hgr
  obtain ⟨st', ok, e1, e2, e3, e4, e5⟩ := store_stack hrnd (st := st) (j := j) (jd := jd) (h := { h with noData := renamedNd j.update nd j.nodata.toQ })
    (w := fun l row col => renamed j.update nd j.nodata.toQ (w (l, row, col))) k1 (by rw [k2]; exact hc) hn (by rw [k4]; exact hl) hgr' (by rw [k5, hnd]) (by
      intro row col hin l hln
      obtain ⟨x, x1, x2⟩ := k7 row col ((l : Int) + 1)
      have := (hw (l, row, col) hin hln).1
      dsimp only at this
      rw [this] at x1
      injection x1 with x1
      rw [x2, ← x1, hnd]) ho (fun row col hin l hln => hv row col hin l hln _ (hw (l, row, col) hin hln).2)
  refine ⟨st', ?_, e3, fun q => ⟨fun l row col => w (l, row, col), fun row col hin l hln => (hw (l, row, col) hin hln).2, e4 (e2.2 q)⟩, fun q => e5 ?_⟩
  · unfold finishJobDb
    dsimp only
    rw [e]
    simp only [Out.ok_bind, hre, Bool.false_eq_true, if_false, Out.pure_eq]
    rw [if_neg (by rw [hout]; simp), if_pos hout]
    unfold writeJobDb
    rw [hre]
    have q1 : outSubset .mask = false := by decide
    have q2 : outAll .mask = true := by decide
    rw [q1, q2]
    simp only [Bool.false_eq_true, if_false, if_true, Out.pure_eq, Out.ok_bind]
    unfold storedName at e1
    rw [e1]
    rfl
  · cases hk : ok with
    | false => rfl
    | true => exact absurd (e2.1 hk) q

/-- C92: a job of the mode MASK with several input files, a mask and output to GridFS: one file with all layers. -/
theorem C92_gfs_mask_partial {sys : Sys} (hrnd : ∀ v, CCGL.Spec.Representable .float v → sys.rnd v = v) {d : Disk} {st : Store} {m : Raster} {hM hR : Header}
    {vM vR : Int → Int → ℚ} (hm : IsMask m hM vM) {j : Job} {jd : JobDb} {s : Str} {rest : List LayerFile} (hin : j.inFmt = .sfile)
    (hs : j.inputs = s :: rest.map (·.path)) (hne : rest ≠ []) (H : RasterFile d s hR vR) (Hl : ∀ l ∈ rest, RasterFile d l.path l.hdr l.val)
    (hg : CCGL.Spec.CommonGrid hR hM) (hgl : ∀ l ∈ rest, CCGL.Spec.CommonGrid l.hdr hM) (hov : Overlaps hM vM hR) (hout : j.outFmt = .gfs)
    (hre : j.recls = false) (ho : BucketLayers st j jd { hM with noData := renamedNd j.update hR.noData j.nodata.toQ } (rest.length + 1))
    (hf : FitLayers j.type hR vR j.default.toQ j.update j.nodata.toQ rest) :
    ∃ st' m', layerJobDb sys true .mask (d, st, some ⟨m, []⟩) (j, jd) = .ok (d, st', some ⟨m', []⟩) ∧ IsMask m' hM vM ∧
      StoredLayers sys st st' j jd hM hR.noData (rest.length + 1) (MaskedLayers hM vM hR vR j.default.toQ rest) := by
  obtain ⟨r, m', hi, hm', hfe, hb, hnc, h2, hl, hgr, hnd, hdf, hval⟩ := masked_layers hm hne H Hl hg hgl hov j.default.toQ
  obtain ⟨st', e, hS⟩ := finish_stack (sys := sys) hrnd (d := d) (st := st) (mask := some ⟨m, []⟩) (mask' := some ⟨m', []⟩) (j := j) (jd := jd) (subs := [])
    hb hnc (Nat.succ_pos _) (by rw [hl]; push_cast; rfl) hgr hnd hval hout hre ho (by
      intro row col hin l hln w hw
      cases l with
      | zero => exact fits_masked hf.first (hw.1 rfl)
      | succ k => exact fits_layer hf (List.getElem_mem (by omega : k < rest.length)) (hw.2 k (by omega) rfl))
  refine ⟨st', m', ?_, hm', hS⟩
  unfold layerJobDb
  rw [if_pos ⟨hin, by rw [hs]; exact hfe⟩]
  dsimp only
  rw [hs, hi, Out.ok_bind]
  exact e

/-- C92: the same without a mask. -/
theorem C92_gfs_plain_partial {sys : Sys} (hrnd : ∀ v, CCGL.Spec.Representable .float v → sys.rnd v = v) {d : Disk} {st : Store} {hR : Header}
    {vR : Int → Int → ℚ} {j : Job} {jd : JobDb} {s : Str} {rest : List LayerFile} (hin : j.inFmt = .sfile)
    (hs : j.inputs = s :: rest.map (·.path)) (hne : rest ≠ []) (H : RasterFile d s hR vR) (Hl : ∀ l ∈ rest, RasterFile d l.path l.hdr l.val)
    (hgl : ∀ l ∈ rest, CCGL.Spec.CommonGrid l.hdr hR) (hout : j.outFmt = .gfs)
    (hre : j.recls = false) (ho : BucketLayers st j jd { hR with noData := renamedNd j.update hR.noData j.nodata.toQ } (rest.length + 1))
    (hf : FitLayers j.type hR vR j.default.toQ j.update j.nodata.toQ rest) :
    ∃ st', layerJobDb sys true .mask (d, st, none) (j, jd) = .ok (d, st', none) ∧
      StoredLayers sys st st' j jd hR hR.noData (rest.length + 1) (PlainLayers hR vR rest) := by
  obtain ⟨r, hi, hfe, hb, hnc, h2, hl, hgr, hnd, hdf, hval⟩ := plain_layers hne H Hl hgl j.default.toQ
  obtain ⟨st', e, hS⟩ := finish_stack (sys := sys) hrnd (d := d) (st := st) (mask := none) (mask' := none) (j := j) (jd := jd) (subs := [])
    hb hnc (Nat.succ_pos _) (by rw [hl]; push_cast; rfl) hgr hnd hval hout hre ho (by
      intro row col hin l hln w hw
      cases l with
      | zero =>
        rw [hw.1 rfl]
        unfold renamed
        split
        · next hu => exact hf.first.new hu.1
        · exact hf.first.cells _ _ hin
      | succ k => exact fits_layer hf (List.getElem_mem (by omega : k < rest.length)) (hw.2 k (by omega) rfl))
  refine ⟨st', ?_, hS⟩
  unfold layerJobDb
  rw [if_pos ⟨hin, by rw [hs]; exact hfe⟩]
  dsimp only
  rw [hs, hi, Out.ok_bind]
  exact e

end App
end CCGL
