import Verif.Spec.AppGfsLayersFew
import Verif.Lemmas.AppGfsFewDec
import Verif.Props.AppGfsLayers
import Verif.Props.AppGfsFew
/-!
# Several layers stored in GridFS without NoData cells
-/
namespace CCGL
namespace App
open Fs Disk Main Raster Gfs Disk.Spec App.Spec

theorem cellByCell_of_get {n : Nat} {w : Nat → Int → Int → ℚ} : ∀ {ps : List (Int × Int)} {cells : List ℚ}, cells.length = ps.length * n →
    (∀ (i : Nat) (hi : i < ps.length) (l : Nat), l < n → cells[i * n + l]? = some (w l ps[i].1 ps[i].2)) → cells = cellByCell ps n w
  | [], cells, hl, _ => by
    have : cells.length = 0 := by rw [hl]; simp
    rw [List.length_eq_zero_iff.1 this]; rfl
  | p :: ps, cells, hl, h => by
    have hlen : cells.length = ps.length * n + n := by rw [hl, List.length_cons, Nat.succ_mul]
    have h1 : cells.take n = (List.range n).map (fun l => w l p.1 p.2) := by
      apply List.ext_getElem?
      intro i
      by_cases hi : i < n
      · rw [List.getElem?_take_of_lt hi, List.getElem?_map, List.getElem?_range hi]
        have := h 0 (by simp) i hi
        simpa using this
      · rw [List.getElem?_eq_none (by rw [List.length_take]; omega), List.getElem?_eq_none (by rw [List.length_map, List.length_range]; omega)]
    have h2 := cellByCell_of_get (n := n) (w := w) (ps := ps) (cells := cells.drop n) (by rw [List.length_drop]; omega) (by
      intro i hi l hln
      rw [List.getElem?_drop]
      have := h (i + 1) (by simpa using hi) l hln
      rw [List.getElem_cons_succ] at this
      rw [← this]
      congr 1
      rw [Nat.succ_mul]
      omega)
    rw [← List.take_append_drop n cells, h1, h2]
    unfold cellByCell
    rw [List.flatMap_cons, Int.toNat_natCast]

/-- The numbers of all layers that are written: those of the cells `S` in order. -/
structure FewStreamL (r : Raster) (h : Header) (n : Nat) (w : Nat → Int → Int → ℚ) (S : Int → Int → Prop) (r1 : Raster) (ps : List (Int × Int)) : Prop where
  out : r.outputStream false = .ok (StreamOut.mk r1 { r.hdr with cellsnum := ps.length } (some (cellByCell ps n w)) (ps.length * n))
  order : InOrder h S ps
  ne : ps ≠ []

theorem compact_streamL {r1 : Raster} {ls ps} (hc : r1.Compact ls ps) {n : Nat} (hl : r1.nLyrs = n) {w : Nat → Int → Int → ℚ}
    (hv : ∀ rc ∈ ps, ∀ l : Nat, l < n → r1.getValue rc.1 rc.2 ((l : Int) + 1) = .ok (w l rc.1 rc.2)) :
    r1.outputStream false = .ok (StreamOut.mk r1 r1.hdr (some (cellByCell ps n w)) (ps.length * n)) := by
  obtain ⟨cells, e1, hlen, hcell⟩ := hc.stream_valid
  rw [hl, hc.ncells, mul_comm] at hlen
  rw [hl, hc.ncells, mul_comm] at e1
  have hlen' : cells.length = ps.length * n := by exact_mod_cast hlen
  have : cells = cellByCell ps n w := by
    refine cellByCell_of_get hlen' ?_
    intro i hi l hln
    have h1 := hcell i l (by rw [hc.ncells]; exact_mod_cast hi) (by rw [hl]; exact_mod_cast hln)
    rw [hl, Int.toNat_natCast] at h1
    obtain ⟨-, h2⟩ := hc.getValue_hit ps[i].1 ps[i].2 ((l : Int) + 1) i hi rfl ⟨by omega, by rw [hl]; omega⟩
    rw [hv _ (List.getElem_mem hi) l hln] at h2
    injection h2 with h2
    rw [h1, h2]
    unfold cellAt
    rw [List.getD_eq_getElem ls _ (by rw [hc.len]; exact hi)]
    have : ((l : Int) + 1 - 1).toNat = l := by omega
    rw [this]
  rw [this] at e1
  exact e1

/-- A raster with positions: the cells it stores are written. -/
theorem few_storedL {r : Raster} {h : Header} {n : Nat} {w : Nat → Int → Int → ℚ} {S : Int → Int → Prop} {ps : List (Int × Int)} (hb : CCGL.Spec.Built r)
    (hc0 : 0 < r.nCells) (hl : r.nLyrs = n) (hgr : r.hdr.grid = h.grid)
    (hval : ∀ row col, h.grid.CellInside row col → ∀ l : Nat, l < n → r.getValue row col ((l : Int) + 1) = .ok (w l row col)) (hp : r.posData = some ps)
    (hS : ∀ row col, h.grid.CellInside row col → ((row, col) ∈ ps ↔ S row col)) : FewStreamL r h n w S r ps := by
  unfold Header.grid at hgr
  injection hgr with g1 g2 g3 g4 g5
  rcases built_cases hb (built_valid hb hc0) (fun _ => hc0) with ⟨ls, hf⟩ | ⟨ls, ps', hc⟩
  · rw [hf.pd] at hp; cases hp
  · have hps : ps' = ps := by
      have := hc.pd
      rw [hp] at this
      injection this with this
      exact this.symm
    subst hps
    have hin : ∀ row col, (row, col) ∈ ps' → h.grid.CellInside row col := by
      intro row col hm
      have hin := hc.inside _ hm
      dsimp only at hin
      rw [g1, g2] at hin
      exact hin
    refine ⟨?_, ⟨by have := hc.sorted; rwa [g2] at this, fun row col => ⟨fun hm => ⟨hin row col hm, (hS row col (hin row col hm)).1 hm⟩, fun hm => (hS row col hm.1).2 hm.2⟩⟩, hc.ne⟩
    have e := compact_streamL hc hl (w := w) (by
      rintro ⟨row, col⟩ hm l hln
      exact hval row col (hin row col hm) l hln)
    rw [e]
    have : r.hdr.cellsnum = ps'.length := by rw [hb.hdrOk.num, hc.ncells]
    rw [← this]

/-- A raster without positions: the cells that are not NoData in the first layer are written. -/
theorem few_validL {r : Raster} {h : Header} {n : Nat} {w : Nat → Int → Int → ℚ} (hb : CCGL.Spec.Built r) (hn : 0 < n) (hl : r.nLyrs = n)
    (hgr : r.hdr.grid = h.grid) (hnd : r.noData = h.noData)
    (hval : ∀ row col, h.grid.CellInside row col → ∀ l : Nat, l < n → r.getValue row col ((l : Int) + 1) = .ok (w l row col)) (hp : r.posData = none)
    (hex : ∃ row col, h.grid.CellInside row col ∧ NotNoData h (w 0) row col) : ∃ r1 ps, FewStreamL r h n w (NotNoData h (w 0)) r1 ps := by
  have hgr' := hgr
  unfold Header.grid at hgr
  injection hgr with g1 g2 g3 g4 g5
  have hfv : ∀ row col, h.grid.CellInside row col → (FirstValid r row col ↔ NotNoData h (w 0) row col) := by
    intro row col hin
    unfold FirstValid NotNoData
    have h0 : r.getValue row col 1 = .ok (w 0 row col) := hval row col hin 0 hn
    rw [h0, hnd]
    constructor
    · rintro ⟨x, e, hx⟩
      injection e with e
      rw [e]; exact hx
    · intro hx; exact ⟨_, rfl, hx⟩
  obtain ⟨r1, ls, ps, c1, c2, c3, c4, c5, c6, c7, c8, c9⟩ := clean_positions hb (.inl hp) (by
    obtain ⟨row, col, h1, h2⟩ := hex
    exact ⟨row, col, by rw [hgr']; exact h1, (hfv row col h1).2 h2⟩)
  have hmem : ∀ row col, (row, col) ∈ ps ↔ h.grid.CellInside row col ∧ NotNoData h (w 0) row col := by
    intro row col
    rw [c8, hgr']
    constructor
    · rintro ⟨a, b⟩; exact ⟨a, (hfv row col a).1 b⟩
    · rintro ⟨a, b⟩; exact ⟨a, (hfv row col a).2 b⟩
  refine ⟨r1, ps, ?_, ⟨?_, hmem⟩, c1.ne⟩
  · have e1 := compact_streamL c1 (c6.trans hl) (w := w) (by
      rintro ⟨row, col⟩ hm l hln
      dsimp only
      rw [c9 row col ((l : Int) + 1) hm (by omega) (by rw [hl]; omega)]
      exact hval row col ((hmem row col).1 hm).1 l hln)
    rw [c4] at e1
    rw [← e1]
    rcases c3 with ⟨b1, ⟨c, b2⟩, b3, b4⟩ | b1
    · unfold Raster.outputStream
      simp only [b1, b3, Option.isSome_none, Bool.or_false, Bool.and_false, Bool.false_eq_true, if_false,
        Out.pure_eq, Out.ok_bind, Option.isNone_none, Bool.or_true, Bool.not_false, Bool.and_true, if_true, b2,
        Raster.getPositionData, c1.pd, c1.pi, Option.isSome_some, Option.isNone_some, Bool.false_and]
    · rw [b1]
  · have := c1.sorted
    rw [c4] at this
    rwa [g2] at this

/-- Storing the cells `S` of all layers of a raster. -/
theorem store_fewL {rnd : ℚ → ℚ} (hrnd : ∀ v, CCGL.Spec.Representable .float v → rnd v = v) {st : Store} {j : Job} {jd : JobDb} {r r1 : Raster} {h : Header}
    {n : Nat} {w : Nat → Int → Int → ℚ} {S : Int → Int → Prop} {ps : List (Int × Int)} (hb : CCGL.Spec.Built r) (hl : r.nLyrs = n)
    (hgr : r.hdr.grid = h.grid) (hh : r.hdr.noData = h.noData) (hs : FewStreamL r h n w S r1 ps)
    (ho : BucketLayersFew st j jd h n) (hv : ∀ row col, h.grid.CellInside row col → ∀ l : Nat, l < n → Fits j.type (w l row col)) :
    ∃ st' ok, outputToMongo rnd .double jd.rm jd.att st r jd.own jd.core (storedName j.out) (jobOpts false j.type) false =
        .ok (r1, outOpts .double jd.own (fewOpts j.type) false, st', ok) ∧
      (ok = true ↔ ∃ i, i < 4 ∧ (jd.att i).reported = true) ∧
      (∀ R : CCGL.Spec.Key, R.name ≠ storedName j.out → CCGL.Spec.filesOf st' R = CCGL.Spec.filesOf st R) ∧
      (ok = true → HoldsSome rnd st' (storedName j.out) (fewOpts j.type) h n w S) ∧
      (ok = false → CCGL.Spec.filesOf st' ⟨storedName j.out, fewOpts j.type⟩ = []) := by
  unfold Header.grid at hgr
  injection hgr with g1 g2 g3 g4 g5
  have hly : r.hdr.layers = n := by rw [hb.hdrOk.lyrs, hl]
  have hH : ({ r.hdr with cellsnum := ps.length } : Header) = { h with layers := (n : Int), cellsnum := ps.length } := by
    dsimp only
    rw [g1, g2, g3, g4, g5, hh, hly]
  have e1 := hs.out
  rw [hH] at e1
  obtain ⟨st', ok, k, w1, w2, w3, w4, w5, -⟩ := store_some hrnd (st := st) (name := storedName j.out) (ty := j.type) (own := jd.own) (h := h) (m := n) (w := w)
    hs.order hs.ne ho.type ho.key ho.header (fun row col l hin _ hln => hv row col hin l (by exact_mod_cast hln)) ho.rm ho.att ho.old
  refine ⟨st', ok, ?_, w2, w3, w4, w5⟩
  unfold outputToMongo
  rw [e1, Out.ok_bind]
  dsimp only
  rw [if_neg (by unfold storedName; simp), jobOpts_false, w1, Out.ok_bind]
  rfl

/-- The end of a job of the mode MASK with several layers whose result is stored without NoData cells. -/
theorem finish_fewL {sys : Sys} (hrnd : ∀ v, CCGL.Spec.Representable .float v → sys.rnd v = v) {d : Disk} {st : Store} {mask mask' : Option RasterS}
    {j : Job} {jd : JobDb} {r : Raster} {subs : IMap Subset} {h : Header} {nd : ℚ} {n : Nat} {L : Nat → Int → Int → ℚ → Prop} {S : Int → Int → Prop}
    (hb : CCGL.Spec.Built r) (hc : 0 < r.nCells)
    (hl : r.nLyrs = n) (hgr : r.hdr.grid = h.grid) (hnd : r.noData = nd)
    (hval : ∀ row col, h.grid.CellInside row col → ∀ l : Nat, l < n → ∃ w, r.getValue row col ((l : Int) + 1) = .ok w ∧ L l row col w)
    (hout : j.outFmt = .gfs) (hre : j.recls = false)
    (hfew : ∀ (r' : Raster) (w : Nat → Int → Int → ℚ), CCGL.Spec.Built r' → 0 < r'.nCells → r'.nLyrs = n → r'.hdr.grid = h.grid → r'.posData = r.posData →
      r'.noData = renamedNd j.update nd j.nodata.toQ → (∀ row col, h.grid.CellInside row col → ∀ l : Nat, l < n → L l row col (w l row col)) →
      (∀ row col, h.grid.CellInside row col → ∀ l : Nat, l < n → r'.getValue row col ((l : Int) + 1) = .ok (renamed j.update nd j.nodata.toQ (w l row col))) →
      ∃ r1 ps, FewStreamL r' { h with noData := renamedNd j.update nd j.nodata.toQ } n (fun l row col => renamed j.update nd j.nodata.toQ (w l row col)) S r1 ps)
    (ho : BucketLayersFew st j jd { h with noData := renamedNd j.update nd j.nodata.toQ } n)
    (hv : ∀ row col, h.grid.CellInside row col → ∀ l : Nat, l < n → ∀ w, L l row col w → Fits j.type (renamed j.update nd j.nodata.toQ w)) :
    ∃ st', finishJobDb sys false .mask (d, st, mask) (j, jd) (some ⟨r, subs⟩, mask') = .ok (d, st', mask') ∧ StoredLayersFew sys st st' j jd h nd n L S := by
  obtain ⟨r', e, k1, k2, k3, k4, k5, k6, k7⟩ := rename_step hb j.update j.nodata.toQ
  obtain ⟨p1, -⟩ := rename_pos e
  have hex : ∀ x : Nat × Int × Int, ∃ w, h.grid.CellInside x.2.1 x.2.2 → x.1 < n → r.getValue x.2.1 x.2.2 ((x.1 : Int) + 1) = .ok w ∧ L x.1 x.2.1 x.2.2 w := by
    intro x
    by_cases hx : h.grid.CellInside x.2.1 x.2.2 ∧ x.1 < n
    · obtain ⟨w, w1, w2⟩ := hval _ _ hx.1 _ hx.2
      exact ⟨w, fun _ _ => ⟨w1, w2⟩⟩
    · exact ⟨0, fun a b => absurd ⟨a, b⟩ hx⟩
  choose w hw using hex
  have hgr' : r'.hdr.grid = ({ h with noData := renamedNd j.update nd j.nodata.toQ } : Header).grid := by rw [k5]; exact hgr
  have hVal : ∀ row col, h.grid.CellInside row col → ∀ l : Nat, l < n → r'.getValue row col ((l : Int) + 1) = .ok (renamed j.update nd j.nodata.toQ (w (l, row, col))) := by
    intro row col hin l hln
    obtain ⟨x, x1, x2⟩ := k7 row col ((l : Int) + 1)
    have := (hw (l, row, col) hin hln).1
    dsimp only at this
    rw [this] at x1
    injection x1 with x1
    rw [x2, ← x1, hnd]
  obtain ⟨r1, ps, hfs⟩ := hfew r' (fun l row col => w (l, row, col)) k1 (by rw [k2]; exact hc) (by rw [k4]; exact hl) hgr' p1 (by rw [k6, hnd])
    (fun row col hin l hln => (hw (l, row, col) hin hln).2) hVal
  obtain ⟨st', ok, e1, e2, e3, e4, e5⟩ := store_fewL hrnd (st := st) (j := j) (jd := jd) (h := { h with noData := renamedNd j.update nd j.nodata.toQ })
    (w := fun l row col => renamed j.update nd j.nodata.toQ (w (l, row, col))) k1 (by rw [k4]; exact hl) hgr' (by rw [k5, hnd]) hfs
    ho (fun row col hin l hln => hv row col hin l hln _ (hw (l, row, col) hin hln).2)
  refine ⟨st', ?_, e3, fun q => ⟨fun l row col => w (l, row, col), fun row col hin l hln => (hw (l, row, col) hin hln).2, e4 (e2.2 q)⟩, fun q => e5 ?_⟩
  · unfold finishJobDb
    dsimp only
    rw [e]
    simp only [Out.ok_bind, hre, Bool.false_eq_true, if_false, Out.pure_eq]
    rw [if_neg (by rw [hout]; simp), if_pos hout]
    unfold writeJobDb
    rw [hre]
    have q1 : outSubset .mask = false := by decide
    have q2 : outAll .mask = true := by decide
    rw [q1, q2]
    simp only [Bool.false_eq_true, if_false, if_true, Out.pure_eq, Out.ok_bind]
    unfold storedName at e1
    rw [e1]
    rfl
  · cases hk : ok with
    | false => rfl
    | true => exact absurd (e2.1 hk) q

end App
end CCGL
