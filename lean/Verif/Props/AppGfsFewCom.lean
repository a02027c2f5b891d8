import Verif.Lemmas.AppGfsFewDec
/-!
# The mode COM of `mask_rasterio` with output to GridFS, without NoData cells (C88)
-/
namespace CCGL
namespace App
open Fs Disk Main Raster Gfs Disk.Spec App.Spec

/-- A mask of the mode COM that stores the cells with a value and no other. -/
structure Spec.ComFull (m : RasterS) (hM : Header) (vM : Int → Int → ℚ) : Prop where
  mask : ComMask m hM vM
  cells : ∃ ps, m.ras.posData = some ps ∧ ∀ rc ∈ ps, HasValue hM vM rc.1 rc.2

theorem CutMask.comFull {m : RasterS} {hM : Header} {vM : Int → Int → ℚ} (h : CutMask m hM vM) : ComFull m hM vM := by
  refine ⟨h.comMask, ?_⟩
  obtain ⟨ls, ps, G, hc⟩ := h.cut
  refine ⟨ps, hc.comp.pd, ?_⟩
  rintro ⟨row, col⟩ hrc
  have hin := hc.comp.inside _ hrc
  dsimp only at hin
  have hgr := h.grid
  unfold Header.grid at hgr
  injection hgr with g1 g2 g3 g4 g5
  have hin' : hM.grid.CellInside row col := by
    rw [g1, g2] at hin
    exact hin
  obtain ⟨i, hi, e⟩ := List.getElem_of_mem hrc
  have hst : CCGL.Spec.Stored m.ras row col := ⟨i, (hc.comp.getValue_hit row col 1 i hi e ⟨le_rfl, hc.comp.holds.1⟩).1⟩
  rcases h.clean with q | q
  · rw [hc.comp.pd] at q; cases q
  · obtain ⟨x, x1, x2⟩ := q row col hst
    exact ((h.valid row col x).1 ⟨x1, by first | exact x2 | (rw [← h.nd]; exact x2)⟩).1

/-- The combination of the pieces without NoData cells, if there is a piece. -/
theorem com_prepare_few {r : Raster} {hM : Header} {vM : Int → Int → ℚ} {ls ps G} {pieces : List (Option (Int × (Int → Int → ℚ)))} {subs : IMap Subset}
    (hCr : r.Compact ls ps) (hs : ComSubs ps G pieces subs) (hgrid : r.hdr.grid = hM.grid) (hnd : r.noData = hM.noData)
    (hgrp : ∀ k row col, byValue hM vM k row col ↔ ∃ i ∈ G k, posAt ps i = (row, col)) (hcov : ∀ rc ∈ ps, HasValue hM vM rc.1 rc.2)
    (hany : ∃ k, lastPiece pieces k ≠ none ∧ Present (byValue hM vM) k) :
    prepareComb ⟨r, subs⟩ false false [] NODATA =
        .ok (some (some (cellByCell ps 1 (fun _ => comVal hM vM pieces r.dflt)), (ps.length : Int) * 1, 1)) ∧ subs ≠ [] := by
  have hdf : defaultOf r NODATA = r.dflt := by
    unfold defaultOf
    rw [floatEqual_self]
    rfl
  obtain ⟨k0, hlast0, hpres⟩ := hany
  have hget : ∀ k row col, byValue hM vM k row col → ∃ s0, subs.get k = some s0 := by
    intro k row col hc
    obtain ⟨i, hi, -⟩ := (hgrp k row col).1 hc
    cases hk : subs.get k with
    | some sb => exact ⟨sb, rfl⟩
    | none =>
      rw [hs.part.none k hk] at hi
      cases hi
  obtain ⟨row0, col0, hc0⟩ := hpres
  obtain ⟨s0, hs0⟩ := hget k0 row0 col0 hc0
  have huse : ∀ k s, subs.get k = some s → (s.usable = true ↔ lastPiece pieces k ≠ none) := by
    intro k s hk
    have := hs.last k s hk
    cases hl : lastPiece pieces k with
    | some w =>
      rw [hl] at this
      simp [this.1]
    | none =>
      rw [hl] at this
      have this : s.usable = false := this
      simp [this]
  let D : Int → Int → Int → ℚ := fun k i _ => match lastPiece pieces k with
    | some w => w (posAt ps ((G k).getD i.toNat 0)).1 (posAt ps ((G k).getD i.toNat 0)).2
    | none => 0
  obtain ⟨F, f1, f2, f3, f4⟩ := comb_parts hCr hs.part 1 le_rfl D (by
    intro k s hk hu
    obtain ⟨w, hw⟩ := Option.ne_none_iff_exists'.1 ((huse k s hk).1 hu)
    have := hs.last k s hk
    rw [hw] at this
    refine ⟨this.2.1, fun i l h0 h1 _ _ => ?_⟩
    rw [(hs.part.some k s hk).n] at h1
    unfold CCGL.Spec.subsetCell
    rw [if_pos rfl, this.2.2, readAt_some_int _ _ h0 (by rw [List.length_map]; exact h1)]
    simp only [D, hw, List.getElem_map]
    rw [List.getD_eq_getElem _ _ (by omega)]) ⟨k0, s0, hs0, (huse k0 s0 hs0).2 hlast0⟩ false NODATA
  simp only [Bool.false_eq_true, if_false, hdf, hCr.ncells] at f1 f2 f3 f4
  have hF : F = cellByCell ps 1 (fun _ => comVal hM vM pieces r.dflt) := by
    refine eq_cellByCell le_rfl f2 ?_
    intro i l hi hl
    have hl0 : l = 0 := by omega
    subst hl0
    have hrc := List.getElem_mem hi
    have hv := hcov _ hrc
    obtain ⟨i', hi', hp⟩ := (hgrp (truncQ (vM ps[i].1 ps[i].2)) ps[i].1 ps[i].2).1 ⟨hv, rfl⟩
    have hii : i' = i := by
      have hlt := hs.part.lt hi'
      have hsrt := hCr.sorted
      have hnd : ps.Nodup := by
        rw [List.pairwise_map] at hsrt
        exact hsrt.imp (by rintro x y hxy rfl; omega)
      have : ps[i'] = ps[i] := by
        have : posAt ps i' = ps[i'] := by unfold posAt; rw [List.getD_eq_getElem _ _ hlt]
        rw [← this, hp]
      exact (List.Nodup.getElem_inj_iff hnd).1 this
    subst hii
    generalize hk : truncQ (vM ps[i'].1 ps[i'].2) = k at hi'
    obtain ⟨n, hn, hin⟩ := List.getElem_of_mem hi'
    obtain ⟨sb, hsb⟩ := hget k ps[i'].1 ps[i'].2 ⟨hv, hk⟩
    have := f3 k sb n 0 hsb hn le_rfl (by omega)
    rw [hin] at this
    have ho : outIdx r ps false i' = i' := by
      unfold outIdx
      rw [if_neg (by simp)]
    rw [ho] at this
    rw [Nat.cast_zero, this]
    congr 1
    unfold comVal
    rw [if_pos hv, hk]
    cases hl : lastPiece pieces k with
    | some w =>
      rw [(huse k sb hsb).2 (by rw [hl]; simp)]
      simp only [if_true, D, hl]
      rw [Int.toNat_natCast, List.getD_eq_getElem _ _ hn, hin, hp]
    | none =>
      have hu : sb.usable = false := by
        by_contra hb
        exact (huse k sb hsb).1 (by simpa using hb) hl
      rw [hu, hnd]
      simp only [Bool.false_eq_true, if_false]
  rw [hF] at f1
  exact ⟨f1, by intro h; rw [h] at hs0; simp [IMap.get_nil] at hs0⟩

/-- What a job that stores a file without NoData cells leaves in the bucket: under the name of the job the values `v` of the cells `S`, if one of
the four attempts to write was reported as success; no file else. Files with other names stay. -/
def Spec.StoredCells (sys : Sys) (st st' : Store) (j : Job) (jd : JobDb) (h : Header) (v : Int → Int → ℚ) (S : Int → Int → Prop) : Prop :=
  (∀ R : CCGL.Spec.Key, R.name ≠ storedName j.out → CCGL.Spec.filesOf st' R = CCGL.Spec.filesOf st R) ∧
  ((∃ i, i < 4 ∧ (jd.att i).reported = true) → HoldsCells sys.rnd st' (storedName j.out) (fewOpts j.type) h v S) ∧
  ((∀ i, i < 4 → (jd.att i).reported = false) → CCGL.Spec.filesOf st' ⟨storedName j.out, fewOpts j.type⟩ = [])

/-- C88: a job of the mode COM with output to the bucket and without NoData cells (`INCLUDE_NODATA FALSE`) stores the values of the cells of the
mask, row by row (the last piece for each group; the default value for groups without one), if there is a piece at all. The disk does not change. -/
theorem C88_few (sys : Sys) (hrnd : ∀ v, CCGL.Spec.Representable .float v → sys.rnd v = v) {d : Disk} {st : Store} {m : RasterS} {hM : Header}
    {vM : Int → Int → ℚ} (hm : ComFull m hM vM) {j : Job} {jd : JobDb} {pieces : List (Option (Int × (Int → Int → ℚ)))}
    (hin : ComPieces sys d st false (byValue hM vM) j jd pieces) (hany : ∃ x ∈ pieces, x ≠ none) (hout : j.outFmt = .gfs) (hne : j.out ≠ [])
    (ho : BucketFew st j jd hM) (hf : ∀ row col, HasValue hM vM row col → Fits j.type (comVal hM vM pieces j.default.toQ row col)) :
    ∃ st' m', comJobDb sys false (d, st, m) (j, jd) = .ok (d, st', m') ∧ ComFull m' hM vM ∧
      StoredCells sys st st' j jd hM (comVal hM vM pieces j.default.toQ) (HasValue hM vM) := by
  obtain ⟨ls, ps, G, hC, hP, hasc, hgrp⟩ := hm.mask.cut
  obtain ⟨subs, es, hs, hpres⟩ := com_load hm.mask hin hC hP hasc hgrp
  have hcov : ∀ rc ∈ ps, HasValue hM vM rc.1 rc.2 := by
    obtain ⟨ps', h1, h2⟩ := hm.cells
    rw [hC.pd] at h1
    injection h1 with h1
    subst h1
    exact h2
  let r : Raster := { m.ras with dflt := j.default.toQ }
  have hCr : r.Compact ls ps := ⟨hC.holds, hC.rows_nn, hC.cols_nn, hC.len, hC.ncells, hC.ne, hC.calcOn, hC.pd, hC.pi, hC.inside, hC.sorted⟩
  obtain ⟨x, hx, hxn⟩ := hany
  obtain ⟨⟨k0, w0⟩, hx2⟩ := Option.ne_none_iff_exists'.1 hxn
  rw [hx2] at hx
  obtain ⟨f1, f3⟩ := com_prepare_few (r := r) hCr hs hm.mask.grid hm.mask.nd hgrp hcov ⟨k0, lastPiece_mem.1 ⟨w0, hx⟩, hpres k0 w0 hx⟩
  have hgr := hm.mask.grid
  unfold Header.grid at hgr
  injection hgr with g1 g2 g3 g4 g5
  have hrows : r.hdr.rows = hM.rows := g1
  have hcols : r.hdr.cols = hM.cols := g2
  have hord : InOrder hM (HasValue hM vM) ps := by
    refine ⟨by have := hCr.sorted; rwa [hcols] at this, ?_⟩
    intro row col
    constructor
    · intro h
      have := hcov _ h
      exact ⟨this.1, this⟩
    · rintro ⟨-, h⟩
      obtain ⟨i, hi, hp⟩ := (hgrp (truncQ (vM row col)) row col).1 ⟨h, rfl⟩
      have hlt := hP.lt hi
      unfold posAt at hp
      rw [List.getD_eq_getElem _ _ hlt] at hp
      rw [← hp]
      exact List.getElem_mem hlt
  obtain ⟨st', ok, n, w1, w2, w3, w4, w5, -⟩ := store_some (rnd := sys.rnd) hrnd (w := fun _ => comVal hM vM pieces j.default.toQ) hord hC.ne ho.type ho.key
    ho.header (fun row col l _ h _ => hf row col h) ho.rm ho.att ho.old
  have hH : ({ r.hdr with layers := 1, cellsnum := Int.tdiv ((ps.length : Int) * 1) 1 } : Header) = { hM with layers := 1, cellsnum := ps.length } := by
    have e1 : r.hdr.cellsize = hM.cellsize := g3
    have e2 : r.hdr.xll = hM.xll := g4
    have e3 : r.hdr.yll = hM.yll := g5
    have e4 : r.hdr.noData = hM.noData := hm.mask.hnd
    rw [Int.tdiv_one, mul_one]
    dsimp only
    rw [e1, e2, e3, e4, hrows, hcols]
  have hout' : outputSubsets sys.rnd .double (fun _ => jd.rm) (fun _ => jd.att) st ⟨r, subs⟩ jd.own jd.core j.out (jobOpts false j.type) false false true []
      NODATA = .ok (outOpts .double jd.own (fewOpts j.type) false, st', ok) := by
    unfold outputSubsets
    dsimp only
    rw [if_neg (by rw [show r.validData = true from Raster.Holds.valid hCr.holds]; simp), if_neg f3, if_pos rfl, if_neg hne, f1, Out.ok_bind]
    dsimp only
    rw [if_neg (by decide), hH, jobOpts_false, subOpts_few jd.own ho.type.1]
    have : "0_".toList ++ j.out = storedName j.out := rfl
    have hd : r.dflt = j.default.toQ := rfl
    rw [this, hd, w1]
    rfl
  refine ⟨st', ⟨r, subs⟩, ?_, ⟨⟨hm.mask.grid, hm.mask.nd, hm.mask.hnd, ⟨ls, ps, G, hCr, hs.part, hasc, hgrp⟩, hs.old⟩, ps, hC.pd, hcov⟩, w3, fun h => (w4 (w2.2 h)).cells,
    fun h => w5 ?_⟩
  · unfold comJobDb
    dsimp only
    rw [es, Out.ok_bind, if_neg (by rw [hout]; decide), if_pos hout]
    have := hout'
    simp only [r] at this
    rw [this]
    rfl
  · cases ok
    · rfl
    · obtain ⟨i, hi, a⟩ := w2.1 rfl
      rw [h i hi] at a; cases a

end App
end CCGL
