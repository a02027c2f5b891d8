import Verif.Lemmas.AppGfsFewWrite
import Verif.Props.AppGfsDec
/-!
# Jobs of `mask_rasterio` that store groups of cells or reclassified grids in GridFS without NoData cells (C90)
-/
namespace CCGL
namespace App
open Fs Disk Main Raster Gfs Disk.Spec App.Spec

/-- A reclassification job with output to the bucket, given the steps before. -/
theorem recls_job_few {sys : Sys} (hrnd : ∀ v, CCGL.Spec.Representable .float v → sys.rnd v = v) {d : Disk} {st : Store} {mode : IOMode} {j : Job} {jd : JobDb}
    {mk mk' : Option RasterS} {r r' : Raster} {subs : IMap Subset} {rs : RasterS} {b : Bool} {V : View} {fill : ℚ} {m : Int} {C : Int → Int → Prop}
    (ej : layerJobDb sys false mode (d, st, mk) (j, jd) = finishJobDb sys false mode (d, st, mk) (j, jd) (some ⟨r, subs⟩, mk'))
    (hout : j.outFmt = .gfs) (hre : j.recls = true) (e3 : (if j.update then r.replaceNoData j.nodata.toQ else .ok r : Out Raster) = .ok r')
    (eb : buildSubSet ⟨r', subs⟩ [] = .ok (rs, b)) (H : Ready rs V.hdr V.val V.grp j.default.toQ fill) (hl : rs.ras.nLyrs = 1)
    (O : FewOut st mode j jd V fill m) (hin : ∀ k row col, V.grp k row col → V.hdr.grid.CellInside row col)
    (hcells : WantsAll mode → (∃ k, Present V.grp k) → ∃ ps, rs.ras.posData = some ps ∧ ∀ row col, (row, col) ∈ ps ↔ V.hdr.grid.CellInside row col ∧ C row col) :
    ∃ st', layerJobDb sys false mode (d, st, mk) (j, jd) = .ok (d, st', mk') ∧ OthersStay st st' mode j V.grp ∧ FewDone sys.rnd st' mode j V fill m C := by
  obtain ⟨st', e, h1, h2⟩ := write_recls_few (C := C) (noMask := mk.isNone) hrnd hre H hl O hin hcells
  refine ⟨st', ?_, h1, h2⟩
  rw [ej]
  unfold finishJobDb
  dsimp only
  rw [e3]
  simp only [Out.ok_bind, hre, if_true]
  rw [eb]
  simp only [Out.ok_bind, Out.pure_eq]
  rw [if_neg (by rw [hout]; simp), if_pos hout, e]
  rfl

/-- A job without reclassification that stores single groups, given the steps before. -/
theorem groups_job_few {sys : Sys} (hrnd : ∀ v, CCGL.Spec.Representable .float v → sys.rnd v = v) {d : Disk} {st : Store} {mode : IOMode} {j : Job} {jd : JobDb}
    {mk mk' : Option RasterS} {r r' : Raster} {subs : IMap Subset} {y : RasterS} {V : View} {fill : ℚ} {m : Int} {C : Int → Int → Prop}
    (ej : layerJobDb sys false mode (d, st, mk) (j, jd) = finishJobDb sys false mode (d, st, mk) (j, jd) (some ⟨r, subs⟩, mk'))
    (hout : j.outFmt = .gfs) (hre : j.recls = false) (hs : WantsSingle mode)
    (e3 : (if j.update then r.replaceNoData j.nodata.toQ else .ok r : Out Raster) = .ok r')
    (hy : (if mk.isNone then do
            let b ← buildSubSet ⟨r', subs⟩ []
            return b.1
          else return ⟨r', subs⟩ : Out RasterS) = .ok y)
    (H : Ready y V.hdr V.val V.grp j.default.toQ fill) (hl : y.ras.nLyrs = 1)
    (O : FewOut st mode j jd V fill m) (hin : ∀ k row col, V.grp k row col → V.hdr.grid.CellInside row col) {w : Int → Int → ℚ}
    (hw : WantsAll mode → Shows y.ras V.hdr w ∧ (∃ r1 ps, FewStream y.ras V.hdr w C r1 ps) ∧ ∀ row col, V.hdr.grid.CellInside row col →
      (w row col = V.val row col ∨ w row col = V.hdr.noData) ∧ (HasValue V.hdr V.val row col → w row col = V.val row col) ∧
      (¬ HasValue V.hdr V.val row col → floatEqual (w row col) V.hdr.noData = true)) :
    ∃ st', layerJobDb sys false mode (d, st, mk) (j, jd) = .ok (d, st', mk') ∧ OthersStay st st' mode j V.grp ∧ FewDone sys.rnd st' mode j V fill m C := by
  obtain ⟨st', e, h1, h2⟩ := write_groups_few (C := C) (noMask := mk.isNone) hrnd hre hs hy H hl O hin hw
  refine ⟨st', ?_, h1, h2⟩
  rw [ej]
  unfold finishJobDb
  dsimp only
  rw [e3]
  simp only [Out.ok_bind, hre, Bool.false_eq_true, if_false, Out.pure_eq]
  rw [if_neg (by rw [hout]; simp), if_pos hout, e]
  rfl

/-- The object after `BuildSubSet`. -/
theorem build_ras {r : Raster} {rs : RasterS} {b : Bool} (hv : r.validData = true) (e : buildSubSet ⟨r, []⟩ [] = .ok (rs, b)) :
    ((r.posData.isNone = true ∨ r.posIdx.isNone = true) → ∃ c, r.setCalcPositions = .ok (rs.ras, c)) ∧
    (r.posData.isNone = false → r.posIdx.isNone = false → rs.ras = r) := by
  unfold buildSubSet at e
  dsimp only at e
  rw [hv] at e
  simp only [Bool.not_true, Bool.false_eq_true, if_false] at e
  obtain ⟨⟨r1, ok⟩, e1, e2⟩ := Out.bind_ok e
  have hr : rs.ras = r1 := by
    dsimp only at e2
    cases ok with
    | false =>
      simp only [Bool.not_false, if_true, Out.ok.injEq, Prod.mk.injEq] at e2
      rw [← e2.1]
    | true =>
      simp only [Bool.not_true, Bool.false_eq_true, if_false, ne_eq, not_true_eq_false] at e2
      obtain ⟨m, -, e3⟩ := Out.bind_ok e2
      obtain ⟨subs, -, e4⟩ := Out.bind_ok e3
      simp only [Out.pure_eq, Out.ok.injEq, Prod.mk.injEq] at e4
      rw [← e4.1]
  constructor
  · intro h
    rw [if_pos (by simpa using h)] at e1
    exact ⟨ok, by rw [e1, hr]⟩
  · intro h1 h2
    rw [if_neg (by rw [h1, h2]; simp)] at e1
    injection e1 with e1
    injection e1 with e1
    rw [hr, e1]

/-- A raster without positions: `BuildSubSet` stores the cells that have a value. -/
theorem build_own_cells {r : Raster} {h : Header} {v : Int → Int → ℚ} {rs : RasterS} {b : Bool} (hs : Shows r h v) (hp : r.posData = none)
    (hval : ∃ row col, HasValue h v row col) (e : buildSubSet ⟨r, []⟩ [] = .ok (rs, b)) :
    ∃ ps, rs.ras.posData = some ps ∧ ∀ row col, (row, col) ∈ ps ↔ h.grid.CellInside row col ∧ HasValue h v row col := by
  have hfv : ∀ row col, h.grid.CellInside row col → (FirstValid r row col ↔ HasValue h v row col) := by
    intro row col hin
    unfold FirstValid HasValue
    rw [hs.val row col hin, hs.nodata]
    constructor
    · rintro ⟨x, e, hx⟩
      injection e with e
      rw [e]; exact ⟨hin, hx⟩
    · intro hx; exact ⟨_, rfl, hx.2⟩
  obtain ⟨r1, ls, ps, c1, c2, c3, c4, c5, c6, c7, c8, c9⟩ := clean_positions hs.built (.inl hp) (by
    obtain ⟨row, col, h2⟩ := hval
    exact ⟨row, col, by rw [hs.grid]; exact h2.1, (hfv row col h2.1).2 h2⟩)
  have hvd : r.validData = true := built_valid hs.built hs.cells
  obtain ⟨c, hc⟩ := (build_ras hvd e).1 (.inl (by rw [hp]; rfl))
  have hr : rs.ras = r1 := by
    rcases c3 with ⟨-, ⟨c', h1⟩, -⟩ | h1
    · rw [h1] at hc
      injection hc with hc
      injection hc with hc
      exact hc.symm
    · have := c1.pd
      rw [h1, hp] at this
      cases this
  refine ⟨ps, by rw [hr]; exact c1.pd, ?_⟩
  intro row col
  rw [c8, hs.grid]
  constructor
  · rintro ⟨h1, h2⟩; exact ⟨h1, (hfv row col h1).1 h2⟩
  · rintro ⟨h1, h2⟩; exact ⟨h1, (hfv row col h1).2 h2⟩

/-- A raster with positions keeps them. -/
theorem build_kept_cells {r : Raster} {h : Header} {v : Int → Int → ℚ} {rs : RasterS} {b : Bool} {S : Int → Int → Prop} (hs : Shows r h v)
    (hp : r.posData.isNone = false) (hS : ∀ row col, h.grid.CellInside row col → (CCGL.Spec.Stored r row col ↔ S row col))
    (e : buildSubSet ⟨r, []⟩ [] = .ok (rs, b)) :
    ∃ ps, rs.ras.posData = some ps ∧ ∀ row col, (row, col) ∈ ps ↔ h.grid.CellInside row col ∧ S row col := by
  have hvd : r.validData = true := built_valid hs.built hs.cells
  have hgr := hs.grid
  unfold Header.grid at hgr
  injection hgr with g1 g2 g3 g4 g5
  rcases built_cases hs.built hvd (fun _ => hs.cells) with ⟨ls, hf⟩ | ⟨ls, ps, hc⟩
  · rw [hf.pd] at hp; cases hp
  · have hr := (build_ras hvd e).2 hp (by rw [hc.pi]; rfl)
    refine ⟨ps, by rw [hr]; exact hc.pd, ?_⟩
    intro row col
    constructor
    · intro hm
      have hin := hc.inside _ hm
      have hin' : h.grid.CellInside row col := by
        dsimp only at hin
        rw [g1, g2] at hin
        exact hin
      exact ⟨hin', (hS row col hin').1 ((stored_iff hs hc.pd hin').2 hm)⟩
    · rintro ⟨hin, h2⟩
      exact (stored_iff hs hc.pd hin).1 ((hS row col hin).2 h2)

/-- The cells stored do not change with the value of NoData. -/
theorem stored_renamed {r r' : Raster} {h h' : Header} {v v' : Int → Int → ℚ} {S : Int → Int → Prop} (hs : Shows r h v) (hs' : Shows r' h' v') (hg : h'.grid = h.grid)
    (hp : r.posData.isNone = false) (he : r'.posData = r.posData)
    (hS : ∀ row col, h.grid.CellInside row col → (CCGL.Spec.Stored r row col ↔ S row col)) :
    ∀ row col, h'.grid.CellInside row col → (CCGL.Spec.Stored r' row col ↔ S row col) := by
  obtain ⟨ps, hps⟩ : ∃ ps, r.posData = some ps := by
    cases hp' : r.posData with
    | none => rw [hp'] at hp; cases hp
    | some ps => exact ⟨ps, rfl⟩
  intro row col hin
  have hin' : h.grid.CellInside row col := by rw [← hg]; exact hin
  rw [stored_iff hs' (by rw [he, hps]) hin, ← stored_iff hs hps hin']
  exact hS row col hin'

/-- C90, INCLUDE_NODATA FALSE: a reclassification job without mask, any mode; the cells with a value are stored. -/
theorem C90_few_recls {sys : Sys} (hrnd : ∀ v, CCGL.Spec.Representable .float v → sys.rnd v = v) {d : Disk} {st : Store} {mode : IOMode} {j : Job}
    {jd : JobDb} {s : Str} {hR : Header} {vR : Int → Int → ℚ} (h1 : j.inFmt = .sfile) (h2 : j.inputs = [s]) (h3 : RasterFile d s hR vR)
    (hout : j.outFmt = .gfs) (hre : j.recls = true) {n : Int} (O : FewOut st mode j jd (ownView j hR vR) (jobFill j hR) n) :
    ∃ st', layerJobDb sys false mode (d, st, none) (j, jd) = .ok (d, st', none) ∧ OthersStay st st' mode j (ownView j hR vR).grp ∧
      FewDone sys.rnd st' mode j (ownView j hR vR) (jobFill j hR) n (HasValue (plainHdr j hR) (plainVal j hR vR)) := by
  obtain ⟨r, ej, hs, hpd, hd⟩ := file_input_plain (sys := sys) (st := st) (jd := jd) (inc := false) h1 h2 h3 mode
  obtain ⟨r', e3, hnh, hs'⟩ := shows_rename hs j.update j.nodata.toQ
  have hdf' : r'.dflt = if j.update then j.nodata.toQ else checkDefault j.default.toQ hR.noData := by rw [rename_dflt e3, hd]
  obtain ⟨rs, b, eb, HR⟩ := ready_own (h := plainHdr j hR) (v := plainVal j hR vR) (dv := j.default.toQ) (fill := jobFill j hR) hs'.built hs'.one
    hs'.grid hs'.nodata hs'.val (fill_unlisted hdf')
  refine recls_job_few (V := ownView j hR vR) hrnd ej hout hre e3 eb HR (by rw [build_lyrs hs'.built eb]; exact hs'.lyrs) O byValue_in ?_
  rintro - ⟨k, row, col, hk⟩
  exact build_own_cells (h := plainHdr j hR) (v := plainVal j hR vR) hs' (by rw [(rename_pos e3).1, hpd]) ⟨row, col, hk.1⟩ eb

/-- C90, INCLUDE_NODATA FALSE: a reclassification job of the mode MASK with a mask; the cells of the mask are stored. -/
theorem C90_few_mask_recls {sys : Sys} (hrnd : ∀ v, CCGL.Spec.Representable .float v → sys.rnd v = v) {d : Disk} {st : Store} {j : Job} {jd : JobDb}
    {m : Raster} {s : Str} {hM hR : Header} {vM vR : Int → Int → ℚ} (hm : IsMask m hM vM) (h1 : j.inFmt = .sfile) (h2 : j.inputs = [s])
    (h3 : RasterFile d s hR vR) (hg : CCGL.Spec.CommonGrid hR hM)
    (hov : Overlaps hM vM hR) (hout : j.outFmt = .gfs) (hre : j.recls = true) {n : Int}
    (O : FewOut st .mask j jd (maskedView j hM vM hR vR) (jobFill j hR) n) :
    ∃ st' m', layerJobDb sys false .mask (d, st, some ⟨m, []⟩) (j, jd) = .ok (d, st', some ⟨m', []⟩) ∧ IsMask m' hM vM ∧
      OthersStay st st' .mask j (maskedView j hM vM hR vR).grp ∧
      FewDone sys.rnd st' .mask j (maskedView j hM vM hR vR) (jobFill j hR) n (HasValue hM vM) := by
  obtain ⟨r, m', w, ej, hm', hs, hpd, hst, hw, hd⟩ := file_input_masked (sys := sys) (st := st) (jd := jd) (inc := false) hm h1 h2 h3 hg hov .mask
  obtain ⟨r', e3, hnh, hs'⟩ := shows_rename hs j.update j.nodata.toQ
  have hdf' : r'.dflt = if j.update then j.nodata.toQ else checkDefault j.default.toQ hR.noData := by rw [rename_dflt e3, hd]
  obtain ⟨rs, b, eb, HR⟩ := ready_own (h := maskHdr j hM hR) (v := maskVal j hM vM hR vR) (dv := j.default.toQ) (fill := jobFill j hR) hs'.built hs'.one
    hs'.grid hs'.nodata (by
      intro row col hin
      rw [hs'.val row col hin, masked_eq (hw row col hin)]
      rfl) (fill_unlisted hdf')
  obtain ⟨st', k1, k2, k3⟩ := recls_job_few (V := maskedView j hM vM hR vR) (C := HasValue hM vM) hrnd ej hout hre e3 eb HR
    (by rw [build_lyrs hs'.built eb]; exact hs'.lyrs) O byValue_in (fun _ _ =>
      build_kept_cells hs' (by rw [(rename_pos e3).1]; exact hpd) (stored_renamed hs hs' rfl hpd (rename_pos e3).1 hst) eb)
  exact ⟨st', m', k1, hm', k2, k3⟩

/-- The input is a file, read with a mask that has subsets (whatever `INCLUDE_NODATA` is). -/
theorem file_input_groups {sys : Sys} {d : Disk} {st : Store} {j : Job} {jd : JobDb} {s : Str} {hM hR : Header} {vM vR : Int → Int → ℚ} {m : RasterS} {inc : Bool}
    (hm : CutMask m hM vM) (h1 : j.inFmt = .sfile) (h2 : j.inputs = [s]) (h3 : RasterFile d s hR vR) (hg : CCGL.Spec.CommonGrid hR hM)
    (hco : CCGL.Spec.CoordsPresent hM) (hov : Overlaps hM vM hR) (mode : IOMode) :
    ∃ r subs, layerJobDb sys inc mode (d, st, some m) (j, jd) = finishJobDb sys inc mode (d, st, some m) (j, jd) (some ⟨r, subs⟩, some m) ∧
      MaskedGroups r subs hM vM hR vR j.default.toQ ∧ r.posData.isNone = false ∧
      (∀ row col, hM.grid.CellInside row col → (CCGL.Spec.Stored r row col ↔ HasValue hM vM row col)) := by
  obtain ⟨x, res, subs, hex, ex, em, hcode, hmk, k1, k2, k3, k4, k5, k6, k7, k8, k9, k10, k11⟩ := file_masked_groups hm h3 hg hco hov j.default.toQ
  obtain ⟨x', res', -, ex', em', -, -, -, -, -, -, -, -, hpd, hst, -⟩ := file_masked_stored hm.isMask h3 hg hov j.default.toQ
  have hres : res' = res := by
    rw [ex] at ex'
    injection ex' with ex'
    injection ex' with ex'
    subst ex'
    have em2 := em
    unfold maskRasterS at em2
    rw [em', Out.ok_bind] at em2
    split at em2
    · simp only [Out.pure_eq, Out.ok.injEq, Prod.mk.injEq] at em2
      exact em2.1
    · obtain ⟨q, -, e⟩ := Out.bind_ok em2
      simp only [Out.pure_eq, Out.ok.injEq, Prod.mk.injEq] at e
      exact e.1
  rw [hres] at hpd hst
  refine ⟨res.ras, subs, ?_, ⟨k1, k2, k3, k4, k5, k6, k7, k8, k10, k11, k9⟩, hpd, hst⟩
  unfold layerJobDb
  have hfe : filesExist d.fs j.inputs = true := by rw [h2]; unfold filesExist; simp [hex]
  dsimp only
  rw [if_pos ⟨h1, hfe⟩]
  have hi : initFiles d j.inputs false (some m) true j.default.toQ = .ok (some ⟨res.ras, subs⟩, some m) := by
    unfold initFiles
    rw [hfe, h2]
    simp only [Bool.not_true, Bool.false_eq_true, if_false]
    unfold initFile
    rw [hex]
    simp only [Bool.not_true, Bool.false_eq_true, if_false]
    rw [ex]
    simp only [Out.ok_bind]
    rw [em]
    simp only [Out.ok_bind, Out.pure_eq, hcode, hmk]
    rfl
  rw [hi, Out.ok_bind]

/-- The cells of the raster of a masked job. -/
theorem groups_cells {r r' : Raster} {subs : IMap Subset} {j : Job} {hM hR : Header} {vM vR : Int → Int → ℚ}
    (k : MaskedGroups r subs hM vM hR vR j.default.toQ) (hpd : r.posData.isNone = false)
    (hst : ∀ row col, hM.grid.CellInside row col → (CCGL.Spec.Stored r row col ↔ HasValue hM vM row col))
    (e3 : (if j.update then r.replaceNoData j.nodata.toQ else .ok r : Out Raster) = .ok r') :
    (∀ row col, (maskHdr j hM hR).grid.CellInside row col → (CCGL.Spec.Stored r' row col ↔ HasValue hM vM row col)) ∧
    ∃ ps, r'.posData = some ps ∧ ∀ row col, (row, col) ∈ ps ↔ (maskHdr j hM hR).grid.CellInside row col ∧ HasValue hM vM row col := by
  have hs : Shows r { hM with noData := hR.noData } (maskedVal hM vM hR vR j.default.toQ) := ⟨k.built, k.cells, k.one, k.lyrs, k.grid, k.nodata, k.val⟩
  obtain ⟨hs', -⟩ := groups_renamed k e3
  have hst' := stored_renamed hs hs' rfl hpd (rename_pos e3).1 hst
  refine ⟨hst', ?_⟩
  have hgr := hs'.grid
  unfold Header.grid at hgr
  injection hgr with g1 g2 g3 g4 g5
  rcases built_cases hs'.built (built_valid hs'.built hs'.cells) (fun _ => hs'.cells) with ⟨ls, hf⟩ | ⟨ls, ps, hc⟩
  · have := hf.pd
    rw [(rename_pos e3).1] at this
    rw [this] at hpd; cases hpd
  · refine ⟨ps, hc.pd, ?_⟩
    intro row col
    constructor
    · intro hm
      have hin := hc.inside _ hm
      have hin' : (maskHdr j hM hR).grid.CellInside row col := by
        dsimp only at hin
        rw [g1, g2] at hin
        exact hin
      exact ⟨hin', (hst' row col hin').1 ((stored_iff hs' hc.pd hin').2 hm)⟩
    · rintro ⟨hin, h2⟩
      exact (stored_iff hs' hc.pd hin).1 ((hst' row col hin).2 h2)

/-- C90, INCLUDE_NODATA FALSE: a reclassification job of the modes DEC and MASKDEC with a mask, whose subsets have been built. -/
theorem C90_few_units_recls {sys : Sys} (hrnd : ∀ v, CCGL.Spec.Representable .float v → sys.rnd v = v) {d : Disk} {st : Store} {mode : IOMode} {j : Job}
    {jd : JobDb} {m : RasterS} {s : Str} {hM hR : Header} {vM vR : Int → Int → ℚ} (hm : CutMask m hM vM) (h1 : j.inFmt = .sfile) (h2 : j.inputs = [s])
    (h3 : RasterFile d s hR vR) (hg : CCGL.Spec.CommonGrid hR hM) (hco : CCGL.Spec.CoordsPresent hM) (hov : Overlaps hM vM hR) (hout : j.outFmt = .gfs)
    (hre : j.recls = true) {n : Int} (O : FewOut st mode j jd (unitsView j hM vM hR vR) (jobFill j hR) n) :
    ∃ st', layerJobDb sys false mode (d, st, some m) (j, jd) = .ok (d, st', some m) ∧ OthersStay st st' mode j (unitsView j hM vM hR vR).grp ∧
      FewDone sys.rnd st' mode j (unitsView j hM vM hR vR) (jobFill j hR) n (HasValue hM vM) := by
  obtain ⟨r, subs, ej, k, hpd, hst⟩ := file_input_groups (sys := sys) (st := st) (jd := jd) (inc := false) hm h1 h2 h3 hg hco hov mode
  obtain ⟨r', e3, -⟩ := rename_step k.built j.update j.nodata.toQ
  obtain ⟨hs, hn, hf, hgr⟩ := groups_renamed k e3
  by_cases hne : subs = []
  · subst hne
    obtain ⟨rs, b, eb, HR⟩ := ready_own (h := maskHdr j hM hR) (v := maskVal j hM vM hR vR) (dv := j.default.toQ) (fill := jobFill j hR) hs.built hs.one
      hs.grid hs.nodata hs.val hf
    have hno : ∀ k row col, ¬ maskGroups j hM vM hR vR k row col := fun k row col hk => by
      obtain ⟨s, h1, -⟩ := (hgr k row col).1 hk
      cases h1
    rw [groups_none hno] at HR
    exact recls_job_few (V := unitsView j hM vM hR vR) hrnd ej hout hre e3 eb HR (by rw [build_lyrs hs.built eb]; exact hs.lyrs) O groups_in
      (fun _ ⟨k, row, col, hk⟩ => absurd hk (hno k row col))
  · obtain ⟨ls, ps, G, hC⟩ := k.cut r' hs.built (rename_pos e3).1
    exact recls_job_few (V := unitsView j hM vM hR vR) hrnd ej hout hre e3 (build_kept hC hne) (groups_ready k e3) hs.lyrs O groups_in
      (fun _ _ => (groups_cells k hpd hst e3).2)

/-- C90, INCLUDE_NODATA FALSE: a job of the modes DEC and MASKDEC with a mask, whose subsets have been built, without reclassification. -/
theorem C90_few_units {sys : Sys} (hrnd : ∀ v, CCGL.Spec.Representable .float v → sys.rnd v = v) {d : Disk} {st : Store} {mode : IOMode} {j : Job}
    {jd : JobDb} {m : RasterS} {s : Str} {hM hR : Header} {vM vR : Int → Int → ℚ} (hm : CutMask m hM vM) (h1 : j.inFmt = .sfile) (h2 : j.inputs = [s])
    (h3 : RasterFile d s hR vR) (hg : CCGL.Spec.CommonGrid hR hM) (hco : CCGL.Spec.CoordsPresent hM) (hov : Overlaps hM vM hR) (hout : j.outFmt = .gfs)
    (hre : j.recls = false) (hs : WantsSingle mode) (O : FewOut st mode j jd (unitsView j hM vM hR vR) (jobFill j hR) 1) :
    ∃ st', layerJobDb sys false mode (d, st, some m) (j, jd) = .ok (d, st', some m) ∧ OthersStay st st' mode j (unitsView j hM vM hR vR).grp ∧
      FewDone sys.rnd st' mode j (unitsView j hM vM hR vR) (jobFill j hR) 1 (HasValue hM vM) := by
  obtain ⟨r, subs, ej, k, hpd, hst⟩ := file_input_groups (sys := sys) (st := st) (jd := jd) (inc := false) hm h1 h2 h3 hg hco hov mode
  obtain ⟨r', e3, -⟩ := rename_step k.built j.update j.nodata.toQ
  obtain ⟨hsh, hn, hf, hgr⟩ := groups_renamed k e3
  obtain ⟨q1, ps, q2, -⟩ := groups_cells k hpd hst e3
  refine groups_job_few (V := unitsView j hM vM hR vR) (w := maskVal j hM vM hR vR) (y := ⟨r', subs⟩) hrnd ej hout hre hs e3 rfl (groups_ready k e3) hsh.lyrs O
    groups_in ?_
  intro _
  refine ⟨hsh, ?_, fun row col hin => ⟨.inl rfl, fun _ => rfl, fun h => ?_⟩⟩
  · obtain ⟨ps', hfs⟩ := few_stored (S := HasValue hM vM) hsh (by rw [q2]; rfl) q1
    exact ⟨r', ps', hfs⟩
  by_contra hc
  rw [Bool.not_eq_true] at hc
  exact h ⟨hin, hc⟩

/-- C90, INCLUDE_NODATA FALSE: a job of the modes DEC and MASKDEC without mask and without reclassification. For the whole grid some cell must have a
value: `BuildSubSet` leaves an object without cells otherwise, and nothing is stored. -/
theorem C90_few_own {sys : Sys} (hrnd : ∀ v, CCGL.Spec.Representable .float v → sys.rnd v = v) {d : Disk} {st : Store} {mode : IOMode} {j : Job}
    {jd : JobDb} {s : Str} {hR : Header} {vR : Int → Int → ℚ} (h1 : j.inFmt = .sfile) (h2 : j.inputs = [s]) (h3 : RasterFile d s hR vR)
    (hout : j.outFmt = .gfs) (hre : j.recls = false) (hs : WantsSingle mode)
    (hany : WantsAll mode → ∃ row col, HasValue (plainHdr j hR) (plainVal j hR vR) row col)
    (O : FewOut st mode j jd (ownView j hR vR) (jobFill j hR) 1) :
    ∃ st', layerJobDb sys false mode (d, st, none) (j, jd) = .ok (d, st', none) ∧ OthersStay st st' mode j (ownView j hR vR).grp ∧
      FewDone sys.rnd st' mode j (ownView j hR vR) (jobFill j hR) 1 (HasValue (plainHdr j hR) (plainVal j hR vR)) := by
  obtain ⟨r, ej, hs0, hpd, hd⟩ := file_input_plain (sys := sys) (st := st) (jd := jd) (inc := false) h1 h2 h3 mode
  obtain ⟨r', e3, hnh, hs'⟩ := shows_rename hs0 j.update j.nodata.toQ
  have hdf' : r'.dflt = if j.update then j.nodata.toQ else checkDefault j.default.toQ hR.noData := by rw [rename_dflt e3, hd]
  obtain ⟨rs, b, eb, HR⟩ := ready_own (h := plainHdr j hR) (v := plainVal j hR vR) (dv := j.default.toQ) (fill := jobFill j hR) hs'.built hs'.one
    hs'.grid hs'.nodata hs'.val (fill_unlisted hdf')
  obtain ⟨hbr, -⟩ := C74_built hs'.built [] eb
  obtain ⟨-, -, hnd, hly, h2', -, hvv, hcase⟩ := build_cases2 hs'.built eb
  have hkey : ∀ rc : Int × Int, ∃ x, rs.ras.getValue rc.1 rc.2 1 = .ok x := fun rc => value_total hbr rc.1 rc.2 1
  choose w hw using hkey
  refine groups_job_few (C := HasValue (plainHdr j hR) (plainVal j hR vR)) (V := ownView j hR vR) (w := fun row col => w (row, col)) (y := rs) hrnd ej hout hre hs e3 (by
    show (do
      let b ← buildSubSet ⟨r', []⟩ []
      return b.1 : Out RasterS) = .ok rs
    rw [eb]; rfl) HR (by rw [hly]; exact hs'.lyrs) O byValue_in ?_
  intro hall
  obtain ⟨row, col, hv⟩ := hany hall
  have hne : rs.subs ≠ [] := by
    intro h0
    obtain ⟨s, a, -⟩ := (HR.grp _ row col).1 ⟨hv, rfl⟩
    rw [h0] at a
    cases a
  have hcells : 0 < rs.ras.nCells := by
    obtain ⟨ls, ps, G, hC⟩ := HR.cut hne
    have := hC.comp.ncells
    have hl : ps ≠ [] := hC.comp.ne
    have : 0 < ps.length := List.length_pos_of_ne_nil hl
    omega
  have hsh : Shows rs.ras (plainHdr j hR) (fun row col => w (row, col)) :=
    ⟨hbr, hcells, by rw [h2']; exact hs'.one, by rw [hly]; exact hs'.lyrs, HR.grid, HR.nd, fun row col _ => hw (row, col)⟩
  refine ⟨hsh, ?_, ?_⟩
  · obtain ⟨ps, q1, q2⟩ := build_own_cells (h := plainHdr j hR) (v := plainVal j hR vR) hs' (by rw [(rename_pos e3).1, hpd]) ⟨row, col, hv⟩ eb
    obtain ⟨ps', hfs⟩ := few_stored (S := HasValue (plainHdr j hR) (plainVal j hR vR)) hsh (by rw [q1]; rfl) (fun row col hin => by
      rw [stored_iff hsh q1 hin, q2]
      exact ⟨fun h => h.2, fun h => ⟨hin, h⟩⟩)
    exact ⟨rs.ras, ps', hfs⟩
  intro row col hin
  have hvalid : HasValue (plainHdr j hR) (plainVal j hR vR) row col → w (row, col) = plainVal j hR vR row col := by
    intro hh
    have h1 := hvv row col 1 _ ⟨hs'.val row col hin, by rw [hs'.nodata]; exact hh.2⟩
    rw [hw (row, col), hs'.val row col hin] at h1
    injection h1
  have hor : w (row, col) = plainVal j hR vR row col ∨ w (row, col) = (plainHdr j hR).noData := by
    rcases build_value hs'.built eb row col 1 with q | q
    · left
      rw [hw (row, col), hs'.val row col hin] at q
      injection q
    · right
      rw [hw (row, col), hs'.nodata] at q
      injection q
  refine ⟨hor, hvalid, fun hh => ?_⟩
  rcases hor with q | q
  · show floatEqual (w (row, col)) _ = true
    rw [q]
    by_contra hc
    rw [Bool.not_eq_true] at hc
    exact hh ⟨hin, hc⟩
  · show floatEqual (w (row, col)) _ = true
    rw [q]
    exact floatEqual_self _

end App
end CCGL
