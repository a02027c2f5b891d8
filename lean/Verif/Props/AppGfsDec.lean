import Verif.Lemmas.AppGfsGroups
/-!
# Jobs of `mask_rasterio` that store groups of cells or reclassified grids in GridFS (C90)
-/
namespace CCGL
namespace App
open Fs Disk Main Raster Gfs Disk.Spec App.Spec

/-- A reclassification job with output to the bucket, given the steps before. -/
theorem recls_job_db {sys : Sys} (hrnd : ∀ v, CCGL.Spec.Representable .float v → sys.rnd v = v) {d : Disk} {st : Store} {mode : IOMode} {j : Job} {jd : JobDb}
    {mk mk' : Option RasterS} {r r' : Raster} {subs : IMap Subset} {rs : RasterS} {b : Bool} {V : View} {fill : ℚ} {m : Int}
    (ej : layerJobDb sys true mode (d, st, mk) (j, jd) = finishJobDb sys true mode (d, st, mk) (j, jd) (some ⟨r, subs⟩, mk'))
    (hout : j.outFmt = .gfs) (hre : j.recls = true) (e3 : (if j.update then r.replaceNoData j.nodata.toQ else .ok r : Out Raster) = .ok r')
    (eb : buildSubSet ⟨r', subs⟩ [] = .ok (rs, b)) (H : Ready rs V.hdr V.val V.grp j.default.toQ fill) (hl : rs.ras.nLyrs = 1)
    (O : DbOut st mode j jd V fill m) (hin : ∀ k row col, V.grp k row col → V.hdr.grid.CellInside row col) :
    ∃ st', layerJobDb sys true mode (d, st, mk) (j, jd) = .ok (d, st', mk') ∧ OthersStay st st' mode j V.grp ∧ DbDone sys.rnd st' mode j V fill m := by
  obtain ⟨st', e, h1, h2⟩ := write_recls_db (noMask := mk.isNone) hrnd hre H hl O hin
  refine ⟨st', ?_, h1, h2⟩
  rw [ej]
  unfold finishJobDb
  dsimp only
  rw [e3]
  simp only [Out.ok_bind, hre, if_true]
  rw [eb]
  simp only [Out.ok_bind, Out.pure_eq]
  rw [if_neg (by rw [hout]; simp), if_pos hout, e]
  rfl

/-- A job without reclassification that stores single groups, given the steps before. -/
theorem groups_job_db {sys : Sys} (hrnd : ∀ v, CCGL.Spec.Representable .float v → sys.rnd v = v) {d : Disk} {st : Store} {mode : IOMode} {j : Job} {jd : JobDb}
    {mk mk' : Option RasterS} {r r' : Raster} {subs : IMap Subset} {y : RasterS} {V : View} {fill : ℚ} {m : Int}
    (ej : layerJobDb sys true mode (d, st, mk) (j, jd) = finishJobDb sys true mode (d, st, mk) (j, jd) (some ⟨r, subs⟩, mk'))
    (hout : j.outFmt = .gfs) (hre : j.recls = false) (hs : WantsSingle mode)
    (e3 : (if j.update then r.replaceNoData j.nodata.toQ else .ok r : Out Raster) = .ok r')
    (hy : (if mk.isNone then do
            let b ← buildSubSet ⟨r', subs⟩ []
            return b.1
          else return ⟨r', subs⟩ : Out RasterS) = .ok y)
    (H : Ready y V.hdr V.val V.grp j.default.toQ fill) (hl : y.ras.nLyrs = 1)
    (O : DbOut st mode j jd V fill m) (hin : ∀ k row col, V.grp k row col → V.hdr.grid.CellInside row col) {w : Int → Int → ℚ}
    (hw : WantsAll mode → Shows y.ras V.hdr w ∧ ∀ row col, V.hdr.grid.CellInside row col →
      (w row col = V.val row col ∨ w row col = V.hdr.noData) ∧ (HasValue V.hdr V.val row col → w row col = V.val row col) ∧
      (¬ HasValue V.hdr V.val row col → floatEqual (w row col) V.hdr.noData = true)) :
    ∃ st', layerJobDb sys true mode (d, st, mk) (j, jd) = .ok (d, st', mk') ∧ OthersStay st st' mode j V.grp ∧ DbDone sys.rnd st' mode j V fill m := by
  obtain ⟨st', e, h1, h2⟩ := write_groups_db (noMask := mk.isNone) hrnd hre hs hy H hl O hin hw
  refine ⟨st', ?_, h1, h2⟩
  rw [ej]
  unfold finishJobDb
  dsimp only
  rw [e3]
  simp only [Out.ok_bind, hre, Bool.false_eq_true, if_false, Out.pure_eq]
  rw [if_neg (by rw [hout]; simp), if_pos hout, e]
  rfl

theorem build_lyrs {r : Raster} (hb : CCGL.Spec.Built r) {rs' b} (e : buildSubSet ⟨r, []⟩ [] = .ok (rs', b)) : rs'.ras.nLyrs = r.nLyrs := by
  obtain ⟨-, -, -, h, -⟩ := build_cases2 hb e
  exact h

theorem byValue_in {h : Header} {v : Int → Int → ℚ} : ∀ k row col, byValue h v k row col → h.grid.CellInside row col := fun _ _ _ hk => hk.1.1

/-- The view of a job without mask; with a mask in the mode MASK; with a mask in the modes DEC and MASKDEC. -/
def Spec.ownView (j : Job) (hR : Header) (vR : Int → Int → ℚ) : View := ⟨plainHdr j hR, plainVal j hR vR, byValue (plainHdr j hR) (plainVal j hR vR)⟩
noncomputable def Spec.maskedView (j : Job) (hM : Header) (vM : Int → Int → ℚ) (hR : Header) (vR : Int → Int → ℚ) : View :=
  ⟨maskHdr j hM hR, maskVal j hM vM hR vR, byValue (maskHdr j hM hR) (maskVal j hM vM hR vR)⟩
noncomputable def Spec.unitsView (j : Job) (hM : Header) (vM : Int → Int → ℚ) (hR : Header) (vR : Int → Int → ℚ) : View :=
  ⟨maskHdr j hM hR, maskVal j hM vM hR vR, maskGroups j hM vM hR vR⟩

/-- C90: a reclassification job without mask, any mode. -/
theorem C90_recls_partial {sys : Sys} (hrnd : ∀ v, CCGL.Spec.Representable .float v → sys.rnd v = v) {d : Disk} {st : Store} {mode : IOMode} {j : Job}
    {jd : JobDb} {hR : Header} {vR : Int → Int → ℚ} (H : Input sys d st j jd hR vR) (hout : j.outFmt = .gfs) (hre : j.recls = true) {n : Int}
    (O : DbOut st mode j jd (ownView j hR vR) (jobFill j hR) n) :
    ∃ st', layerJobDb sys true mode (d, st, none) (j, jd) = .ok (d, st', none) ∧ OthersStay st st' mode j (ownView j hR vR).grp ∧
      DbDone sys.rnd st' mode j (ownView j hR vR) (jobFill j hR) n := by
  obtain ⟨r, ej, hs, hd⟩ := input_plain H mode
  obtain ⟨r', e3, hnh, hs'⟩ := shows_rename hs j.update j.nodata.toQ
  have hdf' : r'.dflt = if j.update then j.nodata.toQ else checkDefault j.default.toQ hR.noData := by rw [rename_dflt e3, hd]
  obtain ⟨rs, b, eb, HR⟩ := ready_own (h := plainHdr j hR) (v := plainVal j hR vR) (dv := j.default.toQ) (fill := jobFill j hR) hs'.built hs'.one
    hs'.grid hs'.nodata hs'.val (fill_unlisted hdf')
  exact recls_job_db (V := ownView j hR vR) hrnd ej hout hre e3 eb HR (by rw [build_lyrs hs'.built eb]; exact hs'.lyrs) O byValue_in

/-- C90: a reclassification job of the mode MASK with a mask. -/
theorem C90_mask_recls_partial {sys : Sys} (hrnd : ∀ v, CCGL.Spec.Representable .float v → sys.rnd v = v) {d : Disk} {st : Store} {j : Job} {jd : JobDb}
    {m : Raster} {hM hR : Header} {vM vR : Int → Int → ℚ} (hm : IsMask m hM vM) (H : Input sys d st j jd hR vR) (hg : CCGL.Spec.CommonGrid hR hM)
    (hov : Overlaps hM vM hR) (hout : j.outFmt = .gfs) (hre : j.recls = true) {n : Int}
    (O : DbOut st .mask j jd (maskedView j hM vM hR vR) (jobFill j hR) n) :
    ∃ st' m', layerJobDb sys true .mask (d, st, some ⟨m, []⟩) (j, jd) = .ok (d, st', some ⟨m', []⟩) ∧ IsMask m' hM vM ∧
      OthersStay st st' .mask j (maskedView j hM vM hR vR).grp ∧ DbDone sys.rnd st' .mask j (maskedView j hM vM hR vR) (jobFill j hR) n := by
  obtain ⟨r, m', w, ej, hm', hs, hw, hd⟩ := input_masked hm H hg hov .mask
  obtain ⟨r', e3, hnh, hs'⟩ := shows_rename hs j.update j.nodata.toQ
  have hdf' : r'.dflt = if j.update then j.nodata.toQ else checkDefault j.default.toQ hR.noData := by rw [rename_dflt e3, hd]
  obtain ⟨rs, b, eb, HR⟩ := ready_own (h := maskHdr j hM hR) (v := maskVal j hM vM hR vR) (dv := j.default.toQ) (fill := jobFill j hR) hs'.built hs'.one
    hs'.grid hs'.nodata (by
      intro row col hin
      rw [hs'.val row col hin, masked_eq (hw row col hin)]
      rfl) (fill_unlisted hdf')
  obtain ⟨st', k1, k2, k3⟩ := recls_job_db (V := maskedView j hM vM hR vR) hrnd ej hout hre e3 eb HR (by rw [build_lyrs hs'.built eb]; exact hs'.lyrs) O
    byValue_in
  exact ⟨st', m', k1, hm', k2, k3⟩

/-- The raster of a masked job after the change of NoData. -/
theorem groups_renamed {r r' : Raster} {subs : IMap Subset} {j : Job} {hM hR : Header} {vM vR : Int → Int → ℚ}
    (k : MaskedGroups r subs hM vM hR vR j.default.toQ) (e3 : (if j.update then r.replaceNoData j.nodata.toQ else .ok r : Out Raster) = .ok r') :
    Shows r' (maskHdr j hM hR) (maskVal j hM vM hR vR) ∧ r'.hdr.noData = (maskHdr j hM hR).noData ∧ CCGL.Spec.fillValue r' j.default.toQ = jobFill j hR ∧
      (∀ k row col, maskGroups j hM vM hR vR k row col ↔ ∃ s, subs.get k = some s ∧ CCGL.Spec.InSubset s row col) := by
  have hs : Shows r { hM with noData := hR.noData } (maskedVal hM vM hR vR j.default.toQ) := ⟨k.built, k.cells, k.one, k.lyrs, k.grid, k.nodata, k.val⟩
  obtain ⟨r2, e2, hn, hs'⟩ := shows_rename hs j.update j.nodata.toQ
  rw [e3] at e2
  injection e2 with e2
  subst e2
  exact ⟨hs', hn, fill_unlisted (by rw [rename_dflt e3, k.dflt]), k.grp⟩

theorem groups_in {j : Job} {hM hR : Header} {vM vR : Int → Int → ℚ} : ∀ k row col, maskGroups j hM vM hR vR k row col →
    (maskHdr j hM hR).grid.CellInside row col := by
  rintro k row col ⟨⟨hk, -⟩, -⟩
  exact hk.1

theorem groups_ready {r r' : Raster} {subs : IMap Subset} {j : Job} {hM hR : Header} {vM vR : Int → Int → ℚ}
    (k : MaskedGroups r subs hM vM hR vR j.default.toQ) (e3 : (if j.update then r.replaceNoData j.nodata.toQ else .ok r : Out Raster) = .ok r') :
    Ready ⟨r', subs⟩ (maskHdr j hM hR) (maskVal j hM vM hR vR) (maskGroups j hM vM hR vR) j.default.toQ (jobFill j hR) := by
  obtain ⟨hs, hn, hf, hg⟩ := groups_renamed k e3
  exact ⟨fun _ => k.cut r' hs.built (rename_pos e3).1, hs.one, hs.grid, hs.nodata, hn, hf, hg, fun k row col hk => hs.val row col (groups_in k row col hk)⟩

/-- No group is left: the masked raster has no value anywhere. -/
theorem groups_none {j : Job} {hM hR : Header} {vM vR : Int → Int → ℚ} (h : ∀ k row col, ¬ maskGroups j hM vM hR vR k row col) :
    byValue (maskHdr j hM hR) (maskVal j hM vM hR vR) = maskGroups j hM vM hR vR := by
  have hno : ∀ row col, hM.grid.CellInside row col → floatEqual (maskedVal hM vM hR vR j.default.toQ row col) hR.noData = true := by
    intro row col hin
    by_contra hf
    rw [Bool.not_eq_true] at hf
    have hh : HasValue hM vM row col := by
      by_contra hh
      unfold maskedVal at hf
      rw [dif_neg (fun h => hh h.1), floatEqual_self] at hf
      cases hf
    exact h (truncQ (vM row col)) row col ⟨⟨hh, rfl⟩, row, col, ⟨hh, rfl⟩, hf⟩
  funext k row col
  apply propext
  constructor
  · rintro ⟨⟨h1, h2⟩, -⟩
    exfalso
    have := hno row col h1
    unfold maskVal renamed maskHdr renamedNd at h2
    dsimp only at h2
    cases hu : j.update with
    | false =>
      rw [hu, if_neg (by simp)] at h2
      simp only [Bool.false_eq_true, if_false] at h2
      rw [this] at h2
      cases h2
    | true =>
      rw [hu, if_pos ⟨rfl, this⟩] at h2
      simp only [if_true] at h2
      rw [floatEqual_self] at h2
      cases h2
  · intro hk
    exact absurd hk (h k row col)

/-- C90: a reclassification job of the modes DEC and MASKDEC with a mask, whose subsets have been built. -/
theorem C90_units_recls_partial {sys : Sys} (hrnd : ∀ v, CCGL.Spec.Representable .float v → sys.rnd v = v) {d : Disk} {st : Store} {mode : IOMode} {j : Job}
    {jd : JobDb} {m : RasterS} {hM hR : Header} {vM vR : Int → Int → ℚ} (hm : CutMask m hM vM) (H : Input sys d st j jd hR vR)
    (hg : CCGL.Spec.CommonGrid hR hM) (hco : CCGL.Spec.CoordsPresent hM) (hov : Overlaps hM vM hR) (hout : j.outFmt = .gfs) (hre : j.recls = true) {n : Int}
    (O : DbOut st mode j jd (unitsView j hM vM hR vR) (jobFill j hR) n) :
    ∃ st', layerJobDb sys true mode (d, st, some m) (j, jd) = .ok (d, st', some m) ∧ OthersStay st st' mode j (unitsView j hM vM hR vR).grp ∧
      DbDone sys.rnd st' mode j (unitsView j hM vM hR vR) (jobFill j hR) n := by
  obtain ⟨r, subs, ej, k⟩ := input_groups hm H hg hco hov mode
  obtain ⟨r', e3, -⟩ := rename_step k.built j.update j.nodata.toQ
  obtain ⟨hs, hn, hf, hgr⟩ := groups_renamed k e3
  by_cases hne : subs = []
  · subst hne
    obtain ⟨rs, b, eb, HR⟩ := ready_own (h := maskHdr j hM hR) (v := maskVal j hM vM hR vR) (dv := j.default.toQ) (fill := jobFill j hR) hs.built hs.one
      hs.grid hs.nodata hs.val hf
    rw [groups_none (fun k row col hk => by
      obtain ⟨s, h1, -⟩ := (hgr k row col).1 hk
      cases h1)] at HR
    exact recls_job_db (V := unitsView j hM vM hR vR) hrnd ej hout hre e3 eb HR (by rw [build_lyrs hs.built eb]; exact hs.lyrs) O groups_in
  · obtain ⟨ls, ps, G, hC⟩ := k.cut r' hs.built (rename_pos e3).1
    exact recls_job_db (V := unitsView j hM vM hR vR) hrnd ej hout hre e3 (build_kept hC hne) (groups_ready k e3) hs.lyrs O groups_in

/-- C90: a job of the modes DEC and MASKDEC with a mask, whose subsets have been built, without reclassification. -/
theorem C90_units_partial {sys : Sys} (hrnd : ∀ v, CCGL.Spec.Representable .float v → sys.rnd v = v) {d : Disk} {st : Store} {mode : IOMode} {j : Job}
    {jd : JobDb} {m : RasterS} {hM hR : Header} {vM vR : Int → Int → ℚ} (hm : CutMask m hM vM) (H : Input sys d st j jd hR vR)
    (hg : CCGL.Spec.CommonGrid hR hM) (hco : CCGL.Spec.CoordsPresent hM) (hov : Overlaps hM vM hR) (hout : j.outFmt = .gfs) (hre : j.recls = false)
    (hs : WantsSingle mode) (O : DbOut st mode j jd (unitsView j hM vM hR vR) (jobFill j hR) 1) :
    ∃ st', layerJobDb sys true mode (d, st, some m) (j, jd) = .ok (d, st', some m) ∧ OthersStay st st' mode j (unitsView j hM vM hR vR).grp ∧
      DbDone sys.rnd st' mode j (unitsView j hM vM hR vR) (jobFill j hR) 1 := by
  obtain ⟨r, subs, ej, k⟩ := input_groups hm H hg hco hov mode
  obtain ⟨r', e3, -⟩ := rename_step k.built j.update j.nodata.toQ
  obtain ⟨hsh, hn, hf, hgr⟩ := groups_renamed k e3
  refine groups_job_db (V := unitsView j hM vM hR vR) (w := maskVal j hM vM hR vR) (y := ⟨r', subs⟩) hrnd ej hout hre hs e3 rfl (groups_ready k e3) hsh.lyrs O
    groups_in ?_
  intro _
  refine ⟨hsh, fun row col hin => ⟨.inl rfl, fun _ => rfl, fun h => ?_⟩⟩
  by_contra hc
  rw [Bool.not_eq_true] at hc
  exact h ⟨hin, hc⟩

/-- C90: a job of the modes DEC and MASKDEC without mask and without reclassification. For the whole grid some cell must have a value: `BuildSubSet` leaves an
object without cells otherwise, and nothing is stored. -/
theorem C90_own_partial {sys : Sys} (hrnd : ∀ v, CCGL.Spec.Representable .float v → sys.rnd v = v) {d : Disk} {st : Store} {mode : IOMode} {j : Job}
    {jd : JobDb} {hR : Header} {vR : Int → Int → ℚ} (H : Input sys d st j jd hR vR) (hout : j.outFmt = .gfs) (hre : j.recls = false) (hs : WantsSingle mode)
    (hany : WantsAll mode → ∃ row col, HasValue (plainHdr j hR) (plainVal j hR vR) row col)
    (O : DbOut st mode j jd (ownView j hR vR) (jobFill j hR) 1) :
    ∃ st', layerJobDb sys true mode (d, st, none) (j, jd) = .ok (d, st', none) ∧ OthersStay st st' mode j (ownView j hR vR).grp ∧
      DbDone sys.rnd st' mode j (ownView j hR vR) (jobFill j hR) 1 := by
  obtain ⟨r, ej, hs0, hd⟩ := input_plain H mode
  obtain ⟨r', e3, hnh, hs'⟩ := shows_rename hs0 j.update j.nodata.toQ
  have hdf' : r'.dflt = if j.update then j.nodata.toQ else checkDefault j.default.toQ hR.noData := by rw [rename_dflt e3, hd]
  obtain ⟨rs, b, eb, HR⟩ := ready_own (h := plainHdr j hR) (v := plainVal j hR vR) (dv := j.default.toQ) (fill := jobFill j hR) hs'.built hs'.one
    hs'.grid hs'.nodata hs'.val (fill_unlisted hdf')
  obtain ⟨hbr, -⟩ := C74_built hs'.built [] eb
  obtain ⟨-, -, hnd, hly, h2, -, hvv, hcase⟩ := build_cases2 hs'.built eb
  have hkey : ∀ rc : Int × Int, ∃ x, rs.ras.getValue rc.1 rc.2 1 = .ok x := fun rc => value_total hbr rc.1 rc.2 1
  choose w hw using hkey
  refine groups_job_db (V := ownView j hR vR) (w := fun row col => w (row, col)) (y := rs) hrnd ej hout hre hs e3 (by
    show (do
      let b ← buildSubSet ⟨r', []⟩ []
      return b.1 : Out RasterS) = .ok rs
    rw [eb]; rfl) HR (by rw [hly]; exact hs'.lyrs) O byValue_in ?_
  intro hall
  obtain ⟨row, col, hv⟩ := hany hall
  have hne : rs.subs ≠ [] := by
    intro h0
    obtain ⟨s, a, -⟩ := (HR.grp _ row col).1 ⟨hv, rfl⟩
    rw [h0] at a
    cases a
  have hcells : 0 < rs.ras.nCells := by
    obtain ⟨ls, ps, G, hC⟩ := HR.cut hne
    have := hC.comp.ncells
    have hl : ps ≠ [] := hC.comp.ne
    have : 0 < ps.length := List.length_pos_of_ne_nil hl
    omega
  refine ⟨⟨hbr, hcells, by rw [h2]; exact hs'.one, by rw [hly]; exact hs'.lyrs, HR.grid, HR.nd, fun row col _ => hw (row, col)⟩, ?_⟩
  intro row col hin
  have hvalid : HasValue (plainHdr j hR) (plainVal j hR vR) row col → w (row, col) = plainVal j hR vR row col := by
    intro hh
    have h1 := hvv row col 1 _ ⟨hs'.val row col hin, by rw [hs'.nodata]; exact hh.2⟩
    rw [hw (row, col), hs'.val row col hin] at h1
    injection h1
  have hor : w (row, col) = plainVal j hR vR row col ∨ w (row, col) = (plainHdr j hR).noData := by
    rcases build_value hs'.built eb row col 1 with q | q
    · left
      rw [hw (row, col), hs'.val row col hin] at q
      injection q
    · right
      rw [hw (row, col), hs'.nodata] at q
      injection q
  refine ⟨hor, hvalid, fun hh => ?_⟩
  rcases hor with q | q
  · show floatEqual (w (row, col)) _ = true
    rw [q]
    by_contra hc
    rw [Bool.not_eq_true] at hc
    exact hh ⟨hin, hc⟩
  · show floatEqual (w (row, col)) _ = true
    rw [q]
    exact floatEqual_self _

theorem bucketOut_of {st : Store} {j : Job} {jd : JobDb} {V : View} {fill : ℚ} (O : DbOut st .mask j jd V fill 1) (hre : j.recls = false) :
    BucketOut st j jd V.hdr where
  key := by rw [stored_zero]; exact subFile_key O 0
  header := O.whole (.inl rfl)
  type := O.type
  rm := O.rm
  att := O.att
  old := O.old _ (.inr ⟨.inl rfl, fun h => by (rw [hre] at h; cases h), rfl⟩)

theorem plain_done {rnd : ℚ → ℚ} {st st' : Store} {j : Job} {V : View} {fill : ℚ} (hre : j.recls = false)
    (hs : ∀ R : CCGL.Spec.Key, R.name ≠ storedName j.out → CCGL.Spec.filesOf st' R = CCGL.Spec.filesOf st R)
    (hh : HoldsGrid rnd st' (storedName j.out) (wholeOpts j.type) V.hdr V.val) :
    OthersStay st st' .mask j V.grp ∧ DbDone rnd st' .mask j V fill 1 := by
  refine ⟨fun R hR => hs R (hR _ (.inr ⟨.inl rfl, fun h => by (rw [hre] at h; cases h), rfl⟩)), ?_, ?_, ?_⟩
  · rintro (h | h) <;> cases h
  · intro h
    rw [hre] at h
    cases h
  · intro _ _
    refine ⟨V.val, hh, fun row col hin => ⟨fun _ => rfl, fun h => ?_⟩⟩
    by_contra hc
    rw [Bool.not_eq_true] at hc
    exact h ⟨hin, hc⟩

/-- C90: a job of the mode MASK with a mask and without reclassification. -/
theorem C90_mask_partial {sys : Sys} (hrnd : ∀ v, CCGL.Spec.Representable .float v → sys.rnd v = v) {d : Disk} {st : Store} {j : Job} {jd : JobDb}
    {m : Raster} {hM hR : Header} {vM vR : Int → Int → ℚ} (hm : IsMask m hM vM) (H : Input sys d st j jd hR vR) (hg : CCGL.Spec.CommonGrid hR hM)
    (hov : Overlaps hM vM hR) (hout : j.outFmt = .gfs) (hre : j.recls = false) (O : DbOut st .mask j jd (maskedView j hM vM hR vR) (jobFill j hR) 1) :
    ∃ st' m', layerJobDb sys true .mask (d, st, some ⟨m, []⟩) (j, jd) = .ok (d, st', some ⟨m', []⟩) ∧ IsMask m' hM vM ∧
      OthersStay st st' .mask j (maskedView j hM vM hR vR).grp ∧ DbDone sys.rnd st' .mask j (maskedView j hM vM hR vR) (jobFill j hR) 1 := by
  obtain ⟨r, m', w, e, k1, k2, k3, -⟩ := input_masked hm H hg hov .mask
  have hv : ∀ row col, hM.grid.CellInside row col → renamed j.update hR.noData j.nodata.toQ (w row col) = maskVal j hM vM hR vR row col := by
    intro row col hin
    rw [masked_eq (k3 row col hin)]
    rfl
  have hs : Shows r { hM with noData := hR.noData } (maskedVal hM vM hR vR j.default.toQ) :=
    ⟨k2.built, k2.cells, k2.one, k2.lyrs, k2.grid, k2.nodata, fun row col hin => by rw [k2.val row col hin, masked_eq (k3 row col hin)]⟩
  obtain ⟨st', ok, e1, e2, e3, e4, -⟩ := finish_store (sys := sys) hrnd (d := d) (st := st) (mask := some ⟨m, []⟩) (mask' := some ⟨m', []⟩)
    (j := j) (jd := jd) hs hout hre (bucketOut_of O hre) (fun row col hin => O.cells hre row col hin)
  obtain ⟨q1, q2⟩ := plain_done (V := maskedView j hM vM hR vR) (fill := jobFill j hR) hre e3 (e4 (e2.2 O.done.1))
  exact ⟨st', m', by rw [e, e1], k1, q1, q2⟩

/-- C90: a job of the mode MASK without a mask and without reclassification. -/
theorem C90_plain_partial {sys : Sys} (hrnd : ∀ v, CCGL.Spec.Representable .float v → sys.rnd v = v) {d : Disk} {st : Store} {j : Job} {jd : JobDb}
    {hR : Header} {vR : Int → Int → ℚ} (H : Input sys d st j jd hR vR) (hout : j.outFmt = .gfs) (hre : j.recls = false)
    (O : DbOut st .mask j jd (ownView j hR vR) (jobFill j hR) 1) :
    ∃ st', layerJobDb sys true .mask (d, st, none) (j, jd) = .ok (d, st', none) ∧
      OthersStay st st' .mask j (ownView j hR vR).grp ∧ DbDone sys.rnd st' .mask j (ownView j hR vR) (jobFill j hR) 1 := by
  obtain ⟨r, e, k, -⟩ := input_plain H .mask
  obtain ⟨st', ok, e1, e2, e3, e4, -⟩ := finish_store (sys := sys) hrnd (d := d) (st := st) (mask := none) (mask' := none)
    (j := j) (jd := jd) k hout hre (bucketOut_of O hre) (fun row col hin => O.cells hre row col hin)
  obtain ⟨q1, q2⟩ := plain_done (V := ownView j hR vR) (fill := jobFill j hR) hre e3 (e4 (e2.2 O.done.1))
  exact ⟨st', by rw [e, e1], q1, q2⟩

end App
end CCGL
