import Verif.Lemmas.AppGfsStack
import Verif.Props.AppGfsReclsL
/-!
# Jobs of `mask_rasterio` with several input files, no table and output to GridFS in the modes DEC and MASKDEC (C98)
-/
namespace CCGL
namespace App
open Fs Disk Main Raster Gfs Disk.Spec App.Spec

theorem stack_job_db {sys : Sys} (hrnd : ∀ v, CCGL.Spec.Representable .float v → sys.rnd v = v) {d : Disk} {st : Store} {mode : IOMode} {j : Job} {jd : JobDb}
    {mk mk' : Option RasterS} {r r' : Raster} {subs : IMap Subset} {y : RasterS} {V : View} {N : Nat → Int → Int → ℚ → Prop} {fill : ℚ} {n : Nat}
    (hin : j.inFmt = .sfile) (hout : j.outFmt = .gfs) (hre : j.recls = false) (hs : WantsSingle mode) (hfe : filesExist d.fs j.inputs = true)
    (hi : initFiles d j.inputs false mk true j.default.toQ = .ok (some ⟨r, subs⟩, mk'))
    (e3 : (if j.update then r.replaceNoData j.nodata.toQ else .ok r : Out Raster) = .ok r')
    (hy : (if mk.isNone then do
            let b ← buildSubSet ⟨r', subs⟩ []
            return b.1
          else return ⟨r', subs⟩ : Out RasterS) = .ok y)
    (H : ReadyL y V.hdr N V.grp n j.default.toQ fill) (h2 : y.ras.is2d = true) (hl : y.ras.nLyrs = n) (hn : 1 < n) (O : StackOut st mode j jd V N n)
    (hgi : ∀ k row col, V.grp k row col → V.hdr.grid.CellInside row col) (hb : CCGL.Spec.Built y.ras) (hc : WantsAll mode → 0 < y.ras.nCells)
    (hN : ∀ row col, V.hdr.grid.CellInside row col → ∀ l : Nat, l < n → N l row col (layerNum y l row col)) :
    ∃ st', layerJobDb sys true mode (d, st, mk) (j, jd) = .ok (d, st', mk') ∧ OthersStay st st' mode j V.grp ∧ DbStack sys.rnd st' mode j V N n := by
  obtain ⟨st', e, h1, h3⟩ := write_stack_db (noMask := mk.isNone) hrnd hre hs hy H h2 hl hn O hgi hb hc hN
  refine ⟨st', ?_, h1, h3⟩
  unfold layerJobDb
  rw [if_pos ⟨hin, hfe⟩]
  dsimp only
  rw [hi, Out.ok_bind]
  unfold finishJobDb
  dsimp only
  rw [e3]
  simp only [Out.ok_bind, hre, Bool.false_eq_true, if_false, Out.pure_eq]
  rw [if_neg (by rw [hout]; simp), if_pos hout, e]
  rfl

/-- C98 with output to GridFS: a job with several input files, no mask and no table, in the modes DEC and MASKDEC. For the whole grid some cell must have a value
(see `C90_own_partial`). -/
theorem C98_gfs_stack_own_partial {sys : Sys} (hrnd : ∀ v, CCGL.Spec.Representable .float v → sys.rnd v = v) {d : Disk} {st : Store} {jd : JobDb} {mode : IOMode} {j : Job} {s : Str} {rest : List LayerFile} {hR : Header} {vR : Int → Int → ℚ} (hin : j.inFmt = .sfile)
    (hs : j.inputs = s :: rest.map (·.path)) (hne : rest ≠ []) (H : RasterFile d s hR vR)
    (Hl : ∀ l ∈ rest, RasterFile d l.path l.hdr l.val) (hgl : ∀ l ∈ rest, CCGL.Spec.CommonGrid l.hdr hR)
    (hout : j.outFmt = .gfs) (hre : j.recls = false) (hs1 : WantsSingle mode)
    (hany : WantsAll mode → ∃ row col, HasValue (plainHdr j hR) (plainVal j hR vR) row col)
    (O : StackOut st mode j jd (ownView j hR vR) (ownNum j hR vR rest) (rest.length + 1)) :
    ∃ st', layerJobDb sys true mode (d, st, none) (j, jd) = .ok (d, st', none) ∧
      OthersStay st st' mode j (ownView j hR vR).grp ∧ DbStack sys.rnd st' mode j (ownView j hR vR) (ownNum j hR vR rest) (rest.length + 1) := by
  obtain ⟨r, hi, hfe, hb, hnc, h2, hl, hgr, hnd, hdf, hval⟩ := plain_layers hne H Hl hgl j.default.toQ
  obtain ⟨r', e3, hb', hnc', h2d', hly', hhdr, hnd', hval'⟩ := rename_step hb j.update j.nodata.toQ
  have hdf' : r'.dflt = if j.update then j.nodata.toQ else checkDefault j.default.toQ hR.noData := by
    rw [rename_dflt e3, hdf]
  have hV : ∀ row col, (plainHdr j hR).grid.CellInside row col → ∀ l : Nat, l < rest.length + 1 → ∀ x, r'.getValue row col ((l : Int) + 1) = .ok x →
      plainNum j hR vR rest l row col x := by
    intro row col hij l hln x hx
    obtain ⟨w, w1, w2⟩ := hval row col hij l hln
    obtain ⟨y, y1, y2⟩ := hval' row col ((l : Int) + 1)
    rw [w1] at y1
    cases y1
    rw [y2] at hx
    cases hx
    exact ⟨w, w2, by rw [hnd]⟩
  obtain ⟨rs, b, eb, HR, q2, ql⟩ := ready_ownL (h := plainHdr j hR) (v := plainVal j hR vR) (V := plainNum j hR vR rest) (dv := j.default.toQ) (fill := jobFill j hR) (m := ((rest.length + 1 : Nat) : Int)) (n := rest.length + 1)
    hb' (by rw [h2d', h2]) (by rw [hly', hl]; push_cast; rfl) le_rfl
    (by rw [hhdr]; exact hgr) (by rw [hnd', hnd]; rfl) (by
      intro row col hij
      obtain ⟨w, w1, w2⟩ := hval row col hij 0 (by omega)
      obtain ⟨y, y1, y2⟩ := hval' row col 1
      have w1 : r.getValue row col 1 = .ok w := w1
      rw [w1] at y1
      cases y1
      rw [y2, hnd, w2.1 rfl]
      rfl) hV (fill_unlisted hdf')
  have hv1 : ∀ row col, (plainHdr j hR).grid.CellInside row col → r'.getValue row col 1 = .ok (plainVal j hR vR row col) := by
    intro row col hij
    obtain ⟨w, w1, w2⟩ := hval row col hij 0 (by omega)
    obtain ⟨y, y1, y2⟩ := hval' row col 1
    have w1 : r.getValue row col 1 = .ok w := w1
    rw [w1] at y1
    cases y1
    rw [y2, hnd, w2.1 rfl]
    rfl
  have hndr : r'.noData = (plainHdr j hR).noData := by rw [hnd', hnd]; rfl
  obtain ⟨hbr, -⟩ := C74_built hb' [] eb
  obtain ⟨-, -, -, -, -, -, hvv, -⟩ := build_cases2 hb' eb
  have h2r : rs.ras.is2d = true := by rw [q2, h2d', h2]
  have hout2 : ∀ k row col, (ownView j hR vR).grp k row col → (ownView j hR vR).hdr.grid.CellInside row col := byValue_in
  have HR' : ReadyL rs (ownView j hR vR).hdr (ownNum j hR vR rest) (ownView j hR vR).grp ((rest.length + 1 : Nat) : Int) j.default.toQ (jobFill j hR) :=
    { HR with val := fun k row col l x a b c => .inl (HR.val k row col l x a b c) }
  refine stack_job_db (V := ownView j hR vR) (y := rs) hrnd hin hout hre hs1 (by rw [hs]; exact hfe) (by rw [hs]; exact hi) e3 (by
    show (do
      let b ← buildSubSet ⟨r', []⟩ []
      return b.1 : Out RasterS) = .ok rs
    rw [eb]; rfl) HR' h2r (by rw [ql, hly', hl]; push_cast; rfl) (by have := List.length_pos_of_ne_nil hne; omega) O byValue_in hbr ?_ ?_
  · intro hall
    obtain ⟨row, col, hv⟩ := hany hall
    have hne : rs.subs ≠ [] := by
      intro h0
      obtain ⟨s, a, -⟩ := (HR.grp _ row col).1 ⟨hv, rfl⟩
      rw [h0] at a
      cases a
    obtain ⟨ls, ps, G, hC⟩ := HR.cut hne
    have := hC.comp.ncells
    have hl : ps ≠ [] := hC.comp.ne
    have : 0 < ps.length := List.length_pos_of_ne_nil hl
    omega
  · intro row col hij l hln
    obtain ⟨x, hx⟩ := value_total hbr row col ((l : Int) + 1)
    have hxe : layerNum rs l row col = x := layerNum_eq (by rw [h2r]; exact hx)
    rw [hxe]
    by_cases hh : HasValue (plainHdr j hR) (plainVal j hR vR) row col
    · rw [hvv row col _ _ ⟨hv1 row col hij, by rw [hndr]; exact hh.2⟩] at hx
      exact .inl (hV row col hij l hln x hx)
    · rcases build_value hb' eb row col ((l : Int) + 1) with q | q
      · rw [hx] at q
        exact .inl (hV row col hij l hln x q.symm)
      · rw [hx, hndr] at q
        injection q with q
        exact .inr ⟨hh, q⟩

/-- C98 with output to GridFS: the same with a mask, whose subsets have been built. -/
theorem C98_gfs_stack_units_partial {sys : Sys} (hrnd : ∀ v, CCGL.Spec.Representable .float v → sys.rnd v = v) {d : Disk} {st : Store} {jd : JobDb} {m : RasterS} {hM hR : Header} {vM vR : Int → Int → ℚ} (hm : CutMask m hM vM) {mode : IOMode} {j : Job} {s : Str} {rest : List LayerFile}
    (hin : j.inFmt = .sfile) (hs : j.inputs = s :: rest.map (·.path)) (hne : rest ≠ []) (H : RasterFile d s hR vR)
    (Hl : ∀ l ∈ rest, RasterFile d l.path l.hdr l.val) (hg : CCGL.Spec.CommonGrid hR hM) (hco : CCGL.Spec.CoordsPresent hM)
    (hgl : ∀ l ∈ rest, CCGL.Spec.CommonGrid l.hdr hM) (hov : Overlaps hM vM hR)
    (hout : j.outFmt = .gfs) (hre : j.recls = false) (hs1 : WantsSingle mode)
    (O : StackOut st mode j jd (unitsView j hM vM hR vR) (maskNum j hM vM hR vR rest) (rest.length + 1)) :
    ∃ st', layerJobDb sys true mode (d, st, some m) (j, jd) = .ok (d, st', some m) ∧
      OthersStay st st' mode j (unitsView j hM vM hR vR).grp ∧ DbStack sys.rnd st' mode j (unitsView j hM vM hR vR) (maskNum j hM vM hR vR rest) (rest.length + 1) := by
  obtain ⟨r, subs', hi, hfe, hb, hnc, h2, hl, hgr, hnd, hdf, hval1, hval, -, hcut, hgrp⟩ := grouped_layers hm hne H Hl hg hco hgl hov j.default.toQ
  obtain ⟨r', e3, hb', hnc', h2d', hly', hhdr, hnd', hval'⟩ := rename_step hb j.update j.nodata.toQ
  have hdf' : r'.dflt = if j.update then j.nodata.toQ else checkDefault j.default.toQ hR.noData := by
    rw [rename_dflt e3, hdf]
  have hvals : ∀ row col, (maskHdr j hM hR).grid.CellInside row col → r'.getValue row col 1 = .ok (maskVal j hM vM hR vR row col) := by
    intro row col hij
    obtain ⟨y, y1, y2⟩ := hval' row col 1
    rw [hval1 row col hij] at y1
    cases y1
    rw [y2, hnd]
    rfl
  have hV : ∀ row col, (maskHdr j hM hR).grid.CellInside row col → ∀ l : Nat, l < rest.length + 1 → ∀ x, r'.getValue row col ((l : Int) + 1) = .ok x →
      maskNum j hM vM hR vR rest l row col x := by
    intro row col hij l hln x hx
    obtain ⟨w, w1, w2⟩ := hval row col hij l hln
    obtain ⟨y, y1, y2⟩ := hval' row col ((l : Int) + 1)
    rw [w1] at y1
    cases y1
    rw [y2] at hx
    cases hx
    exact ⟨w, w2, by rw [hnd]⟩
  have hgr' : r'.hdr.grid = (maskHdr j hM hR).grid := by rw [hhdr]; exact hgr
  have hfe' : filesExist d.fs j.inputs = true := by rw [hs]; exact hfe
  have hi' : initFiles d j.inputs false (some m) true j.default.toQ = .ok (some ⟨r, subs'⟩, some m) := by rw [hs]; exact hi
  have hly2 : r'.nLyrs = ((rest.length + 1 : Nat) : Int) := by rw [hly', hl]; push_cast; rfl
  have h2r : r'.is2d = true := by rw [h2d', h2]
  have HR : ReadyL ⟨r', subs'⟩ (maskHdr j hM hR) (maskNum j hM vM hR vR rest) (maskGroups j hM vM hR vR) ((rest.length + 1 : Nat) : Int) j.default.toQ (jobFill j hR) := by
    refine ⟨fun _ => hcut r' hb' (rename_pos e3).1, fun _ => by rw [hly2], hgr', by rw [hnd', hnd]; rfl, by rw [hhdr, hnd]; rfl, fill_unlisted hdf', hgrp, ?_⟩
    rintro k row col l x ⟨⟨hk, -⟩, -⟩ hlm hx
    dsimp only at hx
    rw [h2d', h2, if_pos rfl] at hx
    exact hV row col hk.1 l (by omega) x hx
  refine stack_job_db (V := unitsView j hM vM hR vR) (y := ⟨r', subs'⟩) hrnd hin hout hre hs1 hfe' hi' e3 rfl HR h2r hly2 (by have := List.length_pos_of_ne_nil hne; omega) O
    groups_in hb' (fun _ => by show 0 < r'.nCells; rw [hnc']; exact hnc) ?_
  intro row col hij l hln
  obtain ⟨x, hx⟩ := value_total hb' row col ((l : Int) + 1)
  have hxe : layerNum ⟨r', subs'⟩ l row col = x := layerNum_eq (by dsimp only; rw [h2r]; exact hx)
  rw [hxe]
  exact hV row col hij l hln x hx

end App
end CCGL
