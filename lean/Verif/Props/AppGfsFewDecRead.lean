import Verif.Props.AppGfsFewDec
import Verif.Props.AppGfsFewRead

/-! C90, INCLUDE_NODATA FALSE, the input in GridFS as well: files that hold the cells of the mask. -/

namespace CCGL
namespace App
open Fs Disk Main Raster Gfs Disk.Spec App.Spec

/-- C90, INCLUDE_NODATA FALSE, input in GridFS: a reclassification job of the mode MASK reads the cells of the mask, stored without NoData cells, and
stores the reclassified numbers of the same cells. -/
theorem C90_few_store_recls {sys : Sys} (hrnd : ∀ v, CCGL.Spec.Representable .float v → sys.rnd v = v) {d : Disk} {st : Store} {j : Job} {jd : JobDb}
    {m : Raster} {hM h : Header} {vM v w : Int → Int → ℚ} (hm : FullMask m hM vM) (H : FewInput sys st j jd h v hM vM) (hw : FewCells h v hM vM w)
    (hout : j.outFmt = .gfs) (hre : j.recls = true) {n : Int} (O : FewOut st .mask j jd (ownView j h w) (jobFill j h) n) :
    ∃ st' m', layerJobDb sys false .mask (d, st, some ⟨m, []⟩) (j, jd) = .ok (d, st', some ⟨m', []⟩) ∧ FullMask m' hM vM ∧
      OthersStay st st' .mask j (ownView j h w).grp ∧ FewDone sys.rnd st' .mask j (ownView j h w) (jobFill j h) n (HasValue hM vM) := by
  obtain ⟨r, m', ej, hm', hs, hpd, hst, hd⟩ := few_input (d := d) hm H .mask hw
  obtain ⟨r', e3, hnh, hs'⟩ := shows_rename hs j.update j.nodata.toQ
  have hdf' : r'.dflt = if j.update then j.nodata.toQ else checkDefault j.default.toQ h.noData := by rw [rename_dflt e3, hd]
  obtain ⟨rs, b, eb, HR⟩ := ready_own (h := plainHdr j h) (v := plainVal j h w) (dv := j.default.toQ) (fill := jobFill j h) hs'.built hs'.one
    hs'.grid hs'.nodata hs'.val (fill_unlisted hdf')
  obtain ⟨st', k1, k2, k3⟩ := recls_job_few (V := ownView j h w) (C := HasValue hM vM) hrnd ej hout hre e3 eb HR
    (by rw [build_lyrs hs'.built eb]; exact hs'.lyrs) O byValue_in (fun _ _ =>
      build_kept_cells hs' (by rw [(rename_pos e3).1]; exact hpd) (stored_renamed hs hs' rfl hpd (rename_pos e3).1 hst) eb)
  exact ⟨st', m', k1, hm', k2, k3⟩

/-- Reading a file without NoData cells with a mask that has subsets: as without, with a copy of the subsets. -/
theorem readS_few {rnd : ℚ → ℚ} {T : RDT} {ok1 : Nat → Bool} {rd : Bool} {ok2 : Nat → Bool} {st : Store} {name : Str} {calcPos : Bool} {m : RasterS}
    {ume : Bool} {dflt : ℚ} {opts : Opts} {cells : List ℚ} {hm : HMap} {sm : SMap} {fr m' : Raster}
    (h1 : readGridfs rnd T ok1 rd ok2 st name initialHeader initialStr (inOpts opts) = .ok (some (cells, hm, sm)))
    (h2 : sm kIncNodata = some "FALSE".toList)
    (h3 : readFromMongoMask rnd T ok1 rd ok2 st name calcPos m.ras ume dflt opts = .ok (some fr, m')) :
    readFromMongoMaskS rnd T ok1 rd ok2 st name calcPos m ume dflt opts =
      .ok (some ⟨fr, m.subs.map (fun e => (e.1, { e.2 with nLyrs := fr.nLyrs }))⟩, { m with ras := m' }) := by
  have d1 : (!stringMatch ((some "FALSE".toList).getD []) "FALSE".toList) = false := by decide
  unfold readFromMongoMask at h3
  unfold readFromMongoMaskS
  rw [h1, Out.ok_bind] at h3 ⊢
  dsimp only at h3 ⊢
  rw [h2, d1] at h3
  rw [h2, d1]
  obtain ⟨hdr, e1, h3⟩ := Out.bind_ok h3
  rw [e1, Out.ok_bind]
  obtain ⟨full, e2, h3⟩ := Out.bind_ok h3
  rw [e2, Out.ok_bind]
  obtain ⟨nd, e3, h3⟩ := Out.bind_ok h3
  rw [e3, Out.ok_bind]
  rw [if_neg (by simp)] at h3 ⊢
  by_cases hc : ((calcPos || decide (hdr.cellsnum ≠ full)) && ume && decide (hdr.cellsnum = validNumber m.ras)) = true
  · rw [if_pos hc] at h3 ⊢
    obtain ⟨x1, e4, h3⟩ := Out.bind_ok h3
    rw [e4, Out.ok_bind]
    obtain ⟨x2, e5, h3⟩ := Out.bind_ok h3
    rw [e5, Out.ok_bind]
    by_cases hp : (!false && (x1.2.2.isNone || x2.2.2.isNone)) = true
    · rw [if_pos hp] at h3
      injection h3 with h3
      injection h3 with h3 _
      cases h3
    · rw [if_neg hp] at h3 ⊢
      obtain ⟨y, e6, h3⟩ := Out.bind_ok h3
      rw [e6, Out.ok_bind]
      injection h3 with h3
      injection h3 with h3 h4
      injection h3 with h3
      subst h3 h4
      rfl
  · rw [if_neg hc, if_pos (by rfl)] at h3
    injection h3 with h3
    injection h3 with h3 _
    cases h3

/-- Mapping the layer counts keeps subsets. -/
theorem get_lyrs (subs : IMap Subset) (n k : Int) :
    IMap.get (subs.map (fun e => (e.1, { e.2 with nLyrs := n }))) k = (subs.get k).map (fun s => { s with nLyrs := n }) :=
  IMap.get_mapVal subs (fun _ s => { s with nLyrs := n }) k

/-- The parts of a job whose input is a stored file without NoData cells, read with a mask that has subsets: the values are those of the file, the groups
are those of the mask. -/
def Spec.storeView (j : Job) (hM : Header) (vM : Int → Int → ℚ) (h : Header) (w : Int → Int → ℚ) : View := ⟨plainHdr j h, plainVal j h w, byValue hM vM⟩

theorem few_cut_input {sys : Sys} {d : Disk} {st : Store} {j : Job} {jd : JobDb} {h hM : Header} {v vM : Int → Int → ℚ} {m : RasterS}
    (hm : CutMask m hM vM) (H : FewInput sys st j jd h v hM vM) (mode : IOMode) {w : Int → Int → ℚ} (hw : FewCells h v hM vM w) :
    ∃ r subs, layerJobDb sys false mode (d, st, some m) (j, jd) = finishJobDb sys false mode (d, st, some m) (j, jd) (some ⟨r, subs⟩, some m) ∧
      Shows r h w ∧ r.posData.isNone = false ∧
      (∀ row col, h.grid.CellInside row col → (CCGL.Spec.Stored r row col ↔ HasValue hM vM row col)) ∧
      r.dflt = checkDefault j.default.toQ h.noData ∧ subs ≠ [] ∧ Bare subs ∧
      (∀ r' : Raster, CCGL.Spec.Built r' → r'.posData = r.posData → ∃ ls ps G, Cut ⟨r', subs⟩ ls ps G) ∧
      (∀ k row col, byValue hM vM k row col ↔ ∃ s, subs.get k = some s ∧ CCGL.Spec.InSubset s row col) := by
  obtain ⟨name, more, e1, e2⟩ := H.ex
  obtain ⟨lsM, psM, GM, hcut⟩ := hm.cut
  have hgr := hm.grid
  unfold Header.grid at hgr
  injection hgr with g1 g2 g3 g4 g5
  obtain ⟨row0, col0, -, q0⟩ := e2.nonempty
  have hfv : ∀ row col, FirstValid m.ras row col ↔ HasValue hM vM row col := by
    intro row col
    constructor
    · rintro ⟨x, hx⟩; exact ((hm.valid row col x).1 hx).1
    · intro q; exact ⟨_, (hm.valid row col (vM row col)).2 ⟨q, rfl⟩⟩
  obtain ⟨m', ls, ps, c1, c2, c3, c4, c5, c6, c7, c8, c9⟩ := clean_positions hm.built hm.clean ⟨row0, col0, by rw [hm.grid]; exact q0.1, (hfv _ _).2 q0⟩
  have hmm : m' = m.ras := by
    rcases c3 with ⟨q, -⟩ | q
    · rw [hcut.comp.pd] at q; cases q
    · exact q
  subst hmm
  have hps : ps = psM := by
    have := c1.pd
    rw [hcut.comp.pd] at this
    injection this with this
    exact this.symm
  subst hps
  have hmem : ∀ row col, (row, col) ∈ ps ↔ HasValue hM vM row col := by
    intro row col
    rw [c8, hm.grid, hfv]
    exact ⟨fun q => q.2, fun q => ⟨q.1, q⟩⟩
  obtain ⟨r, cells, hmp, sm, f1, f2, f3, f4, f5, f6, f7⟩ := few_read_core e2 hm.built c1 c2 g1 g2 c7 hmem H.rows H.cols H.gap H.ok1 H.ok2 j.default.toQ hw
  have hread := readS_few f1 f2 f3
  refine ⟨r, m.subs.map (fun e => (e.1, { e.2 with nLyrs := r.nLyrs })), ?_, f4, by rw [f5]; rfl, f6, f7, ?_, ?_, ?_, ?_⟩
  · unfold layerJobDb
    dsimp only
    rw [if_neg (by rw [H.fmt]; simp), if_pos H.fmt, e1]
    have hv : vecAt (name :: more) 0 = .ok name := rfl
    rw [hv, Out.ok_bind]
    unfold initGfs
    dsimp only
    rw [H.rd, jobOpts_false, hread]
    rfl
  · intro q
    exact hm.ne (List.map_eq_nil_iff.1 q)
  · intro e he
    obtain ⟨e0, h0, rfl⟩ := List.mem_map.1 he
    exact hm.bare e0 h0
  · intro r' hb' hp'
    obtain ⟨ls', hC'⟩ := compact_of hb' (by rw [hp']; exact f5) hcut.comp.ne
    have hget : ∀ k s', IMap.get (m.subs.map (fun e => (e.1, { e.2 with nLyrs := r.nLyrs }))) k = some s' →
        ∃ s, m.subs.get k = some s ∧ s' = { s with nLyrs := r.nLyrs } := by
      intro k s' hk
      rw [get_lyrs] at hk
      obtain ⟨s, a, b⟩ := Option.map_eq_some_iff.1 hk
      exact ⟨s, a, b.symm⟩
    refine ⟨ls', ps, GM, hC', ⟨?_, ?_, ?_, hcut.part.lt, hcut.part.nodup, hcut.part.disj⟩, hcut.asc, hb'.tidy.n1, ?_, r.nLyrs, ?_⟩
    · rw [List.map_map]
      exact hcut.part.sorted
    · intro k s' hk
      obtain ⟨s, a, b⟩ := hget k s' hk
      exact (hcut.part.some k s a).same (by rw [b]; exact ⟨rfl, rfl, rfl, rfl, rfl, rfl, rfl, rfl⟩)
    · intro k hk
      dsimp only at hk
      rw [get_lyrs] at hk
      exact hcut.part.none k (Option.map_eq_none_iff.1 hk)
    · intro k s' hk
      obtain ⟨s, a, b⟩ := hget k s' hk
      rw [b]
      exact hcut.use k s a
    · intro k s' hk
      obtain ⟨s, a, b⟩ := hget k s' hk
      rw [b]
  · intro k row col
    rw [hm.grp k row col]
    constructor
    · rintro ⟨s, a, b⟩
      exact ⟨{ s with nLyrs := r.nLyrs }, by rw [get_lyrs, a]; rfl, b⟩
    · rintro ⟨s', a, b⟩
      rw [get_lyrs] at a
      obtain ⟨s, a2, rfl⟩ := Option.map_eq_some_iff.1 a
      exact ⟨s, a2, b⟩

theorem storeView_in {j : Job} {hM h : Header} {vM w : Int → Int → ℚ} (hr : h.rows = hM.rows) (hc : h.cols = hM.cols) :
    ∀ k row col, (storeView j hM vM h w).grp k row col → (storeView j hM vM h w).hdr.grid.CellInside row col := by
  rintro k row col ⟨⟨q, -⟩, -⟩
  show 0 ≤ row ∧ row < h.rows ∧ 0 ≤ col ∧ col < h.cols
  rw [hr, hc]
  exact q

/-- C90, INCLUDE_NODATA FALSE, input in GridFS: a reclassification job of the modes DEC and MASKDEC with a mask, whose subsets have been built. -/
theorem C90_few_store_units_recls {sys : Sys} (hrnd : ∀ v, CCGL.Spec.Representable .float v → sys.rnd v = v) {d : Disk} {st : Store} {mode : IOMode}
    {j : Job} {jd : JobDb} {m : RasterS} {hM h : Header} {vM v w : Int → Int → ℚ} (hm : CutMask m hM vM) (H : FewInput sys st j jd h v hM vM)
    (hw : FewCells h v hM vM w) (hout : j.outFmt = .gfs) (hre : j.recls = true) {n : Int}
    (O : FewOut st mode j jd (storeView j hM vM h w) (jobFill j h) n) :
    ∃ st', layerJobDb sys false mode (d, st, some m) (j, jd) = .ok (d, st', some m) ∧ OthersStay st st' mode j (storeView j hM vM h w).grp ∧
      FewDone sys.rnd st' mode j (storeView j hM vM h w) (jobFill j h) n (HasValue hM vM) := by
  obtain ⟨r, subs, ej, hs, hpd, hst, hd, hne, -, hcut, hgrp⟩ := few_cut_input (d := d) hm H mode hw
  obtain ⟨r', e3, hnh, hs'⟩ := shows_rename hs j.update j.nodata.toQ
  have hdf' : r'.dflt = if j.update then j.nodata.toQ else checkDefault j.default.toQ h.noData := by rw [rename_dflt e3, hd]
  obtain ⟨ls, ps, G, hC⟩ := hcut r' hs'.built (rename_pos e3).1
  have hin := storeView_in (j := j) (vM := vM) (w := w) H.rows H.cols
  have HR : Ready ⟨r', subs⟩ (plainHdr j h) (plainVal j h w) (byValue hM vM) j.default.toQ (jobFill j h) :=
    ⟨fun _ => hcut r' hs'.built (rename_pos e3).1, hs'.one, hs'.grid, hs'.nodata, hnh, fill_unlisted hdf', hgrp,
      fun k row col hk => hs'.val row col (hin k row col hk)⟩
  have hst' := stored_renamed hs hs' rfl hpd (rename_pos e3).1 hst
  refine recls_job_few (V := storeView j hM vM h w) (C := HasValue hM vM) hrnd ej hout hre e3 (build_kept hC hne) HR hs'.lyrs O hin (fun _ _ => ?_)
  exact ⟨ps, hC.comp.pd, fun row col => by
    constructor
    · intro q
      have hi : (plainHdr j h).grid.CellInside row col := by
        have hgr := hs'.grid
        unfold Header.grid at hgr
        injection hgr with g1 g2 g3 g4 g5
        have := hC.comp.inside _ q
        dsimp only at this
        rw [g1, g2] at this
        exact this
      exact ⟨hi, (hst' row col hi).1 ((stored_iff hs' hC.comp.pd hi).2 q)⟩
    · rintro ⟨hi, q⟩
      exact (stored_iff hs' hC.comp.pd hi).1 ((hst' row col hi).2 q)⟩

/-- C90, INCLUDE_NODATA FALSE, input in GridFS: a job of the modes DEC and MASKDEC with a mask, whose subsets have been built, without
reclassification: the groups are those of the mask, the values those stored. -/
theorem C90_few_store_units {sys : Sys} (hrnd : ∀ v, CCGL.Spec.Representable .float v → sys.rnd v = v) {d : Disk} {st : Store} {mode : IOMode}
    {j : Job} {jd : JobDb} {m : RasterS} {hM h : Header} {vM v w : Int → Int → ℚ} (hm : CutMask m hM vM) (H : FewInput sys st j jd h v hM vM)
    (hw : FewCells h v hM vM w) (hout : j.outFmt = .gfs) (hre : j.recls = false) (hsg : WantsSingle mode)
    (O : FewOut st mode j jd (storeView j hM vM h w) (jobFill j h) 1) :
    ∃ st', layerJobDb sys false mode (d, st, some m) (j, jd) = .ok (d, st', some m) ∧ OthersStay st st' mode j (storeView j hM vM h w).grp ∧
      FewDone sys.rnd st' mode j (storeView j hM vM h w) (jobFill j h) 1 (HasValue hM vM) := by
  obtain ⟨r, subs, ej, hs, hpd, hst, hd, hne, -, hcut, hgrp⟩ := few_cut_input (d := d) hm H mode hw
  obtain ⟨r', e3, hnh, hs'⟩ := shows_rename hs j.update j.nodata.toQ
  have hdf' : r'.dflt = if j.update then j.nodata.toQ else checkDefault j.default.toQ h.noData := by rw [rename_dflt e3, hd]
  have hin := storeView_in (j := j) (vM := vM) (w := w) H.rows H.cols
  have HR : Ready ⟨r', subs⟩ (plainHdr j h) (plainVal j h w) (byValue hM vM) j.default.toQ (jobFill j h) :=
    ⟨fun _ => hcut r' hs'.built (rename_pos e3).1, hs'.one, hs'.grid, hs'.nodata, hnh, fill_unlisted hdf', hgrp,
      fun k row col hk => hs'.val row col (hin k row col hk)⟩
  have hst' := stored_renamed hs hs' rfl hpd (rename_pos e3).1 hst
  refine groups_job_few (V := storeView j hM vM h w) (C := HasValue hM vM) (w := plainVal j h w) (y := ⟨r', subs⟩) hrnd ej hout hre hsg e3 rfl HR hs'.lyrs O
    hin ?_
  intro _
  refine ⟨hs', ?_, fun row col hin => ⟨.inl rfl, fun _ => rfl, fun q => ?_⟩⟩
  · obtain ⟨ps', hfs⟩ := few_stored (S := HasValue hM vM) hs' (by rw [(rename_pos e3).1]; exact hpd) hst'
    exact ⟨r', ps', hfs⟩
  by_contra hc
  rw [Bool.not_eq_true] at hc
  exact q ⟨hin, hc⟩

end App
end CCGL
