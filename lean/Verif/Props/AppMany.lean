import Verif.Spec.AppMany
import Verif.Props.AppReclsL
import Verif.Props.AppLayersRun
/-!
# C98: whole runs of `mask_rasterio` in the modes MASK, DEC and MASKDEC with jobs of one or several input files, with or without table
-/
namespace CCGL
namespace App
open Fs Disk Main Raster Disk.Spec App.Spec

theorem bare_nil : Bare [] := fun k h => by cases h

/-- A job with several input files without reclassification, given the steps before writing. -/
theorem many_whole (sys : Sys) {d : Disk} {mode : IOMode} {j : Job} {pl : MPlan} {V : View} {mk mk' : Option RasterS} {r : Raster} {subs : IMap Subset}
    {K : Int → Int → Prop} {L : Nat → Int → Int → ℚ → Prop}
    (hw : Fs.Spec.WF d.fs) (hre : j.recls = false) (H : ManyJob sys d mode V j pl) (hfe : filesExist d.fs j.inputs = true)
    (hi : initFiles d j.inputs false mk true j.default.toQ = .ok (some ⟨r, subs⟩, mk')) (hbare : Bare subs)
    (hb : CCGL.Spec.Built r) (hn : 0 < r.nCells) (h2 : r.is2d = true) (hl : r.nLyrs = pl.rest.length + 1) (hgr : r.hdr.grid = V.hdr.grid) (hnd : r.noData = pl.hdr.noData)
    (hvn : V.hdr.noData = renamedNd j.update pl.hdr.noData j.nodata.toQ)
    (hV : ∀ row col, V.hdr.grid.CellInside row col → ∀ l : Nat, l < pl.rest.length + 1 → ∃ w, r.getValue row col ((l : Int) + 1) = .ok w ∧ L l row col w)
    (hK : ∀ row col, V.hdr.grid.CellInside row col → (K row col ↔ CCGL.Spec.Stored r row col))
    (hcv : WantsAll mode → ∀ row col, V.hdr.grid.CellInside row col → ∀ l : Nat, l < pl.rest.length + 1 → ∀ w, L l row col w →
      CarriesValue (sys.fmt j.type) pl.suf (renamed j.update pl.hdr.noData j.nodata.toQ w)) :
    ∃ d', layerJob sys mode (d, mk) j = .ok (d', mk') ∧ Rewritten d d' (ManyTargets mode V j pl) ∧ ManyDone d' mode V K L j pl := by
  have hwr : ∃ r' d', (if j.update then r.replaceNoData j.nodata.toQ else .ok r : Out Raster) = .ok r' ∧
      writeJob sys mode j ⟨r', subs⟩ d = .ok d' ∧ Rewritten d d' (ManyTargets mode V j pl) ∧ ManyDone d' mode V K L j pl := by
    have hs1 : ∀ r' : Raster, (if outSubset mode then do
        let w ← outputToFile sys.env (sys.fmt j.type) d ⟨r', subs⟩ j.out false
        return (w.1, w.2.2)
      else return (⟨r', subs⟩, d) : Out (RasterS × Disk)) = .ok (⟨r', subs⟩, d) := by
      intro r'
      split
      · rw [combined_nothing (rs := ⟨r', subs⟩) hbare]
        rfl
      · rfl
    by_cases hm : WantsAll mode
    · obtain ⟨w1, w2, w3, w4, w5⟩ := H.whole hre hm
      have hhd : ({ V.hdr with noData := renamedNd j.update pl.hdr.noData j.nodata.toQ } : Header) = V.hdr := by rw [← hvn]
      obtain ⟨r', d', o0, o1, o2, o3⟩ := layers_written (fmt := sys.fmt j.type) (env := sys.env) (d := d) hb hn h2 (n := pl.rest.length + 1) (by rw [hl]; push_cast; rfl) hgr
        hnd hV w2 hK (by rw [hhd]; exact w3) (hcv hm) (carried_nd w4) subs
      refine ⟨r', d', o0, ?_, ?_, ⟨(fun h => by rw [hre] at h; cases h), fun _ _ => o3⟩⟩
      · unfold writeJob
        rw [if_neg (by rw [H.fmts.2]; simp), hre]
        simp only [Bool.false_eq_true, if_false]
        rw [hs1]
        simp only [Out.ok_bind]
        rw [if_pos ((outAll_iff mode).2 hm), w1, o1]
        rfl
      · have : ManyTargets mode V j pl = (fun q => ∃ l : Nat, l < pl.rest.length + 1 ∧ q = pl.dir ++ [pl.core ++ '_' :: intToDec ((l : Int) + pl.first) ++ '.' :: pl.suf]) := by
          funext q
          apply propext
          constructor
          · rintro (⟨h, -⟩ | ⟨-, -, h⟩)
            · rw [hre] at h; cases h
            · exact h
          · intro h
            exact .inr ⟨hre, hm, h⟩
        rw [this]
        exact o2
    · obtain ⟨r', e3, -⟩ := rename_step hb j.update j.nodata.toQ
      refine ⟨r', d, e3, ?_, rewritten_refl hw ?_, ⟨(fun h => by rw [hre] at h; cases h), fun _ h => absurd h hm⟩⟩
      · unfold writeJob
        rw [if_neg (by rw [H.fmts.2]; simp), hre]
        simp only [Bool.false_eq_true, if_false]
        rw [hs1]
        simp only [Out.ok_bind]
        rw [if_neg (fun h => hm ((outAll_iff mode).1 h))]
        rfl
      · rintro q (⟨h, -⟩ | ⟨-, h, -⟩)
        · rw [hre] at h; cases h
        · exact hm h
  obtain ⟨r', d', e3, e, o1, o2⟩ := hwr
  refine ⟨d', ?_, o1, o2⟩
  unfold layerJob
  rw [if_pos ⟨H.fmts.1, hfe⟩]
  dsimp only
  rw [hi]
  simp only [Out.ok_bind]
  rw [e3]
  simp only [Out.ok_bind, hre, Bool.false_eq_true, if_false, Out.pure_eq]
  rw [e]
  rfl

theorem many_recls {mode : IOMode} {V : View} {j : Job} {pl : MPlan} (hre : j.recls = true) :
    ManyTargets mode V j pl = Targets mode V.grp pl.dir pl.core pl.suf pl.m := by
  funext q
  apply propext
  constructor
  · rintro (⟨-, h⟩ | ⟨h, -⟩)
    · exact h
    · rw [hre] at h; cases h
  · exact fun h => .inl ⟨hre, h⟩

theorem recls_false {b : Bool} (h : ¬ b = true) : b = false := by cases b <;> simp_all

/-- C98: one job with several input files without mask, in any mode, with or without table. -/
theorem C98_job_plain (sys : Sys) {d : Disk} {mode : IOMode} {j : Job} {pl : MPlan} (hw : Fs.Spec.WF d.fs)
    (hgl : ∀ l ∈ pl.rest, CCGL.Spec.CommonGrid l.hdr pl.hdr) (H : ManyJob sys d mode (plainView j pl.head) j pl) :
    ∃ d', layerJob sys mode (d, none) j = .ok (d', none) ∧ Rewritten d d' (ManyTargets mode (plainView j pl.head) j pl) ∧
      ManyDone d' mode (plainView j pl.head) (fun _ _ => True) (PlainLayers pl.hdr pl.val pl.rest) j pl := by
  obtain ⟨s, hs, Hf⟩ := H.files
  by_cases hre : j.recls = true
  · obtain ⟨hm, W⟩ := H.recls hre
    obtain ⟨d', e, o1, o2⟩ := C98_plain_partial sys H.fmts.1 hs H.more.1 Hf H.more.2 hgl H.fmts.2 hre hm W
    refine ⟨d', e, ?_, ⟨fun _ => o2, fun h => by rw [hre] at h; cases h⟩⟩
    rw [many_recls hre]
    exact o1
  · have hre := recls_false hre
    obtain ⟨r, hi, hfe, hb, hnc, h2, hl, hgr, hnd, hdf, hp, hval⟩ := plain_layers_pos H.more.1 Hf H.more.2 hgl j.default.toQ
    refine many_whole sys hw hre H (by rw [hs]; exact hfe) (by rw [hs]; exact hi) (bare_nil) hb hnc h2 hl hgr hnd rfl hval (K := fun _ _ => True) (fun row col hc => ⟨fun _ => stored_full hb hnc hp (by rw [hgr]; exact hc), fun _ => trivial⟩) ?_
    intro hm row col hin l hln w hw
    obtain ⟨-, -, -, hc, hcl⟩ := H.whole hre hm
    cases l with
    | zero =>
      rw [hw.1 rfl]
      unfold renamed
      split
      · rename_i hu
        exact hc.new hu.1
      · exact hc.cells _ _ hin
    | succ k => exact carried_layer hc (hcl _ (List.getElem_mem (by omega : k < pl.rest.length))) (hw.2 k (by omega) rfl)

/-- C98: the same in the mode MASK with a mask. -/
theorem C98_job_mask (sys : Sys) {d : Disk} {m : Raster} {hM : Header} {vM : Int → Int → ℚ} (hm : IsMask m hM vM) {j : Job} {pl : MPlan} (hw : Fs.Spec.WF d.fs)
    (hg : CCGL.Spec.CommonGrid pl.hdr hM) (hov : Overlaps hM vM pl.hdr)
    (hgl : ∀ l ∈ pl.rest, CCGL.Spec.CommonGrid l.hdr hM) (H : ManyJob sys d .mask (maskView hM vM j pl.head) j pl) :
    ∃ d' m', layerJob sys .mask (d, some ⟨m, []⟩) j = .ok (d', some ⟨m', []⟩) ∧ IsMask m' hM vM ∧ Rewritten d d' (ManyTargets .mask (maskView hM vM j pl.head) j pl) ∧
      ManyDone d' .mask (maskView hM vM j pl.head) (HasValue hM vM) (MaskedLayers hM vM pl.hdr pl.val j.default.toQ pl.rest) j pl := by
  obtain ⟨s, hs, Hf⟩ := H.files
  by_cases hre : j.recls = true
  · obtain ⟨hmn, W⟩ := H.recls hre
    obtain ⟨d', m', e, hm', o1, o2⟩ := C98_mask_partial sys hm H.fmts.1 hs H.more.1 Hf H.more.2 hg hgl hov H.fmts.2 hre hmn W
    refine ⟨d', m', e, hm', ?_, ⟨fun _ => o2, fun h => by rw [hre] at h; cases h⟩⟩
    rw [many_recls hre]
    exact o1
  · have hre := recls_false hre
    obtain ⟨r, m', hi, hm', hfe, hb, hnc, h2, hl, hgr, hnd, hdf, ⟨ps, p1, p2⟩, hval⟩ := masked_layers_pos hm H.more.1 Hf H.more.2 hg hgl hov j.default.toQ
    obtain ⟨d', e, o1, o2⟩ := many_whole sys (L := MaskedLayers hM vM pl.hdr pl.val j.default.toQ pl.rest) hw hre H (by rw [hs]; exact hfe) (by rw [hs]; exact hi) (bare_nil) hb hnc h2 hl hgr hnd rfl hval (fun row col hc => by rw [stored_mem hb hnc (by rw [hl]; omega) p1 (by rw [hgr]; exact hc), p2 row col hc]) (by
      intro hm row col hin l hln w hw
      obtain ⟨-, -, -, hc, hcl⟩ := H.whole hre hm
      cases l with
      | zero => exact carried_masked hc (hw.1 rfl)
      | succ k => exact carried_layer hc (hcl _ (List.getElem_mem (by omega : k < pl.rest.length))) (hw.2 k (by omega) rfl))
    exact ⟨d', m', e, hm', o1, o2⟩

/-- C98: the same in the modes DEC and MASKDEC with a mask, whose subsets have been built. -/
theorem C98_job_groups (sys : Sys) {d : Disk} {m : RasterS} {hM : Header} {vM : Int → Int → ℚ} (hm : CutMask m hM vM) {mode : IOMode} {j : Job} {pl : MPlan} (hw : Fs.Spec.WF d.fs)
    (hg : CCGL.Spec.CommonGrid pl.hdr hM) (hco : CCGL.Spec.CoordsPresent hM) (hov : Overlaps hM vM pl.hdr)
    (hgl : ∀ l ∈ pl.rest, CCGL.Spec.CommonGrid l.hdr hM) (H : ManyJob sys d mode (groupsView hM vM j pl.head) j pl) :
    ∃ d', layerJob sys mode (d, some m) j = .ok (d', some m) ∧ Rewritten d d' (ManyTargets mode (groupsView hM vM j pl.head) j pl) ∧
      ManyDone d' mode (groupsView hM vM j pl.head) (HasValue hM vM) (MaskedLayers hM vM pl.hdr pl.val j.default.toQ pl.rest) j pl := by
  obtain ⟨s, hs, Hf⟩ := H.files
  by_cases hre : j.recls = true
  · obtain ⟨hmn, W⟩ := H.recls hre
    obtain ⟨d', e, o1, o2⟩ := C98_groups_partial sys hm H.fmts.1 hs H.more.1 Hf H.more.2 hg hco hgl hov H.fmts.2 hre hmn W
    refine ⟨d', e, ?_, ⟨fun _ => o2, fun h => by rw [hre] at h; cases h⟩⟩
    rw [many_recls hre]
    exact o1
  · have hre := recls_false hre
    obtain ⟨r, subs', hi, hfe, hb, hnc, h2, hl, hgr, hnd, hdf, hval1, hval, hbare, ⟨ps, p1, p2⟩, -, -⟩ := grouped_layers_pos hm H.more.1 Hf H.more.2 hg hco hgl hov j.default.toQ
    exact many_whole sys hw hre H (by rw [hs]; exact hfe) (by rw [hs]; exact hi) hbare hb hnc h2 hl hgr hnd rfl hval (fun row col hc => by rw [stored_mem hb hnc (by rw [hl]; omega) p1 (by rw [hgr]; exact hc), p2 row col hc]) (by
      intro hm row col hin l hln w hw
      obtain ⟨-, -, -, hc, hcl⟩ := H.whole hre hm
      cases l with
      | zero => exact carried_masked hc (hw.1 rfl)
      | succ k => exact carried_layer hc (hcl _ (List.getElem_mem (by omega : k < pl.rest.length))) (hw.2 k (by omega) rfl))

/-! ### runs -/

theorem combined_sameL {d d' : Disk} {p : Path} {dt core suf : Str} {m : Int} {h V g T fill} {new : Path → Prop} (hn : NameIn d.fs p dt core suf)
    (hr : Rewritten d d' new) (hd : ∀ q, new q → d.fs.kindOf q ≠ some .dir)
    (hf : ∀ l : Nat, (l : Int) < m → d.fs.kindOf (outPath p core suf m 0 l) = some .file ∧ ¬ new (outPath p core suf m 0 l))
    (S : CombinedL d (outFile dt core suf m 0) m h V g T fill) : CombinedL d' (outFile dt core suf m 0) m h V g T fill := by
  intro l hl
  obtain ⟨w, w1, w2⟩ := S l hl
  exact ⟨w, reads_same hn.wf hr hd (resolve_file hn (hf l hl).1) (hf l hl).2 w1, w2⟩

theorem manyJob_same {sys : Sys} {d d' : Disk} {mode : IOMode} {V : View} {j : Job} {pl : MPlan} {new : Path → Prop} (hw : Fs.Spec.WF d.fs)
    (hr : Rewritten d d' new) (hd : ∀ q, new q → d.fs.kindOf q ≠ some .dir) (hi : ∀ q ∈ pl.inps, ¬ new q) (H : ManyJob sys d mode V j pl) :
    ManyJob sys d' mode V j pl := by
  obtain ⟨s, hs, Hf⟩ := H.files
  have key : ∀ x ∈ j.inputs, ∀ h v, RasterFile d x h v → RasterFile d' x h v := by
    intro x hx h v hf
    obtain ⟨q, hq, e⟩ := H.paths x hx
    exact rasterFile_same hw hr hd e (hi q hq) hf
  refine ⟨H.fmts, ⟨s, hs, key s (by rw [hs]; exact List.mem_cons_self) _ _ Hf⟩,
    ⟨H.more.1, fun l hl => key _ (by rw [hs]; exact List.mem_cons_of_mem _ (List.mem_map.2 ⟨l, hl, rfl⟩)) _ _ (H.more.2 l hl)⟩, ?_, ?_, ?_⟩
  · intro x hx
    obtain ⟨q, hq, e⟩ := H.paths x hx
    exact ⟨q, hq, resolve_same hr hd e (hi q hq)⟩
  · intro hre
    exact ⟨(H.recls hre).1, canWrite_same hr hd (H.recls hre).2⟩
  · intro hre hm
    obtain ⟨w1, w2, w3⟩ := H.whole hre hm
    exact ⟨w1, outLayers_kept hr hd w2, w3⟩

theorem many_nodir {sys : Sys} {d : Disk} {mode : IOMode} {V : View} {j : Job} {pl : MPlan} (H : ManyJob sys d mode V j pl) {q : Path}
    (hq : ManyTargets mode V j pl q) : d.fs.kindOf q ≠ some .dir := by
  rcases hq with ⟨hre, h⟩ | ⟨hre, hm, l, hl, rfl⟩
  · exact targets_nodir (H.recls hre).2 h
  · exact ((H.whole hre hm).2.1.write l hl).nodir

theorem manyDone_same {sys : Sys} {d d1 d' : Disk} {mode : IOMode} {V : View} {L : Nat → Int → Int → ℚ → Prop} {j : Job} {pl : MPlan} {new : Path → Prop}
    (H : ManyJob sys d mode V j pl)
    (hr1 : Rewritten d d1 (ManyTargets mode V j pl)) (hr : Rewritten d1 d' new) (hd : ∀ q, new q → d1.fs.kindOf q ≠ some .dir)
    (hn : ∀ q, ManyTargets mode V j pl q → ¬ new q) (D : ManyDone d1 mode V K L j pl) : ManyDone d' mode V K L j pl := by
  have hd0 : ∀ q, ManyTargets mode V j pl q → d.fs.kindOf q ≠ some .dir := fun q hq => many_nodir H hq
  constructor
  · intro hre
    have hN := nameIn_same hr1 hd0 (H.recls hre).2.name
    obtain ⟨a, b⟩ := D.recls hre
    refine ⟨fun hm hex => combined_sameL hN hr hd ?_ (a hm hex), fun hm k hk h0 => single_sameL hN hr hd ?_ (b hm k hk h0)⟩
    · intro l hl
      have ht : ManyTargets mode V j pl (outPath pl.dir pl.core pl.suf pl.m 0 l) := .inl ⟨hre, .inr ⟨hm, hex, l, hl, rfl⟩⟩
      exact ⟨hr1.file _ ht, hn _ ht⟩
    · intro l hl
      have ht : ManyTargets mode V j pl (outPath pl.dir pl.core pl.suf pl.m k l) := .inl ⟨hre, .inl ⟨hm, k, l, hk, hl, rfl⟩⟩
      exact ⟨hr1.file _ ht, hn _ ht⟩
  · intro hre hm
    obtain ⟨w1, w2, -⟩ := H.whole hre hm
    exact layersOut_same hr hd (nameIn_same hr1 hd0 w2.name) (fun l hl => hr1.file _ (.inr ⟨hre, hm, l, hl, rfl⟩)) (fun l hl => hn _ (.inr ⟨hre, hm, l, hl, rfl⟩)) (D.whole hre hm)

theorem all_nodir {sys : Sys} {mode : IOMode} {V : Job → RPlan → View} {d : Disk} {j : Job} {a : APlan} (H : a.Ok sys d mode V j) (q : Path)
    (hq : a.Writes mode V j q) : d.fs.kindOf q ≠ some .dir := by
  cases a with
  | inl pl => exact jobTargets_nodir H hq
  | inr pl => exact many_nodir H hq

theorem all_pre {sys : Sys} {mode : IOMode} {V : Job → RPlan → View} {d d' : Disk} {j : Job} {a : APlan} {new : Path → Prop} (hw : Fs.Spec.WF d.fs)
    (hr : Rewritten d d' new) (hd : ∀ q, new q → d.fs.kindOf q ≠ some .dir) (hi : ∀ q, a.reads q → ¬ new q) (H : a.Ok sys d mode V j) : a.Ok sys d' mode V j := by
  cases a with
  | inl pl => exact jobOk_same hw hr hd (hi _ rfl) H
  | inr pl => exact manyJob_same hw hr hd hi H

theorem all_post {sys : Sys} {mode : IOMode} {V : Job → RPlan → View} {L : Job → MPlan → Nat → Int → Int → ℚ → Prop} {d d1 d' : Disk} {j : Job} {a : APlan}
    {new : Path → Prop} (H : a.Ok sys d mode V j) (hr1 : Rewritten d d1 (a.Writes mode V j)) (hr : Rewritten d1 d' new) (hd : ∀ q, new q → d1.fs.kindOf q ≠ some .dir)
    (hn : ∀ q, a.Writes mode V j q → ¬ new q) (D : a.Done d1 mode V K L j) : a.Done d' mode V K L j := by
  cases a with
  | inl pl => exact jobDone_same H hr1 hr hd hn D
  | inr pl => exact manyDone_same H hr1 hr hd hn D

/-- C98: a run without a mask in the modes MASK, DEC and MASKDEC: all jobs, with one or several input files, with or without table, are done in their order, if no job
writes to a file of a later job. -/
theorem C98_plain_run_partial (sys : Sys) {w : World} {d : Disk} {args : List Str} {c : Cfg} {xs : List (Job × APlan)} (hw : Fs.Spec.WF d.fs)
    (hc : configure w args = .ok (.go c)) (hjs : jobs c = .ok (xs.map (·.1))) (hmode : Layers c.mode) (hmask : c.maskPath = [])
    (hA : ApartAll c.mode plainView xs) (hgl : ∀ x ∈ xs, ∀ l ∈ x.2.others, CCGL.Spec.CommonGrid l.hdr x.2.first)
    (hj : ∀ x ∈ xs, x.2.Ok sys d c.mode plainView x.1) :
    ∃ d', run sys w d args = .ok (0, d') ∧ Rewritten d d' (fun q => ∃ x ∈ xs, x.2.Writes c.mode plainView x.1 q) ∧
      ∀ x ∈ xs, x.2.Done d' c.mode plainView (fun _ _ => True) (fun _ pl => PlainLayers pl.hdr pl.val pl.rest) x.1 := by
  obtain ⟨d', m', e, -, h1, h2⟩ := batch_gen (α := APlan) (sys := sys) (mode := c.mode) (I := fun x => x = none)
    (Pre := fun d j a => (∀ l ∈ a.others, CCGL.Spec.CommonGrid l.hdr a.first) ∧ a.Ok sys d c.mode plainView j)
    (Q := fun d j a => a.Done d c.mode plainView (fun _ _ => True) (fun _ pl => PlainLayers pl.hdr pl.val pl.rest) j)
    (T := fun j a => a.Writes c.mode plainView j) (In := fun _ a => a.reads)
    (by
      rintro d _ j a hw rfl ⟨g3, H⟩
      cases a with
      | inl pl =>
        obtain ⟨d', e, o1, o2⟩ := C78_job_plain sys hw H
        exact ⟨d', _, e, rfl, o1, o2⟩
      | inr pl =>
        obtain ⟨d', e, o1, o2⟩ := C98_job_plain sys hw g3 H
        exact ⟨d', _, e, rfl, o1, o2⟩)
    (fun d j a H => all_nodir H.2)
    (fun d d' j a new hw hr hd hi H => ⟨H.1, all_pre hw hr hd hi H.2⟩)
    (fun d d1 d' j a new H hr1 hr hd hn D => all_post H.2 hr1 hr hd hn D)
    xs d none hw rfl (fun x hx => ⟨hgl x hx, hj x hx⟩) hA
  refine ⟨d', ?_, h1, h2⟩
  unfold run
  rw [hc]
  simp only [Out.ok_bind]
  rw [hjs]
  simp only [Out.ok_bind]
  have hl : loadMask d c = .ok (.go none) := by
    unfold loadMask
    rw [if_pos hmask]
  rw [hl]
  simp only [Out.ok_bind]
  have hp : prepareMask c.mode none = .ok none := rfl
  rw [hp]
  simp only [Out.ok_bind]
  exact runJobs_layers hmode e

/-- C98: the same in the mode MASK with a mask file. -/
theorem C98_mask_run_partial (sys : Sys) {w : World} {d : Disk} {args : List Str} {c : Cfg} {xs : List (Job × APlan)} (hw : Fs.Spec.WF d.fs)
    (hc : configure w args = .ok (.go c)) (hjs : jobs c = .ok (xs.map (·.1))) (hmode : c.mode = .mask)
    {hM : Header} {vM : Int → Int → ℚ} (hf : c.maskFmt = .sfile) (hmask : RasterFile d c.maskPath hM vM)
    (hA : ApartAll .mask (maskView hM vM) xs)
    (hg : ∀ x ∈ xs, (CCGL.Spec.CommonGrid x.2.first hM ∧ Overlaps hM vM x.2.first) ∧ ∀ l ∈ x.2.others, CCGL.Spec.CommonGrid l.hdr hM)
    (hj : ∀ x ∈ xs, x.2.Ok sys d .mask (maskView hM vM) x.1) :
    ∃ d', run sys w d args = .ok (0, d') ∧ Rewritten d d' (fun q => ∃ x ∈ xs, x.2.Writes .mask (maskView hM vM) x.1 q) ∧
      ∀ x ∈ xs, x.2.Done d' .mask (maskView hM vM) (HasValue hM vM) (fun j pl => MaskedLayers hM vM pl.hdr pl.val j.default.toQ pl.rest) x.1 := by
  obtain ⟨M, eM, hm⟩ := mask_loaded hmask
  obtain ⟨d', m', e, -, h1, h2⟩ := batch_gen (α := APlan) (sys := sys) (mode := .mask) (I := fun x => ∃ m, x = some ⟨m, []⟩ ∧ IsMask m hM vM)
    (Pre := fun d j a => ((CCGL.Spec.CommonGrid a.first hM ∧ Overlaps hM vM a.first) ∧ ∀ l ∈ a.others, CCGL.Spec.CommonGrid l.hdr hM) ∧ a.Ok sys d .mask (maskView hM vM) j)
    (Q := fun d j a => a.Done d .mask (maskView hM vM) (HasValue hM vM) (fun j pl => MaskedLayers hM vM pl.hdr pl.val j.default.toQ pl.rest) j)
    (T := fun j a => a.Writes .mask (maskView hM vM) j) (In := fun _ a => a.reads)
    (by
      rintro d _ j a hw ⟨m, rfl, hm⟩ ⟨⟨⟨g1, g2⟩, g3⟩, H⟩
      cases a with
      | inl pl =>
        obtain ⟨d', m', e, hm', o1, o2⟩ := C78_job_mask sys hm hw g1 g2 H
        exact ⟨d', _, e, ⟨m', rfl, hm'⟩, o1, o2⟩
      | inr pl =>
        obtain ⟨d', m', e, hm', o1, o2⟩ := C98_job_mask sys hm hw g1 g2 g3 H
        exact ⟨d', _, e, ⟨m', rfl, hm'⟩, o1, o2⟩)
    (fun d j a H => all_nodir H.2)
    (fun d d' j a new hw hr hd hi H => ⟨H.1, all_pre hw hr hd hi H.2⟩)
    (fun d d1 d' j a new H hr1 hr hd hn D => all_post H.2 hr1 hr hd hn D)
    xs d (some ⟨M, []⟩) hw ⟨M, rfl, hm⟩ (fun x hx => ⟨hg x hx, hj x hx⟩) hA
  refine ⟨d', ?_, h1, h2⟩
  unfold run
  rw [hc]
  simp only [Out.ok_bind]
  rw [hjs]
  simp only [Out.ok_bind]
  rw [loadMask_file hf hmask eM]
  simp only [Out.ok_bind]
  have hp : prepareMask c.mode (some ⟨M, []⟩) = .ok (some ⟨M, []⟩) := by
    unfold prepareMask
    rw [hmode]
    rfl
  rw [hp]
  simp only [Out.ok_bind]
  rw [hmode]
  exact runJobs_layers (.inl rfl) e

/-- C98: the same in the modes DEC and MASKDEC with a mask file. -/
theorem C98_groups_run_partial (sys : Sys) {w : World} {d : Disk} {args : List Str} {c : Cfg} {xs : List (Job × APlan)} (hw : Fs.Spec.WF d.fs)
    (hc : configure w args = .ok (.go c)) (hjs : jobs c = .ok (xs.map (·.1))) (hmode : c.mode = .dec ∨ c.mode = .maskdec)
    {hM : Header} {vM : Int → Int → ℚ} (hf : c.maskFmt = .sfile) (hmask : RasterFile d c.maskPath hM vM) (hco : CCGL.Spec.CoordsPresent hM)
    (hv : ∃ row col, HasValue hM vM row col)
    (hA : ApartAll c.mode (groupsView hM vM) xs)
    (hg : ∀ x ∈ xs, (CCGL.Spec.CommonGrid x.2.first hM ∧ Overlaps hM vM x.2.first) ∧ ∀ l ∈ x.2.others, CCGL.Spec.CommonGrid l.hdr hM)
    (hj : ∀ x ∈ xs, x.2.Ok sys d c.mode (groupsView hM vM) x.1) :
    ∃ d', run sys w d args = .ok (0, d') ∧ Rewritten d d' (fun q => ∃ x ∈ xs, x.2.Writes c.mode (groupsView hM vM) x.1 q) ∧
      ∀ x ∈ xs, x.2.Done d' c.mode (groupsView hM vM) (HasValue hM vM) (fun j pl => MaskedLayers hM vM pl.hdr pl.val j.default.toQ pl.rest) x.1 := by
  obtain ⟨M, eM, hb, hcl, hgM, hn, hval, h2, hl, hnc⟩ := mask_file hmask NODATA
  obtain ⟨m, b, eb, hm⟩ := cutMask_of hb hcl hgM hn hval h2 hv
  obtain ⟨d', m', e, -, h1, h2⟩ := batch_gen (α := APlan) (sys := sys) (mode := c.mode) (I := fun x => x = some m)
    (Pre := fun d j a => ((CCGL.Spec.CommonGrid a.first hM ∧ Overlaps hM vM a.first) ∧ ∀ l ∈ a.others, CCGL.Spec.CommonGrid l.hdr hM) ∧ a.Ok sys d c.mode (groupsView hM vM) j)
    (Q := fun d j a => a.Done d c.mode (groupsView hM vM) (HasValue hM vM) (fun j pl => MaskedLayers hM vM pl.hdr pl.val j.default.toQ pl.rest) j)
    (T := fun j a => a.Writes c.mode (groupsView hM vM) j) (In := fun _ a => a.reads)
    (by
      rintro d _ j a hw rfl ⟨⟨⟨g1, g2⟩, g3⟩, H⟩
      cases a with
      | inl pl =>
        obtain ⟨d', e, o1, o2⟩ := C78_job_groups sys hm hw g1 hco g2 H
        exact ⟨d', _, e, rfl, o1, o2⟩
      | inr pl =>
        obtain ⟨d', e, o1, o2⟩ := C98_job_groups sys hm hw g1 hco g2 g3 H
        exact ⟨d', _, e, rfl, o1, o2⟩)
    (fun d j a H => all_nodir H.2)
    (fun d d' j a new hw hr hd hi H => ⟨H.1, all_pre hw hr hd hi H.2⟩)
    (fun d d1 d' j a new H hr1 hr hd hn D => all_post H.2 hr1 hr hd hn D)
    xs d (some m) hw rfl (fun x hx => ⟨hg x hx, hj x hx⟩) hA
  refine ⟨d', ?_, h1, h2⟩
  unfold run
  rw [hc]
  simp only [Out.ok_bind]
  rw [hjs]
  simp only [Out.ok_bind]
  rw [loadMask_file hf hmask eM]
  simp only [Out.ok_bind]
  have hp : prepareMask c.mode (some ⟨M, []⟩) = .ok (some m) := by
    unfold prepareMask
    dsimp only
    rw [if_neg (by rcases hmode with h | h <;> rw [h] <;> simp), eb]
    rfl
  rw [hp]
  simp only [Out.ok_bind]
  exact runJobs_layers (hmode.elim (fun h => .inr (.inl h)) (fun h => .inr (.inr h))) e

/-! ### examples -/

/-- Two input files and a table with two columns. -/
def exManyText : String := "/a.tif,/b.tif;/o.tif;7;-1;DOUBLE;5:50|51,10:100|101,40:400|401\n"

def exJobM : Job where
  inputs := ["/a.tif".toList, "/b.tif".toList]
  inFmt := .sfile
  out := "/o.tif".toList
  outFmt := .sfile
  default := .fin 7
  update := true
  nodata := .fin (-1)
  type := .double
  recls := true
  table := [(5, [.fin 50, .fin 51]), (10, [.fin 100, .fin 101]), (40, [.fin 400, .fin 401])]

def exPlanM : MPlan := ⟨[["a.tif".toList], ["b.tif".toList]], exH 2, exPlanA.val, [⟨"/b.tif".toList, exH 2, exPlanB.val⟩], [], "/".toList, "o".toList, "tif".toList, 1, 2⟩

theorem exMany_ok (V : View) (hh : 0 < V.hdr.rows ∧ 0 < V.hdr.cols) (mode : IOMode) : ManyJob exSys exRunDisk mode V exJobM exPlanM where
  fmts := ⟨rfl, rfl⟩
  files := ⟨_, rfl, exRun_a⟩
  more := ⟨by unfold exPlanM; simp, by
    intro l hl
    have hl : l ∈ [(⟨"/b.tif".toList, exH 2, exPlanB.val⟩ : LayerFile)] := hl
    rw [List.mem_singleton.1 hl]
    exact exRun_b⟩
  paths := by
    intro x hx
    have hx : x ∈ ["/a.tif".toList, "/b.tif".toList] := hx
    simp only [List.mem_cons, List.not_mem_nil, or_false] at hx
    rcases hx with rfl | rfl
    · exact ⟨["a.tif".toList], by decide, by decide +kernel⟩
    · exact ⟨["b.tif".toList], by decide, by decide +kernel⟩
  recls := fun _ => ⟨by decide, exRun_can rfl ⟨by decide, by decide, by decide⟩ (by decide) rfl hh⟩
  whole := fun h => by cases h

theorem exNames2 (k : Int) (l : Nat) : ["a_masked.tif".toList] ≠ outPath [] "o".toList "tif".toList 2 k l := by
  intro h
  unfold outPath layerCore at h
  rw [if_neg (by decide)] at h
  have h := congrArg (fun x : Path => x.map (fun s => s.count '_')) h
  have hc : ("a_masked.tif".toList).count '_' = 1 := by decide
  simp only [List.nil_append, List.map_cons, List.map_nil, List.cons.injEq, and_true] at h
  rw [hc] at h
  unfold subsetCore at h
  simp only [List.count_append, List.count_cons, beq_self_eq_true, if_true] at h
  omega

theorem exMany_apart (V : Job → RPlan → View) (mode : IOMode) : ApartAll mode V [(exJobA, .inl exPlanA), (exJobM, .inr exPlanM)] := by
  unfold ApartAll
  simp only [List.pairwise_cons, List.mem_cons, List.not_mem_nil, or_false, forall_eq]
  refine ⟨?_, fun _ h => h.elim, .nil⟩
  rintro q (⟨h, -⟩ | ⟨-, -, rfl⟩)
  · cases h
  · refine ⟨fun h => ?_, ?_⟩
    · have h : ["a_masked.tif".toList] ∈ [["a.tif".toList], ["b.tif".toList]] := h
      revert h
      decide
    rintro (⟨-, ⟨-, k, l, -, -, h⟩ | ⟨-, -, l, -, h⟩⟩ | ⟨h, -⟩)
    · exact exNames2 k l h
    · exact exNames2 0 l h
    · cases h

def exManyArgs : List Str := ["-mode".toList, "maskdec".toList, "-mask".toList, "/m.tif".toList, "-in".toList, "/a.tif".toList, "-configfile".toList, "/c.txt".toList]

/-- A run in the mode MASKDEC with a job of one file and a job of two files with a table of two columns: the hypotheses of `C98_groups_run_partial` hold. In the combined
output the first column is looked up with the number of `/a.tif` (10 in the cell (0, 0)), the second with that of `/b.tif` (5 there). The cell (0, 2), in group 1 but
outside both files, has -1, which the table does not list: the default value 7. -/
example : ∃ d', run exSys (exWorld exManyText) exRunDisk exManyArgs = .ok (0, d') ∧
    (∃ v, ReadsAs d' "/0_o_1.tif".toList { exH 3 with noData := -1 } v ∧ v 0 0 = 100 ∧ v 0 1 = -1 ∧ v 1 1 = 400 ∧ v 0 2 = 7) ∧
    (∃ v, ReadsAs d' "/0_o_2.tif".toList { exH 3 with noData := -1 } v ∧ v 0 0 = 51 ∧ v 0 1 = -1 ∧ v 1 1 = 7) := by
  have hj : jobsOf (exWorld exManyText) exManyArgs = .ok (some [exJobA, exJobM]) := by decide +kernel
  have hcfg : (configure (exWorld exManyText) exManyArgs).bind (fun | .exit _ => .ub | .go c => .ok (c.mode, c.maskFmt, c.maskPath)) =
      .ok (.maskdec, .sfile, "/m.tif".toList) := by decide +kernel
  obtain ⟨c, h1, h2⟩ := jobsOf_go hj
  rw [h1] at hcfg
  have hcfg' : (c.mode, c.maskFmt, c.maskPath) = (IOMode.maskdec, DataFmt.sfile, "/m.tif".toList) := Out.ok.inj hcfg
  injection hcfg' with q1 q2
  injection q2 with q2 q3
  have hin : ∀ row col, 0 ≤ row → row < 2 → 0 ≤ col → col < 3 → (exH 3).grid.CellInside row col := fun row col a b x y => exIn 3 row col a b x y
  have hval : ∀ row col, 0 ≤ row → row < 2 → 0 ≤ col → col < 3 → floatEqual (exMaskV row col) (-9999) = false → HasValue (exH 3) exMaskV row col :=
    fun row col a b x y h => ⟨hin row col a b x y, h⟩
  obtain ⟨d', e, -, hd⟩ := C98_groups_run_partial exSys (xs := [(exJobA, .inl exPlanA), (exJobM, .inr exPlanM)]) exRun_wf h1 h2 (.inr q1) q2 (by rw [q3]; exact exRun_m)
    (vM := exMaskV) (by
      refine ⟨by decide +kernel, ?_, ?_⟩
      · intro col a b
        have : col = 0 ∨ col = 1 ∨ col = 2 := by have : col < 3 := b; omega
        rcases this with rfl | rfl | rfl <;> decide +kernel
      · intro row a b
        have : row = 0 ∨ row = 1 := by have : row < 2 := b; omega
        rcases this with rfl | rfl <;> decide +kernel) ⟨0, 0, hval 0 0 (by decide) (by decide) (by decide) (by decide) (by decide +kernel)⟩
    (exMany_apart _ _)
    (by
      intro x hx
      simp only [List.mem_cons, List.not_mem_nil, or_false] at hx
      rcases hx with rfl | rfl
      · exact ⟨exRun_overlap _ (by decide +kernel), fun l hl => by cases hl⟩
      · refine ⟨exRun_overlap _ (by decide +kernel), fun l hl => ?_⟩
        have hl : l ∈ [(⟨"/b.tif".toList, exH 2, exPlanB.val⟩ : LayerFile)] := hl
        rw [List.mem_singleton.1 hl]
        exact (exRun_overlap exMaskV (by decide +kernel)).1)
    (by
      intro x hx
      simp only [List.mem_cons, List.not_mem_nil, or_false] at hx
      rcases hx with rfl | rfl
      · exact exJobA_ok _ ⟨by decide, by decide⟩ _
      · exact exMany_ok _ ⟨by decide, by decide⟩ _)
  refine ⟨d', e, ?_⟩
  have hD : ManyDone .. := hd (exJobM, .inr exPlanM) (by simp)
  have hB := hD.recls rfl
  rw [q1] at hB
  have hcell : ∀ row col, 0 ≤ row → row < 2 → 0 ≤ col → col < 2 → SameCell (exH 2) (exH 3) row col row col :=
    fun row col a b x y => ⟨exIn 2 row col a b x y, rfl⟩
  have hmv : ∀ row col, 0 ≤ row → row < 2 → 0 ≤ col → col < 2 → floatEqual (exMaskV row col) (-9999) = false →
      maskedVal (exH 3) exMaskV exPlanM.hdr exPlanM.val exJobM.default.toQ row col = filled 7 (-9999) (exPlanM.val row col) :=
    fun row col a b x y h => maskedVal_at (by decide) (hval row col a b x (by omega) h) (hcell row col a b x y)
  have h00 := hmv 0 0 (by decide) (by decide) (by decide) (by decide) (by decide +kernel)
  have h11 := hmv 1 1 (by decide) (by decide) (by decide) (by decide) (by decide +kernel)
  have hb : ∀ k row col, 0 ≤ row → row < 2 → 0 ≤ col → col < 3 → floatEqual (exMaskV row col) (-9999) = false → truncQ (exMaskV row col) = k →
      byValue (exH 3) exMaskV k row col := fun k row col a b x y h t => ⟨hval row col a b x y h, t⟩
  have b00 := hb 1 0 0 (by decide) (by decide) (by decide) (by decide) (by decide +kernel) (by decide +kernel)
  have b02 := hb 1 0 2 (by decide) (by decide) (by decide) (by decide) (by decide +kernel) (by decide +kernel)
  have b11 := hb 2 1 1 (by decide) (by decide) (by decide) (by decide) (by decide +kernel) (by decide +kernel)
  have f00 : floatEqual (maskedVal (exH 3) exMaskV exPlanM.hdr exPlanM.val exJobM.default.toQ 0 0) exPlanM.hdr.noData = false := by rw [h00]; decide +kernel
  have f11 : floatEqual (maskedVal (exH 3) exMaskV exPlanM.hdr exPlanM.val exJobM.default.toQ 1 1) exPlanM.hdr.noData = false := by rw [h11]; decide +kernel
  have g00 : maskGroups exJobM (exH 3) exMaskV exPlanM.hdr exPlanM.val 1 0 0 := ⟨b00, 0, 0, b00, f00⟩
  have g02 : maskGroups exJobM (exH 3) exMaskV exPlanM.hdr exPlanM.val 1 0 2 := ⟨b02, 0, 0, b00, f00⟩
  have g11 : maskGroups exJobM (exH 3) exMaskV exPlanM.hdr exPlanM.val 2 1 1 := ⟨b11, 1, 1, b11, f11⟩
  have n01 : ¬ ∃ k, maskGroups exJobM (exH 3) exMaskV exPlanM.hdr exPlanM.val k 0 1 := by
    rintro ⟨k, ⟨⟨-, h⟩, -⟩, -⟩
    revert h
    decide +kernel
  have hhdr : (groupsView (exH 3) exMaskV exJobM exPlanM.head).hdr = { exH 3 with noData := -1 } := rfl
  constructor
  · obtain ⟨w, w1, w2⟩ := hB.all (.inr rfl) ⟨1, 0, 0, g00⟩ 0 (by decide)
    have hname : outFile exPlanM.dt exPlanM.core exPlanM.suf exPlanM.m 0 0 = "/0_o_1.tif".toList := by decide +kernel
    rw [hname, hhdr] at w1
    refine ⟨w, w1, ?_, ?_, ?_, ?_⟩
    · obtain ⟨x, ⟨y, y1, rfl⟩, x2⟩ := (w2 0 0 (hin 0 0 (by decide) (by decide) (by decide) (by decide))).1 ⟨1, g00⟩
      rw [x2, (y1.1 rfl).taken b00.1 0 0 (hcell 0 0 (by decide) (by decide) (by decide) (by decide))]
      decide +kernel
    · rw [(w2 0 1 (hin 0 1 (by decide) (by decide) (by decide) (by decide))).2 n01]
      decide +kernel
    · obtain ⟨x, ⟨y, y1, rfl⟩, x2⟩ := (w2 1 1 (hin 1 1 (by decide) (by decide) (by decide) (by decide))).1 ⟨2, g11⟩
      rw [x2, (y1.1 rfl).taken b11.1 1 1 (hcell 1 1 (by decide) (by decide) (by decide) (by decide))]
      decide +kernel
    · obtain ⟨x, ⟨y, y1, rfl⟩, x2⟩ := (w2 0 2 (hin 0 2 (by decide) (by decide) (by decide) (by decide))).1 ⟨1, g02⟩
      rw [x2, (y1.1 rfl).none (.inr (exNoCell 0 (.inl rfl)))]
      decide +kernel
  · obtain ⟨w, w1, w2⟩ := hB.all (.inr rfl) ⟨1, 0, 0, g00⟩ 1 (by decide)
    have hname : outFile exPlanM.dt exPlanM.core exPlanM.suf exPlanM.m 0 1 = "/0_o_2.tif".toList := by decide +kernel
    rw [hname, hhdr] at w1
    refine ⟨w, w1, ?_, ?_, ?_⟩
    · obtain ⟨x, ⟨y, y1, rfl⟩, x2⟩ := (w2 0 0 (hin 0 0 (by decide) (by decide) (by decide) (by decide))).1 ⟨1, g00⟩
      rw [x2, (y1.2 0 (by decide) rfl).taken b00.1 0 0 (hcell 0 0 (by decide) (by decide) (by decide) (by decide))]
      decide +kernel
    · rw [(w2 0 1 (hin 0 1 (by decide) (by decide) (by decide) (by decide))).2 n01]
      decide +kernel
    · obtain ⟨x, ⟨y, y1, rfl⟩, x2⟩ := (w2 1 1 (hin 1 1 (by decide) (by decide) (by decide) (by decide))).1 ⟨2, g11⟩
      rw [x2, (y1.2 0 (by decide) rfl).taken b11.1 1 1 (hcell 1 1 (by decide) (by decide) (by decide) (by decide))]
      decide +kernel

/-- The same jobs without a mask in the mode DEC, and with a mask in the mode MASK: the hypotheses of `C98_plain_run_partial` and `C98_mask_run_partial` hold. -/
example : ∃ d', run exSys (exWorld exManyText) exRunDisk ["-mode".toList, "dec".toList, "-configfile".toList, "/c.txt".toList] = .ok (0, d') ∧
    ∃ v h, ReadsAs d' "/10_o_2.tif".toList h v ∧ h.rows = 1 ∧ h.cols = 1 ∧ v 0 0 = 51 := by
  have hj : jobsOf (exWorld exManyText) ["-mode".toList, "dec".toList, "-configfile".toList, "/c.txt".toList] = .ok (some [exJobM]) := by decide +kernel
  have hcfg : (configure (exWorld exManyText) ["-mode".toList, "dec".toList, "-configfile".toList, "/c.txt".toList]).bind
      (fun | .exit _ => .ub | .go c => .ok (c.mode, c.maskPath)) = .ok (.dec, []) := by decide +kernel
  obtain ⟨c, h1, h2⟩ := jobsOf_go hj
  rw [h1] at hcfg
  have hcfg' : (c.mode, c.maskPath) = (IOMode.dec, []) := Out.ok.inj hcfg
  injection hcfg' with q1 q2
  obtain ⟨d', e, -, hd⟩ := C98_plain_run_partial exSys (xs := [(exJobM, .inr exPlanM)]) exRun_wf h1 h2 (.inr (.inl q1)) q2 (List.pairwise_singleton _ _)
    (by
      intro x hx l hl
      rw [List.mem_singleton.1 hx] at hl ⊢
      have hl : l ∈ [(⟨"/b.tif".toList, exH 2, exPlanB.val⟩ : LayerFile)] := hl
      rw [List.mem_singleton.1 hl]
      exact ⟨by decide, rfl, 0, 0, by decide +kernel, by decide +kernel⟩)
    (by
      intro x hx
      rw [List.mem_singleton.1 hx]
      exact exMany_ok _ ⟨by decide, by decide⟩ _)
  refine ⟨d', e, ?_⟩
  have hD : ManyDone .. := hd (exJobM, .inr exPlanM) (by simp)
  have hB := hD.recls rfl
  rw [q1] at hB
  have g00 : (plainView exJobM exPlanM.head).grp 10 0 0 := ⟨⟨exIn 2 0 0 (by decide) (by decide) (by decide) (by decide), by decide +kernel⟩, by decide +kernel⟩
  have only : ∀ row col, (plainView exJobM exPlanM.head).grp 10 row col → row = 0 ∧ col = 0 := by
    rintro row col ⟨⟨⟨a, b, x, y⟩, -⟩, h⟩
    have b : row < 2 := b
    have y : col < 2 := y
    have hr : row = 0 ∨ row = 1 := by omega
    have hcl : col = 0 ∨ col = 1 := by omega
    rcases hr with rfl | rfl <;> rcases hcl with rfl | rfl <;> revert h <;> decide +kernel
  obtain ⟨r0, r1, c0, c1, hbx, hS⟩ := hB.single (.inl rfl) 10 ⟨0, 0, g00⟩ (fun h => by rcases h with h | h <;> cases h)
  obtain ⟨_, t1⟩ := hbx.top
  obtain ⟨_, t2⟩ := hbx.bottom
  obtain ⟨_, t3⟩ := hbx.left
  obtain ⟨_, t4⟩ := hbx.right
  have u1 := (only _ _ t1).1
  have u2 := (only _ _ t2).1
  have u3 := (only _ _ t3).2
  have u4 := (only _ _ t4).2
  subst u1 u2 u3 u4
  obtain ⟨w, w1, w2⟩ := hS 1 (by decide)
  have hname : outFile exPlanM.dt exPlanM.core exPlanM.suf exPlanM.m 10 1 = "/10_o_2.tif".toList := by decide +kernel
  rw [hname] at w1
  refine ⟨w, _, w1, rfl, rfl, ?_⟩
  obtain ⟨x, ⟨y, y1, rfl⟩, x2⟩ := (w2 0 0 (by decide) (by decide) (by decide) (by decide)).1 g00
  have x2 : w 0 0 = _ := x2
  rw [x2, (y1.2 0 (by decide) rfl).taken ⟨exIn 2 0 0 (by decide) (by decide) (by decide) (by decide), by decide +kernel⟩ 0 0
    ⟨exIn 2 0 0 (by decide) (by decide) (by decide) (by decide), rfl⟩]
  decide +kernel

example : ∃ d', run exSys (exWorld exManyText) exRunDisk exLayerArgs = .ok (0, d') ∧
    ∃ v, ReadsAs d' "/0_o_2.tif".toList { exH 3 with noData := -1 } v ∧ v 0 0 = 51 := by
  have hj : jobsOf (exWorld exManyText) exLayerArgs = .ok (some [exJobA, exJobM]) := by decide +kernel
  have hcfg : (configure (exWorld exManyText) exLayerArgs).bind (fun | .exit _ => .ub | .go c => .ok (c.mode, c.maskFmt, c.maskPath)) =
      .ok (.mask, .sfile, "/m.tif".toList) := by decide +kernel
  obtain ⟨c, h1, h2⟩ := jobsOf_go hj
  rw [h1] at hcfg
  have hcfg' : (c.mode, c.maskFmt, c.maskPath) = (IOMode.mask, DataFmt.sfile, "/m.tif".toList) := Out.ok.inj hcfg
  injection hcfg' with q1 q2
  injection q2 with q2 q3
  obtain ⟨d', e, -, hd⟩ := C98_mask_run_partial exSys (xs := [(exJobA, .inl exPlanA), (exJobM, .inr exPlanM)]) exRun_wf h1 h2 q1 q2 (by rw [q3]; exact exRun_m)
    (vM := exMaskV) (exMany_apart _ _)
    (by
      intro x hx
      simp only [List.mem_cons, List.not_mem_nil, or_false] at hx
      rcases hx with rfl | rfl
      · exact ⟨exRun_overlap _ (by decide +kernel), fun l hl => by cases hl⟩
      · refine ⟨exRun_overlap _ (by decide +kernel), fun l hl => ?_⟩
        have hl : l ∈ [(⟨"/b.tif".toList, exH 2, exPlanB.val⟩ : LayerFile)] := hl
        rw [List.mem_singleton.1 hl]
        exact (exRun_overlap exMaskV (by decide +kernel)).1)
    (by
      intro x hx
      simp only [List.mem_cons, List.not_mem_nil, or_false] at hx
      rcases hx with rfl | rfl
      · exact exJobA_ok _ ⟨by decide, by decide⟩ _
      · exact exMany_ok _ ⟨by decide, by decide⟩ _)
  refine ⟨d', e, ?_⟩
  have hD : ManyDone .. := hd (exJobM, .inr exPlanM) (by simp)
  have hB := hD.recls rfl
  have hh : HasValue (exH 3) exMaskV 0 0 := ⟨exIn 3 0 0 (by decide) (by decide) (by decide) (by decide), by decide +kernel⟩
  have hcell : SameCell (exH 2) (exH 3) 0 0 0 0 := ⟨exIn 2 0 0 (by decide) (by decide) (by decide) (by decide), rfl⟩
  have h00 : maskedVal (exH 3) exMaskV exPlanM.hdr exPlanM.val exJobM.default.toQ 0 0 = filled 7 (-9999) (exPlanM.val 0 0) := maskedVal_at (by decide) hh hcell
  have g00 : (maskView (exH 3) exMaskV exJobM exPlanM.head).grp 10 0 0 := by
    have hv : (maskView (exH 3) exMaskV exJobM exPlanM.head).val 0 0 = 10 := by
      show renamed _ _ _ (maskedVal (exH 3) exMaskV exPlanM.hdr exPlanM.val exJobM.default.toQ 0 0) = _
      rw [h00]
      decide +kernel
    refine ⟨⟨exIn 3 0 0 (by decide) (by decide) (by decide) (by decide), ?_⟩, ?_⟩
    · show floatEqual ((maskView (exH 3) exMaskV exJobM exPlanM.head).val 0 0) _ = _
      rw [hv]
      decide +kernel
    · show truncQ ((maskView (exH 3) exMaskV exJobM exPlanM.head).val 0 0) = _
      rw [hv]
      decide +kernel
  obtain ⟨w, w1, w2⟩ := hB.all (.inl rfl) ⟨10, 0, 0, g00⟩ 1 (by decide)
  have hname : outFile exPlanM.dt exPlanM.core exPlanM.suf exPlanM.m 0 1 = "/0_o_2.tif".toList := by decide +kernel
  rw [hname] at w1
  refine ⟨w, w1, ?_⟩
  obtain ⟨x, ⟨y, y1, rfl⟩, x2⟩ := (w2 0 0 (exIn 3 0 0 (by decide) (by decide) (by decide) (by decide))).1 ⟨10, g00⟩
  rw [x2, (y1.2 0 (by decide) rfl).taken hh 0 0 hcell]
  decide +kernel

end App
end CCGL
