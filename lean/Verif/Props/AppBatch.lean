import Verif.Lemmas.AppBatch
import Verif.Props.AppMain
import Verif.Props.FileResult
/-!
# Runs of `mask_rasterio` in the mode MASK (C77)
-/
namespace CCGL
namespace App
open Fs Disk Main Raster Disk.Spec App.Spec

/-- C77: one job without mask: the output file reads back as the input file, NoData renamed if asked for. -/
theorem C77_plain_job (sys : Sys) {d : Disk} {j : Job} {pl : Plan} (H : FileJob sys d pl.hdr j pl) :
    ∃ d', layerJob sys .mask (d, none) j = .ok (d', none) ∧ Rewritten d d' (fun q => q = pl.out) ∧ PlainOutput d' j pl := by
  obtain ⟨hin, hout, hre⟩ := H.fmts
  obtain ⟨s, hs, -, Hf⟩ := H.input
  obtain ⟨p, dt, core, suf, ho, hpo, hn, hh, hc⟩ := H.output
  obtain ⟨M, eM, hb, -, hgM, hnM, hvM, h2M, hlM, hcM⟩ := mask_file Hf j.default.toQ
  obtain ⟨hex, -⟩ := file_decode Hf
  obtain ⟨r', e3, hb', hnc', h2d', hly', hhdr, hnd', hval'⟩ := rename_step hb j.update j.nodata.toQ
  have hgr2 : r'.hdr.grid = pl.hdr.grid := by rw [hhdr]; exact hgM
  have hnd2 : r'.hdr.noData = renamedNd j.update pl.hdr.noData j.nodata.toQ := by rw [hhdr, hnM]
  have hgr3 := hgr2
  unfold Header.grid at hgr3
  injection hgr3 with g1 g2 g3 g4 g5
  have hch : CarriesHeader suf r'.hdr := by
    unfold CarriesHeader at hh ⊢
    rw [g1, g2, g3, g4, g5, hnd2]
    exact hh
  have hv : ∀ row col, pl.hdr.grid.CellInside row col →
      r'.getValue row col 1 = .ok (renamed j.update pl.hdr.noData j.nodata.toQ (pl.val row col)) := by
    intro row col hij
    obtain ⟨y, y1, y2⟩ := hval' row col 1
    rw [hvM row col hij] at y1
    cases y1
    rw [y2, hnM]
  obtain ⟨d', v, o1, o2, o3, o4⟩ := write_whole hb' (by rw [hnc']; exact hcM) (by rw [h2d', h2M]) (by rw [hly', hlM]) [] hn hch (by
    intro row col v hin hv'
    rw [hgr2] at hin
    rw [hv row col hin] at hv'
    injection hv' with hv'
    rw [← hv']
    unfold renamed
    split
    · next hu => exact hc.new hu.1
    · exact hc.cells row col hin) (by rw [hnd', hnM]; exact carried_nd hc)
  refine ⟨d', ?_, by rw [hpo]; exact o2, ?_⟩
  · unfold layerJob
    have hfe : filesExist d.fs j.inputs = true := by rw [hs]; unfold filesExist; simp [hex]
    rw [if_pos ⟨hin, hfe⟩]
    have hi : initFiles d j.inputs false none true j.default.toQ = .ok (some ⟨M, []⟩, none) := by
      unfold initFiles
      rw [hfe, hs]
      simp only [Bool.not_true, Bool.false_eq_true, if_false]
      unfold initFile
      dsimp only
      rw [eM]
      rfl
    rw [hi]
    simp only [Out.ok_bind]
    rw [e3]
    simp only [Out.ok_bind, hre, Bool.false_eq_true, if_false, Out.pure_eq]
    unfold writeJob
    rw [if_neg (by rw [hout]; simp), hre]
    simp only [Bool.false_eq_true, if_false]
    have q1 : outSubset .mask = false := by decide
    have q2 : outAll .mask = true := by decide
    rw [q1, q2]
    simp only [Bool.false_eq_true, if_false, if_true, Out.pure_eq, Out.ok_bind]
    rw [ho, o1]
    rfl
  · unfold PlainOutput
    rw [ho]
    refine ReadsAs.change o3 hgr2.symm hnd2.symm ?_
    intro row col hij
    have h1 := o4 row col hij
    rw [hgr2] at hij
    rw [hv row col hij] at h1
    injection h1

theorem fileJob_same {sys : Sys} {d d' : Disk} {h : Header} {j : Job} {pl : Plan} {P : Path} (hr : Rewritten d d' (fun q => q = P))
    (hd : d.fs.kindOf P ≠ some .dir) (H : FileJob sys d h j pl) (h1 : P ≠ pl.inp) (h2 : P ≠ pl.out) : FileJob sys d' h j pl := by
  have hd' : ∀ q, q = P → d.fs.kindOf q ≠ some .dir := by rintro _ rfl; exact hd
  obtain ⟨s, hs, hp, Hf⟩ := H.input
  obtain ⟨p, dt, core, suf, ho, hpo, hn, hh, hc⟩ := H.output
  exact ⟨H.fmts, ⟨s, hs, resolve_same hr hd' hp (fun e => h1 e.symm), rasterFile_same hn.name.wf hr hd' hp (fun e => h1 e.symm) Hf⟩,
    ⟨p, dt, core, suf, ho, hpo, outName_same hr hd' hn (by rw [← hpo]; exact fun e => h2 e.symm), hh, hc⟩⟩

theorem jobs_same {sys : Sys} {d d' : Disk} {ok : Job → Plan → Prop} {hdr : Plan → Header} {P : Path} (hr : Rewritten d d' (fun q => q = P))
    (hd : d.fs.kindOf P ≠ some .dir) {js : List Job} {pls : List Plan} (hF : List.Forall₂ (fun j pl => ok j pl ∧ FileJob sys d (hdr pl) j pl) js pls)
    (hA : ∀ b ∈ pls, P ≠ b.inp ∧ P ≠ b.out) :
    List.Forall₂ (fun j pl => ok j pl ∧ FileJob sys d' (hdr pl) j pl) js pls ∧ ∀ b ∈ pls, d.fs.kindOf b.out ≠ some .dir := by
  induction hF with
  | nil => exact ⟨.nil, by simp⟩
  | @cons j' pl' js' pls' hj' hF' ih' =>
    obtain ⟨t1, t2⟩ := ih' (fun b hb => hA b (List.mem_cons_of_mem _ hb))
    obtain ⟨a1, a2⟩ := hA pl' List.mem_cons_self
    refine ⟨.cons ⟨hj'.1, fileJob_same hr hd hj'.2 a1 a2⟩ t1, ?_⟩
    intro b hb
    rcases List.mem_cons.1 hb with rfl | hb
    · obtain ⟨p', dt', core', suf', -, hpo', hn', -, -⟩ := hj'.2.output
      rw [hpo']; exact hn'.write.nodir
    · exact t2 b hb

/-- All jobs, given what one job does. -/
theorem batch {sys : Sys} {mode : IOMode} {I : Option RasterS → Prop} {ok : Job → Plan → Prop} {hdr : Plan → Header} {done : Disk → Job → Plan → Prop}
    (step : ∀ d m j pl, I m → ok j pl → FileJob sys d (hdr pl) j pl → ∃ d' m', layerJob sys mode (d, m) j = .ok (d', m') ∧ I m' ∧
      Rewritten d d' (fun q => q = pl.out) ∧ done d' j pl)
    (keep : ∀ d d' j pl (new : Path → Prop) q, Fs.Spec.WF d.fs → Rewritten d d' new → (∀ q, new q → d.fs.kindOf q ≠ some .dir) →
      d.fs.resolve j.out = some q → ¬ new q → done d j pl → done d' j pl) :
    ∀ (js : List Job) (pls : List Plan) (d : Disk) (m : Option RasterS), Fs.Spec.WF d.fs → I m →
      List.Forall₂ (fun j pl => ok j pl ∧ FileJob sys d (hdr pl) j pl) js pls → Apart pls →
      ∃ d' m', js.foldlM (layerJob sys mode) (d, m) = .ok (d', m') ∧ I m' ∧ Rewritten d d' (fun q => ∃ pl ∈ pls, q = pl.out) ∧
        List.Forall₂ (done d') js pls := by
  intro js pls d m hw hI hF hA
  induction js generalizing m d pls with
  | nil =>
    cases hF
    refine ⟨d, m, rfl, hI, ⟨hw, rfl, rfl, ?_, fun _ _ => ⟨rfl, rfl⟩⟩, .nil⟩
    rintro q ⟨_, h, _⟩
    cases h
  | cons j js ih =>
    cases hF with
    | @cons _ pl _ pls hj hF =>
    obtain ⟨hA1, hA2⟩ := List.pairwise_cons.1 hA
    obtain ⟨d1, m1, e1, hI1, hr1, hd1⟩ := step d m j pl hI hj.1 hj.2
    obtain ⟨p, dt, core, suf, ho, hpo, hn, -, -⟩ := hj.2.output
    have hnodir : d.fs.kindOf pl.out ≠ some .dir := by rw [hpo]; exact hn.write.nodir
    have hfile : d1.fs.kindOf pl.out = some .file := hr1.file _ rfl
    have hF1 := jobs_same (ok := ok) (hdr := hdr) hr1 hnodir hF hA1
    obtain ⟨hF1, hnd⟩ := hF1
    obtain ⟨d2, m2, e2, hI2, hr2, hdone⟩ := ih pls d1 m1 hr1.wf hI1 hF1 hA2
    have hnew : ¬ ∃ b ∈ pls, pl.out = b.out := by
      rintro ⟨b, hb, e⟩
      exact (hA1 b hb).2 e
    have hdirs : ∀ q, (∃ b ∈ pls, q = b.out) → d1.fs.kindOf q ≠ some .dir := by
      rintro q ⟨b, hb, rfl⟩
      rw [(hr1.same b.out (fun e => (hA1 b hb).2 e.symm)).1]
      exact hnd b hb
    refine ⟨d2, m2, ?_, hI2, ⟨hr2.wf, hr2.deny.trans hr1.deny, hr2.cwd.trans hr1.cwd, ?_, ?_⟩, .cons ?_ hdone⟩
    · rw [List.foldlM_cons, e1]
      exact e2
    · rintro q ⟨b, hb, rfl⟩
      rcases List.mem_cons.1 hb with rfl | hb
      · rw [(hr2.same _ hnew).1]; exact hfile
      · exact hr2.file _ ⟨b, hb, rfl⟩
    · intro q hq
      have q1 : ¬ q = pl.out := fun e => hq ⟨pl, List.mem_cons_self, e⟩
      have q2 : ¬ ∃ b ∈ pls, q = b.out := fun ⟨b, hb, e⟩ => hq ⟨b, List.mem_cons_of_mem _ hb, e⟩
      exact ⟨(hr2.same q q2).1.trans (hr1.same q q1).1, (hr2.same q q2).2.trans (hr1.same q q1).2⟩
    · have hdn : ∀ q, q = pl.out → d.fs.kindOf q ≠ some .dir := by rintro _ rfl; exact hnodir
      have hname : NameIn d1.fs p dt core suf := by
        refine ⟨hr1.wf, hn.name.dir, hn.name.core, hn.name.suf, ?_⟩
        rw [(hr1.same p (fun e => hdn p e hn.name.exist)).1]
        exact hn.name.exist
      refine keep d1 d2 j pl _ pl.out hr1.wf hr2 hdirs ?_ hnew hd1
      rw [ho, hpo]
      exact resolve_out hname (by rw [← hpo]; exact hfile)

/-- C77: all jobs of the mode MASK (one input file each, no reclassification), in their order, if there is a mask and no job writes to a file
of a later job: each output is the input masked, no other file changes, the exit code is 0. -/
theorem C77_mask_jobs (sys : Sys) {d : Disk} {m : Raster} {hM : Header} {vM : Int → Int → ℚ} (hw : Fs.Spec.WF d.fs) (hm : IsMask m hM vM)
    {js : List Job} {pls : List Plan} (hA : Apart pls)
    (hj : List.Forall₂ (fun j pl => (CCGL.Spec.CommonGrid pl.hdr hM ∧ Overlaps hM vM pl.hdr) ∧ FileJob sys d hM j pl) js pls) :
    ∃ d', runJobs sys .mask (some ⟨m, []⟩) d js = .ok (0, d') ∧ Rewritten d d' (fun q => ∃ pl ∈ pls, q = pl.out) ∧
      List.Forall₂ (MaskedOutput d' hM vM) js pls := by
  obtain ⟨d', m', e, -, hr, hd⟩ := batch (sys := sys) (mode := .mask) (I := fun x => ∃ m, x = some ⟨m, []⟩ ∧ IsMask m hM vM)
    (ok := fun _ pl => CCGL.Spec.CommonGrid pl.hdr hM ∧ Overlaps hM vM pl.hdr) (hdr := fun _ => hM) (done := fun d j pl => MaskedOutput d hM vM j pl)
    (by
      rintro d _ j pl ⟨m, rfl, hm⟩ ⟨hg, hov⟩ H
      obtain ⟨hin, hout, hre⟩ := H.fmts
      obtain ⟨s, hs, -, Hf⟩ := H.input
      obtain ⟨p, dt, core, suf, ho, hpo, hn, hh, hc⟩ := H.output
      obtain ⟨d', m', v, e, hm', hr, h1, h2⟩ := C77_mask_job sys hm hin hs Hf hg hov hout hre ho hn hh hc
      exact ⟨d', _, e, ⟨m', rfl, hm'⟩, by rw [hpo]; exact hr, v, h1, h2⟩)
    (by
      rintro d d' j pl new q hw hr hd he hq ⟨v, h1, h2⟩
      exact ⟨v, reads_same hw hr hd he hq h1, h2⟩)
    js pls d (some ⟨m, []⟩) hw ⟨m, rfl, hm⟩ hj hA
  refine ⟨d', ?_, hr, hd⟩
  unfold runJobs
  rw [if_neg (by decide), if_neg (by decide), e]
  rfl

/-- C77: the same without a mask: each output is the input itself. -/
theorem C77_plain_jobs (sys : Sys) {d : Disk} (hw : Fs.Spec.WF d.fs)
    {js : List Job} {pls : List Plan} (hA : Apart pls) (hj : List.Forall₂ (fun j pl => FileJob sys d pl.hdr j pl) js pls) :
    ∃ d', runJobs sys .mask none d js = .ok (0, d') ∧ Rewritten d d' (fun q => ∃ pl ∈ pls, q = pl.out) ∧
      List.Forall₂ (PlainOutput d') js pls := by
  obtain ⟨d', m', e, -, hr, hd⟩ := batch (sys := sys) (mode := .mask) (I := fun x => x = none)
    (ok := fun _ _ => True) (hdr := fun pl => pl.hdr) (done := fun d j pl => PlainOutput d j pl)
    (by
      rintro d _ j pl rfl - H
      obtain ⟨d', e, hr, h1⟩ := C77_plain_job sys H
      exact ⟨d', none, e, rfl, hr, h1⟩)
    (by
      intro d d' j pl new q hw hr hd he hq h
      exact reads_same hw hr hd he hq h)
    js pls d none hw rfl (hj.imp (fun _ _ h => ⟨trivial, h⟩)) hA
  refine ⟨d', ?_, hr, hd⟩
  unfold runJobs
  rw [if_neg (by decide), if_neg (by decide), e]
  rfl

/-- C77: a run of the program in the mode MASK whose settings name a raster file as mask. -/
theorem C77_mask_run (sys : Sys) {w : World} {d : Disk} {args : List Str} {c : Cfg} {js : List Job} (hw : Fs.Spec.WF d.fs)
    (hc : configure w args = .ok (.go c)) (hjs : jobs c = .ok js) (hmode : c.mode = .mask)
    {hM : Header} {vM : Int → Int → ℚ} (hf : c.maskFmt = .sfile) (hmask : RasterFile d c.maskPath hM vM)
    {pls : List Plan} (hA : Apart pls)
    (hj : List.Forall₂ (fun j pl => (CCGL.Spec.CommonGrid pl.hdr hM ∧ Overlaps hM vM pl.hdr) ∧ FileJob sys d hM j pl) js pls) :
    ∃ d', run sys w d args = .ok (0, d') ∧ Rewritten d d' (fun q => ∃ pl ∈ pls, q = pl.out) ∧ List.Forall₂ (MaskedOutput d' hM vM) js pls := by
  obtain ⟨M, eM, hm⟩ := mask_loaded hmask
  obtain ⟨hex, -⟩ := file_decode hmask
  obtain ⟨d', e, h1, h2⟩ := C77_mask_jobs sys hw hm hA hj
  refine ⟨d', ?_, h1, h2⟩
  have hne : c.maskPath ≠ [] := by
    intro h
    rw [h] at hex
    cases hex
  unfold run
  rw [hc]
  simp only [Out.ok_bind]
  rw [hjs]
  simp only [Out.ok_bind]
  have hl : loadMask d c = .ok (.go (some ⟨M, []⟩)) := by
    unfold loadMask
    rw [if_neg hne, if_pos ⟨hf, hex⟩]
    unfold initFile
    dsimp only
    rw [eM]
    rfl
  rw [hl]
  simp only [Out.ok_bind]
  have hp : prepareMask c.mode (some ⟨M, []⟩) = .ok (some ⟨M, []⟩) := by
    unfold prepareMask
    rw [hmode]
    rfl
  rw [hp]
  simp only [Out.ok_bind]
  rw [hmode, e]

/-- C77: a run of the program in the mode MASK without a mask. -/
theorem C77_plain_run (sys : Sys) {w : World} {d : Disk} {args : List Str} {c : Cfg} {js : List Job} (hw : Fs.Spec.WF d.fs)
    (hc : configure w args = .ok (.go c)) (hjs : jobs c = .ok js) (hmode : c.mode = .mask) (hmask : c.maskPath = [])
    {pls : List Plan} (hA : Apart pls) (hj : List.Forall₂ (fun j pl => FileJob sys d pl.hdr j pl) js pls) :
    ∃ d', run sys w d args = .ok (0, d') ∧ Rewritten d d' (fun q => ∃ pl ∈ pls, q = pl.out) ∧ List.Forall₂ (PlainOutput d') js pls := by
  obtain ⟨d', e, h1, h2⟩ := C77_plain_jobs sys hw hA hj
  refine ⟨d', ?_, h1, h2⟩
  unfold run
  rw [hc]
  simp only [Out.ok_bind]
  rw [hjs]
  simp only [Out.ok_bind]
  have hl : loadMask d c = .ok (.go none) := by
    unfold loadMask
    rw [if_pos hmask]
  rw [hl]
  simp only [Out.ok_bind]
  have hp : prepareMask c.mode none = .ok none := rfl
  rw [hp]
  simp only [Out.ok_bind]
  rw [hmode, e]

end App
end CCGL

namespace CCGL
namespace App
open Fs Disk Main Raster Disk.Spec App.Spec

/-- C77 needs an overlap: if no cell with a value of the mask lies on the raster, `Init` returns null, which the program dereferences. -/
theorem C77_outside (sys : Sys) {d : Disk} {m : Raster} {hM hR : Header} {vM vR : Int → Int → ℚ} (hm : IsMask m hM vM) {j : Job} {s : Str}
    (hin : j.inFmt = .sfile) (hs : j.inputs = [s]) (H : RasterFile d s hR vR) (hg : CCGL.Spec.CommonGrid hR hM) (hov : ¬ Overlaps hM vM hR)
    (mode : IOMode) (subs : IMap Subset) : layerJob sys mode (d, some ⟨m, subs⟩) j = .ub := by
  obtain ⟨hex, h', cells, e, hgr, hn, hl, hlen, hv⟩ := file_decode H
  obtain ⟨M, hb, hcl, hMg, hMn, hMv, hpos⟩ := hm.ex
  have hgr' := hgr
  unfold Header.grid at hgr'
  injection hgr' with g1 g2 g3 g4 g5
  have hMg' := hMg
  unfold Header.grid at hMg'
  injection hMg' with m1 m2 m3 m4 m5
  have hfr : fileRaster (h', some cells) false true j.default.toQ = ofFile h' cells false true j.default.toQ := rfl
  have hr0 : 0 < h'.rows := by rw [g1]; exact H.rows
  have hc0 : 0 < h'.cols := by rw [g2]; exact H.cols
  have hrd : CCGL.Spec.ReadGrid (ofFile h' cells false true j.default.toQ) := .file h' cells false true _ hr0 hc0 hlen
  have hcg : CCGL.Spec.CommonGrid (ofFile h' cells false true j.default.toQ).hdr M.hdr := by
    obtain ⟨a1, a2, a, b, a3, a4⟩ := hg
    refine ⟨?_, ?_, a, b, ?_, ?_⟩
    · show 0 < h'.cellsize; rw [g3]; exact a1
    · show M.hdr.cellsize = h'.cellsize; rw [g3, m3]; exact a2
    · show M.hdr.xll = h'.xll + a * h'.cellsize; rw [g3, g4, m4]; exact a3
    · show M.hdr.yll = h'.yll + b * h'.cellsize; rw [g3, g5, m5]; exact a4
  have hgrid : (ofFile h' cells false true j.default.toQ).hdr.grid = hR.grid := hgr
  obtain ⟨res, e1, hcode⟩ := mask_none hrd hb.inv hcl hcg (by
    rintro x y ⟨v, row, col, q1, q2, q3, q4⟩ ⟨i, k, q5, q6⟩
    rw [hMg] at q1 q2
    rw [hgrid] at q5 q6
    refine hov ⟨row, col, i, k, ⟨q1, ?_⟩, q5, ?_⟩
    · obtain ⟨y, y1, y2⟩ := hMv row col q1
      rw [y1] at q3
      injection q3 with q3
      rw [← y2, q3]; exact q4
    · rw [q6, q2])
  unfold layerJob
  have hfe : filesExist d.fs j.inputs = true := by rw [hs]; unfold filesExist; simp [hex]
  rw [if_pos ⟨hin, hfe⟩]
  have hi : initFiles d j.inputs false (some ⟨m, subs⟩) true j.default.toQ = .ok (none, some ⟨res.mask, subs⟩) := by
    unfold initFiles
    rw [hfe, hs]
    simp only [Bool.not_true, Bool.false_eq_true, if_false]
    unfold initFile
    rw [hex]
    simp only [Bool.not_true, Bool.false_eq_true, if_false]
    rw [e]
    simp only [Out.ok_bind]
    unfold maskRasterS
    rw [hfr, maskRaster_congr hpos, e1]
    simp only [Out.ok_bind]
    rw [if_pos (.inl (by rw [hcode]; decide))]
    simp only [Out.ok_bind, Out.pure_eq, hcode]
    rfl
  rw [hi]
  rfl

end App
end CCGL

namespace CCGL
namespace App
open Fs Disk Main Raster Disk.Spec App.Spec

def exGrid (rows cols : Nat) (data : List ℚ) : Gtiff.GFile :=
  { cols := cols, rows := rows, type := .double, data := data, noData := -9999, left := 0, dx := 1, top := rows, dy := -1 }

/-- Example: a disk with a mask of 2 rows and 3 columns and two rasters of 2 rows and 2 columns. -/
def exRunDisk : Disk where
  fs := (exWorld "").fs
  data := fun p =>
    if p = ["m.tif".toList] then some (.tif (exGrid 2 3 [1, -9999, 1, 2, 2, -9999]))
    else if p = ["a.tif".toList] then some (.tif (exGrid 2 2 [10, 20, -9999, 40]))
    else if p = ["b.tif".toList] then some (.tif (exGrid 2 2 [5, 6, 7, 8]))
    else none

def exSys : Sys := ⟨okEnv, fun q => intToDec q.num, true, id⟩

def exRunArgs : List Str := ["-mode".toList, "mask".toList, "-mask".toList, "/m.tif".toList, "-in".toList, "/a.tif".toList, "-nodata".toList, "-1".toList,
  "-configfile".toList, "/c.txt".toList]


theorem exRun_wf : Fs.Spec.WF exRunDisk.fs := ⟨by decide +kernel, by decide +kernel, by unfold Fs.Spec.GoodName; decide +kernel, by decide +kernel⟩

/-- A raster file given by what the reader delivers. -/
theorem rasterFile_of {d : Disk} {s : Str} {h : Header} {vals : List ℚ} (e : decode d s = .ok (some (h, some vals))) (hx : fileExists d.fs s = true)
    (hr : 0 < h.rows) (hc : 0 < h.cols) (hl : (vals.length : Int) = h.rows * h.cols) :
    RasterFile d s h (fun row col => vals.getD (row * h.cols + col).toNat 0) := ⟨reads_data hr.le hc.le hl hx e, hr, hc⟩

def exH (cols : Int) : Header := { rows := 2, cols := cols, cellsize := 1, xll := 1 / 2, yll := 1 / 2, noData := -9999, layers := 1, cellsnum := 2 * cols }

theorem exRun_m : RasterFile exRunDisk "/m.tif".toList (exH 3) (fun row col => [1, -9999, 1, 2, 2, -9999].getD (row * 3 + col).toNat 0) :=
  rasterFile_of (h := exH 3) (by decide +kernel) (by decide +kernel) (by decide) (by decide) (by decide)
theorem exRun_a : RasterFile exRunDisk "/a.tif".toList (exH 2) (fun row col => [10, 20, -9999, 40].getD (row * 2 + col).toNat 0) :=
  rasterFile_of (h := exH 2) (by decide +kernel) (by decide +kernel) (by decide) (by decide) (by decide)
theorem exRun_b : RasterFile exRunDisk "/b.tif".toList (exH 2) (fun row col => [5, 6, 7, 8].getD (row * 2 + col).toNat 0) :=
  rasterFile_of (h := exH 2) (by decide +kernel) (by decide +kernel) (by decide) (by decide) (by decide)

def exPlans : List Plan := [
  ⟨["a.tif".toList], exH 2, fun row col => [10, 20, -9999, 40].getD (row * 2 + col).toNat 0, ["a_masked.tif".toList]⟩,
  ⟨["b.tif".toList], exH 2, fun row col => [5, 6, 7, 8].getD (row * 2 + col).toNat 0, ["o.tif".toList]⟩]

theorem exRun_out (core : Str) (hc : '/' ∉ core) (hk : exRunDisk.fs.kindOf [core ++ '.' :: "tif".toList] = none) :
    OutName exSys.env (exSys.fmt .double) exRunDisk [] "/".toList core "tif".toList :=
  ⟨⟨exRun_wf, ⟨by simp, rfl⟩, hc, by decide, rfl⟩, ⟨by rw [List.nil_append, hk]; simp, rfl, rfl, fun _ => rfl, rfl⟩, .inr ⟨exTif, by decide, .inr ⟨rfl, by decide⟩⟩⟩

theorem exRun_carried (h : Header) (v : Int → Int → ℚ) (dv : ℚ) (upd : Bool) (new : ℚ) :
    Carried (exSys.fmt .double) "tif".toList h v dv upd new := by
  have : ∀ x, CarriesValue (exSys.fmt .double) "tif".toList x := fun x => ⟨fun ha => (asc_not_tif ha exTif).elim, fun _ h => by cases h⟩
  exact ⟨fun _ _ _ => this _, this _, this _, fun _ => this _⟩

theorem exIn (cols row col : Int) (h1 : 0 ≤ row) (h2 : row < 2) (h3 : 0 ≤ col) (h4 : col < cols) : (exH cols).grid.CellInside row col := ⟨h1, h2, h3, h4⟩

theorem exRun_overlap (v : Int → Int → ℚ) (h : floatEqual (v 0 0) (-9999) = false) : CCGL.Spec.CommonGrid (exH 2) (exH 3) ∧ Overlaps (exH 3) v (exH 2) :=
  ⟨⟨by decide, rfl, 0, 0, by decide +kernel, by decide +kernel⟩, 0, 0, 0, 0, ⟨(exIn 3 _ _ (by decide) (by decide) (by decide) (by decide)), h⟩, (exIn 2 _ _ (by decide) (by decide) (by decide) (by decide)), by decide +kernel⟩

/-- Two jobs (one from the command line, one from the configuration file) of a run with a mask: the outputs are the masked rasters, NoData
of the first is renamed to -1. -/
example : ∃ d', run exSys (exWorld "/b.tif;/o.tif;7\n") exRunDisk exRunArgs = .ok (0, d') ∧
    Rewritten exRunDisk d' (fun q => q = ["a_masked.tif".toList] ∨ q = ["o.tif".toList]) ∧
    ∃ v, ReadsAs d' "/a_masked.tif".toList { exH 3 with noData := -1 } v ∧ v 0 0 = 10 ∧ v 0 1 = -1 ∧ v 0 2 = -1 ∧ v 1 0 = -1 ∧ v 1 1 = 40 := by
  have hj : jobsOf (exWorld "/b.tif;/o.tif;7\n") exRunArgs = .ok (some [
    { inputs := ["/a.tif".toList], inFmt := .sfile, out := "/a_masked.tif".toList, outFmt := .sfile, default := .fin (-9999)
      update := true, nodata := .fin (-1), type := .double, recls := false, table := [] },
    { inputs := ["/b.tif".toList], inFmt := .sfile, out := "/o.tif".toList, outFmt := .sfile, default := .fin 7
      update := false, nodata := .fin (-9999), type := .double, recls := false, table := [] }]) := by decide +kernel
  have hcfg : (configure (exWorld "/b.tif;/o.tif;7\n") exRunArgs).bind (fun | .exit _ => .ub | .go c => .ok (c.mode, c.maskFmt, c.maskPath)) =
      .ok (.mask, .sfile, "/m.tif".toList) := by decide +kernel
  obtain ⟨c, h1, h2⟩ := jobsOf_go hj
  rw [h1] at hcfg
  have hcfg' : (c.mode, c.maskFmt, c.maskPath) = (IOMode.mask, DataFmt.sfile, "/m.tif".toList) := Out.ok.inj hcfg
  injection hcfg' with q1 q2
  injection q2 with q2 q3
  obtain ⟨d', e, hr, hf⟩ := C77_mask_run exSys exRun_wf h1 h2 q1 q2 (by rw [q3]; exact exRun_m) (pls := exPlans)
    (by unfold Apart exPlans; simp only [List.pairwise_cons, List.mem_cons, List.not_mem_nil, or_false, forall_eq]; exact ⟨by decide +kernel, fun _ h => h.elim, .nil⟩)
    (.cons ⟨exRun_overlap _ (by decide +kernel), ⟨rfl, rfl, rfl⟩, ⟨_, rfl, by decide +kernel, exRun_a⟩,
      ⟨[], "/".toList, "a_masked".toList, "tif".toList, by decide +kernel, by decide +kernel, exRun_out _ (by decide) (by decide +kernel),
        ⟨by decide, by decide, fun ha => (asc_not_tif ha exTif).elim⟩, exRun_carried _ _ _ _ _⟩⟩
    (.cons ⟨exRun_overlap _ (by decide +kernel), ⟨rfl, rfl, rfl⟩, ⟨_, rfl, by decide +kernel, exRun_b⟩,
      ⟨[], "/".toList, "o".toList, "tif".toList, by decide +kernel, by decide +kernel, exRun_out _ (by decide) (by decide +kernel),
        ⟨by decide, by decide, fun ha => (asc_not_tif ha exTif).elim⟩, exRun_carried _ _ _ _ _⟩⟩ .nil))
  refine ⟨d', e, ?_, ?_⟩
  · have : (fun q => ∃ pl ∈ exPlans, q = pl.out) = (fun q => q = ["a_masked.tif".toList] ∨ q = ["o.tif".toList]) := by
      funext q
      simp only [exPlans, List.mem_cons, List.not_mem_nil, or_false, exists_eq_or_imp, exists_eq_left]
    rw [this] at hr
    exact hr
  · cases hf with
    | cons hf _ =>
      obtain ⟨v, v1, v2⟩ := hf
      refine ⟨v, v1, ?_⟩
      refine ⟨?_, ?_, ?_, ?_, ?_⟩
      · obtain ⟨w, w1, w2⟩ := v2 0 0 (exIn 3 _ _ (by decide) (by decide) (by decide) (by decide))
        rw [w2, w1.taken ⟨(exIn 3 _ _ (by decide) (by decide) (by decide) (by decide)), by decide +kernel⟩ 0 0 ⟨(exIn 2 _ _ (by decide) (by decide) (by decide) (by decide)), by decide +kernel⟩]
        decide +kernel
      · obtain ⟨w, w1, w2⟩ := v2 0 1 (exIn 3 _ _ (by decide) (by decide) (by decide) (by decide))
        rw [w2, w1.none (.inl (by rintro ⟨-, h⟩; revert h; decide +kernel))]
        decide +kernel
      · obtain ⟨w, w1, w2⟩ := v2 0 2 (exIn 3 _ _ (by decide) (by decide) (by decide) (by decide))
        rw [w2, w1.none (.inr (by
          rintro ⟨i, j, h3, h4⟩
          have h5 : 0 ≤ i ∧ i < 2 ∧ 0 ≤ j ∧ j < 2 := h3
          have hj : j = 0 ∨ j = 1 := by omega
          have hi : i = 0 ∨ i = 1 := by omega
          rcases hi with rfl | rfl <;> rcases hj with rfl | rfl <;> revert h4 <;> decide +kernel))]
        decide +kernel
      · obtain ⟨w, w1, w2⟩ := v2 1 0 (exIn 3 _ _ (by decide) (by decide) (by decide) (by decide))
        rw [w2, w1.taken ⟨(exIn 3 _ _ (by decide) (by decide) (by decide) (by decide)), by decide +kernel⟩ 1 0 ⟨(exIn 2 _ _ (by decide) (by decide) (by decide) (by decide)), by decide +kernel⟩]
        decide +kernel
      · obtain ⟨w, w1, w2⟩ := v2 1 1 (exIn 3 _ _ (by decide) (by decide) (by decide) (by decide))
        rw [w2, w1.taken ⟨(exIn 3 _ _ (by decide) (by decide) (by decide) (by decide)), by decide +kernel⟩ 1 1 ⟨(exIn 2 _ _ (by decide) (by decide) (by decide) (by decide)), by decide +kernel⟩]
        decide +kernel

def exOneJob : Job where
  inputs := ["/a.tif".toList]
  inFmt := .sfile
  out := "/o.tif".toList
  outFmt := .sfile
  default := .fin (-9999)
  update := true
  nodata := .fin (-1)
  type := .double
  recls := false
  table := []

/-- A job without mask. -/
example : ∃ d', layerJob exSys .mask (exRunDisk, none) exOneJob = .ok (d', none) := by
  obtain ⟨d', e, -⟩ := C77_plain_job exSys (d := exRunDisk) (j := exOneJob)
    (pl := ⟨["a.tif".toList], exH 2, fun row col => [10, 20, -9999, 40].getD (row * 2 + col).toNat 0, ["o.tif".toList]⟩)
    ⟨⟨rfl, rfl, rfl⟩, ⟨_, rfl, by decide +kernel, exRun_a⟩,
      ⟨[], "/".toList, "o".toList, "tif".toList, by decide +kernel, by decide +kernel, exRun_out _ (by decide) (by decide +kernel),
        ⟨by decide, by decide, fun ha => (asc_not_tif ha exTif).elim⟩, exRun_carried _ _ _ _ _⟩⟩
  exact ⟨d', e⟩

/-- A mask with a value only outside of the raster. -/
def exFarDisk : Disk := { exRunDisk with
  data := fun p => if p = ["m.tif".toList] then some (.tif (exGrid 2 3 [-9999, -9999, 1, -9999, -9999, 1])) else exRunDisk.data p }

theorem C77_false_outside :
    (run exSys (exWorld "") exFarDisk ["-mask".toList, "/m.tif".toList, "-in".toList, "/a.tif".toList]).bind (fun x => .ok x.1) = .ub := by
  decide +kernel

end App
end CCGL
