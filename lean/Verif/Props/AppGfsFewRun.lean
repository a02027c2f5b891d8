import Verif.Props.AppGfsFewJobs
import Verif.Props.AppGfsRun
/-!
# Whole runs with files without NoData cells in GridFS (C91)
-/
namespace CCGL
namespace App
open Fs Disk Main Raster Gfs Disk.Spec App.Spec

theorem full_mask_source {sys : Sys} {md : MaskDb} {d : Disk} {st : Store} {c : Cfg} {hM : Header} {vM : Int → Int → ℚ} (H : MaskFrom sys md d st c hM vM) :
    ∃ M, loadMaskDb sys md d st c = .ok (.go (some ⟨M, []⟩)) ∧ FullMask M hM vM := by
  obtain ⟨M, e, h1, h2, h3, h4, h5, -⟩ := mask_source H
  exact ⟨M, e, h1, h2, h3, h4, fun row col hin => ⟨_, h5 row col hin, by rw [h4]⟩⟩

/-- C91: a run of the mode MASK with `-include_nodata 0` and a mask in a file or in the bucket: every job stores the cells of the mask. -/
theorem C91_few_run {sys : Sys} (hrnd : ∀ v, CCGL.Spec.Representable .float v → sys.rnd v = v) {w : World} {md : MaskDb} {dbs : Nat → JobDb}
    {d : Disk} {st : Store} {args : List Str} {c : Cfg} {js : List Job} (hc : configure w args = .ok (.go c)) (hjs : jobs c = .ok js)
    (hu : c.useMongo = true) (hinc : c.incNodata = false) (hmode : c.mode = .mask) {hM : Header} {vM : Int → Int → ℚ} (hmask : MaskFrom sys md d st c hM vM)
    {ss : List Source} (hA : (withDb dbs js).Pairwise WritesApart)
    (hj : List.Forall₂ (fun jj s => (jj.1.outFmt = .gfs ∧ jj.1.recls = false) ∧ FewJob sys d st hM vM jj s) (withDb dbs js) ss) :
    ∃ st', runDb sys w md dbs d st args = .ok (0, d, st') ∧
      (∀ R : CCGL.Spec.Key, (∀ jj ∈ withDb dbs js, R.name ≠ storedName jj.1.out) → CCGL.Spec.filesOf st' R = CCGL.Spec.filesOf st R) ∧
      List.Forall₂ (fun jj s => ∃ (h : Header) (w : Int → Int → ℚ), FewResult hM vM jj.1 s h w ∧
        InBucketFew sys st' jj { h with noData := renamedNd jj.1.update s.hdr.noData jj.1.nodata.toQ }
          (fun row col => renamed jj.1.update s.hdr.noData jj.1.nodata.toQ (w row col)) (HasValue hM vM)) (withDb dbs js) ss := by
  obtain ⟨M, eM, hm⟩ := full_mask_source hmask
  obtain ⟨st', e, h1, h2⟩ := C87_few_jobs sys hrnd hm hA hj
  refine ⟨st', ?_, h1, h2⟩
  have hp : prepareMask c.mode (some ⟨M, []⟩) = .ok (some ⟨M, []⟩) := by
    unfold prepareMask
    dsimp only
    rw [if_pos hmode]
  rw [runDb_go hc hjs hu eM hp, hinc, hmode]
  exact e

/-- A job without a mask that stores the cells that are not NoData. -/
structure Spec.PlainFewJob (sys : Sys) (d : Disk) (st : Store) (jj : Job × JobDb) (s : Source) : Prop where
  fmt : jj.1.outFmt = .gfs ∧ jj.1.recls = false
  input : jj.1.inFmt = .sfile ∧ ∃ f, jj.1.inputs = [f] ∧ RasterFile d f s.hdr s.val
  some : ∃ row col, s.hdr.grid.CellInside row col ∧ NotNoData { s.hdr with noData := renamedNd jj.1.update s.hdr.noData jj.1.nodata.toQ }
      (fun row col => renamed jj.1.update s.hdr.noData jj.1.nodata.toQ (s.val row col)) row col
  out : BucketFew st jj.1 jj.2 { s.hdr with noData := renamedNd jj.1.update s.hdr.noData jj.1.nodata.toQ }
  fits : FitsAll jj.1.type s.hdr s.val jj.1.default.toQ jj.1.update jj.1.nodata.toQ

/-- C87, INCLUDE_NODATA FALSE, without a mask: all jobs. -/
theorem C87_few_plain_jobs (sys : Sys) (hrnd : ∀ v, CCGL.Spec.Representable .float v → sys.rnd v = v) {d : Disk}
    {st : Store} {js : List (Job × JobDb)} {ss : List Source} (hA : js.Pairwise WritesApart)
    (hj : List.Forall₂ (PlainFewJob sys d st) js ss) :
    ∃ st', runJobsDb sys false .mask none d st js = .ok (0, d, st') ∧
      (∀ R : CCGL.Spec.Key, (∀ jj ∈ js, R.name ≠ storedName jj.1.out) → CCGL.Spec.filesOf st' R = CCGL.Spec.filesOf st R) ∧
      List.Forall₂ (fun jj s => InBucketFew sys st' jj { s.hdr with noData := renamedNd jj.1.update s.hdr.noData jj.1.nodata.toQ }
          (fun row col => renamed jj.1.update s.hdr.noData jj.1.nodata.toQ (s.val row col))
          (NotNoData { s.hdr with noData := renamedNd jj.1.update s.hdr.noData jj.1.nodata.toQ }
            (fun row col => renamed jj.1.update s.hdr.noData jj.1.nodata.toQ (s.val row col)))) js ss := by
  have key : ∀ (js : List (Job × JobDb)) (ss : List Source) (st : Store), js.Pairwise WritesApart → List.Forall₂ (PlainFewJob sys d st) js ss →
      ∃ st', js.foldlM (layerJobDb sys false .mask) (d, st, none) = .ok (d, st', none) ∧
      (∀ R : CCGL.Spec.Key, (∀ jj ∈ js, R.name ≠ storedName jj.1.out) → CCGL.Spec.filesOf st' R = CCGL.Spec.filesOf st R) ∧
      List.Forall₂ (fun jj s => InBucketFew sys st' jj { s.hdr with noData := renamedNd jj.1.update s.hdr.noData jj.1.nodata.toQ }
          (fun row col => renamed jj.1.update s.hdr.noData jj.1.nodata.toQ (s.val row col))
          (NotNoData { s.hdr with noData := renamedNd jj.1.update s.hdr.noData jj.1.nodata.toQ }
            (fun row col => renamed jj.1.update s.hdr.noData jj.1.nodata.toQ (s.val row col)))) js ss := by
    intro js
    induction js with
    | nil =>
      intro ss st _ hF
      cases hF
      exact ⟨st, rfl, fun _ _ => rfl, .nil⟩
    | cons jj js ih =>
      intro ss st hA hF
      cases hF with
      | @cons _ s _ ss hj hF =>
      obtain ⟨hA1, hA2⟩ := List.pairwise_cons.1 hA
      obtain ⟨j, jd⟩ := jj
      obtain ⟨hi, f, hf, hr⟩ := hj.input
      obtain ⟨st1, e1, k1, k2, k3⟩ := C87_plain_few sys hrnd (d := d) (st := st) (j := j) (jd := jd) hi hf hr hj.fmt.1 hj.fmt.2 hj.some hj.out hj.fits
      have hF1 : List.Forall₂ (PlainFewJob sys d st1) js ss := by
        clear ih e1 hj k2 k3 hA hA2 hi hf hr
        induction hF with
        | nil => exact .nil
        | @cons b t js' ss' hb hF' ih' =>
          exact .cons ⟨hb.fmt, hb.input, hb.some, bucketFew_same k1 (hA1 b List.mem_cons_self).1.symm hb.out, hb.fits⟩
            (ih' (fun b hb => hA1 b (List.mem_cons_of_mem _ hb)))
      obtain ⟨st2, e2, k4, k5⟩ := ih ss st1 hA2 hF1
      have hk : CCGL.Spec.filesOf st2 ⟨storedName j.out, fewOpts j.type⟩ = CCGL.Spec.filesOf st1 ⟨storedName j.out, fewOpts j.type⟩ :=
        k4 _ (fun b hb => (hA1 b hb).1)
      refine ⟨st2, by rw [List.foldlM_cons, e1]; exact e2, ?_, .cons ⟨?_, ?_⟩ k5⟩
      · intro R hR
        rw [k4 R (fun b hb => hR b (List.mem_cons_of_mem _ hb)), k1 R (hR (j, jd) List.mem_cons_self)]
      · intro q
        exact holdsCells_congr hj.out.key.name hk (k2 q)
      · intro q
        rw [hk]; exact k3 q
  obtain ⟨st', e, k1, k2⟩ := key js ss st hA hj
  refine ⟨st', ?_, k1, k2⟩
  unfold runJobsDb
  rw [if_neg (by decide), if_neg (by decide), e]
  rfl

/-- C91: a run of the mode MASK with `-include_nodata 0` without a mask. -/
theorem C91_few_plain_run {sys : Sys} (hrnd : ∀ v, CCGL.Spec.Representable .float v → sys.rnd v = v) {w : World} {md : MaskDb} {dbs : Nat → JobDb}
    {d : Disk} {st : Store} {args : List Str} {c : Cfg} {js : List Job} (hc : configure w args = .ok (.go c)) (hjs : jobs c = .ok js)
    (hu : c.useMongo = true) (hinc : c.incNodata = false) (hmode : c.mode = .mask) (hno : c.maskPath = [])
    {ss : List Source} (hA : (withDb dbs js).Pairwise WritesApart) (hj : List.Forall₂ (PlainFewJob sys d st) (withDb dbs js) ss) :
    ∃ st', runDb sys w md dbs d st args = .ok (0, d, st') ∧
      (∀ R : CCGL.Spec.Key, (∀ jj ∈ withDb dbs js, R.name ≠ storedName jj.1.out) → CCGL.Spec.filesOf st' R = CCGL.Spec.filesOf st R) ∧
      List.Forall₂ (fun jj s => InBucketFew sys st' jj { s.hdr with noData := renamedNd jj.1.update s.hdr.noData jj.1.nodata.toQ }
          (fun row col => renamed jj.1.update s.hdr.noData jj.1.nodata.toQ (s.val row col))
          (NotNoData { s.hdr with noData := renamedNd jj.1.update s.hdr.noData jj.1.nodata.toQ }
            (fun row col => renamed jj.1.update s.hdr.noData jj.1.nodata.toQ (s.val row col)))) (withDb dbs js) ss := by
  obtain ⟨st', e, h1, h2⟩ := C87_few_plain_jobs sys hrnd hA hj
  refine ⟨st', ?_, h1, h2⟩
  have hl : loadMaskDb sys md d st c = .ok (.go none) := by
    unfold loadMaskDb
    rw [if_pos hno]
  rw [runDb_go hc hjs hu hl rfl, hinc, hmode]
  exact e

end App
end CCGL
