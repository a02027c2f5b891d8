import Verif.Props.AppCrashDbComFew
import Verif.Props.AppGfsFewRun
/-!
# A run in the mode MASK with output to the bucket, without NoData cells and without reclassification is stopped and started again (C101)
-/
namespace CCGL
namespace App
open Fs Disk Main Raster Gfs Disk.Spec App.Spec

namespace Spec

/-- The buckets a run in the mode MASK without NoData cells and without reclassification can leave behind if it is stopped at some point: some jobs are done, one may be
at work, and whatever it has done to the files with the name of its output, no other file of the bucket has changed since. -/
def StoppedDbMaskFew (sys : Sys) (md : MaskDb) (d : Disk) (c : Cfg) (js : List (Job × JobDb)) (st st' : Store) (done : List (Job × JobDb)) : Prop :=
  ∃ m, LoadedDb sys md d st c m ∧ ∃ rest, js = done ++ rest ∧ ∃ st1 m1, done.foldlM (layerJobDb sys false .mask) (d, st, m) = .ok (d, st1, m1) ∧
    ∀ R : CCGL.Spec.Key, (∀ x, rest.head? = some x → R.name ≠ storedName x.1.out) → CCGL.Spec.filesOf st' R = CCGL.Spec.filesOf st1 R

end Spec

theorem maskJobs_fold {sys : Sys} {d : Disk} {st st' : Store} {m : Option RasterS} {js : List (Job × JobDb)}
    (e : runJobsDb sys false .mask m d st js = .ok (0, d, st')) : ∃ m', js.foldlM (layerJobDb sys false .mask) (d, st, m) = .ok (d, st', m') := by
  unfold runJobsDb at e
  rw [if_neg (by decide), if_neg (by decide)] at e
  obtain ⟨x, e1, e2⟩ := Out.bind_ok e
  obtain ⟨d', st2, m'⟩ := x
  have e3 := Out.ok.inj e2
  injection e3 with _ e3
  injection e3 with e4 e5
  subst e4
  dsimp only at e5
  subst e5
  exact ⟨m', e1⟩

/-- What a stopped run has done to the bucket, given what the jobs do. -/
theorem stoppedMaskFew_leaves {α : Type} {sys : Sys} {d : Disk} {st st1 : Store} {md : MaskDb} {c : Cfg} {dbs : Nat → JobDb} {js : List Job}
    {ss : List α} {done : List (Job × JobDb)} {P : Job × JobDb → α → Prop} {Q : Store → Job × JobDb → α → Prop} {M : Option RasterS} (hA : SeparateDbCom js)
    (hx : List.Forall₂ P (withDb dbs js) ss) (hs : StoppedDbMaskFew sys md d c (withDb dbs js) st st1 done) (hM : ∀ m, LoadedDb sys md d st c m → m = M)
    (hrun : ∀ {js ss}, js.Pairwise WritesApart → List.Forall₂ P js ss → ∃ st', runJobsDb sys false .mask M d st js = .ok (0, d, st') ∧
      (∀ R : CCGL.Spec.Key, (∀ jj ∈ js, R.name ≠ storedName jj.1.out) → CCGL.Spec.filesOf st' R = CCGL.Spec.filesOf st R) ∧ List.Forall₂ (Q st') js ss)
    (hQ : ∀ {st0 jj s}, P jj s → CCGL.Spec.filesOf st1 ⟨storedName jj.1.out, fewOpts jj.1.type⟩ = CCGL.Spec.filesOf st0 ⟨storedName jj.1.out, fewOpts jj.1.type⟩ →
      Q st0 jj s → Q st1 jj s) :
    (∀ R : CCGL.Spec.Key, (∀ j ∈ js, R.name ≠ storedName j.out) → CCGL.Spec.filesOf st1 R = CCGL.Spec.filesOf st R) ∧
    List.Forall₂ (Q st1) done (ss.take done.length) := by
  obtain ⟨m', hm', rest, hsp, st0, m1, e, hr⟩ := hs
  have em := hM m' hm'
  subst em
  have hP := separate_dbCom (dbs := dbs) hA
  have hx' := hx
  rw [hsp] at hP hx'
  obtain ⟨hP1, -, hP3⟩ := List.pairwise_append.1 hP
  have hx1 := forall₂_take hx'
  obtain ⟨st2, e2, k1, k2⟩ := hrun hP1 hx1
  obtain ⟨m2, e3⟩ := maskJobs_fold e2
  rw [e] at e3
  injection e3 with e3
  injection e3 with _ e3
  injection e3 with e3 _
  subst e3
  have hin : ∀ x ∈ done ++ rest, x.1 ∈ js := fun x h => withDb_mem (dbs := dbs) (by rw [hsp]; exact h)
  refine ⟨fun R hR => ?_, ?_⟩
  · rw [hr R (fun x h => hR _ (hin x (List.mem_append_right _ (List.mem_of_mem_head? h)))), k1 R (fun x h => hR _ (hin x (List.mem_append_left _ h)))]
  · have hboth : List.Forall₂ (fun jj s => P jj s ∧ Q st0 jj s) done (ss.take done.length) := by
      clear e e2 hP3 hP1 hr hsp hx' k1 hin hP
      generalize ss.take done.length = qs at hx1 k2
      induction hx1 with
      | nil => exact .nil
      | cons h1 _ ih =>
        cases k2 with
        | cons g1 g2 => exact .cons ⟨h1, g1⟩ (ih g2)
    exact forall₂_mono_mem hboth (fun jj hjj s H => hQ H.1 (hr _ (fun x h => (hP3 jj hjj x (List.mem_of_mem_head? h)).1)) H.2)

theorem inBucketFew_at {sys : Sys} {st0 st1 : Store} {jj : Job × JobDb} {h : Header} {v : Int → Int → ℚ} {S : Int → Int → Prop}
    (hn : Char.ofNat 0 ∉ storedName jj.1.out)
    (he : CCGL.Spec.filesOf st1 ⟨storedName jj.1.out, fewOpts jj.1.type⟩ = CCGL.Spec.filesOf st0 ⟨storedName jj.1.out, fewOpts jj.1.type⟩)
    (H : InBucketFew sys st0 jj h v S) : InBucketFew sys st1 jj h v S :=
  ⟨fun q => holdsCells_congr hn he (H.1 q), fun q => by rw [he]; exact H.2 q⟩

theorem fewJob_name {sys : Sys} {d : Disk} {st : Store} {hM : Header} {vM : Int → Int → ℚ} {b : Job × JobDb} {s : Source} (H : FewJob sys d st hM vM b s) :
    Char.ofNat 0 ∉ storedName b.1.out := by
  cases H with
  | file f h1 h2 h3 h4 h5 h6 h7 => exact h6.key.name
  | bucket h1 h2 h3 h4 => exact h3.key.name

theorem fewJob_at {sys : Sys} {d : Disk} {st st' : Store} {hM : Header} {vM : Int → Int → ℚ} {b : Job × JobDb} {s : Source}
    (ho : ∀ f ∈ st', CCGL.Spec.Has f ⟨storedName b.1.out, fewOpts b.1.type⟩ → CCGL.Spec.Has f ⟨storedName b.1.out, outOpts .double b.2.own (fewOpts b.1.type) false⟩)
    (he : b.1.inFmt = .gfs → ∀ n ∈ b.1.inputs, CCGL.Spec.filesOf st' ⟨n, fewOpts b.1.type⟩ = CCGL.Spec.filesOf st ⟨n, fewOpts b.1.type⟩)
    (H : FewJob sys d st hM vM b s) : FewJob sys d st' hM vM b s := by
  cases H with
  | file f h1 h2 h3 h4 h5 h6 h7 => exact .file f h1 h2 h3 h4 h5 { h6 with old := ho } h7
  | bucket h1 h2 h3 h4 =>
    refine .bucket ⟨h1.fmt, ?_, h1.ok1, h1.ok2, h1.rd, h1.rows, h1.cols, h1.gap⟩ h2 { h3 with old := ho } h4
    obtain ⟨name, more, e1, e2⟩ := h1.ex
    exact ⟨name, more, e1, holdsCells_congr (h2 name (by rw [e1]; simp)) (he h1.fmt name (by rw [e1]; simp)) e2⟩

/-- C101: a run in the mode MASK with a mask, with output to the bucket, without NoData cells and without reclassification is stopped. -/
theorem C101_db_few_cells {sys : Sys} (hrnd : ∀ v, CCGL.Spec.Representable .float v → sys.rnd v = v) {w : World} {md md' : MaskDb} {dbs dbs' : Nat → JobDb}
    {d : Disk} {st : Store} {args : List Str} {c : Cfg} {js : List Job} (hc : configure w args = .ok (.go c)) (hjs : jobs c = .ok js)
    (hu : c.useMongo = true) (hinc : c.incNodata = false) (hmode : c.mode = .mask) {hM : Header} {vM : Int → Int → ℚ}
    (hmask : MaskFrom sys md d st c hM vM) (hmask' : MaskFrom sys md' d st c hM vM)
    (hqn : c.maskFmt = .gfs → (∀ j ∈ js, c.maskPath ≠ storedName j.out) ∧ Char.ofNat 0 ∉ c.maskPath) (hA : SeparateDbCom js) {ss ss' : List Source}
    (hx : List.Forall₂ (fun jj s => (jj.1.outFmt = .gfs ∧ jj.1.recls = false) ∧ FewJob sys d st hM vM jj s) (withDb dbs js) ss)
    (hy : List.Forall₂ (fun jj s => (jj.1.outFmt = .gfs ∧ jj.1.recls = false) ∧ FewJob sys d st hM vM jj s) (withDb dbs' js) ss')
    {st1 : Store} {done : List (Job × JobDb)} (hs : StoppedDbMaskFew sys md d c (withDb dbs js) st st1 done) (hO : OldFilesComFew (withDb dbs' js) st1) :
    (∀ R : CCGL.Spec.Key, (∀ j ∈ js, R.name ≠ storedName j.out) → CCGL.Spec.filesOf st1 R = CCGL.Spec.filesOf st R) ∧
    List.Forall₂ (fun jj s => ∃ (h : Header) (w : Int → Int → ℚ), FewResult hM vM jj.1 s h w ∧
        InBucketFew sys st1 jj { h with noData := renamedNd jj.1.update s.hdr.noData jj.1.nodata.toQ }
          (fun row col => renamed jj.1.update s.hdr.noData jj.1.nodata.toQ (w row col)) (HasValue hM vM)) done (ss.take done.length) ∧
    ∃ st', runDb sys w md' dbs' d st1 args = .ok (0, d, st') ∧
      (∀ R : CCGL.Spec.Key, (∀ j ∈ js, R.name ≠ storedName j.out) → CCGL.Spec.filesOf st' R = CCGL.Spec.filesOf st1 R) ∧
      List.Forall₂ (fun jj s => ∃ (h : Header) (w : Int → Int → ℚ), FewResult hM vM jj.1 s h w ∧
        InBucketFew sys st' jj { h with noData := renamedNd jj.1.update s.hdr.noData jj.1.nodata.toQ }
          (fun row col => renamed jj.1.update s.hdr.noData jj.1.nodata.toQ (w row col)) (HasValue hM vM)) (withDb dbs' js) ss' := by
  obtain ⟨M, eM, hm⟩ := full_mask_source hmask
  have hp : prepareMask c.mode (some ⟨M, []⟩) = .ok (some ⟨M, []⟩) := by
    unfold prepareMask
    dsimp only
    rw [if_pos hmode]
  obtain ⟨h1, h2⟩ := stoppedMaskFew_leaves (M := some ⟨M, []⟩)
    (Q := fun st1 jj s => ∃ (h : Header) (w : Int → Int → ℚ), FewResult hM vM jj.1 s h w ∧
        InBucketFew sys st1 jj { h with noData := renamedNd jj.1.update s.hdr.noData jj.1.nodata.toQ }
          (fun row col => renamed jj.1.update s.hdr.noData jj.1.nodata.toQ (w row col)) (HasValue hM vM))
    hA hx hs (fun m hm' => loadedDb_eq hm' eM hp) (fun hP hF => C87_few_jobs sys hrnd hm hP hF)
    (fun {st0 jj s} hj he ⟨h, v, r, g⟩ => ⟨h, v, r, inBucketFew_at (fewJob_name hj.2) he g⟩)
  refine ⟨h1, h2, ?_⟩
  have ho' : ∀ R : CCGL.Spec.Key, (¬ ∃ j ∈ js, R.name = storedName j.out) → CCGL.Spec.filesOf st1 R = CCGL.Spec.filesOf st R :=
    fun R hR => h1 R (fun j hj e => hR ⟨j, hj, e⟩)
  obtain ⟨st', e', k1, k2⟩ := C91_few_run hrnd hc hjs hu hinc hmode
    (mask_stays (P := fun n => ∃ j ∈ js, n = storedName j.out) ho' (fun hg => ⟨fun ⟨j, hj, he⟩ => (hqn hg).1 j hj he, (hqn hg).2⟩) hmask')
    (separate_dbCom hA) (forall₂_mono_mem hy (fun jj hjj s H => ⟨H.1, fewJob_at (hO jj hjj)
      (fun hg n hn => h1 _ (fun j hj he => hA.1 j hj jj.1 (withDb_mem hjj) hg (he ▸ hn))) H.2⟩))
  exact ⟨st', e', fun R hR => k1 R (fun jj hjj => hR _ (withDb_mem hjj)), k2⟩

/-- C101: the same without mask. -/
theorem C101_db_few_plain {sys : Sys} (hrnd : ∀ v, CCGL.Spec.Representable .float v → sys.rnd v = v) {w : World} {md md' : MaskDb} {dbs dbs' : Nat → JobDb}
    {d : Disk} {st : Store} {args : List Str} {c : Cfg} {js : List Job} (hc : configure w args = .ok (.go c)) (hjs : jobs c = .ok js)
    (hu : c.useMongo = true) (hinc : c.incNodata = false) (hmode : c.mode = .mask) (hno : c.maskPath = []) (hA : SeparateDbCom js) {ss ss' : List Source}
    (hx : List.Forall₂ (PlainFewJob sys d st) (withDb dbs js) ss) (hy : List.Forall₂ (PlainFewJob sys d st) (withDb dbs' js) ss')
    {st1 : Store} {done : List (Job × JobDb)} (hs : StoppedDbMaskFew sys md d c (withDb dbs js) st st1 done) (hO : OldFilesComFew (withDb dbs' js) st1) :
    (∀ R : CCGL.Spec.Key, (∀ j ∈ js, R.name ≠ storedName j.out) → CCGL.Spec.filesOf st1 R = CCGL.Spec.filesOf st R) ∧
    List.Forall₂ (fun jj s => InBucketFew sys st1 jj { s.hdr with noData := renamedNd jj.1.update s.hdr.noData jj.1.nodata.toQ }
          (fun row col => renamed jj.1.update s.hdr.noData jj.1.nodata.toQ (s.val row col))
          (NotNoData { s.hdr with noData := renamedNd jj.1.update s.hdr.noData jj.1.nodata.toQ }
            (fun row col => renamed jj.1.update s.hdr.noData jj.1.nodata.toQ (s.val row col)))) done (ss.take done.length) ∧
    ∃ st', runDb sys w md' dbs' d st1 args = .ok (0, d, st') ∧
      (∀ R : CCGL.Spec.Key, (∀ j ∈ js, R.name ≠ storedName j.out) → CCGL.Spec.filesOf st' R = CCGL.Spec.filesOf st1 R) ∧
      List.Forall₂ (fun jj s => InBucketFew sys st' jj { s.hdr with noData := renamedNd jj.1.update s.hdr.noData jj.1.nodata.toQ }
          (fun row col => renamed jj.1.update s.hdr.noData jj.1.nodata.toQ (s.val row col))
          (NotNoData { s.hdr with noData := renamedNd jj.1.update s.hdr.noData jj.1.nodata.toQ }
            (fun row col => renamed jj.1.update s.hdr.noData jj.1.nodata.toQ (s.val row col)))) (withDb dbs' js) ss' := by
  have hl : loadMaskDb sys md d st c = .ok (.go none) := by
    unfold loadMaskDb
    rw [if_pos hno]
  obtain ⟨h1, h2⟩ := stoppedMaskFew_leaves (M := none)
    (Q := fun st1 jj s => InBucketFew sys st1 jj { s.hdr with noData := renamedNd jj.1.update s.hdr.noData jj.1.nodata.toQ }
          (fun row col => renamed jj.1.update s.hdr.noData jj.1.nodata.toQ (s.val row col))
          (NotNoData { s.hdr with noData := renamedNd jj.1.update s.hdr.noData jj.1.nodata.toQ }
            (fun row col => renamed jj.1.update s.hdr.noData jj.1.nodata.toQ (s.val row col))))
    hA hx hs (fun m hm' => loadedDb_eq hm' hl rfl) (fun hP hF => C87_few_plain_jobs sys hrnd hP hF)
    (by
      intro st0 jj s hj he H
      exact inBucketFew_at (st0 := st0) (st1 := st1) (jj := jj) hj.out.key.name he H)
  refine ⟨h1, h2, ?_⟩
  obtain ⟨st', e', k1, k2⟩ := C91_few_plain_run (md := md') hrnd hc hjs hu hinc hmode hno
    (separate_dbCom hA) (forall₂_mono_mem hy (fun jj hjj s H => (⟨H.fmt, H.input, H.some, { H.out with old := hO jj hjj }, H.fits⟩ : PlainFewJob sys d st1 jj s)))
  exact ⟨st', e', fun R hR => k1 R (fun jj hjj => hR _ (withDb_mem hjj)), k2⟩

end App
end CCGL
