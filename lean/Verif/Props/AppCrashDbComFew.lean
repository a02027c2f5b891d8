import Verif.Props.AppCrashDbCom
import Verif.Props.AppGfsFewComRun
/-!
# A run of `mask_rasterio` in the mode COM with output to the bucket and without NoData cells is stopped and started again (C101)
-/
namespace CCGL
namespace App
open Fs Disk Main Raster Gfs Disk.Spec App.Spec

namespace Spec

/-- The buckets a run in the mode COM without NoData cells can leave behind if it is stopped at some point: some jobs are done, one may be at work, and whatever it
has done to the files with the name of its output, no other file of the bucket has changed since. -/
def StoppedDbComFew (sys : Sys) (md : MaskDb) (d : Disk) (c : Cfg) (js : List (Job × JobDb)) (st st' : Store) (done : List (Job × JobDb)) : Prop :=
  ∃ m, LoadedDb sys md d st c (some m) ∧ ∃ rest, js = done ++ rest ∧ ∃ st1 m1, done.foldlM (comJobDb sys false) (d, st, m) = .ok (d, st1, m1) ∧
    ∀ R : CCGL.Spec.Key, (∀ x, rest.head? = some x → R.name ≠ storedName x.1.out) → CCGL.Spec.filesOf st' R = CCGL.Spec.filesOf st1 R

/-- The files with names of outputs that the options of the job find have the other options its outputs get. The program stores no others. -/
def OldFilesComFew (js : List (Job × JobDb)) (st : Store) : Prop :=
  ∀ jj ∈ js, ∀ f ∈ st, CCGL.Spec.Has f ⟨storedName jj.1.out, fewOpts jj.1.type⟩ →
    CCGL.Spec.Has f ⟨storedName jj.1.out, outOpts .double jj.2.own (fewOpts jj.1.type) false⟩

end Spec

/-- The jobs of the mode COM, in their order, and what they leave. -/
theorem com_db_few_batch (sys : Sys) (hrnd : ∀ v, CCGL.Spec.Representable .float v → sys.rnd v = v) {d : Disk} {hM : Header} {vM : Int → Int → ℚ} :
    ∀ {js : List (Job × JobDb)} {ps : List (List (Option (Int × (Int → Int → ℚ))))} {st : Store} {m : RasterS}, ComFull m hM vM →
      js.Pairwise WritesApart → List.Forall₂ (ComFewJob sys d st hM vM) js ps →
      ∃ st' m', js.foldlM (comJobDb sys false) (d, st, m) = .ok (d, st', m') ∧
        (∀ R : CCGL.Spec.Key, (∀ jj ∈ js, R.name ≠ storedName jj.1.out) → CCGL.Spec.filesOf st' R = CCGL.Spec.filesOf st R) ∧
        List.Forall₂ (fun jj p => InBucketFew sys st' jj hM (comVal hM vM p jj.1.default.toQ) (HasValue hM vM)) js ps := by
  intro js ps st m hm hA hF
  obtain ⟨st', e, h1, h2⟩ := C88_few_jobs sys hrnd hm hA hF
  unfold runJobsDb at e
  rw [if_pos rfl] at e
  dsimp only at e
  obtain ⟨x, e1, e2⟩ := Out.bind_ok e
  obtain ⟨d', st2, m'⟩ := x
  have e3 := Out.ok.inj e2
  injection e3 with _ e3
  injection e3 with e4 e5
  subst e4
  dsimp only at e5
  subst e5
  exact ⟨_, m', e1, h1, h2⟩

/-- C101: a run in the mode COM with output to the bucket and without NoData cells is stopped: the outputs of the jobs that are done are complete, only files with names of outputs have
changed, and the same command, started again (`dbs'`, `md'`: what the driver then does), stores what it would have stored. -/
theorem C101_db_com_few {sys : Sys} (hrnd : ∀ v, CCGL.Spec.Representable .float v → sys.rnd v = v) {w : World} {md md' : MaskDb} {dbs dbs' : Nat → JobDb}
    {d : Disk} {st : Store} {args : List Str} {c : Cfg} {js : List Job} (hc : configure w args = .ok (.go c)) (hjs : jobs c = .ok js)
    (hu : c.useMongo = true) (hinc : c.incNodata = false) (hmode : c.mode = .com) {hM : Header} {vM : Int → Int → ℚ}
    (hmask : MaskFrom sys md d st c hM vM) (hmask' : MaskFrom sys md' d st c hM vM) (hv : ∃ row col, HasValue hM vM row col)
    (hqn : c.maskFmt = .gfs → (∀ j ∈ js, c.maskPath ≠ storedName j.out) ∧ Char.ofNat 0 ∉ c.maskPath) (hA : SeparateDbCom js)
    {ps ps' : List (List (Option (Int × (Int → Int → ℚ))))}
    (hx : List.Forall₂ (ComFewJob sys d st hM vM) (withDb dbs js) ps) (hy : List.Forall₂ (ComFewJob sys d st hM vM) (withDb dbs' js) ps')
    {st1 : Store} {done : List (Job × JobDb)} (hs : StoppedDbComFew sys md d c (withDb dbs js) st st1 done) (hO : OldFilesComFew (withDb dbs' js) st1) :
    (∀ R : CCGL.Spec.Key, (∀ j ∈ js, R.name ≠ storedName j.out) → CCGL.Spec.filesOf st1 R = CCGL.Spec.filesOf st R) ∧
    List.Forall₂ (fun jj p => InBucketFew sys st1 jj hM (comVal hM vM p jj.1.default.toQ) (HasValue hM vM)) done (ps.take done.length) ∧
    ∃ st', runDb sys w md' dbs' d st1 args = .ok (0, d, st') ∧
      (∀ R : CCGL.Spec.Key, (∀ j ∈ js, R.name ≠ storedName j.out) → CCGL.Spec.filesOf st' R = CCGL.Spec.filesOf st1 R) ∧
      List.Forall₂ (fun jj p => InBucketFew sys st' jj hM (comVal hM vM p jj.1.default.toQ) (HasValue hM vM)) (withDb dbs' js) ps' := by
  obtain ⟨M, eM, hb, hcl, hg, hn, hval, h2⟩ := mask_source hmask
  obtain ⟨m, b, eb, hm⟩ := cutMask_of hb hcl hg hn hval h2 hv
  obtain ⟨m', hm', rest, hsp, st0, m1, e, hr⟩ := hs
  have em : some m' = some m := loadedDb_eq hm' eM (prepare_cut (by rw [hmode]; simp) eb)
  injection em with em
  subst em
  have hP := separate_dbCom (dbs := dbs) hA
  have hx' := hx
  rw [hsp] at hP hx'
  obtain ⟨hP1, -, hP3⟩ := List.pairwise_append.1 hP
  obtain ⟨st2, m2, e2, k1, k2⟩ := com_db_few_batch sys hrnd (CutMask.comFull hm) hP1 (forall₂_take hx')
  rw [e] at e2
  injection e2 with e2
  injection e2 with _ e2
  injection e2 with e2 _
  subst e2
  have hin : ∀ x ∈ done ++ rest, x.1 ∈ js := fun x h => withDb_mem (dbs := dbs) (by rw [hsp]; exact h)
  have ho : ∀ R : CCGL.Spec.Key, (∀ j ∈ js, R.name ≠ storedName j.out) → CCGL.Spec.filesOf st1 R = CCGL.Spec.filesOf st R := by
    intro R hR
    rw [hr R (fun x h => hR _ (hin x (List.mem_append_right _ (List.mem_of_mem_head? h)))), k1 R (fun x h => hR _ (hin x (List.mem_append_left _ h)))]
  have ho' : ∀ R : CCGL.Spec.Key, (¬ ∃ j ∈ js, R.name = storedName j.out) → CCGL.Spec.filesOf st1 R = CCGL.Spec.filesOf st R :=
    fun R hR => ho R (fun j hj e => hR ⟨j, hj, e⟩)
  have hdone : List.Forall₂ (fun jj p => InBucketFew sys st1 jj hM (comVal hM vM p jj.1.default.toQ) (HasValue hM vM)) done (ps.take done.length) := by
    have hkey : ∀ jj ∈ done, Char.ofNat 0 ∉ storedName jj.1.out := forall₂_left (forall₂_take hx') (fun jj p H => H.out.key.name)
    refine forall₂_mono_mem k2 (fun jj hjj p H => ?_)
    have hsame : CCGL.Spec.filesOf st1 ⟨storedName jj.1.out, fewOpts jj.1.type⟩ = CCGL.Spec.filesOf st0 ⟨storedName jj.1.out, fewOpts jj.1.type⟩ :=
      hr _ (fun x h => (hP3 jj hjj x (List.mem_of_mem_head? h)).1)
    exact ⟨fun h => holdsCells_congr (hkey jj hjj) hsame (H.1 h), fun h => by rw [hsame]; exact H.2 h⟩
  refine ⟨ho, hdone, ?_⟩
  have hF : List.Forall₂ (ComFewJob sys d st1 hM vM) (withDb dbs' js) ps' := forall₂_mono_mem hy (fun jj hjj p H =>
    ⟨H.fmt, comPieces_at (P := fun n => ∃ j ∈ js, n = storedName j.out) ho' (fun hg n hn ⟨j, hj, he⟩ => hA.1 j hj jj.1 (withDb_mem hjj) hg (he ▸ hn)) H.input,
      H.some, { H.out with old := hO jj hjj }, H.fits⟩)
  obtain ⟨st', e', h1, h2⟩ := C91_com_few_run hrnd hc hjs hu hinc hmode
    (mask_stays (P := fun n => ∃ j ∈ js, n = storedName j.out) ho' (fun hg => ⟨fun ⟨j, hj, he⟩ => (hqn hg).1 j hj he, (hqn hg).2⟩) hmask') hv
    (separate_dbCom hA) hF
  exact ⟨st', e', fun R hR => h1 R (fun jj hjj => hR _ (withDb_mem hjj)), h2⟩

end App
end CCGL
