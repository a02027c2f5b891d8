import Verif.Props.AppCrashDb
/-!
# A run of `mask_rasterio` in the mode COM with output to the bucket is stopped and started again (C101)
-/
namespace CCGL
namespace App
open Fs Disk Main Raster Gfs Disk.Spec App.Spec

namespace Spec

/-- The buckets a run in the mode COM can leave behind if it is stopped at some point: some jobs are done, one may be at work, and whatever it has done to the
files with the name of its output, no other file of the bucket has changed since. -/
def StoppedDbCom (sys : Sys) (md : MaskDb) (d : Disk) (c : Cfg) (js : List (Job × JobDb)) (st st' : Store) (done : List (Job × JobDb)) : Prop :=
  ∃ m, LoadedDb sys md d st c (some m) ∧ ∃ rest, js = done ++ rest ∧ ∃ st1 m1, done.foldlM (comJobDb sys true) (d, st, m) = .ok (d, st1, m1) ∧
    ∀ R : CCGL.Spec.Key, (∀ x, rest.head? = some x → R.name ≠ storedName x.1.out) → CCGL.Spec.filesOf st' R = CCGL.Spec.filesOf st1 R

/-- No job reads what a job of the run stores, and no two jobs store a file with the same name. -/
def SeparateDbCom (js : List Job) : Prop :=
  (∀ a ∈ js, ∀ b ∈ js, b.inFmt = .gfs → storedName a.out ∉ b.inputs) ∧ js.Pairwise (fun a b => storedName a.out ≠ storedName b.out)

/-- The files with names of outputs that the options of the job find have the other options its outputs get. The program stores no others. -/
def OldFilesCom (js : List (Job × JobDb)) (st : Store) : Prop :=
  ∀ jj ∈ js, ∀ f ∈ st, CCGL.Spec.Has f ⟨storedName jj.1.out, wholeOpts jj.1.type⟩ →
    CCGL.Spec.Has f ⟨storedName jj.1.out, outOpts .double jj.2.own (wholeOpts jj.1.type) true⟩

end Spec

theorem withDb_jobs (dbs : Nat → JobDb) (js : List Job) : (withDb dbs js).map (·.1) = js := by
  unfold withDb
  apply List.ext_getElem
  · simp
  · intro i h1 h2
    simp

theorem withDb_mem {dbs : Nat → JobDb} {js : List Job} {jj} (h : jj ∈ withDb dbs js) : jj.1 ∈ js := by
  rw [← withDb_jobs dbs js]
  exact List.mem_map_of_mem h

theorem separate_dbCom {dbs : Nat → JobDb} {js : List Job} (h : SeparateDbCom js) : (withDb dbs js).Pairwise WritesApart := by
  have h2 := h.2
  rw [← withDb_jobs dbs js] at h2
  have h3 := List.pairwise_map.1 h2
  refine (List.pairwise_iff_forall_sublist.2 fun {a b} hs => ?_)
  have ha : a ∈ withDb dbs js := hs.subset (by simp)
  have hb : b ∈ withDb dbs js := hs.subset (by simp)
  exact ⟨(List.pairwise_iff_forall_sublist.1 h3) hs, h.1 a.1 (withDb_mem ha) b.1 (withDb_mem hb)⟩

theorem dbGives_at {rnd : ℚ → ℚ} {st st' : Store} {opts : Opts} {g : Groups} {ok1 ok2 : Nat → Bool} {rd : Bool} {s core : Str} {x}
    (he' : CCGL.Spec.filesOf st' ⟨s, opts⟩ = CCGL.Spec.filesOf st ⟨s, opts⟩) (hk : CCGL.Spec.GoodKey ⟨s, opts⟩)
    (H : DbGives rnd st (opts) g ok1 ok2 rd s core x) : DbGives rnd st' (opts) g ok1 ok2 rd s core x := by
  cases H with
  | values h1 h2 h3 h4 h5 h6 h7 h8 => exact .values h1 h2 h3 h4 h5 (numbers_congr hk he' h6) h7 h8
  | box h1 h2 h3 h4 h5 h6 h7 h8 h9 => exact .box h1 h2 h3 h4 h5 (numbers_congr hk he' h6) h7 h8 h9
  | unnumbered h => exact .unnumbered h
  | nogroup h1 h2 => exact .nogroup h1 h2
  | missing h =>
    refine .missing ?_
    intro f hf hh
    have : f ∈ CCGL.Spec.filesOf st' ⟨s, opts⟩ := mem_filesOf.2 ⟨hf, hh⟩
    rw [he'] at this
    exact h f (mem_filesOf.1 this).1 hh
  | lost h => exact .lost h
  | unfit h1 h2 h3 h4 h5 h6 h7 h8 h9 => exact .unfit h1 h2 h3 h4 (numbers_congr hk he' h5) h6 h7 h8 h9

theorem comPieces_at {inc : Bool} {sys : Sys} {d : Disk} {st st' : Store} {g : Groups} {j : Job} {jd : JobDb} {ps : List (Option (Int × (Int → Int → ℚ)))} {P : Str → Prop}
    (he : ∀ R : CCGL.Spec.Key, ¬ P R.name → CCGL.Spec.filesOf st' R = CCGL.Spec.filesOf st R) (hne : j.inFmt = .gfs → ∀ n ∈ j.inputs, ¬ P n)
    (H : ComPieces sys d st inc g j jd ps) : ComPieces sys d st' inc g j jd ps := by
  cases H with
  | files ins h1 h2 h3 h4 => exact .files ins h1 h2 h3 h4
  | bucket ins h1 h2 =>
    refine .bucket ins ⟨h1.fmt, h1.inputs, h1.name, ?_⟩ h2
    intro i x hx
    have hm := List.mem_of_getElem? hx
    exact dbGives_at (he _ (hne h1.fmt _ (by rw [h1.inputs]; exact List.mem_map_of_mem hm))) (jobOpts_good inc j.type (h1.name x hm).1) (h1.gives i x hx)

/-- The jobs of the mode COM, in their order, and what they leave. -/
theorem com_db_batch (sys : Sys) (hrnd : ∀ v, CCGL.Spec.Representable .float v → sys.rnd v = v) {d : Disk} {hM : Header} {vM : Int → Int → ℚ} :
    ∀ {js : List (Job × JobDb)} {ps : List (List (Option (Int × (Int → Int → ℚ))))} {st : Store} {m : RasterS}, ComMask m hM vM →
      js.Pairwise WritesApart → List.Forall₂ (ComDbJob sys d st hM vM) js ps →
      ∃ st' m', js.foldlM (comJobDb sys true) (d, st, m) = .ok (d, st', m') ∧
        (∀ R : CCGL.Spec.Key, (∀ jj ∈ js, R.name ≠ storedName jj.1.out) → CCGL.Spec.filesOf st' R = CCGL.Spec.filesOf st R) ∧
        List.Forall₂ (fun jj p => InBucket sys st' jj hM (comVal hM vM p jj.1.default.toQ)) js ps := by
  intro js ps st m hm hA hF
  obtain ⟨st', e, h1, h2⟩ := C88_jobs_partial sys hrnd hm hA hF
  unfold runJobsDb at e
  rw [if_pos rfl] at e
  dsimp only at e
  obtain ⟨x, e1, e2⟩ := Out.bind_ok e
  obtain ⟨d', st2, m'⟩ := x
  have e3 := Out.ok.inj e2
  injection e3 with _ e3
  injection e3 with e4 e5
  subst e4
  dsimp only at e5
  subst e5
  exact ⟨_, m', e1, h1, h2⟩

theorem forall₂_take {α β : Type} {R : α → β → Prop} : ∀ {as bs : List α} {cs : List β}, List.Forall₂ R (as ++ bs) cs →
    List.Forall₂ R as (cs.take as.length)
  | [], _, _, _ => by simp
  | a :: as, bs, c :: cs, h => by
    cases h with
    | cons h1 h2 => exact .cons h1 (forall₂_take h2)

theorem forall₂_mono_mem {α β : Type} {R S : α → β → Prop} {as : List α} {bs : List β} (h : List.Forall₂ R as bs) (hRS : ∀ a ∈ as, ∀ b, R a b → S a b) :
    List.Forall₂ S as bs := by
  induction h with
  | nil => exact .nil
  | cons h1 h2 ih => exact .cons (hRS _ List.mem_cons_self _ h1) (ih (fun a ha => hRS a (List.mem_cons_of_mem _ ha)))

theorem forall₂_left {α β : Type} {R : α → β → Prop} {S : α → Prop} {as : List α} {bs : List β} (h : List.Forall₂ R as bs) (hS : ∀ a b, R a b → S a) :
    ∀ a ∈ as, S a := by
  induction h with
  | nil => intro a ha; cases ha
  | cons h1 h2 ih =>
    intro a ha
    rcases List.mem_cons.1 ha with rfl | h
    · exact hS _ _ h1
    · exact ih a h

/-- C101: a run in the mode COM with output to the bucket is stopped: the outputs of the jobs that are done are complete, only files with names of outputs have
changed, and the same command, started again (`dbs'`, `md'`: what the driver then does), stores what it would have stored. -/
theorem C101_db_com {sys : Sys} (hrnd : ∀ v, CCGL.Spec.Representable .float v → sys.rnd v = v) {w : World} {md md' : MaskDb} {dbs dbs' : Nat → JobDb}
    {d : Disk} {st : Store} {args : List Str} {c : Cfg} {js : List Job} (hc : configure w args = .ok (.go c)) (hjs : jobs c = .ok js)
    (hu : c.useMongo = true) (hinc : c.incNodata = true) (hmode : c.mode = .com) {hM : Header} {vM : Int → Int → ℚ}
    (hmask : MaskFrom sys md d st c hM vM) (hmask' : MaskFrom sys md' d st c hM vM) (hv : ∃ row col, HasValue hM vM row col)
    (hqn : c.maskFmt = .gfs → (∀ j ∈ js, c.maskPath ≠ storedName j.out) ∧ Char.ofNat 0 ∉ c.maskPath) (hA : SeparateDbCom js)
    {ps ps' : List (List (Option (Int × (Int → Int → ℚ))))}
    (hx : List.Forall₂ (ComDbJob sys d st hM vM) (withDb dbs js) ps) (hy : List.Forall₂ (ComDbJob sys d st hM vM) (withDb dbs' js) ps')
    {st1 : Store} {done : List (Job × JobDb)} (hs : StoppedDbCom sys md d c (withDb dbs js) st st1 done) (hO : OldFilesCom (withDb dbs' js) st1) :
    (∀ R : CCGL.Spec.Key, (∀ j ∈ js, R.name ≠ storedName j.out) → CCGL.Spec.filesOf st1 R = CCGL.Spec.filesOf st R) ∧
    List.Forall₂ (fun jj p => InBucket sys st1 jj hM (comVal hM vM p jj.1.default.toQ)) done (ps.take done.length) ∧
    ∃ st', runDb sys w md' dbs' d st1 args = .ok (0, d, st') ∧
      (∀ R : CCGL.Spec.Key, (∀ j ∈ js, R.name ≠ storedName j.out) → CCGL.Spec.filesOf st' R = CCGL.Spec.filesOf st1 R) ∧
      List.Forall₂ (fun jj p => InBucket sys st' jj hM (comVal hM vM p jj.1.default.toQ)) (withDb dbs' js) ps' := by
  obtain ⟨M, eM, hb, hcl, hg, hn, hval, h2⟩ := mask_source hmask
  obtain ⟨m, b, eb, hm⟩ := cutMask_of hb hcl hg hn hval h2 hv
  obtain ⟨m', hm', rest, hsp, st0, m1, e, hr⟩ := hs
  have em : some m' = some m := loadedDb_eq hm' eM (prepare_cut (by rw [hmode]; simp) eb)
  injection em with em
  subst em
  have hP := separate_dbCom (dbs := dbs) hA
  have hx' := hx
  rw [hsp] at hP hx'
  obtain ⟨hP1, -, hP3⟩ := List.pairwise_append.1 hP
  obtain ⟨st2, m2, e2, k1, k2⟩ := com_db_batch sys hrnd hm.comMask hP1 (forall₂_take hx')
  rw [e] at e2
  injection e2 with e2
  injection e2 with _ e2
  injection e2 with e2 _
  subst e2
  have hin : ∀ x ∈ done ++ rest, x.1 ∈ js := fun x h => withDb_mem (dbs := dbs) (by rw [hsp]; exact h)
  have ho : ∀ R : CCGL.Spec.Key, (∀ j ∈ js, R.name ≠ storedName j.out) → CCGL.Spec.filesOf st1 R = CCGL.Spec.filesOf st R := by
    intro R hR
    rw [hr R (fun x h => hR _ (hin x (List.mem_append_right _ (List.mem_of_mem_head? h)))), k1 R (fun x h => hR _ (hin x (List.mem_append_left _ h)))]
  have ho' : ∀ R : CCGL.Spec.Key, (¬ ∃ j ∈ js, R.name = storedName j.out) → CCGL.Spec.filesOf st1 R = CCGL.Spec.filesOf st R :=
    fun R hR => ho R (fun j hj e => hR ⟨j, hj, e⟩)
  have hdone : List.Forall₂ (fun jj p => InBucket sys st1 jj hM (comVal hM vM p jj.1.default.toQ)) done (ps.take done.length) := by
    have hkey : ∀ jj ∈ done, Char.ofNat 0 ∉ storedName jj.1.out := forall₂_left (forall₂_take hx') (fun jj p H => H.out.key.name)
    refine forall₂_mono_mem k2 (fun jj hjj p H => ?_)
    have hsame : CCGL.Spec.filesOf st1 ⟨storedName jj.1.out, wholeOpts jj.1.type⟩ = CCGL.Spec.filesOf st0 ⟨storedName jj.1.out, wholeOpts jj.1.type⟩ :=
      hr _ (fun x h => (hP3 jj hjj x (List.mem_of_mem_head? h)).1)
    exact ⟨fun h => holds_congr (hkey jj hjj) hsame (H.1 h), fun h => by rw [hsame]; exact H.2 h⟩
  refine ⟨ho, hdone, ?_⟩
  have hF : List.Forall₂ (ComDbJob sys d st1 hM vM) (withDb dbs' js) ps' := forall₂_mono_mem hy (fun jj hjj p H =>
    ⟨H.fmt, comPieces_at (P := fun n => ∃ j ∈ js, n = storedName j.out) ho' (fun hg n hn ⟨j, hj, he⟩ => hA.1 j hj jj.1 (withDb_mem hjj) hg (he ▸ hn)) H.input,
      H.some, { H.out with old := hO jj hjj }, H.fits⟩)
  obtain ⟨st', e', h1, h2⟩ := C91_com_run_partial hrnd hc hjs hu hinc hmode
    (mask_stays (P := fun n => ∃ j ∈ js, n = storedName j.out) ho' (fun hg => ⟨fun ⟨j, hj, he⟩ => (hqn hg).1 j hj he, (hqn hg).2⟩) hmask') hv
    (separate_dbCom hA) hF
  exact ⟨st', e', fun R hR => h1 R (fun jj hjj => hR _ (withDb_mem hjj)), h2⟩

end App
end CCGL
