import Verif.Props.AppGfs
import Verif.Props.GfsSubset
/-!
# Several jobs with files in GridFS, skipped jobs (C87)
-/
namespace CCGL
namespace App
open Fs Disk Main Raster Gfs Disk.Spec App.Spec

theorem jobOpts_good {name : Str} (inc : Bool) (ty : RDT) (hn : Char.ofNat 0 ∉ name) : CCGL.Spec.GoodKey ⟨name, jobOpts inc ty⟩ := by
  have hw : CCGL.Spec.withType .double (jobOpts inc ty) = jobOpts inc ty := by
    unfold CCGL.Spec.withType
    rw [if_pos ⟨rdtToString ty.code, List.mem_cons_self⟩]
  rw [← hw]
  apply goodKey_of
  refine ⟨hn, ?_⟩
  cases inc <;> cases ty <;> decide +kernel

theorem wholeOpts_good {name : Str} (ty : RDT) (hn : Char.ofNat 0 ∉ name) : CCGL.Spec.GoodKey ⟨name, wholeOpts ty⟩ := jobOpts_good true ty hn

/-- C87: a job whose input is not in the bucket under the name and the options of the job (the output type of the job and `INCLUDE_NODATA`) is skipped,
whatever its mode, output and mask are: nothing changes. -/
theorem C87_skip (sys : Sys) (inc : Bool) (mode : IOMode) (d : Disk) (st : Store) (mask : Option RasterS) {j : Job} (jd : JobDb) {name : Str} {more : List Str}
    (hin : j.inFmt = .gfs) (hs : j.inputs = name :: more) (hnul : Char.ofNat 0 ∉ name)
    (hno : ∀ f ∈ st, ¬ CCGL.Spec.Has f ⟨name, jobOpts inc j.type⟩) :
    layerJobDb sys inc mode (d, st, mask) (j, jd) = .ok (d, st, mask) := by
  have hk := jobOpts_good (name := name) inc j.type hnul
  have hio : inOpts (jobOpts inc j.type) = jobOpts inc j.type := by
    cases inc <;> cases j.type <;> decide +kernel
  have hr := readGridfs_none (rnd := sys.rnd) (T := .double) (ok1 := jd.ok1) (ok2 := jd.ok2) (rd := jd.rd) (st := st) (h := initialHeader) (s := initialStr)
    hk (filesOf_nil_of hno)
  dsimp only at hr
  unfold layerJobDb
  dsimp only
  rw [if_neg (by rw [hin]; simp), if_pos hin, hs]
  have hv : vecAt (name :: more) 0 = .ok name := rfl
  rw [hv, Out.ok_bind]
  have hf : ∀ y, finishJobDb sys inc mode (d, st, mask) (j, jd) (none, y) = .ok (d, st, y) := by
    intro y
    unfold finishJobDb
    dsimp only
    rw [if_neg (by rw [hin]; simp)]
  unfold initGfs
  cases mask with
  | none =>
    dsimp only
    unfold Gfs.readFromMongo
    rw [hio, hr]
    exact hf none
  | some m =>
    dsimp only
    unfold readFromMongoMaskS
    rw [hio, hr]
    exact hf (some m)

/-- Different types have different texts, also as options. -/
theorem types_apart {a b : RDT} (ha : a ≠ .unknown) (hb : b ≠ .unknown) (h : a ≠ b) : ¬ CCGL.Spec.SameOpt (rdtToString a.code) (rdtToString b.code) := by
  rintro (⟨x, hx, -⟩ | ⟨-, -, he⟩)
  · exact type_not_number ha (C25_roundtrip a) x hx
  · apply h
    rw [← C25_roundtrip a, he, C25_roundtrip b]

/-- C87 is false of inputs stored in another type than the output type of the job: the job asks for a file with its own output type
and is skipped, with exit code 0 and without any output. -/
theorem C87_false_type (sys : Sys) (mode : IOMode) (hmode : mode ≠ .com) (d : Disk) (st : Store) (mask : Option RasterS) {j : Job} (jd : JobDb)
    {name : Str} {more : List Str} (hin : j.inFmt = .gfs) (hs : j.inputs = name :: more) (hnul : Char.ofNat 0 ∉ name) {ty : RDT} (hty : ty ≠ .unknown)
    (hjt : j.type ≠ .unknown) (hne : j.type ≠ ty) (hst : ∀ f ∈ st, f.name = name → CCGL.Spec.Has f ⟨name, wholeOpts ty⟩) :
    runJobsDb sys true mode mask d st [(j, jd)] = .ok (0, d, st) := by
  have hk := C87_skip sys true mode d st mask jd hin hs hnul (by
    intro f hf hh
    have h1 := hst f hf hh.1
    refine apart_has (K := ⟨name, wholeOpts ty⟩) (L := ⟨name, jobOpts true j.type⟩) ?_ h1 hh
    exact .inr ⟨"DATATYPE_OUT".toList, _, _, List.mem_cons_self, List.mem_cons_self, types_apart hty hjt (fun h => hne h.symm)⟩)
  unfold runJobsDb
  rw [if_neg hmode]
  split
  · rfl
  · rw [List.foldlM_cons, hk]
    rfl

theorem holds_congr {rnd : ℚ → ℚ} {st st' : Store} {name : Str} {ty : RDT} {h : Header} {v : Int → Int → ℚ} (hn : Char.ofNat 0 ∉ name)
    (he : CCGL.Spec.filesOf st' ⟨name, wholeOpts ty⟩ = CCGL.Spec.filesOf st ⟨name, wholeOpts ty⟩) (H : HoldsGrid rnd st name (wholeOpts ty) h v) :
    HoldsGrid rnd st' name (wholeOpts ty) h v := by
  refine ⟨H.header, ?_⟩
  intro ok1 ok2 h1 h2
  have := readGridfs_congr (rnd := rnd) (T := .double) (ok1 := ok1) (ok2 := ok2) (rd := true) (h := initialHeader) (s := initialStr)
    (wholeOpts_good ty hn) he
  dsimp only at this
  rw [this]
  exact H.reads ok1 ok2 h1 h2

/-- What is known about a job in advance: header and values of its input. -/
structure Spec.Source where
  hdr : Header
  val : Int → Int → ℚ

/-- The job can be carried out with output to the bucket: the grid of the output is that of `h`. -/
structure Spec.DbJob (sys : Sys) (d : Disk) (st : Store) (h : Header) (jj : Job × JobDb) (s : Source) : Prop where
  fmt : jj.1.outFmt = .gfs ∧ jj.1.recls = false
  input : Input sys d st jj.1 jj.2 s.hdr s.val
  nul : ∀ n ∈ jj.1.inputs, Char.ofNat 0 ∉ n
  out : BucketOut st jj.1 jj.2 { h with noData := renamedNd jj.1.update s.hdr.noData jj.1.nodata.toQ }
  fits : FitsAll jj.1.type s.hdr s.val jj.1.default.toQ jj.1.update jj.1.nodata.toQ

/-- The first job writes neither to the input nor to the output of the second. -/
def Spec.WritesApart (a b : Job × JobDb) : Prop :=
  storedName a.1.out ≠ storedName b.1.out ∧ (b.1.inFmt = .gfs → storedName a.1.out ∉ b.1.inputs)

/-- The result of the job is in the bucket: the grid of `h` with values `v` if an attempt to write it succeeded, else no file. -/
def Spec.InBucket (sys : Sys) (st : Store) (jj : Job × JobDb) (h : Header) (v : Int → Int → ℚ) : Prop :=
  ((∃ i, i < 4 ∧ (jj.2.att i).reported = true) → HoldsGrid sys.rnd st (storedName jj.1.out) (wholeOpts jj.1.type) h v) ∧
  ((∀ i, i < 4 → (jj.2.att i).reported = false) → CCGL.Spec.filesOf st ⟨storedName jj.1.out, wholeOpts jj.1.type⟩ = [])

theorem input_same {sys : Sys} {d : Disk} {st st' : Store} {j : Job} {jd : JobDb} {h : Header} {v : Int → Int → ℚ} {name : Str}
    (he : ∀ R : CCGL.Spec.Key, R.name ≠ name → CCGL.Spec.filesOf st' R = CCGL.Spec.filesOf st R) (hn : ∀ n ∈ j.inputs, Char.ofNat 0 ∉ n)
    (hne : j.inFmt = .gfs → name ∉ j.inputs) (H : Input sys d st j jd h v) : Input sys d st' j jd h v := by
  cases H with
  | file s h1 h2 h3 => exact .file s h1 h2 h3
  | bucket n more h1 h2 h3 h4 h5 h6 =>
    refine .bucket n more h1 h2 (holds_congr (hn n (by rw [h2]; simp)) (he _ ?_) h3) h4 h5 h6
    intro e
    exact hne h1 (by rw [h2, ← e]; simp)

theorem out_same {st st' : Store} {j : Job} {jd : JobDb} {h : Header} {name : Str}
    (he : ∀ R : CCGL.Spec.Key, R.name ≠ name → CCGL.Spec.filesOf st' R = CCGL.Spec.filesOf st R) (hne : storedName j.out ≠ name)
    (H : BucketOut st j jd h) : BucketOut st' j jd h := by
  refine ⟨H.key, H.header, H.type, H.rm, H.att, ?_⟩
  intro f hf hh
  have : f ∈ CCGL.Spec.filesOf st' ⟨storedName j.out, wholeOpts j.type⟩ := mem_filesOf.2 ⟨hf, hh⟩
  rw [he _ hne] at this
  exact H.old f (mem_filesOf.1 this).1 hh

theorem dbJob_same {sys : Sys} {d : Disk} {st st' : Store} {h : Header} {a b : Job × JobDb} {s : Source}
    (he : ∀ R : CCGL.Spec.Key, R.name ≠ storedName a.1.out → CCGL.Spec.filesOf st' R = CCGL.Spec.filesOf st R) (hw : WritesApart a b)
    (H : DbJob sys d st h b s) : DbJob sys d st' h b s :=
  ⟨H.fmt, input_same he H.nul hw.2 H.input, H.nul, out_same he hw.1.symm H.out, H.fits⟩

/-- All jobs with output to the bucket, given what one job does. -/
theorem db_batch {sys : Sys} {d : Disk} {I : Option RasterS → Prop} {ok : Source → Prop} {hdr : Source → Header}
    {good : Job → Source → (Int → Int → ℚ) → Prop} {hout : Job → Source → Header} {rv : Job → Source → (Int → Int → ℚ) → Int → Int → ℚ}
    (step : ∀ st m jj s, I m → ok s → DbJob sys d st (hdr s) jj s → ∃ (st' : Store) (m' : Option RasterS) (w : Int → Int → ℚ),
      layerJobDb sys true .mask (d, st, m) jj = .ok (d, st', m') ∧ I m' ∧ good jj.1 s w ∧ StoredResult sys st st' jj.1 jj.2 (hout jj.1 s) (rv jj.1 s w)) :
    ∀ (js : List (Job × JobDb)) (ss : List Source) (st : Store) (m : Option RasterS), I m →
      List.Forall₂ (fun jj s => ok s ∧ DbJob sys d st (hdr s) jj s) js ss → js.Pairwise WritesApart →
      ∃ st' m', js.foldlM (layerJobDb sys true .mask) (d, st, m) = .ok (d, st', m') ∧ I m' ∧
        (∀ R : CCGL.Spec.Key, (∀ jj ∈ js, R.name ≠ storedName jj.1.out) → CCGL.Spec.filesOf st' R = CCGL.Spec.filesOf st R) ∧
        List.Forall₂ (fun jj s => ∃ w, good jj.1 s w ∧ InBucket sys st' jj (hout jj.1 s) (rv jj.1 s w)) js ss := by
  intro js
  induction js with
  | nil =>
    intro ss st m hI hF _
    cases hF
    exact ⟨st, m, rfl, hI, fun _ _ => rfl, .nil⟩
  | cons jj js ih =>
    intro ss st m hI hF hA
    cases hF with
    | @cons _ s _ ss hj hF =>
    obtain ⟨hA1, hA2⟩ := List.pairwise_cons.1 hA
    obtain ⟨st1, m1, w, e1, hI1, hg1, k1, k2, k3⟩ := step st m jj s hI hj.1 hj.2
    have hF1 : List.Forall₂ (fun jj s => ok s ∧ DbJob sys d st1 (hdr s) jj s) js ss := by
      clear ih e1 hj hI1 hg1 k2 k3 hA hA2
      induction hF with
      | nil => exact .nil
      | @cons b t js' ss' hb hF' ih' =>
        exact .cons ⟨hb.1, dbJob_same k1 (hA1 b List.mem_cons_self) hb.2⟩ (ih' (fun b hb => hA1 b (List.mem_cons_of_mem _ hb)))
    obtain ⟨st2, m2, e2, hI2, k4, k5⟩ := ih ss st1 m1 hI1 hF1 hA2
    have hk : CCGL.Spec.filesOf st2 ⟨storedName jj.1.out, wholeOpts jj.1.type⟩ = CCGL.Spec.filesOf st1 ⟨storedName jj.1.out, wholeOpts jj.1.type⟩ :=
      k4 _ (fun b hb => (hA1 b hb).1)
    refine ⟨st2, m2, by rw [List.foldlM_cons, e1]; exact e2, hI2, ?_, .cons ⟨w, hg1, ?_, ?_⟩ k5⟩
    · intro R hR
      rw [k4 R (fun b hb => hR b (List.mem_cons_of_mem _ hb)), k1 R (hR jj List.mem_cons_self)]
    · intro h
      exact holds_congr hj.2.out.key.name hk (k2 h)
    · intro h
      rw [hk]; exact k3 h

/-- C87: all jobs of the mode MASK with output to the bucket, in their order, if there is a mask and no job writes to a file of a later job: each output
is the input masked, or is missing if its four attempts fail; other files stay, and the exit code is 0 in any case. -/
theorem C87_mask_jobs_partial (sys : Sys) (hrnd : ∀ v, CCGL.Spec.Representable .float v → sys.rnd v = v) {d : Disk} {st : Store} {m : Raster} {hM : Header}
    {vM : Int → Int → ℚ} (hm : IsMask m hM vM) {js : List (Job × JobDb)} {ss : List Source} (hA : js.Pairwise WritesApart)
    (hj : List.Forall₂ (fun jj s => (CCGL.Spec.CommonGrid s.hdr hM ∧ Overlaps hM vM s.hdr) ∧ DbJob sys d st hM jj s) js ss) :
    ∃ st', runJobsDb sys true .mask (some ⟨m, []⟩) d st js = .ok (0, d, st') ∧
      (∀ R : CCGL.Spec.Key, (∀ jj ∈ js, R.name ≠ storedName jj.1.out) → CCGL.Spec.filesOf st' R = CCGL.Spec.filesOf st R) ∧
      List.Forall₂ (fun jj s => ∃ w : Int → Int → ℚ,
        (∀ row col, hM.grid.CellInside row col → MaskedCell hM vM s.hdr s.val jj.1.default.toQ row col (w row col)) ∧
        InBucket sys st' jj { hM with noData := renamedNd jj.1.update s.hdr.noData jj.1.nodata.toQ }
          (fun row col => renamed jj.1.update s.hdr.noData jj.1.nodata.toQ (w row col))) js ss := by
  obtain ⟨st', m', e, -, k1, k2⟩ := db_batch (sys := sys) (d := d) (I := fun x => ∃ m, x = some ⟨m, []⟩ ∧ IsMask m hM vM)
    (ok := fun s => CCGL.Spec.CommonGrid s.hdr hM ∧ Overlaps hM vM s.hdr) (hdr := fun _ => hM)
    (good := fun j s w => ∀ row col, hM.grid.CellInside row col → MaskedCell hM vM s.hdr s.val j.default.toQ row col (w row col))
    (hout := fun j s => { hM with noData := renamedNd j.update s.hdr.noData j.nodata.toQ })
    (rv := fun j s w row col => renamed j.update s.hdr.noData j.nodata.toQ (w row col))
    (by
      rintro st _ ⟨j, jd⟩ s ⟨m, rfl, hm⟩ ⟨hg, hov⟩ H
      obtain ⟨st', m', w, e, hm', h1, h2⟩ := C87_mask_store_partial sys hrnd hm H.input hg hov H.fmt.1 H.fmt.2 H.out H.fits
      exact ⟨st', _, w, e, ⟨m', rfl, hm'⟩, h1, h2⟩)
    js ss st _ ⟨m, rfl, hm⟩ hj hA
  refine ⟨st', ?_, k1, k2⟩
  unfold runJobsDb
  rw [if_neg (by decide), if_neg (by decide), e]
  rfl

/-- C87: the same without a mask. -/
theorem C87_plain_jobs_partial (sys : Sys) (hrnd : ∀ v, CCGL.Spec.Representable .float v → sys.rnd v = v) {d : Disk} {st : Store}
    {js : List (Job × JobDb)} {ss : List Source} (hA : js.Pairwise WritesApart)
    (hj : List.Forall₂ (fun jj s => True ∧ DbJob sys d st s.hdr jj s) js ss) :
    ∃ st', runJobsDb sys true .mask none d st js = .ok (0, d, st') ∧
      (∀ R : CCGL.Spec.Key, (∀ jj ∈ js, R.name ≠ storedName jj.1.out) → CCGL.Spec.filesOf st' R = CCGL.Spec.filesOf st R) ∧
      List.Forall₂ (fun jj s => InBucket sys st' jj { s.hdr with noData := renamedNd jj.1.update s.hdr.noData jj.1.nodata.toQ }
          (fun row col => renamed jj.1.update s.hdr.noData jj.1.nodata.toQ (s.val row col))) js ss := by
  obtain ⟨st', m', e, -, k1, k2⟩ := db_batch (sys := sys) (d := d) (I := fun x => x = none)
    (ok := fun _ => True) (hdr := fun s => s.hdr) (good := fun _ _ _ => True)
    (hout := fun j s => { s.hdr with noData := renamedNd j.update s.hdr.noData j.nodata.toQ })
    (rv := fun j s _ row col => renamed j.update s.hdr.noData j.nodata.toQ (s.val row col))
    (by
      rintro st _ ⟨j, jd⟩ s rfl - H
      obtain ⟨st', e, h2⟩ := C87_plain_store_partial sys hrnd H.input H.fmt.1 H.fmt.2 H.out H.fits
      exact ⟨st', _, fun _ _ => 0, e, rfl, trivial, h2⟩)
    js ss st _ rfl hj hA
  refine ⟨st', ?_, k1, k2.imp (fun _ _ h => h.choose_spec.2)⟩
  unfold runJobsDb
  rw [if_neg (by decide), if_neg (by decide), e]
  rfl

end App
end CCGL
