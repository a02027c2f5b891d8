import Verif.Props.AppGfsToFile
/-!
# Runs of `mask_rasterio` whose jobs write to files and to GridFS (C91)

Some jobs of a run write raster files, others store files in the bucket; all of them read files or stored files.
-/
namespace CCGL
namespace App
open Fs Disk Main Raster Gfs Disk.Spec App.Spec

namespace Spec

/-- What is known about a job in advance: as in `RPlan` if it writes files; the raster it reads (and its path, if it is a file) and the number of layers
if it stores in the bucket. -/
inductive MixPlan
  | file (p : RPlan)
  | db (p : DecPlan) (inp : Fs.Path)

def MixPlan.hdr : MixPlan → Header
  | .file p => p.hdr
  | .db p _ => p.hdr

/-- The job can be carried out. -/
def MixOk (sys : Sys) (mode : IOMode) (own : Bool) (V : Job → Header → (Int → Int → ℚ) → View) (d : Disk) (st : Store) (jj : Job × JobDb) : MixPlan → Prop
  | .file p => DiskJob sys d st mode (V jj.1 p.hdr p.val) jj p
  | .db p q => DecJob sys d st mode own jj p (V jj.1 p.hdr p.val) ∧ (jj.1.inFmt = .sfile → ∃ s, jj.1.inputs = [s] ∧ d.fs.resolve s = some q)

/-- The files on disk it writes, the names it stores, the file it needs, the stored files it reads. -/
def MixFiles (mode : IOMode) (V : Job → Header → (Int → Int → ℚ) → View) (jj : Job × JobDb) : MixPlan → Fs.Path → Prop
  | .file p, q => JobTargets mode (V jj.1 p.hdr p.val) jj.1 p q
  | .db _ _, _ => False
def MixStored (mode : IOMode) (V : Job → Header → (Int → Int → ℚ) → View) (jj : Job × JobDb) : MixPlan → Str → Prop
  | .file _, _ => False
  | .db p _, n => DbTargets mode jj.1 (V jj.1 p.hdr p.val).grp n
def MixNeeds (jj : Job × JobDb) : MixPlan → Fs.Path → Prop
  | .file p, q => jj.1.inFmt = .sfile ∧ q = p.inp
  | .db _ i, q => jj.1.inFmt = .sfile ∧ q = i
def MixReads (jj : Job × JobDb) : MixPlan → Str → Prop
  | _, n => jj.1.inFmt = .gfs ∧ n ∈ jj.1.inputs

/-- What it leaves. -/
def MixDone (sys : Sys) (mode : IOMode) (V : Job → Header → (Int → Int → ℚ) → View) (d : Disk) (st : Store) (jj : Job × JobDb) : MixPlan → Prop
  | .file p => JobDone d mode (V jj.1 p.hdr p.val) jj.1 p
  | .db p _ => DbDone sys.rnd st mode jj.1 (V jj.1 p.hdr p.val) (jobFill jj.1 p.hdr) p.lyrs

/-- The first job writes nothing that the second one reads or writes. -/
def MixApart (mode : IOMode) (V : Job → Header → (Int → Int → ℚ) → View) (a b : (Job × JobDb) × MixPlan) : Prop :=
  (∀ q, MixFiles mode V a.1 a.2 q → ¬ MixNeeds b.1 b.2 q ∧ ¬ MixFiles mode V b.1 b.2 q) ∧
  ∀ n, MixStored mode V a.1 a.2 n → ¬ MixReads b.1 b.2 n ∧ ¬ MixStored mode V b.1 b.2 n

/-- After all jobs: the files on disk and in the bucket that no job writes are as before, and every job has left what it should. -/
structure MixRun (sys : Sys) (mode : IOMode) (V : Job → Header → (Int → Int → ℚ) → View) (xs : List ((Job × JobDb) × MixPlan)) (d : Disk) (st : Store)
    (d' : Disk) (st' : Store) : Prop where
  disk : Rewritten d d' (fun q => ∃ x ∈ xs, MixFiles mode V x.1 x.2 q)
  bucket : ∀ R : CCGL.Spec.Key, (∀ x ∈ xs, ¬ MixStored mode V x.1 x.2 R.name) → CCGL.Spec.filesOf st' R = CCGL.Spec.filesOf st R
  done : ∀ x ∈ xs, MixDone sys mode V d' st' x.1 x.2

end Spec

theorem mixOk_same {sys : Sys} {mode : IOMode} {own : Bool} {V : Job → Header → (Int → Int → ℚ) → View} {d d' : Disk} {st st' : Store} {jj : Job × JobDb}
    {pl : MixPlan} {new : Path → Prop} {P : Str → Prop} (hw : Fs.Spec.WF d.fs) (hr : Rewritten d d' new) (hd : ∀ q, new q → d.fs.kindOf q ≠ some .dir)
    (he : ∀ R : CCGL.Spec.Key, ¬ P R.name → CCGL.Spec.filesOf st' R = CCGL.Spec.filesOf st R) (h1 : ∀ q, MixNeeds jj pl q → ¬ new q)
    (h2 : ∀ n, MixReads jj pl n → ¬ P n) (h3 : ∀ n, MixStored mode V jj pl n → ¬ P n) (H : MixOk sys mode own V d st jj pl) : MixOk sys mode own V d' st' jj pl := by
  cases pl with
  | file p => exact diskJob_same hw hr hd he (fun a => h1 _ ⟨a, rfl⟩) h2 H
  | db p q =>
    obtain ⟨H, hp⟩ := H
    have hin : Input sys d' st' jj.1 jj.2 p.hdr p.val := by
      have hi := input_stays he H.nul (fun hg n hn => h2 n ⟨hg, hn⟩) H.input
      cases hi with
      | file s a b c =>
        obtain ⟨s', b', hs⟩ := hp a
        have hss : s' = s := by rw [b] at b'; injection b' with b'; exact b'.symm
        subst hss
        exact .file s' a b (rasterFile_same hw hr hd hs (h1 q ⟨a, rfl⟩) c)
      | bucket n more a b c e f g => exact .bucket n more a b c e f g
    refine ⟨⟨H.fmt, H.kind, hin, H.nul, dbOut_stays he h3 H.out⟩, fun a => ?_⟩
    obtain ⟨s, b, c⟩ := hp a
    exact ⟨s, b, resolve_same hr hd c (h1 q ⟨a, rfl⟩)⟩

theorem mixFiles_nodir {sys : Sys} {mode : IOMode} {own : Bool} {V : Job → Header → (Int → Int → ℚ) → View} {d : Disk} {st : Store} {jj : Job × JobDb}
    {pl : MixPlan} (H : MixOk sys mode own V d st jj pl) {q : Path} (hq : MixFiles mode V jj pl q) : d.fs.kindOf q ≠ some .dir := by
  cases pl with
  | file p => exact diskJob_nodir H hq
  | db p i => exact hq.elim

/-- All jobs of a run, given what one job does. -/
theorem mixed_batch {sys : Sys} {mode : IOMode} {own : Bool} {V : Job → Header → (Int → Int → ℚ) → View} {I : Option RasterS → Prop} {ok : MixPlan → Prop}
    (step : ∀ d st m jj pl, Fs.Spec.WF d.fs → I m → ok pl → MixOk sys mode own V d st jj pl → ∃ (d' : Disk) (st' : Store) (m' : Option RasterS),
      layerJobDb sys true mode (d, st, m) jj = .ok (d', st', m') ∧ I m' ∧ Rewritten d d' (MixFiles mode V jj pl) ∧
      (∀ R : CCGL.Spec.Key, ¬ MixStored mode V jj pl R.name → CCGL.Spec.filesOf st' R = CCGL.Spec.filesOf st R) ∧ MixDone sys mode V d' st' jj pl) :
    ∀ (xs : List ((Job × JobDb) × MixPlan)) (d : Disk) (st : Store) (m : Option RasterS), Fs.Spec.WF d.fs → I m →
      (∀ x ∈ xs, ok x.2 ∧ MixOk sys mode own V d st x.1 x.2) → xs.Pairwise (MixApart mode V) →
      ∃ d' st' m', (xs.map (·.1)).foldlM (layerJobDb sys true mode) (d, st, m) = .ok (d', st', m') ∧ I m' ∧ MixRun sys mode V xs d st d' st' := by
  intro xs
  induction xs with
  | nil =>
    intro d st m hw hI _ _
    exact ⟨d, st, m, rfl, hI, rewritten_refl hw (by rintro q ⟨x, h, -⟩; cases h), fun _ _ => rfl, by intro x h; cases h⟩
  | cons x xs ih =>
    intro d st m hw hI hx hA
    obtain ⟨hA1, hA2⟩ := List.pairwise_cons.1 hA
    obtain ⟨hok, H⟩ := hx x List.mem_cons_self
    obtain ⟨d1, st1, m1, e1, hI1, hr1, k1, hd1⟩ := step d st m x.1 x.2 hw hI hok H
    have hd0 : ∀ q, MixFiles mode V x.1 x.2 q → d.fs.kindOf q ≠ some .dir := fun q hq => mixFiles_nodir H hq
    have hx1 : ∀ y ∈ xs, ok y.2 ∧ MixOk sys mode own V d1 st1 y.1 y.2 := by
      intro y hy
      obtain ⟨a, b⟩ := hx y (List.mem_cons_of_mem _ hy)
      obtain ⟨a1, a2⟩ := hA1 y hy
      exact ⟨a, mixOk_same hw hr1 hd0 k1 (fun q hq h => (a1 q h).1 hq) (fun n hn h => (a2 n h).1 hn) (fun n hn h => (a2 n h).2 hn) b⟩
    obtain ⟨d2, st2, m2, e2, hI2, hR⟩ := ih d1 st1 m1 hr1.wf hI1 hx1 hA2
    have hnew : ∀ q, (∃ y ∈ xs, MixFiles mode V y.1 y.2 q) → d1.fs.kindOf q ≠ some .dir := by
      rintro q ⟨y, hy, hq⟩
      exact mixFiles_nodir (hx1 y hy).2 hq
    refine ⟨d2, st2, m2, ?_, hI2, rewritten_trans hr1 hR.disk ?_, ?_, ?_⟩
    · rw [List.map_cons, List.foldlM_cons, e1]
      exact e2
    · intro q
      simp only [List.mem_cons, exists_eq_or_imp]
    · intro R hn
      rw [hR.bucket R (fun y hy => hn y (List.mem_cons_of_mem _ hy)), k1 R (hn x List.mem_cons_self)]
    · intro y hy
      rcases List.mem_cons.1 hy with rfl | hy
      · obtain ⟨jj, pl⟩ := y
        cases pl with
        | file p =>
          refine diskDone_same (new := fun q => ∃ z ∈ xs, MixFiles mode V z.1 z.2 q) H hr1 hR.disk hnew ?_ hd1
          rintro q hq ⟨z, hz, hq'⟩
          exact ((hA1 z hz).1 q hq).2 hq'
        | db p i =>
          refine done_stays (P := fun n => ∃ z ∈ xs, MixStored mode V z.1 z.2 n) H.1.out (fun R hn => hR.bucket R (fun z hz ht => hn ⟨z, hz, ht⟩)) ?_ hd1
          rintro n hn ⟨z, hz, ht⟩
          exact ((hA1 z hz).2 n hn).2 ht
      · exact hR.done y hy

/-- C91: the jobs of the modes DEC and MASKDEC with a mask whose subsets have been built; some write files, some store in the bucket. -/
theorem C91_mixed_units_jobs {sys : Sys} (hrnd : ∀ v, CCGL.Spec.Representable .float v → sys.rnd v = v) {d : Disk} {st : Store} (hw : Fs.Spec.WF d.fs)
    {m : RasterS} {hM : Header} {vM : Int → Int → ℚ} (hm : CutMask m hM vM) (hco : CCGL.Spec.CoordsPresent hM) {mode : IOMode}
    (hmode : mode = .dec ∨ mode = .maskdec) {xs : List ((Job × JobDb) × MixPlan)}
    (hA : xs.Pairwise (MixApart mode (fun j h v => unitsView j hM vM h v)))
    (hj : ∀ x ∈ xs, (CCGL.Spec.CommonGrid x.2.hdr hM ∧ Overlaps hM vM x.2.hdr) ∧ MixOk sys mode false (fun j h v => unitsView j hM vM h v) d st x.1 x.2) :
    ∃ d' st', runJobsDb sys true mode (some m) d st (xs.map (·.1)) = .ok (0, d', st') ∧
      MixRun sys mode (fun j h v => unitsView j hM vM h v) xs d st d' st' := by
  obtain ⟨d', st', m', e, -, k⟩ := mixed_batch (sys := sys) (mode := mode) (own := false) (V := fun j h v => unitsView j hM vM h v)
    (I := fun x => x = some m) (ok := fun p => CCGL.Spec.CommonGrid p.hdr hM ∧ Overlaps hM vM p.hdr) (by
      rintro d st _ ⟨j, jd⟩ pl hw rfl ⟨hg, hov⟩ H
      cases pl with
      | file p =>
        obtain ⟨d', e, hr, hd⟩ := C100_job_units hm hw hg hco hov H
        exact ⟨d', st, _, e, rfl, hr, fun _ _ => rfl, hd⟩
      | db p q =>
        obtain ⟨H, -⟩ := H
        rcases H.kind with h | ⟨h1, h3, -⟩
        · obtain ⟨st', e, o1, o2⟩ := C90_units_recls_partial hrnd hm H.input hg hco hov H.fmt h H.out
          exact ⟨d, st', _, e, rfl, rewritten_refl hw (fun _ h => h), fun R hR => o1 R (fun name hn he => hR (by rw [he]; exact hn)), o2⟩
        · have HO := H.out
          rw [h3] at HO
          obtain ⟨st', e, o1, o2⟩ := C90_units_partial hrnd hm H.input hg hco hov H.fmt h1 hmode HO
          exact ⟨d, st', _, e, rfl, rewritten_refl hw (fun _ h => h), fun R hR => o1 R (fun name hn he => hR (by rw [he]; exact hn)),
            show DbDone sys.rnd st' mode j _ (jobFill j p.hdr) p.lyrs by rw [h3]; exact o2⟩) xs d st _ hw rfl hj hA
  exact ⟨d', st', runJobsDb_layers (.inr hmode) e, k⟩

/-- C91: the jobs of the mode MASK with a mask; some write files, some store in the bucket. -/
theorem C91_mixed_mask_jobs {sys : Sys} (hrnd : ∀ v, CCGL.Spec.Representable .float v → sys.rnd v = v) {d : Disk} {st : Store} (hw : Fs.Spec.WF d.fs)
    {m : Raster} {hM : Header} {vM : Int → Int → ℚ} (hm : IsMask m hM vM) {xs : List ((Job × JobDb) × MixPlan)}
    (hA : xs.Pairwise (MixApart .mask (fun j h v => maskedView j hM vM h v)))
    (hj : ∀ x ∈ xs, (CCGL.Spec.CommonGrid x.2.hdr hM ∧ Overlaps hM vM x.2.hdr) ∧ MixOk sys .mask false (fun j h v => maskedView j hM vM h v) d st x.1 x.2) :
    ∃ d' st', runJobsDb sys true .mask (some ⟨m, []⟩) d st (xs.map (·.1)) = .ok (0, d', st') ∧
      MixRun sys .mask (fun j h v => maskedView j hM vM h v) xs d st d' st' := by
  obtain ⟨d', st', m', e, -, k⟩ := mixed_batch (sys := sys) (mode := .mask) (own := false) (V := fun j h v => maskedView j hM vM h v)
    (I := fun x => ∃ m, x = some ⟨m, []⟩ ∧ IsMask m hM vM) (ok := fun p => CCGL.Spec.CommonGrid p.hdr hM ∧ Overlaps hM vM p.hdr) (by
      rintro d st _ ⟨j, jd⟩ pl hw ⟨m, rfl, hm⟩ ⟨hg, hov⟩ H
      cases pl with
      | file p =>
        obtain ⟨d', m', e, hm', hr, hd⟩ := C100_job_mask hm hw hg hov H
        exact ⟨d', st, _, e, ⟨m', rfl, hm'⟩, hr, fun _ _ => rfl, hd⟩
      | db p q =>
        obtain ⟨H, -⟩ := H
        rcases H.kind with h | ⟨h1, h3, -⟩
        · obtain ⟨st', m', e, hm', o1, o2⟩ := C90_mask_recls_partial hrnd hm H.input hg hov H.fmt h H.out
          exact ⟨d, st', _, e, ⟨m', rfl, hm'⟩, rewritten_refl hw (fun _ h => h), fun R hR => o1 R (fun name hn he => hR (by rw [he]; exact hn)), o2⟩
        · have HO := H.out
          rw [h3] at HO
          obtain ⟨st', m', e, hm', o1, o2⟩ := C90_mask_partial hrnd hm H.input hg hov H.fmt h1 HO
          exact ⟨d, st', _, e, ⟨m', rfl, hm'⟩, rewritten_refl hw (fun _ h => h), fun R hR => o1 R (fun name hn he => hR (by rw [he]; exact hn)),
            show DbDone sys.rnd st' .mask j _ (jobFill j p.hdr) p.lyrs by rw [h3]; exact o2⟩) xs d st _ hw ⟨m, rfl, hm⟩ hj hA
  exact ⟨d', st', runJobsDb_layers (.inl rfl) e, k⟩

/-- C91: a run of the modes DEC and MASKDEC with a mask in a file or in the bucket whose jobs write files or store in the bucket. -/
theorem C91_mixed_units_run_partial {sys : Sys} (hrnd : ∀ v, CCGL.Spec.Representable .float v → sys.rnd v = v) {w : World} {md : MaskDb} {dbs : Nat → JobDb}
    {d : Disk} {st : Store} (hw : Fs.Spec.WF d.fs) {args : List Str} {c : Cfg} {js : List Job} (hc : configure w args = .ok (.go c)) (hjs : jobs c = .ok js)
    (hu : c.useMongo = true) (hinc : c.incNodata = true) (hmode : c.mode = .dec ∨ c.mode = .maskdec) {hM : Header} {vM : Int → Int → ℚ}
    (hmask : MaskFrom sys md d st c hM vM) (hco : CCGL.Spec.CoordsPresent hM) (hv : ∃ row col, HasValue hM vM row col)
    {xs : List ((Job × JobDb) × MixPlan)} (hxs : withDb dbs js = xs.map (·.1))
    (hA : xs.Pairwise (MixApart c.mode (fun j h v => unitsView j hM vM h v)))
    (hj : ∀ x ∈ xs, (CCGL.Spec.CommonGrid x.2.hdr hM ∧ Overlaps hM vM x.2.hdr) ∧ MixOk sys c.mode false (fun j h v => unitsView j hM vM h v) d st x.1 x.2) :
    ∃ d' st', runDb sys w md dbs d st args = .ok (0, d', st') ∧ MixRun sys c.mode (fun j h v => unitsView j hM vM h v) xs d st d' st' := by
  obtain ⟨M, eM, hb, hcl, hg, hn, hval, h2⟩ := mask_source hmask
  obtain ⟨m, b, eb, hm⟩ := cutMask_of hb hcl hg hn hval h2 hv
  obtain ⟨d', st', e, h1⟩ := C91_mixed_units_jobs hrnd hw hm hco hmode hA hj
  refine ⟨d', st', ?_, h1⟩
  rw [runDb_go hc hjs hu eM (prepare_cut (by rcases hmode with h | h <;> rw [h] <;> simp) eb), hinc, hxs]
  exact e

/-- C91: a run of the mode MASK with a mask in a file or in the bucket whose jobs write files or store in the bucket. -/
theorem C91_mixed_mask_run_partial {sys : Sys} (hrnd : ∀ v, CCGL.Spec.Representable .float v → sys.rnd v = v) {w : World} {md : MaskDb} {dbs : Nat → JobDb}
    {d : Disk} {st : Store} (hw : Fs.Spec.WF d.fs) {args : List Str} {c : Cfg} {js : List Job} (hc : configure w args = .ok (.go c)) (hjs : jobs c = .ok js)
    (hu : c.useMongo = true) (hinc : c.incNodata = true) (hmode : c.mode = .mask) {hM : Header} {vM : Int → Int → ℚ} (hmask : MaskFrom sys md d st c hM vM)
    {xs : List ((Job × JobDb) × MixPlan)} (hxs : withDb dbs js = xs.map (·.1))
    (hA : xs.Pairwise (MixApart .mask (fun j h v => maskedView j hM vM h v)))
    (hj : ∀ x ∈ xs, (CCGL.Spec.CommonGrid x.2.hdr hM ∧ Overlaps hM vM x.2.hdr) ∧ MixOk sys .mask false (fun j h v => maskedView j hM vM h v) d st x.1 x.2) :
    ∃ d' st', runDb sys w md dbs d st args = .ok (0, d', st') ∧ MixRun sys .mask (fun j h v => maskedView j hM vM h v) xs d st d' st' := by
  obtain ⟨M, eM, hm⟩ := mask_is hmask
  obtain ⟨d', st', e, h1⟩ := C91_mixed_mask_jobs hrnd hw hm hA hj
  refine ⟨d', st', ?_, h1⟩
  have hp : prepareMask c.mode (some ⟨M, []⟩) = .ok (some ⟨M, []⟩) := by
    unfold prepareMask
    dsimp only
    rw [if_pos hmode]
  rw [runDb_go hc hjs hu eM hp, hinc, hxs, hmode]
  exact e

/-- C91: the jobs without a mask; some write files, some store in the bucket. -/
theorem C91_mixed_plain_jobs {sys : Sys} (hrnd : ∀ v, CCGL.Spec.Representable .float v → sys.rnd v = v) {d : Disk} {st : Store} (hw : Fs.Spec.WF d.fs)
    {mode : IOMode} (hmode : Layers mode) {xs : List ((Job × JobDb) × MixPlan)} (hA : xs.Pairwise (MixApart mode ownView))
    (hj : ∀ x ∈ xs, MixOk sys mode true ownView d st x.1 x.2) :
    ∃ d' st', runJobsDb sys true mode none d st (xs.map (·.1)) = .ok (0, d', st') ∧ MixRun sys mode ownView xs d st d' st' := by
  obtain ⟨d', st', m', e, -, k⟩ := mixed_batch (sys := sys) (mode := mode) (own := true) (V := ownView) (I := fun x => x = none) (ok := fun _ => True) (by
      rintro d st _ ⟨j, jd⟩ pl hw rfl - H
      cases pl with
      | file p =>
        obtain ⟨d', e, hr, hd⟩ := C100_job_plain hw H
        exact ⟨d', st, _, e, rfl, hr, fun _ _ => rfl, hd⟩
      | db p q =>
        obtain ⟨H, -⟩ := H
        rcases H.kind with h | ⟨h1, h3, h4⟩
        · obtain ⟨st', e, o1, o2⟩ := C90_recls_partial hrnd H.input H.fmt h H.out
          exact ⟨d, st', _, e, rfl, rewritten_refl hw (fun _ h => h), fun R hR => o1 R (fun name hn he => hR (by rw [he]; exact hn)), o2⟩
        · have HO := H.out
          rw [h3] at HO
          by_cases hmk : mode = .mask
          · subst hmk
            obtain ⟨st', e, o1, o2⟩ := C90_plain_partial hrnd H.input H.fmt h1 HO
            exact ⟨d, st', _, e, rfl, rewritten_refl hw (fun _ h => h), fun R hR => o1 R (fun name hn he => hR (by rw [he]; exact hn)),
              show DbDone sys.rnd st' .mask j _ (jobFill j p.hdr) p.lyrs by rw [h3]; exact o2⟩
          · have h2 : WantsSingle mode := hmode.resolve_left hmk
            obtain ⟨st', e, o1, o2⟩ := C90_own_partial hrnd H.input H.fmt h1 h2 (h4 rfl h2) HO
            exact ⟨d, st', _, e, rfl, rewritten_refl hw (fun _ h => h), fun R hR => o1 R (fun name hn he => hR (by rw [he]; exact hn)),
              show DbDone sys.rnd st' mode j _ (jobFill j p.hdr) p.lyrs by rw [h3]; exact o2⟩) xs d st _ hw rfl (fun x hx => ⟨trivial, hj x hx⟩) hA
  exact ⟨d', st', runJobsDb_layers hmode e, k⟩

/-- C91: a run without a mask whose jobs write files or store in the bucket. -/
theorem C91_mixed_plain_run_partial {sys : Sys} (hrnd : ∀ v, CCGL.Spec.Representable .float v → sys.rnd v = v) {w : World} {md : MaskDb} {dbs : Nat → JobDb}
    {d : Disk} {st : Store} (hw : Fs.Spec.WF d.fs) {args : List Str} {c : Cfg} {js : List Job} (hc : configure w args = .ok (.go c)) (hjs : jobs c = .ok js)
    (hu : c.useMongo = true) (hinc : c.incNodata = true) (hmode : Layers c.mode) (hno : c.maskPath = [])
    {xs : List ((Job × JobDb) × MixPlan)} (hxs : withDb dbs js = xs.map (·.1)) (hA : xs.Pairwise (MixApart c.mode ownView))
    (hj : ∀ x ∈ xs, MixOk sys c.mode true ownView d st x.1 x.2) :
    ∃ d' st', runDb sys w md dbs d st args = .ok (0, d', st') ∧ MixRun sys c.mode ownView xs d st d' st' := by
  obtain ⟨d', st', e, h1⟩ := C91_mixed_plain_jobs hrnd hw hmode hA hj
  refine ⟨d', st', ?_, h1⟩
  have hl : loadMaskDb sys md d st c = .ok (.go none) := by
    unfold loadMaskDb
    rw [if_pos hno]
  rw [runDb_go hc hjs hu hl rfl, hinc, hxs]
  exact e

end App
end CCGL
