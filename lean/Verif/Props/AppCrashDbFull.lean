import Verif.Props.AppCrashDbMaskFew
import Verif.Props.AppGfsReclsLRun
/-!
# A run of `mask_rasterio` with several input files of a job and output to the bucket is stopped and started again (C101)
-/
namespace CCGL
namespace App
open Fs Disk Main Raster Gfs Disk.Spec App.Spec

namespace Spec

/-- The buckets a run with the jobs `xs` can leave behind if it is stopped at some point: some jobs are done, one may be at work, and whatever it has done to the
files with the names of its outputs, no other file of the bucket has changed since. -/
def StoppedDbFull (sys : Sys) (md : MaskDb) (d : Disk) (c : Cfg) (V : Job → FullPlan → View) (xs : List ((Job × JobDb) × FullPlan)) (st st' : Store)
    (done : List ((Job × JobDb) × FullPlan)) : Prop :=
  ∃ m, LoadedDb sys md d st c m ∧ ∃ rest, xs = done ++ rest ∧
    ∃ d1 st1 m1, (done.map (·.1)).foldlM (layerJobDb sys c.incNodata c.mode) (d, st, m) = .ok (d1, st1, m1) ∧
    ∀ R : CCGL.Spec.Key, (∀ x, rest.head? = some x → ¬ DbTargets c.mode x.1.1 (V x.1.1 x.2).grp R.name) → CCGL.Spec.filesOf st' R = CCGL.Spec.filesOf st1 R

/-- No job reads what a job of the run stores, and no two jobs store a file with the same name. -/
def SeparateFull (mode : IOMode) (V : Job → FullPlan → View) (xs : List ((Job × JobDb) × FullPlan)) : Prop :=
  (∀ x ∈ xs, ∀ y ∈ xs, y.1.1.inFmt = .gfs → ∀ n ∈ y.1.1.inputs, ¬ DbTargets mode x.1.1 (V x.1.1 x.2).grp n) ∧
  xs.Pairwise (fun a b => ∀ n, DbTargets mode a.1.1 (V a.1.1 a.2).grp n → ¬ DbTargets mode b.1.1 (V b.1.1 b.2).grp n)

/-- The same jobs and rasters; the driver may behave differently. -/
def SameFull (xs ys : List ((Job × JobDb) × FullPlan)) : Prop := ys.map (fun x => (x.1.1, x.2)) = xs.map (fun x => (x.1.1, x.2))

/-- The files with names of outputs that the options of the job find have the other options its outputs get. The program stores no others. -/
def OldFilesFull (mode : IOMode) (V : Job → FullPlan → View) (xs : List ((Job × JobDb) × FullPlan)) (st : Store) : Prop :=
  ∀ x ∈ xs, ∀ name, DbTargets mode x.1.1 (V x.1.1 x.2).grp name → ∀ f ∈ st, CCGL.Spec.Has f ⟨name, wholeOpts x.1.1.type⟩ →
    CCGL.Spec.Has f ⟨name, outOpts .double x.1.2.own (wholeOpts x.1.1.type) true⟩

end Spec

theorem same_mem_full {xs ys : List ((Job × JobDb) × FullPlan)} (h : SameFull xs ys) {y} (hy : y ∈ ys) : ∃ x ∈ xs, x.1.1 = y.1.1 ∧ x.2 = y.2 := by
  have : (y.1.1, y.2) ∈ xs.map (fun x => (x.1.1, x.2)) := by
    rw [← h]
    exact List.mem_map_of_mem hy
  obtain ⟨x, hx, e⟩ := List.mem_map.1 this
  injection e with e1 e2
  exact ⟨x, hx, e1, e2⟩

theorem separateFull_apart {mode : IOMode} {V : Job → FullPlan → View} {xs : List ((Job × JobDb) × FullPlan)} (h : SeparateFull mode V xs) :
    xs.Pairwise (FullApart mode V) := by
  refine (List.pairwise_iff_forall_sublist.2 fun {a b} hs => ?_)
  have ha : a ∈ xs := hs.subset (by simp)
  have hb : b ∈ xs := hs.subset (by simp)
  intro n hn
  exact ⟨(List.pairwise_iff_forall_sublist.1 h.2 hs) n hn, fun hg hi => h.1 a ha b hb hg n hi hn⟩

theorem separateFull_same {mode : IOMode} {V : Job → FullPlan → View} {xs ys : List ((Job × JobDb) × FullPlan)} (hs : SameFull xs ys) (h : SeparateFull mode V xs) :
    SeparateFull mode V ys := by
  constructor
  · intro x hx y hy hg n hn
    obtain ⟨x', hx', e1, e2⟩ := same_mem_full hs hx
    obtain ⟨y', hy', e3, e4⟩ := same_mem_full hs hy
    rw [← e1, ← e2]
    rw [← e3] at hg hn
    exact h.1 x' hx' y' hy' hg n hn
  · have h1 : (xs.map (fun x => (x.1.1, x.2))).Pairwise (fun a b => ∀ n, DbTargets mode a.1 (V a.1 a.2).grp n → ¬ DbTargets mode b.1 (V b.1 b.2).grp n) :=
      List.pairwise_map.2 h.2
    rw [← hs] at h1
    exact List.pairwise_map.1 h1

theorem layerJobs_fold {sys : Sys} {inc : Bool} {mode : IOMode} (hmode : Layers mode) {d : Disk} {st st' : Store} {m : Option RasterS} {js : List (Job × JobDb)}
    (e : runJobsDb sys inc mode m d st js = .ok (0, d, st')) : ∃ m', js.foldlM (layerJobDb sys inc mode) (d, st, m) = .ok (d, st', m') := by
  have h1 : mode ≠ .com := by rintro rfl; rcases hmode with h | h | h <;> cases h
  have h2 : mode ≠ .unknown := by rintro rfl; rcases hmode with h | h | h <;> cases h
  unfold runJobsDb at e
  rw [if_neg h1, if_neg h2] at e
  obtain ⟨x, e1, e2⟩ := Out.bind_ok e
  obtain ⟨d', st2, m'⟩ := x
  have e3 := Out.ok.inj e2
  injection e3 with _ e3
  injection e3 with e4 e5
  subst e4
  dsimp only at e5
  subst e5
  exact ⟨m', e1⟩

theorem fullOut_stays {sys : Sys} {d : Disk} {rnd : ℚ → ℚ} {st0 st st' : Store} {mode : IOMode} {own : Bool} {jj : Job × JobDb} {p : FullPlan} {V : View}
    {N S : Nat → Int → Int → ℚ → Prop} {P : Str → Prop} (H : FullJob sys d st0 mode own jj p V S)
    (he : ∀ R : CCGL.Spec.Key, ¬ P R.name → CCGL.Spec.filesOf st' R = CCGL.Spec.filesOf st R) (hne : ∀ name, DbTargets mode jj.1 V.grp name → ¬ P name)
    (k : FullOut rnd st mode jj.1 p V N S) : FullOut rnd st' mode jj.1 p V N S :=
  ⟨fun h0 => done_stays (H.single h0).out he hne (k.single h0), fun h0 h1 => layersOut_stays (H.table h0 h1).2 he hne (k.table h0 h1),
    fun h0 h1 => stackDone_stays (H.stack h0 h1).1 h1 he hne (k.stack h0 h1)⟩

/-- A job can be carried out again whatever has become of files other than its input. -/
theorem fullJob_again {sys : Sys} {d : Disk} {st st' : Store} {mode : IOMode} {own : Bool} {jj : Job × JobDb} {p : FullPlan} {V : View}
    {S : Nat → Int → Int → ℚ → Prop} {P : Str → Prop}
    (he : ∀ R : CCGL.Spec.Key, ¬ P R.name → CCGL.Spec.filesOf st' R = CCGL.Spec.filesOf st R) (hi : jj.1.inFmt = .gfs → ∀ n ∈ jj.1.inputs, ¬ P n)
    (ho : ∀ name, DbTargets mode jj.1 V.grp name → ∀ f ∈ st', CCGL.Spec.Has f ⟨name, wholeOpts jj.1.type⟩ → CCGL.Spec.Has f ⟨name, outOpts .double jj.2.own (wholeOpts jj.1.type) true⟩)
    (H : FullJob sys d st mode own jj p V S) : FullJob sys d st' mode own jj p V S :=
  ⟨fun h0 => decJob_again he hi ho (H.single h0), H.several, fun h0 h1 => ⟨(H.table h0 h1).1, { (H.table h0 h1).2 with old := ho }⟩,
    fun h0 h1 => ⟨{ (H.stack h0 h1).1 with old := ho }, (H.stack h0 h1).2⟩⟩

theorem stoppedFull_leaves {sys : Sys} {md : MaskDb} {d : Disk} {c : Cfg} {own : Bool} {V : Job → FullPlan → View}
    {N S : Job → FullPlan → Nat → Int → Int → ℚ → Prop} {M : Option RasterS} {ok : FullPlan → Prop} {xs done : List ((Job × JobDb) × FullPlan)} {st st' : Store}
    (hmode : Layers c.mode)
    (hrun : ∀ zs : List ((Job × JobDb) × FullPlan), zs.Pairwise (FullApart c.mode V) →
      (∀ x ∈ zs, ok x.2 ∧ FullJob sys d st c.mode own x.1 x.2 (V x.1.1 x.2) (S x.1.1 x.2)) →
      ∃ st', runJobsDb sys c.incNodata c.mode M d st (zs.map (·.1)) = .ok (0, d, st') ∧ FullDone sys c.mode V N S zs st st')
    (hM : ∀ m, LoadedDb sys md d st c m → m = M)
    (hx : ∀ x ∈ xs, ok x.2 ∧ FullJob sys d st c.mode own x.1 x.2 (V x.1.1 x.2) (S x.1.1 x.2)) (hA : SeparateFull c.mode V xs)
    (hs : StoppedDbFull sys md d c V xs st st' done) :
    (∀ R : CCGL.Spec.Key, (∀ x ∈ xs, ¬ DbTargets c.mode x.1.1 (V x.1.1 x.2).grp R.name) → CCGL.Spec.filesOf st' R = CCGL.Spec.filesOf st R) ∧
    ∀ x ∈ done, FullOut sys.rnd st' c.mode x.1.1 x.2 (V x.1.1 x.2) (N x.1.1 x.2) (S x.1.1 x.2) := by
  obtain ⟨m, hm, rest, hxs, d1, st1, m1, e, hr⟩ := hs
  have em := hM m hm
  subst em
  have hsub : ∀ x ∈ done, x ∈ xs := fun x h => by rw [hxs]; exact List.mem_append_left _ h
  have hA' : done.Pairwise (FullApart c.mode V) := by
    have := separateFull_apart hA
    rw [hxs] at this
    exact (List.pairwise_append.1 this).1
  obtain ⟨st2, e1, h1, h2⟩ := hrun done hA' (fun x h => hx x (hsub x h))
  obtain ⟨m2, e2⟩ := layerJobs_fold hmode e1
  rw [e] at e2
  injection e2 with e2
  injection e2 with _ e2
  injection e2 with e2 _
  subst e2
  refine ⟨fun R hR => ?_, fun x h => ?_⟩
  · rw [hr R (fun x hx => hR x (by rw [hxs]; exact List.mem_append_right _ (List.mem_of_mem_head? hx))), h1 R (fun x hx => hR x (hsub x hx))]
  · refine fullOut_stays (P := fun n => ∃ z, rest.head? = some z ∧ DbTargets c.mode z.1.1 (V z.1.1 z.2).grp n) (hx x (hsub x h)).2
      (fun R hR => hr R (fun z hz ht => hR ⟨z, hz, ht⟩)) ?_ (h2 x h)
    rintro n hn ⟨z, hz, ht⟩
    have hp := hA.2
    rw [hxs] at hp
    exact (List.pairwise_append.1 hp).2.2 x h z (List.mem_of_mem_head? hz) n hn ht

theorem again_full {sys : Sys} {d : Disk} {mode : IOMode} {own : Bool} {V : Job → FullPlan → View} {S : Job → FullPlan → Nat → Int → Int → ℚ → Prop}
    {xs ys : List ((Job × JobDb) × FullPlan)} {st st' : Store}
    (hs : SameFull xs ys) (hA : SeparateFull mode V xs) (hO : OldFilesFull mode V ys st')
    (he : ∀ R : CCGL.Spec.Key, (∀ x ∈ xs, ¬ DbTargets mode x.1.1 (V x.1.1 x.2).grp R.name) → CCGL.Spec.filesOf st' R = CCGL.Spec.filesOf st R)
    (hy : ∀ y ∈ ys, FullJob sys d st mode own y.1 y.2 (V y.1.1 y.2) (S y.1.1 y.2)) :
    ∀ y ∈ ys, FullJob sys d st' mode own y.1 y.2 (V y.1.1 y.2) (S y.1.1 y.2) := by
  intro y h
  obtain ⟨y', hy', e3, e4⟩ := same_mem_full hs h
  refine fullJob_again (P := fun n => ∃ x ∈ xs, DbTargets mode x.1.1 (V x.1.1 x.2).grp n) (fun R hR => he R (fun x hx ht => hR ⟨x, hx, ht⟩)) ?_ (hO y h) (hy y h)
  rintro hg n hn ⟨x, hx, ht⟩
  rw [← e3] at hg hn
  exact hA.1 x hx y' hy' hg n hn ht

/-- C101 (and C98): a run without mask with output to the bucket, with several input files of some jobs, is stopped: the outputs of the jobs that are done are complete,
only files with names of outputs have changed, and the same command, started again (`dbs'`, `md'`: what the driver then does), stores what it would have stored. -/
theorem C101_db_full_plain {sys : Sys} (hrnd : ∀ v, CCGL.Spec.Representable .float v → sys.rnd v = v) {w : World} {md md' : MaskDb} {dbs dbs' : Nat → JobDb}
    {d : Disk} {st : Store} {args : List Str} {c : Cfg} {js : List Job} (hc : configure w args = .ok (.go c)) (hjs : jobs c = .ok js)
    (hu : c.useMongo = true) (hinc : c.incNodata = true) (hmode : Layers c.mode) (hno : c.maskPath = [])
    {xs ys done : List ((Job × JobDb) × FullPlan)} (hxs : withDb dbs js = xs.map (·.1)) (hys : withDb dbs' js = ys.map (·.1)) (hsame : SameFull xs ys)
    (hA : SeparateFull c.mode (fun j p => ownView j p.hdr p.val) xs)
    (hx : ∀ x ∈ xs, (∀ l ∈ x.2.rest, CCGL.Spec.CommonGrid l.hdr x.2.hdr) ∧ FullJob sys d st c.mode true x.1 x.2 (ownView x.1.1 x.2.hdr x.2.val) (ownNum x.1.1 x.2.hdr x.2.val x.2.rest))
    (hy : ∀ x ∈ ys, FullJob sys d st c.mode true x.1 x.2 (ownView x.1.1 x.2.hdr x.2.val) (ownNum x.1.1 x.2.hdr x.2.val x.2.rest)) {st1 : Store}
    (hs : StoppedDbFull sys md d c (fun j p => ownView j p.hdr p.val) xs st st1 done) (hO : OldFilesFull c.mode (fun j p => ownView j p.hdr p.val) ys st1) :
    (∀ R : CCGL.Spec.Key, (∀ x ∈ xs, ¬ DbTargets c.mode x.1.1 (ownView x.1.1 x.2.hdr x.2.val).grp R.name) → CCGL.Spec.filesOf st1 R = CCGL.Spec.filesOf st R) ∧
    (∀ x ∈ done, FullOut sys.rnd st1 c.mode x.1.1 x.2 (ownView x.1.1 x.2.hdr x.2.val) (plainNum x.1.1 x.2.hdr x.2.val x.2.rest) (ownNum x.1.1 x.2.hdr x.2.val x.2.rest)) ∧
    ∃ st', runDb sys w md' dbs' d st1 args = .ok (0, d, st') ∧
      FullDone sys c.mode (fun j p => ownView j p.hdr p.val) (fun j p => plainNum j p.hdr p.val p.rest) (fun j p => ownNum j p.hdr p.val p.rest) ys st1 st' := by
  have hl : loadMaskDb sys md d st c = .ok (.go none) := by
    unfold loadMaskDb
    rw [if_pos hno]
  obtain ⟨h1, h2⟩ := stoppedFull_leaves (own := true) (M := none) (V := fun j p => ownView j p.hdr p.val) (N := fun j p => plainNum j p.hdr p.val p.rest) (S := fun j p => ownNum j p.hdr p.val p.rest)
    (ok := fun p => ∀ l ∈ p.rest, CCGL.Spec.CommonGrid l.hdr p.hdr) hmode (by
      intro zs hP hF
      rw [hinc]
      exact C98_gfs_plain_jobs_partial hrnd hmode hP hF) (fun m hm => loadedDb_eq hm hl rfl) hx hA hs
  refine ⟨h1, h2, C98_gfs_plain_run_partial hrnd hc hjs hu hinc hmode hno hys (separateFull_apart (separateFull_same hsame hA))
    (fun y h => ⟨?_, again_full (S := fun j p => ownNum j p.hdr p.val p.rest) hsame hA hO h1 hy y h⟩)⟩
  obtain ⟨x, hx', -, e2⟩ := same_mem_full hsame h
  rw [← e2]
  exact (hx x hx').1

/-- C101 (and C98): the same in the mode MASK with a mask, in a file or in the bucket, that no job stores. -/
theorem C101_db_full_mask {sys : Sys} (hrnd : ∀ v, CCGL.Spec.Representable .float v → sys.rnd v = v) {w : World} {md md' : MaskDb} {dbs dbs' : Nat → JobDb}
    {d : Disk} {st : Store} {args : List Str} {c : Cfg} {js : List Job} (hc : configure w args = .ok (.go c)) (hjs : jobs c = .ok js)
    (hu : c.useMongo = true) (hinc : c.incNodata = true) (hmode : c.mode = .mask) {hM : Header} {vM : Int → Int → ℚ}
    (hmask : MaskFrom sys md d st c hM vM) (hmask' : MaskFrom sys md' d st c hM vM)
    {xs ys done : List ((Job × JobDb) × FullPlan)} (hxs : withDb dbs js = xs.map (·.1)) (hys : withDb dbs' js = ys.map (·.1)) (hsame : SameFull xs ys)
    (hqn : c.maskFmt = .gfs → (∀ x ∈ xs, ¬ DbTargets .mask x.1.1 (maskedView x.1.1 hM vM x.2.hdr x.2.val).grp c.maskPath) ∧ Char.ofNat 0 ∉ c.maskPath)
    (hA : SeparateFull .mask (fun j p => maskedView j hM vM p.hdr p.val) xs)
    (hx : ∀ x ∈ xs, (CCGL.Spec.CommonGrid x.2.hdr hM ∧ Overlaps hM vM x.2.hdr ∧ ∀ l ∈ x.2.rest, CCGL.Spec.CommonGrid l.hdr hM) ∧ FullJob sys d st .mask false x.1 x.2 (maskedView x.1.1 hM vM x.2.hdr x.2.val) (maskNum x.1.1 hM vM x.2.hdr x.2.val x.2.rest))
    (hy : ∀ x ∈ ys, FullJob sys d st .mask false x.1 x.2 (maskedView x.1.1 hM vM x.2.hdr x.2.val) (maskNum x.1.1 hM vM x.2.hdr x.2.val x.2.rest)) {st1 : Store}
    (hs : StoppedDbFull sys md d c (fun j p => maskedView j hM vM p.hdr p.val) xs st st1 done) (hO : OldFilesFull .mask (fun j p => maskedView j hM vM p.hdr p.val) ys st1) :
    (∀ R : CCGL.Spec.Key, (∀ x ∈ xs, ¬ DbTargets .mask x.1.1 (maskedView x.1.1 hM vM x.2.hdr x.2.val).grp R.name) → CCGL.Spec.filesOf st1 R = CCGL.Spec.filesOf st R) ∧
    (∀ x ∈ done, FullOut sys.rnd st1 .mask x.1.1 x.2 (maskedView x.1.1 hM vM x.2.hdr x.2.val) (maskNum x.1.1 hM vM x.2.hdr x.2.val x.2.rest) (maskNum x.1.1 hM vM x.2.hdr x.2.val x.2.rest)) ∧
    ∃ st', runDb sys w md' dbs' d st1 args = .ok (0, d, st') ∧
      FullDone sys .mask (fun j p => maskedView j hM vM p.hdr p.val) (fun j p => maskNum j hM vM p.hdr p.val p.rest) (fun j p => maskNum j hM vM p.hdr p.val p.rest) ys st1 st' := by
  obtain ⟨M, eM, hm⟩ := mask_is hmask
  have hp : prepareMask c.mode (some ⟨M, []⟩) = .ok (some ⟨M, []⟩) := by
    unfold prepareMask
    dsimp only
    rw [if_pos hmode]
  obtain ⟨h1, h2⟩ := stoppedFull_leaves (own := false) (M := some ⟨M, []⟩) (V := fun j p => maskedView j hM vM p.hdr p.val) (N := fun j p => maskNum j hM vM p.hdr p.val p.rest) (S := fun j p => maskNum j hM vM p.hdr p.val p.rest)
    (ok := fun p => CCGL.Spec.CommonGrid p.hdr hM ∧ Overlaps hM vM p.hdr ∧ ∀ l ∈ p.rest, CCGL.Spec.CommonGrid l.hdr hM) (.inl hmode) (by
      intro zs hP hF
      rw [hmode] at hP hF ⊢
      rw [hinc]
      exact C98_gfs_mask_jobs_partial hrnd hm hP hF) (fun m hm' => loadedDb_eq hm' eM hp) (by rw [hmode]; exact hx) (by rw [hmode]; exact hA) hs
  rw [hmode] at h1 h2
  refine ⟨h1, h2, C98_gfs_mask_run_partial hrnd hc hjs hu hinc hmode
    (mask_stays (P := fun n => ∃ x ∈ xs, DbTargets .mask x.1.1 (maskedView x.1.1 hM vM x.2.hdr x.2.val).grp n) (fun R hR => h1 R (fun x hx ht => hR ⟨x, hx, ht⟩))
      (fun hg => ⟨fun ⟨x, hx, ht⟩ => (hqn hg).1 x hx ht, (hqn hg).2⟩) hmask') hys (separateFull_apart (separateFull_same hsame hA))
    (fun y h => ⟨?_, again_full (S := fun j p => maskNum j hM vM p.hdr p.val p.rest) hsame hA hO h1 hy y h⟩)⟩
  obtain ⟨x, hx', -, e2⟩ := same_mem_full hsame h
  rw [← e2]
  exact (hx x hx').1

/-- C101 (and C98): the same in the modes DEC and MASKDEC. -/
theorem C101_db_full_units {sys : Sys} (hrnd : ∀ v, CCGL.Spec.Representable .float v → sys.rnd v = v) {w : World} {md md' : MaskDb} {dbs dbs' : Nat → JobDb}
    {d : Disk} {st : Store} {args : List Str} {c : Cfg} {js : List Job} (hc : configure w args = .ok (.go c)) (hjs : jobs c = .ok js)
    (hu : c.useMongo = true) (hinc : c.incNodata = true) (hmode : c.mode = .dec ∨ c.mode = .maskdec) {hM : Header} {vM : Int → Int → ℚ}
    (hmask : MaskFrom sys md d st c hM vM) (hmask' : MaskFrom sys md' d st c hM vM) (hco : CCGL.Spec.CoordsPresent hM) (hv : ∃ row col, HasValue hM vM row col)
    {xs ys done : List ((Job × JobDb) × FullPlan)} (hxs : withDb dbs js = xs.map (·.1)) (hys : withDb dbs' js = ys.map (·.1)) (hsame : SameFull xs ys)
    (hqn : c.maskFmt = .gfs → (∀ x ∈ xs, ¬ DbTargets c.mode x.1.1 (unitsView x.1.1 hM vM x.2.hdr x.2.val).grp c.maskPath) ∧ Char.ofNat 0 ∉ c.maskPath)
    (hA : SeparateFull c.mode (fun j p => unitsView j hM vM p.hdr p.val) xs)
    (hx : ∀ x ∈ xs, (CCGL.Spec.CommonGrid x.2.hdr hM ∧ Overlaps hM vM x.2.hdr ∧ ∀ l ∈ x.2.rest, CCGL.Spec.CommonGrid l.hdr hM) ∧ FullJob sys d st c.mode false x.1 x.2 (unitsView x.1.1 hM vM x.2.hdr x.2.val) (maskNum x.1.1 hM vM x.2.hdr x.2.val x.2.rest))
    (hy : ∀ x ∈ ys, FullJob sys d st c.mode false x.1 x.2 (unitsView x.1.1 hM vM x.2.hdr x.2.val) (maskNum x.1.1 hM vM x.2.hdr x.2.val x.2.rest)) {st1 : Store}
    (hs : StoppedDbFull sys md d c (fun j p => unitsView j hM vM p.hdr p.val) xs st st1 done) (hO : OldFilesFull c.mode (fun j p => unitsView j hM vM p.hdr p.val) ys st1) :
    (∀ R : CCGL.Spec.Key, (∀ x ∈ xs, ¬ DbTargets c.mode x.1.1 (unitsView x.1.1 hM vM x.2.hdr x.2.val).grp R.name) → CCGL.Spec.filesOf st1 R = CCGL.Spec.filesOf st R) ∧
    (∀ x ∈ done, FullOut sys.rnd st1 c.mode x.1.1 x.2 (unitsView x.1.1 hM vM x.2.hdr x.2.val) (maskNum x.1.1 hM vM x.2.hdr x.2.val x.2.rest) (maskNum x.1.1 hM vM x.2.hdr x.2.val x.2.rest)) ∧
    ∃ st', runDb sys w md' dbs' d st1 args = .ok (0, d, st') ∧
      FullDone sys c.mode (fun j p => unitsView j hM vM p.hdr p.val) (fun j p => maskNum j hM vM p.hdr p.val p.rest) (fun j p => maskNum j hM vM p.hdr p.val p.rest) ys st1 st' := by
  obtain ⟨M, eM, hb, hcl, hg, hn, hval, h2⟩ := mask_source hmask
  obtain ⟨m, b, eb, hm⟩ := cutMask_of hb hcl hg hn hval h2 hv
  obtain ⟨h1, h2⟩ := stoppedFull_leaves (own := false) (M := some m) (V := fun j p => unitsView j hM vM p.hdr p.val) (N := fun j p => maskNum j hM vM p.hdr p.val p.rest) (S := fun j p => maskNum j hM vM p.hdr p.val p.rest)
    (ok := fun p => CCGL.Spec.CommonGrid p.hdr hM ∧ Overlaps hM vM p.hdr ∧ ∀ l ∈ p.rest, CCGL.Spec.CommonGrid l.hdr hM) (.inr hmode) (by
      intro zs hP hF
      rw [hinc]
      exact C98_gfs_groups_jobs_partial hrnd hm hco hmode hP hF)
    (fun m' hm' => loadedDb_eq hm' eM (prepare_cut (by rcases hmode with h | h <;> rw [h] <;> simp) eb)) hx hA hs
  refine ⟨h1, h2, C98_gfs_groups_run_partial hrnd hc hjs hu hinc hmode
    (mask_stays (P := fun n => ∃ x ∈ xs, DbTargets c.mode x.1.1 (unitsView x.1.1 hM vM x.2.hdr x.2.val).grp n) (fun R hR => h1 R (fun x hx ht => hR ⟨x, hx, ht⟩))
      (fun hg => ⟨fun ⟨x, hx, ht⟩ => (hqn hg).1 x hx ht, (hqn hg).2⟩) hmask') hco hv hys (separateFull_apart (separateFull_same hsame hA))
    (fun y h => ⟨?_, again_full (S := fun j p => maskNum j hM vM p.hdr p.val p.rest) hsame hA hO h1 hy y h⟩)⟩
  obtain ⟨x, hx', -, e2⟩ := same_mem_full hsame h
  rw [← e2]
  exact (hx x hx').1

end App
end CCGL
