import Verif.Props.AppCrashDbFull
import Verif.Props.AppGfsFewReclsLRun
/-!
# A run of `mask_rasterio` with several input files of a job, output to the bucket and without NoData cells is stopped and started again (C101)
-/
namespace CCGL
namespace App
open Fs Disk Main Raster Gfs Disk.Spec App.Spec

namespace Spec

/-- As `OldFilesFull`, for a run with `-include_nodata 0`. -/
def OldFilesFewFull (mode : IOMode) (V : Job → FullPlan → View) (xs : List ((Job × JobDb) × FullPlan)) (st : Store) : Prop :=
  ∀ x ∈ xs, ∀ name, DbTargets mode x.1.1 (V x.1.1 x.2).grp name → ∀ f ∈ st, CCGL.Spec.Has f ⟨name, fewOpts x.1.1.type⟩ →
    CCGL.Spec.Has f ⟨name, outOpts .double x.1.2.own (fewOpts x.1.1.type) false⟩

end Spec

theorem fewFullOut_stays {d : Disk} {rnd : ℚ → ℚ} {st0 st st' : Store} {mode : IOMode} {jj : Job × JobDb} {p : FullPlan} {V : View}
    {N S : Nat → Int → Int → ℚ → Prop} {C : Int → Int → Prop} {P : Str → Prop} (H : FewFullJob d st0 mode jj p V S)
    (he : ∀ R : CCGL.Spec.Key, ¬ P R.name → CCGL.Spec.filesOf st' R = CCGL.Spec.filesOf st R) (hne : ∀ name, DbTargets mode jj.1 V.grp name → ¬ P name)
    (k : FewFullOut rnd st mode jj.1 p V N S C) : FewFullOut rnd st' mode jj.1 p V N S C :=
  ⟨fun h0 => fewDone_stays (H.single h0).2 he hne (k.single h0), fun h0 h1 => layersFew_stays (H.table h0 h1).2 he hne (k.table h0 h1),
    fun h0 h1 => stackFewDone_stays (H.stack h0 h1) h1 he hne (k.stack h0 h1)⟩

theorem stoppedFewFull_leaves {sys : Sys} {md : MaskDb} {d : Disk} {c : Cfg} {V : Job → FullPlan → View}
    {N S : Job → FullPlan → Nat → Int → Int → ℚ → Prop} {C : Job → FullPlan → Int → Int → Prop} {M : Option RasterS} {ok : Job → FullPlan → Prop} {xs done : List ((Job × JobDb) × FullPlan)} {st st' : Store}
    (hmode : Layers c.mode)
    (hrun : ∀ zs : List ((Job × JobDb) × FullPlan), zs.Pairwise (FullApart c.mode V) →
      (∀ x ∈ zs, ok x.1.1 x.2 ∧ FewFullJob d st c.mode x.1 x.2 (V x.1.1 x.2) (S x.1.1 x.2)) →
      ∃ st', runJobsDb sys c.incNodata c.mode M d st (zs.map (·.1)) = .ok (0, d, st') ∧ FewFullDone sys c.mode V N S C zs st st')
    (hM : ∀ m, LoadedDb sys md d st c m → m = M)
    (hx : ∀ x ∈ xs, ok x.1.1 x.2 ∧ FewFullJob d st c.mode x.1 x.2 (V x.1.1 x.2) (S x.1.1 x.2)) (hA : SeparateFull c.mode V xs)
    (hs : StoppedDbFull sys md d c V xs st st' done) :
    (∀ R : CCGL.Spec.Key, (∀ x ∈ xs, ¬ DbTargets c.mode x.1.1 (V x.1.1 x.2).grp R.name) → CCGL.Spec.filesOf st' R = CCGL.Spec.filesOf st R) ∧
    ∀ x ∈ done, FewFullOut sys.rnd st' c.mode x.1.1 x.2 (V x.1.1 x.2) (N x.1.1 x.2) (S x.1.1 x.2) (C x.1.1 x.2) := by
  obtain ⟨m, hm, rest, hxs, d1, st1, m1, e, hr⟩ := hs
  have em := hM m hm
  subst em
  have hsub : ∀ x ∈ done, x ∈ xs := fun x h => by rw [hxs]; exact List.mem_append_left _ h
  have hA' : done.Pairwise (FullApart c.mode V) := by
    have := separateFull_apart hA
    rw [hxs] at this
    exact (List.pairwise_append.1 this).1
  obtain ⟨st2, e1, h1, h2⟩ := hrun done hA' (fun x h => hx x (hsub x h))
  obtain ⟨m2, e2⟩ := layerJobs_fold hmode e1
  rw [e] at e2
  injection e2 with e2
  injection e2 with _ e2
  injection e2 with e2 _
  subst e2
  refine ⟨fun R hR => ?_, fun x h => ?_⟩
  · rw [hr R (fun x hx => hR x (by rw [hxs]; exact List.mem_append_right _ (List.mem_of_mem_head? hx))), h1 R (fun x hx => hR x (hsub x hx))]
  · refine fewFullOut_stays (P := fun n => ∃ z, rest.head? = some z ∧ DbTargets c.mode z.1.1 (V z.1.1 z.2).grp n) (hx x (hsub x h)).2
      (fun R hR => hr R (fun z hz ht => hR ⟨z, hz, ht⟩)) ?_ (h2 x h)
    rintro n hn ⟨z, hz, ht⟩
    have hp := hA.2
    rw [hxs] at hp
    exact (List.pairwise_append.1 hp).2.2 x h z (List.mem_of_mem_head? hz) n hn ht

theorem again_few_full {d : Disk} {mode : IOMode} {V : Job → FullPlan → View} {S : Job → FullPlan → Nat → Int → Int → ℚ → Prop}
    {ys : List ((Job × JobDb) × FullPlan)} {st st' : Store} (hO : OldFilesFewFull mode V ys st')
    (hy : ∀ y ∈ ys, FewFullJob d st mode y.1 y.2 (V y.1.1 y.2) (S y.1.1 y.2)) : ∀ y ∈ ys, FewFullJob d st' mode y.1 y.2 (V y.1.1 y.2) (S y.1.1 y.2) := by
  intro y h
  have ho := hO y h
  have H := hy y h
  exact ⟨H.fmt, H.inputs, fun h0 => ⟨(H.single h0).1, { (H.single h0).2 with old := ho }⟩, fun h0 h1 => ⟨(H.table h0 h1).1, { (H.table h0 h1).2 with old := ho }⟩,
    fun h0 h1 => { (H.stack h0 h1) with old := ho }⟩

/-- C101 (and C98): a run without mask with output to the bucket and without NoData cells, with several input files of some jobs, is stopped: the outputs of the jobs that are done are complete,
only files with names of outputs have changed, and the same command, started again (`dbs'`, `md'`: what the driver then does), stores what it would have stored. -/
theorem C101_db_few_full_plain {sys : Sys} (hrnd : ∀ v, CCGL.Spec.Representable .float v → sys.rnd v = v) {w : World} {md md' : MaskDb} {dbs dbs' : Nat → JobDb}
    {d : Disk} {st : Store} {args : List Str} {c : Cfg} {js : List Job} (hc : configure w args = .ok (.go c)) (hjs : jobs c = .ok js)
    (hu : c.useMongo = true) (hinc : c.incNodata = false) (hmode : Layers c.mode) (hno : c.maskPath = [])
    {xs ys done : List ((Job × JobDb) × FullPlan)} (hxs : withDb dbs js = xs.map (·.1)) (hys : withDb dbs' js = ys.map (·.1)) (hsame : SameFull xs ys)
    (hA : SeparateFull c.mode (fun j p => ownView j p.hdr p.val) xs)
    (hx : ∀ x ∈ xs, ((x.1.1.recls = true ∨ (WantsSingle c.mode ∧ (WantsAll c.mode → ∃ row col, HasValue (plainHdr x.1.1 x.2.hdr) (plainVal x.1.1 x.2.hdr x.2.val) row col))) ∧
        ∀ l ∈ x.2.rest, CCGL.Spec.CommonGrid l.hdr x.2.hdr) ∧ FewFullJob d st c.mode x.1 x.2 (ownView x.1.1 x.2.hdr x.2.val) (ownNum x.1.1 x.2.hdr x.2.val x.2.rest))
    (hy : ∀ x ∈ ys, FewFullJob d st c.mode x.1 x.2 (ownView x.1.1 x.2.hdr x.2.val) (ownNum x.1.1 x.2.hdr x.2.val x.2.rest)) {st1 : Store}
    (hs : StoppedDbFull sys md d c (fun j p => ownView j p.hdr p.val) xs st st1 done) (hO : OldFilesFewFull c.mode (fun j p => ownView j p.hdr p.val) ys st1) :
    (∀ R : CCGL.Spec.Key, (∀ x ∈ xs, ¬ DbTargets c.mode x.1.1 (ownView x.1.1 x.2.hdr x.2.val).grp R.name) → CCGL.Spec.filesOf st1 R = CCGL.Spec.filesOf st R) ∧
    (∀ x ∈ done, FewFullOut sys.rnd st1 c.mode x.1.1 x.2 (ownView x.1.1 x.2.hdr x.2.val) (plainNum x.1.1 x.2.hdr x.2.val x.2.rest) (ownNum x.1.1 x.2.hdr x.2.val x.2.rest) (HasValue (plainHdr x.1.1 x.2.hdr) (plainVal x.1.1 x.2.hdr x.2.val))) ∧
    ∃ st', runDb sys w md' dbs' d st1 args = .ok (0, d, st') ∧
      FewFullDone sys c.mode (fun j p => ownView j p.hdr p.val) (fun j p => plainNum j p.hdr p.val p.rest) (fun j p => ownNum j p.hdr p.val p.rest) (fun j p => HasValue (plainHdr j p.hdr) (plainVal j p.hdr p.val)) ys st1 st' := by
  have hl : loadMaskDb sys md d st c = .ok (.go none) := by
    unfold loadMaskDb
    rw [if_pos hno]
  obtain ⟨h1, h2⟩ := stoppedFewFull_leaves (M := none) (V := fun j p => ownView j p.hdr p.val) (N := fun j p => plainNum j p.hdr p.val p.rest) (S := fun j p => ownNum j p.hdr p.val p.rest) (C := fun j p => HasValue (plainHdr j p.hdr) (plainVal j p.hdr p.val))
    (ok := fun j p => (j.recls = true ∨ (WantsSingle c.mode ∧ (WantsAll c.mode → ∃ row col, HasValue (plainHdr j p.hdr) (plainVal j p.hdr p.val) row col))) ∧ ∀ l ∈ p.rest, CCGL.Spec.CommonGrid l.hdr p.hdr) hmode (by
      intro zs hP hF
      rw [hinc]
      exact C98_gfs_few_plain_jobs_partial hrnd hmode hP hF) (fun m hm => loadedDb_eq hm hl rfl) hx hA hs
  refine ⟨h1, h2, C98_gfs_few_plain_run_partial hrnd hc hjs hu hinc hmode hno hys (separateFull_apart (separateFull_same hsame hA))
    (fun y h => ⟨?_, again_few_full (S := fun j p => ownNum j p.hdr p.val p.rest) hO hy y h⟩)⟩
  obtain ⟨x, hx', e1, e2⟩ := same_mem_full hsame h
  rw [← e1, ← e2]
  exact (hx x hx').1

/-- C101 (and C98): the same in the mode MASK with a mask, if every job reclassifies, in a file or in the bucket, that no job stores. -/
theorem C101_db_few_full_mask {sys : Sys} (hrnd : ∀ v, CCGL.Spec.Representable .float v → sys.rnd v = v) {w : World} {md md' : MaskDb} {dbs dbs' : Nat → JobDb}
    {d : Disk} {st : Store} {args : List Str} {c : Cfg} {js : List Job} (hc : configure w args = .ok (.go c)) (hjs : jobs c = .ok js)
    (hu : c.useMongo = true) (hinc : c.incNodata = false) (hmode : c.mode = .mask) {hM : Header} {vM : Int → Int → ℚ}
    (hmask : MaskFrom sys md d st c hM vM) (hmask' : MaskFrom sys md' d st c hM vM)
    {xs ys done : List ((Job × JobDb) × FullPlan)} (hxs : withDb dbs js = xs.map (·.1)) (hys : withDb dbs' js = ys.map (·.1)) (hsame : SameFull xs ys)
    (hqn : c.maskFmt = .gfs → (∀ x ∈ xs, ¬ DbTargets .mask x.1.1 (maskedView x.1.1 hM vM x.2.hdr x.2.val).grp c.maskPath) ∧ Char.ofNat 0 ∉ c.maskPath)
    (hA : SeparateFull .mask (fun j p => maskedView j hM vM p.hdr p.val) xs)
    (hx : ∀ x ∈ xs, (x.1.1.recls = true ∧ CCGL.Spec.CommonGrid x.2.hdr hM ∧ Overlaps hM vM x.2.hdr ∧ ∀ l ∈ x.2.rest, CCGL.Spec.CommonGrid l.hdr hM) ∧ FewFullJob d st .mask x.1 x.2 (maskedView x.1.1 hM vM x.2.hdr x.2.val) (maskNum x.1.1 hM vM x.2.hdr x.2.val x.2.rest))
    (hy : ∀ x ∈ ys, FewFullJob d st .mask x.1 x.2 (maskedView x.1.1 hM vM x.2.hdr x.2.val) (maskNum x.1.1 hM vM x.2.hdr x.2.val x.2.rest)) {st1 : Store}
    (hs : StoppedDbFull sys md d c (fun j p => maskedView j hM vM p.hdr p.val) xs st st1 done) (hO : OldFilesFewFull .mask (fun j p => maskedView j hM vM p.hdr p.val) ys st1) :
    (∀ R : CCGL.Spec.Key, (∀ x ∈ xs, ¬ DbTargets .mask x.1.1 (maskedView x.1.1 hM vM x.2.hdr x.2.val).grp R.name) → CCGL.Spec.filesOf st1 R = CCGL.Spec.filesOf st R) ∧
    (∀ x ∈ done, FewFullOut sys.rnd st1 .mask x.1.1 x.2 (maskedView x.1.1 hM vM x.2.hdr x.2.val) (maskNum x.1.1 hM vM x.2.hdr x.2.val x.2.rest) (maskNum x.1.1 hM vM x.2.hdr x.2.val x.2.rest) (HasValue hM vM)) ∧
    ∃ st', runDb sys w md' dbs' d st1 args = .ok (0, d, st') ∧
      FewFullDone sys .mask (fun j p => maskedView j hM vM p.hdr p.val) (fun j p => maskNum j hM vM p.hdr p.val p.rest) (fun j p => maskNum j hM vM p.hdr p.val p.rest) (fun _ _ => HasValue hM vM) ys st1 st' := by
  obtain ⟨M, eM, hm⟩ := mask_is hmask
  have hp : prepareMask c.mode (some ⟨M, []⟩) = .ok (some ⟨M, []⟩) := by
    unfold prepareMask
    dsimp only
    rw [if_pos hmode]
  obtain ⟨h1, h2⟩ := stoppedFewFull_leaves (M := some ⟨M, []⟩) (V := fun j p => maskedView j hM vM p.hdr p.val) (N := fun j p => maskNum j hM vM p.hdr p.val p.rest) (S := fun j p => maskNum j hM vM p.hdr p.val p.rest) (C := fun _ _ => HasValue hM vM)
    (ok := fun j p => j.recls = true ∧ CCGL.Spec.CommonGrid p.hdr hM ∧ Overlaps hM vM p.hdr ∧ ∀ l ∈ p.rest, CCGL.Spec.CommonGrid l.hdr hM) (.inl hmode) (by
      intro zs hP hF
      rw [hmode] at hP hF ⊢
      rw [hinc]
      exact C98_gfs_few_mask_jobs_partial hrnd hm hP hF) (fun m hm' => loadedDb_eq hm' eM hp) (by rw [hmode]; exact hx) (by rw [hmode]; exact hA) hs
  rw [hmode] at h1 h2
  refine ⟨h1, h2, C98_gfs_few_mask_run_partial hrnd hc hjs hu hinc hmode
    (mask_stays (P := fun n => ∃ x ∈ xs, DbTargets .mask x.1.1 (maskedView x.1.1 hM vM x.2.hdr x.2.val).grp n) (fun R hR => h1 R (fun x hx ht => hR ⟨x, hx, ht⟩))
      (fun hg => ⟨fun ⟨x, hx, ht⟩ => (hqn hg).1 x hx ht, (hqn hg).2⟩) hmask') hys (separateFull_apart (separateFull_same hsame hA))
    (fun y h => ⟨?_, again_few_full (S := fun j p => maskNum j hM vM p.hdr p.val p.rest) hO hy y h⟩)⟩
  obtain ⟨x, hx', e1, e2⟩ := same_mem_full hsame h
  rw [← e1, ← e2]
  exact (hx x hx').1

/-- C101 (and C98): the same in the modes DEC and MASKDEC. -/
theorem C101_db_few_full_units {sys : Sys} (hrnd : ∀ v, CCGL.Spec.Representable .float v → sys.rnd v = v) {w : World} {md md' : MaskDb} {dbs dbs' : Nat → JobDb}
    {d : Disk} {st : Store} {args : List Str} {c : Cfg} {js : List Job} (hc : configure w args = .ok (.go c)) (hjs : jobs c = .ok js)
    (hu : c.useMongo = true) (hinc : c.incNodata = false) (hmode : c.mode = .dec ∨ c.mode = .maskdec) {hM : Header} {vM : Int → Int → ℚ}
    (hmask : MaskFrom sys md d st c hM vM) (hmask' : MaskFrom sys md' d st c hM vM) (hco : CCGL.Spec.CoordsPresent hM) (hv : ∃ row col, HasValue hM vM row col)
    {xs ys done : List ((Job × JobDb) × FullPlan)} (hxs : withDb dbs js = xs.map (·.1)) (hys : withDb dbs' js = ys.map (·.1)) (hsame : SameFull xs ys)
    (hqn : c.maskFmt = .gfs → (∀ x ∈ xs, ¬ DbTargets c.mode x.1.1 (unitsView x.1.1 hM vM x.2.hdr x.2.val).grp c.maskPath) ∧ Char.ofNat 0 ∉ c.maskPath)
    (hA : SeparateFull c.mode (fun j p => unitsView j hM vM p.hdr p.val) xs)
    (hx : ∀ x ∈ xs, (CCGL.Spec.CommonGrid x.2.hdr hM ∧ Overlaps hM vM x.2.hdr ∧ ∀ l ∈ x.2.rest, CCGL.Spec.CommonGrid l.hdr hM) ∧ FewFullJob d st c.mode x.1 x.2 (unitsView x.1.1 hM vM x.2.hdr x.2.val) (maskNum x.1.1 hM vM x.2.hdr x.2.val x.2.rest))
    (hy : ∀ x ∈ ys, FewFullJob d st c.mode x.1 x.2 (unitsView x.1.1 hM vM x.2.hdr x.2.val) (maskNum x.1.1 hM vM x.2.hdr x.2.val x.2.rest)) {st1 : Store}
    (hs : StoppedDbFull sys md d c (fun j p => unitsView j hM vM p.hdr p.val) xs st st1 done) (hO : OldFilesFewFull c.mode (fun j p => unitsView j hM vM p.hdr p.val) ys st1) :
    (∀ R : CCGL.Spec.Key, (∀ x ∈ xs, ¬ DbTargets c.mode x.1.1 (unitsView x.1.1 hM vM x.2.hdr x.2.val).grp R.name) → CCGL.Spec.filesOf st1 R = CCGL.Spec.filesOf st R) ∧
    (∀ x ∈ done, FewFullOut sys.rnd st1 c.mode x.1.1 x.2 (unitsView x.1.1 hM vM x.2.hdr x.2.val) (maskNum x.1.1 hM vM x.2.hdr x.2.val x.2.rest) (maskNum x.1.1 hM vM x.2.hdr x.2.val x.2.rest) (HasValue hM vM)) ∧
    ∃ st', runDb sys w md' dbs' d st1 args = .ok (0, d, st') ∧
      FewFullDone sys c.mode (fun j p => unitsView j hM vM p.hdr p.val) (fun j p => maskNum j hM vM p.hdr p.val p.rest) (fun j p => maskNum j hM vM p.hdr p.val p.rest) (fun _ _ => HasValue hM vM) ys st1 st' := by
  obtain ⟨M, eM, hb, hcl, hg, hn, hval, h2⟩ := mask_source hmask
  obtain ⟨m, b, eb, hm⟩ := cutMask_of hb hcl hg hn hval h2 hv
  obtain ⟨h1, h2⟩ := stoppedFewFull_leaves (M := some m) (V := fun j p => unitsView j hM vM p.hdr p.val) (N := fun j p => maskNum j hM vM p.hdr p.val p.rest) (S := fun j p => maskNum j hM vM p.hdr p.val p.rest) (C := fun _ _ => HasValue hM vM)
    (ok := fun _ p => CCGL.Spec.CommonGrid p.hdr hM ∧ Overlaps hM vM p.hdr ∧ ∀ l ∈ p.rest, CCGL.Spec.CommonGrid l.hdr hM) (.inr hmode) (by
      intro zs hP hF
      rw [hinc]
      exact C98_gfs_few_groups_jobs_partial hrnd hm hco hmode hP hF)
    (fun m' hm' => loadedDb_eq hm' eM (prepare_cut (by rcases hmode with h | h <;> rw [h] <;> simp) eb)) hx hA hs
  refine ⟨h1, h2, C98_gfs_few_groups_run_partial hrnd hc hjs hu hinc hmode
    (mask_stays (P := fun n => ∃ x ∈ xs, DbTargets c.mode x.1.1 (unitsView x.1.1 hM vM x.2.hdr x.2.val).grp n) (fun R hR => h1 R (fun x hx ht => hR ⟨x, hx, ht⟩))
      (fun hg => ⟨fun ⟨x, hx, ht⟩ => (hqn hg).1 x hx ht, (hqn hg).2⟩) hmask') hco hv hys (separateFull_apart (separateFull_same hsame hA))
    (fun y h => ⟨?_, again_few_full (S := fun j p => maskNum j hM vM p.hdr p.val p.rest) hO hy y h⟩)⟩
  obtain ⟨x, hx', -, e2⟩ := same_mem_full hsame h
  rw [← e2]
  exact (hx x hx').1

end App
end CCGL
