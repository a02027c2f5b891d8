import Verif.Props.AppCrashDb
import Verif.Props.AppGfsFewDecJobs
/-!
# A run of `mask_rasterio` with output to the bucket and without NoData cells is stopped and started again (C101)
-/
namespace CCGL
namespace App
open Fs Disk Main Raster Gfs Disk.Spec App.Spec

namespace Spec

/-- As `StoppedDb`, for a run with `-include_nodata 0`. -/
def StoppedDbFew (sys : Sys) (md : MaskDb) (d : Disk) (c : Cfg) (V : Job → DecPlan → View) (xs : List ((Job × JobDb) × DecPlan)) (st st' : Store)
    (done : List ((Job × JobDb) × DecPlan)) : Prop :=
  ∃ m, LoadedDb sys md d st c m ∧ ∃ rest, xs = done ++ rest ∧ ∃ d1 st1 m1, (done.map (·.1)).foldlM (layerJobDb sys false c.mode) (d, st, m) = .ok (d1, st1, m1) ∧
    ∀ R : CCGL.Spec.Key, (∀ x, rest.head? = some x → ¬ DbTargets c.mode x.1.1 (V x.1.1 x.2).grp R.name) → CCGL.Spec.filesOf st' R = CCGL.Spec.filesOf st1 R

/-- As `OldFiles`, for a run with `-include_nodata 0`. -/
def OldFilesFew (mode : IOMode) (V : Job → DecPlan → View) (xs : List ((Job × JobDb) × DecPlan)) (st : Store) : Prop :=
  ∀ x ∈ xs, ∀ name, DbTargets mode x.1.1 (V x.1.1 x.2).grp name → ∀ f ∈ st, CCGL.Spec.Has f ⟨name, fewOpts x.1.1.type⟩ →
    CCGL.Spec.Has f ⟨name, outOpts .double x.1.2.own (fewOpts x.1.1.type) false⟩

end Spec

theorem stoppedDbFew_leaves {sys : Sys} {md : MaskDb} {d : Disk} {c : Cfg} {V : Job → DecPlan → View} {C : Job → DecPlan → Int → Int → Prop} {I : Option RasterS → Prop} {ok : Job → DecPlan → Prop}
    (step : ∀ st m jj p, I m → ok jj.1 p → FewDecJob d st c.mode jj p (V jj.1 p) → ∃ (st' : Store) (m' : Option RasterS),
      layerJobDb sys false c.mode (d, st, m) jj = .ok (d, st', m') ∧ I m' ∧ OthersStay st st' c.mode jj.1 (V jj.1 p).grp ∧
      FewDone sys.rnd st' c.mode jj.1 (V jj.1 p) (jobFill jj.1 p.hdr) p.lyrs (C jj.1 p))
    {xs done : List ((Job × JobDb) × DecPlan)} {st st' : Store} (hI : ∀ m, LoadedDb sys md d st c m → I m)
    (hx : ∀ x ∈ xs, ok x.1.1 x.2 ∧ FewDecJob d st c.mode x.1 x.2 (V x.1.1 x.2)) (hA : SeparateDb c.mode V xs) (hs : StoppedDbFew sys md d c V xs st st' done) :
    (∀ R : CCGL.Spec.Key, (∀ x ∈ xs, ¬ DbTargets c.mode x.1.1 (V x.1.1 x.2).grp R.name) → CCGL.Spec.filesOf st' R = CCGL.Spec.filesOf st R) ∧
    ∀ x ∈ done, FewDone sys.rnd st' c.mode x.1.1 (V x.1.1 x.2) (jobFill x.1.1 x.2.hdr) x.2.lyrs (C x.1.1 x.2) := by
  obtain ⟨m, hm, rest, hxs, d1, st1, m1, e, hr⟩ := hs
  have hsub : ∀ x ∈ done, x ∈ xs := fun x h => by rw [hxs]; exact List.mem_append_left _ h
  have hA' : done.Pairwise (DecApart c.mode V) := by
    have := separateDb_apart hA
    rw [hxs] at this
    exact (List.pairwise_append.1 this).1
  obtain ⟨st2, m2, e2, -, h1, h2⟩ := few_dec_batch step done st m (hI m hm) (fun x h => hx x (hsub x h)) hA'
  rw [e] at e2
  injection e2 with e2
  injection e2 with _ e2
  injection e2 with e2 _
  subst e2
  refine ⟨fun R hR => ?_, fun x h => ?_⟩
  · rw [hr R (fun x hx => hR x (by rw [hxs]; exact List.mem_append_right _ (List.mem_of_mem_head? hx))), h1 R (fun x hx => hR x (hsub x hx))]
  · refine fewDone_stays (P := fun n => ∃ z, rest.head? = some z ∧ DbTargets c.mode z.1.1 (V z.1.1 z.2).grp n) (hx x (hsub x h)).2.out
      (fun R hR => hr R (fun z hz ht => hR ⟨z, hz, ht⟩)) ?_ (h2 x h)
    rintro n hn ⟨z, hz, ht⟩
    have hp := hA.2
    rw [hxs] at hp
    exact (List.pairwise_append.1 hp).2.2 x h z (List.mem_of_mem_head? hz) n hn ht

/-- The job can be carried out again whatever has become of the bucket. -/
theorem fewJob_again {d : Disk} {st st' : Store} {mode : IOMode} {jj : Job × JobDb} {p : DecPlan} {V : View}
    (ho : ∀ name, DbTargets mode jj.1 V.grp name → ∀ f ∈ st', CCGL.Spec.Has f ⟨name, fewOpts jj.1.type⟩ → CCGL.Spec.Has f ⟨name, outOpts .double jj.2.own (fewOpts jj.1.type) false⟩)
    (H : FewDecJob d st mode jj p V) : FewDecJob d st' mode jj p V :=
  ⟨H.fmt, H.inFmt, H.input, H.one, { H.out with old := ho }⟩

/-- C101: a run without mask in the modes DEC and MASKDEC (and, if every job reclassifies, MASK) with output to the bucket and
without NoData cells is stopped: the outputs of the jobs that are done are complete, only files with names of outputs have changed,
and the same command, started again (`dbs'`, `md'`: what the driver then does), stores what it would have stored. -/
theorem C101_db_few_own {sys : Sys} (hrnd : ∀ v, CCGL.Spec.Representable .float v → sys.rnd v = v) {w : World} {md md' : MaskDb} {dbs dbs' : Nat → JobDb}
    {d : Disk} {st : Store} {args : List Str} {c : Cfg} {js : List Job} (hc : configure w args = .ok (.go c)) (hjs : jobs c = .ok js)
    (hu : c.useMongo = true) (hinc : c.incNodata = false) (hmode : Layers c.mode) (hno : c.maskPath = [])
    {xs ys done : List ((Job × JobDb) × DecPlan)} (hxs : withDb dbs js = xs.map (·.1)) (hys : withDb dbs' js = ys.map (·.1)) (hsame : SameJobs xs ys)
    (hA : SeparateDb c.mode (fun j p => ownView j p.hdr p.val) xs)
    (hx : ∀ x ∈ xs, (x.1.1.recls = true ∨ (WantsSingle c.mode ∧ (WantsAll c.mode →
        ∃ row col, HasValue (plainHdr x.1.1 x.2.hdr) (plainVal x.1.1 x.2.hdr x.2.val) row col))) ∧
      FewDecJob d st c.mode x.1 x.2 (ownView x.1.1 x.2.hdr x.2.val))
    (hy : ∀ x ∈ ys, FewDecJob d st c.mode x.1 x.2 (ownView x.1.1 x.2.hdr x.2.val)) {st1 : Store}
    (hs : StoppedDbFew sys md d c (fun j p => ownView j p.hdr p.val) xs st st1 done) (hO : OldFilesFew c.mode (fun j p => ownView j p.hdr p.val) ys st1) :
    (∀ R : CCGL.Spec.Key, (∀ x ∈ xs, ¬ DbTargets c.mode x.1.1 (ownView x.1.1 x.2.hdr x.2.val).grp R.name) → CCGL.Spec.filesOf st1 R = CCGL.Spec.filesOf st R) ∧
    (∀ x ∈ done, FewDone sys.rnd st1 c.mode x.1.1 (ownView x.1.1 x.2.hdr x.2.val) (jobFill x.1.1 x.2.hdr) x.2.lyrs
      (HasValue (plainHdr x.1.1 x.2.hdr) (plainVal x.1.1 x.2.hdr x.2.val))) ∧
    ∃ st', runDb sys w md' dbs' d st1 args = .ok (0, d, st') ∧ FewRunDone sys c.mode (fun j p => ownView j p.hdr p.val)
      (fun j p => HasValue (plainHdr j p.hdr) (plainVal j p.hdr p.val)) ys st1 st' := by
  have hl : loadMaskDb sys md d st c = .ok (.go none) := by
    unfold loadMaskDb
    rw [if_pos hno]
  obtain ⟨h1, h2⟩ := stoppedDbFew_leaves (sys := sys) (md := md) (d := d) (c := c) (V := fun j p => ownView j p.hdr p.val)
    (C := fun j p => HasValue (plainHdr j p.hdr) (plainVal j p.hdr p.val))
    (I := fun m => m = none) (ok := fun j p => j.recls = true ∨ (WantsSingle c.mode ∧ (WantsAll c.mode →
        ∃ row col, HasValue (plainHdr j p.hdr) (plainVal j p.hdr p.val) row col))) (by
      rintro st _ ⟨j, jd⟩ p rfl hok H
      obtain ⟨s, hs1, hs2⟩ := H.input
      cases hre : j.recls with
      | true =>
        obtain ⟨st', e, o1, o2⟩ := C90_few_recls hrnd H.inFmt hs1 hs2 H.fmt hre H.out
        exact ⟨st', none, e, rfl, o1, o2⟩
      | false =>
        have h1 := H.one hre
        rcases hok with hok | ⟨hok1, hok2⟩
        · rw [hre] at hok; cases hok
        have HO := H.out
        rw [h1] at HO
        obtain ⟨st', e, o1, o2⟩ := C90_few_own hrnd H.inFmt hs1 hs2 H.fmt hre hok1 hok2 HO
        exact ⟨st', none, e, rfl, o1, by rw [h1]; exact o2⟩) (fun m hm => loadedDb_eq hm hl rfl) hx hA hs
  refine ⟨h1, h2, C91_few_own_run hrnd hc hjs hu hinc hmode hno hys (separateDb_apart (separateDb_same hsame hA)) (fun y h => ⟨?_, fewJob_again (hO y h) (hy y h)⟩)⟩
  obtain ⟨x, hx', e1, e2⟩ := same_mem hsame h
  rw [← e1, ← e2]
  exact (hx x hx').1

/-- C101: the same in the mode MASK with a mask, if every job reclassifies, in a file or in the bucket, that no job stores. -/
theorem C101_db_few_mask {sys : Sys} (hrnd : ∀ v, CCGL.Spec.Representable .float v → sys.rnd v = v) {w : World} {md md' : MaskDb} {dbs dbs' : Nat → JobDb}
    {d : Disk} {st : Store} {args : List Str} {c : Cfg} {js : List Job} (hc : configure w args = .ok (.go c)) (hjs : jobs c = .ok js)
    (hu : c.useMongo = true) (hinc : c.incNodata = false) (hmode : c.mode = .mask) {hM : Header} {vM : Int → Int → ℚ}
    (hmask : MaskFrom sys md d st c hM vM) (hmask' : MaskFrom sys md' d st c hM vM)
    {xs ys done : List ((Job × JobDb) × DecPlan)} (hxs : withDb dbs js = xs.map (·.1)) (hys : withDb dbs' js = ys.map (·.1)) (hsame : SameJobs xs ys)
    (hqn : c.maskFmt = .gfs → (∀ x ∈ xs, ¬ DbTargets .mask x.1.1 (maskedView x.1.1 hM vM x.2.hdr x.2.val).grp c.maskPath) ∧ Char.ofNat 0 ∉ c.maskPath)
    (hA : SeparateDb .mask (fun j p => maskedView j hM vM p.hdr p.val) xs)
    (hx : ∀ x ∈ xs, (x.1.1.recls = true ∧ CCGL.Spec.CommonGrid x.2.hdr hM ∧ Overlaps hM vM x.2.hdr) ∧ FewDecJob d st .mask x.1 x.2 (maskedView x.1.1 hM vM x.2.hdr x.2.val))
    (hy : ∀ x ∈ ys, FewDecJob d st .mask x.1 x.2 (maskedView x.1.1 hM vM x.2.hdr x.2.val)) {st1 : Store}
    (hs : StoppedDbFew sys md d c (fun j p => maskedView j hM vM p.hdr p.val) xs st st1 done)
    (hO : OldFilesFew .mask (fun j p => maskedView j hM vM p.hdr p.val) ys st1) :
    (∀ R : CCGL.Spec.Key, (∀ x ∈ xs, ¬ DbTargets .mask x.1.1 (maskedView x.1.1 hM vM x.2.hdr x.2.val).grp R.name) →
      CCGL.Spec.filesOf st1 R = CCGL.Spec.filesOf st R) ∧
    (∀ x ∈ done, FewDone sys.rnd st1 .mask x.1.1 (maskedView x.1.1 hM vM x.2.hdr x.2.val) (jobFill x.1.1 x.2.hdr) x.2.lyrs (HasValue hM vM)) ∧
    ∃ st', runDb sys w md' dbs' d st1 args = .ok (0, d, st') ∧ FewRunDone sys .mask (fun j p => maskedView j hM vM p.hdr p.val) (fun _ _ => HasValue hM vM) ys st1 st' := by
  obtain ⟨M, eM, hm⟩ := mask_is hmask
  have hp : prepareMask c.mode (some ⟨M, []⟩) = .ok (some ⟨M, []⟩) := by
    unfold prepareMask
    dsimp only
    rw [if_pos hmode]
  obtain ⟨h1, h2⟩ := stoppedDbFew_leaves (sys := sys) (md := md) (d := d) (c := c) (V := fun j p => maskedView j hM vM p.hdr p.val)
    (C := fun _ _ => HasValue hM vM) (I := fun x => ∃ m, x = some ⟨m, []⟩ ∧ IsMask m hM vM)
    (ok := fun j p => j.recls = true ∧ CCGL.Spec.CommonGrid p.hdr hM ∧ Overlaps hM vM p.hdr) (by
      rw [hmode]
      rintro st _ ⟨j, jd⟩ p ⟨m, rfl, hm⟩ ⟨hre, hg, hov⟩ H
      obtain ⟨s, hs1, hs2⟩ := H.input
      obtain ⟨st', m', e, hm', o1, o2⟩ := C90_few_mask_recls hrnd hm H.inFmt hs1 hs2 hg hov H.fmt hre H.out
      exact ⟨st', _, e, ⟨m', rfl, hm'⟩, o1, o2⟩) (fun m hm' => ⟨M, loadedDb_eq hm' eM hp, hm⟩) (by rw [hmode]; exact hx) (by rw [hmode]; exact hA) hs
  rw [hmode] at h1 h2
  refine ⟨h1, h2, C91_few_mask_recls_run hrnd hc hjs hu hinc hmode
    (mask_stays (P := fun n => ∃ x ∈ xs, DbTargets .mask x.1.1 (maskedView x.1.1 hM vM x.2.hdr x.2.val).grp n) (fun R hR => h1 R (fun x hx ht => hR ⟨x, hx, ht⟩))
      (fun hg => ⟨fun ⟨x, hx, ht⟩ => (hqn hg).1 x hx ht, (hqn hg).2⟩) hmask') hys (separateDb_apart (separateDb_same hsame hA)) (fun y h => ⟨?_, fewJob_again (hO y h) (hy y h)⟩)⟩
  obtain ⟨x, hx', e1, e2⟩ := same_mem hsame h
  rw [← e1, ← e2]
  exact (hx x hx').1

/-- C101: the same in the modes DEC and MASKDEC. -/
theorem C101_db_few_units {sys : Sys} (hrnd : ∀ v, CCGL.Spec.Representable .float v → sys.rnd v = v) {w : World} {md md' : MaskDb} {dbs dbs' : Nat → JobDb}
    {d : Disk} {st : Store} {args : List Str} {c : Cfg} {js : List Job} (hc : configure w args = .ok (.go c)) (hjs : jobs c = .ok js)
    (hu : c.useMongo = true) (hinc : c.incNodata = false) (hmode : c.mode = .dec ∨ c.mode = .maskdec) {hM : Header} {vM : Int → Int → ℚ}
    (hmask : MaskFrom sys md d st c hM vM) (hmask' : MaskFrom sys md' d st c hM vM) (hco : CCGL.Spec.CoordsPresent hM) (hv : ∃ row col, HasValue hM vM row col)
    {xs ys done : List ((Job × JobDb) × DecPlan)} (hxs : withDb dbs js = xs.map (·.1)) (hys : withDb dbs' js = ys.map (·.1)) (hsame : SameJobs xs ys)
    (hqn : c.maskFmt = .gfs → (∀ x ∈ xs, ¬ DbTargets c.mode x.1.1 (unitsView x.1.1 hM vM x.2.hdr x.2.val).grp c.maskPath) ∧ Char.ofNat 0 ∉ c.maskPath)
    (hA : SeparateDb c.mode (fun j p => unitsView j hM vM p.hdr p.val) xs)
    (hx : ∀ x ∈ xs, (CCGL.Spec.CommonGrid x.2.hdr hM ∧ Overlaps hM vM x.2.hdr) ∧ FewDecJob d st c.mode x.1 x.2 (unitsView x.1.1 hM vM x.2.hdr x.2.val))
    (hy : ∀ x ∈ ys, FewDecJob d st c.mode x.1 x.2 (unitsView x.1.1 hM vM x.2.hdr x.2.val)) {st1 : Store}
    (hs : StoppedDbFew sys md d c (fun j p => unitsView j hM vM p.hdr p.val) xs st st1 done)
    (hO : OldFilesFew c.mode (fun j p => unitsView j hM vM p.hdr p.val) ys st1) :
    (∀ R : CCGL.Spec.Key, (∀ x ∈ xs, ¬ DbTargets c.mode x.1.1 (unitsView x.1.1 hM vM x.2.hdr x.2.val).grp R.name) →
      CCGL.Spec.filesOf st1 R = CCGL.Spec.filesOf st R) ∧
    (∀ x ∈ done, FewDone sys.rnd st1 c.mode x.1.1 (unitsView x.1.1 hM vM x.2.hdr x.2.val) (jobFill x.1.1 x.2.hdr) x.2.lyrs (HasValue hM vM)) ∧
    ∃ st', runDb sys w md' dbs' d st1 args = .ok (0, d, st') ∧ FewRunDone sys c.mode (fun j p => unitsView j hM vM p.hdr p.val) (fun _ _ => HasValue hM vM) ys st1 st' := by
  obtain ⟨M, eM, hb, hcl, hg, hn, hval, h2⟩ := mask_source hmask
  obtain ⟨m, b, eb, hm⟩ := cutMask_of hb hcl hg hn hval h2 hv
  obtain ⟨h1, h2⟩ := stoppedDbFew_leaves (sys := sys) (md := md) (d := d) (c := c) (V := fun j p => unitsView j hM vM p.hdr p.val)
    (C := fun _ _ => HasValue hM vM) (I := fun x => x = some m) (ok := fun _ p => CCGL.Spec.CommonGrid p.hdr hM ∧ Overlaps hM vM p.hdr) (by
      rintro st _ ⟨j, jd⟩ p rfl ⟨hg, hov⟩ H
      obtain ⟨s, hs1, hs2⟩ := H.input
      cases hre : j.recls with
      | true =>
        obtain ⟨st', e, o1, o2⟩ := C90_few_units_recls hrnd hm H.inFmt hs1 hs2 hg hco hov H.fmt hre H.out
        exact ⟨st', _, e, rfl, o1, o2⟩
      | false =>
        have h1 := H.one hre
        have HO := H.out
        rw [h1] at HO
        obtain ⟨st', e, o1, o2⟩ := C90_few_units hrnd hm H.inFmt hs1 hs2 hg hco hov H.fmt hre hmode HO
        exact ⟨st', _, e, rfl, o1, by rw [h1]; exact o2⟩)
    (fun m' hm' => loadedDb_eq hm' eM (prepare_cut (by rcases hmode with h | h <;> rw [h] <;> simp) eb)) hx hA hs
  refine ⟨h1, h2, C91_few_units_run hrnd hc hjs hu hinc hmode
    (mask_stays (P := fun n => ∃ x ∈ xs, DbTargets c.mode x.1.1 (unitsView x.1.1 hM vM x.2.hdr x.2.val).grp n) (fun R hR => h1 R (fun x hx ht => hR ⟨x, hx, ht⟩))
      (fun hg => ⟨fun ⟨x, hx, ht⟩ => (hqn hg).1 x hx ht, (hqn hg).2⟩) hmask') hco hv hys (separateDb_apart (separateDb_same hsame hA))
    (fun y h => ⟨?_, fewJob_again (hO y h) (hy y h)⟩)⟩
  obtain ⟨x, hx', -, e2⟩ := same_mem hsame h
  rw [← e2]
  exact (hx x hx').1

end App
end CCGL
