import Verif.Props.AppGfsRun
/-!
# A run of `mask_rasterio` with output to the bucket is stopped and started again (C101)
-/
namespace CCGL
namespace App
open Fs Disk Main Raster Gfs Disk.Spec App.Spec

namespace Spec

/-- `m` is what the run works with as mask. -/
def LoadedDb (sys : Sys) (md : MaskDb) (d : Disk) (st : Store) (c : Cfg) (m : Option RasterS) : Prop :=
  ∃ m0, loadMaskDb sys md d st c = .ok (.go m0) ∧ prepareMask c.mode m0 = .ok m

/-- The buckets a run with the jobs `xs` can leave behind if it is stopped at some point: some jobs are done, one may be at work, and whatever it has done to the
files with the names of its outputs, no other file of the bucket has changed since. -/
def StoppedDb (sys : Sys) (md : MaskDb) (d : Disk) (c : Cfg) (V : Job → DecPlan → View) (xs : List ((Job × JobDb) × DecPlan)) (st st' : Store)
    (done : List ((Job × JobDb) × DecPlan)) : Prop :=
  ∃ m, LoadedDb sys md d st c m ∧ ∃ rest, xs = done ++ rest ∧ ∃ d1 st1 m1, (done.map (·.1)).foldlM (layerJobDb sys true c.mode) (d, st, m) = .ok (d1, st1, m1) ∧
    ∀ R : CCGL.Spec.Key, (∀ x, rest.head? = some x → ¬ DbTargets c.mode x.1.1 (V x.1.1 x.2).grp R.name) → CCGL.Spec.filesOf st' R = CCGL.Spec.filesOf st1 R

/-- No job reads what a job of the run stores, and no two jobs store a file with the same name. -/
def SeparateDb (mode : IOMode) (V : Job → DecPlan → View) (xs : List ((Job × JobDb) × DecPlan)) : Prop :=
  (∀ x ∈ xs, ∀ y ∈ xs, y.1.1.inFmt = .gfs → ∀ n ∈ y.1.1.inputs, ¬ DbTargets mode x.1.1 (V x.1.1 x.2).grp n) ∧
  xs.Pairwise (fun a b => ∀ n, DbTargets mode a.1.1 (V a.1.1 a.2).grp n → ¬ DbTargets mode b.1.1 (V b.1.1 b.2).grp n)

/-- The same jobs and rasters; the driver may behave differently. -/
def SameJobs (xs ys : List ((Job × JobDb) × DecPlan)) : Prop := ys.map (fun x => (x.1.1, x.2)) = xs.map (fun x => (x.1.1, x.2))

/-- The files with names of outputs that the options of the job find have the other options its outputs get. The program stores no others. -/
def OldFiles (mode : IOMode) (V : Job → DecPlan → View) (xs : List ((Job × JobDb) × DecPlan)) (st : Store) : Prop :=
  ∀ x ∈ xs, ∀ name, DbTargets mode x.1.1 (V x.1.1 x.2).grp name → ∀ f ∈ st, CCGL.Spec.Has f ⟨name, wholeOpts x.1.1.type⟩ →
    CCGL.Spec.Has f ⟨name, outOpts .double x.1.2.own (wholeOpts x.1.1.type) true⟩

end Spec

theorem same_mem {xs ys : List ((Job × JobDb) × DecPlan)} (h : SameJobs xs ys) {y} (hy : y ∈ ys) : ∃ x ∈ xs, x.1.1 = y.1.1 ∧ x.2 = y.2 := by
  have : (y.1.1, y.2) ∈ xs.map (fun x => (x.1.1, x.2)) := by
    rw [← h]
    exact List.mem_map_of_mem hy
  obtain ⟨x, hx, e⟩ := List.mem_map.1 this
  injection e with e1 e2
  exact ⟨x, hx, e1, e2⟩

theorem separateDb_apart {mode : IOMode} {V : Job → DecPlan → View} {xs : List ((Job × JobDb) × DecPlan)} (h : SeparateDb mode V xs) :
    xs.Pairwise (DecApart mode V) := by
  refine (List.pairwise_iff_forall_sublist.2 fun {a b} hs => ?_)
  have ha : a ∈ xs := hs.subset (by simp)
  have hb : b ∈ xs := hs.subset (by simp)
  intro n hn
  exact ⟨(List.pairwise_iff_forall_sublist.1 h.2 hs) n hn, fun hg hi => h.1 a ha b hb hg n hi hn⟩

theorem separateDb_same {mode : IOMode} {V : Job → DecPlan → View} {xs ys : List ((Job × JobDb) × DecPlan)} (hs : SameJobs xs ys) (h : SeparateDb mode V xs) :
    SeparateDb mode V ys := by
  constructor
  · intro x hx y hy hg n hn
    obtain ⟨x', hx', e1, e2⟩ := same_mem hs hx
    obtain ⟨y', hy', e3, e4⟩ := same_mem hs hy
    rw [← e1, ← e2]
    rw [← e3] at hg hn
    exact h.1 x' hx' y' hy' hg n hn
  · have h1 : (xs.map (fun x => (x.1.1, x.2))).Pairwise (fun a b => ∀ n, DbTargets mode a.1 (V a.1 a.2).grp n → ¬ DbTargets mode b.1 (V b.1 b.2).grp n) :=
      List.pairwise_map.2 h.2
    rw [← hs] at h1
    exact List.pairwise_map.1 h1

/-- A job can be carried out again whatever has become of files other than its input. -/
theorem decJob_again {sys : Sys} {d : Disk} {st st' : Store} {mode : IOMode} {own : Bool} {jj : Job × JobDb} {p : DecPlan} {V : View} {P : Str → Prop}
    (he : ∀ R : CCGL.Spec.Key, ¬ P R.name → CCGL.Spec.filesOf st' R = CCGL.Spec.filesOf st R) (hi : jj.1.inFmt = .gfs → ∀ n ∈ jj.1.inputs, ¬ P n)
    (ho : ∀ name, DbTargets mode jj.1 V.grp name → ∀ f ∈ st', CCGL.Spec.Has f ⟨name, wholeOpts jj.1.type⟩ → CCGL.Spec.Has f ⟨name, outOpts .double jj.2.own (wholeOpts jj.1.type) true⟩)
    (H : DecJob sys d st mode own jj p V) : DecJob sys d st' mode own jj p V :=
  ⟨H.fmt, H.kind, input_stays he H.nul hi H.input, H.nul, { H.out with old := ho }⟩

theorem stoppedDb_leaves {sys : Sys} {md : MaskDb} {d : Disk} {c : Cfg} {own : Bool} {V : Job → DecPlan → View} {I : Option RasterS → Prop} {ok : DecPlan → Prop}
    (step : ∀ st m jj p, I m → ok p → DecJob sys d st c.mode own jj p (V jj.1 p) → ∃ (st' : Store) (m' : Option RasterS),
      layerJobDb sys true c.mode (d, st, m) jj = .ok (d, st', m') ∧ I m' ∧ OthersStay st st' c.mode jj.1 (V jj.1 p).grp ∧
      DbDone sys.rnd st' c.mode jj.1 (V jj.1 p) (jobFill jj.1 p.hdr) p.lyrs)
    {xs done : List ((Job × JobDb) × DecPlan)} {st st' : Store} (hI : ∀ m, LoadedDb sys md d st c m → I m)
    (hx : ∀ x ∈ xs, ok x.2 ∧ DecJob sys d st c.mode own x.1 x.2 (V x.1.1 x.2)) (hA : SeparateDb c.mode V xs) (hs : StoppedDb sys md d c V xs st st' done) :
    (∀ R : CCGL.Spec.Key, (∀ x ∈ xs, ¬ DbTargets c.mode x.1.1 (V x.1.1 x.2).grp R.name) → CCGL.Spec.filesOf st' R = CCGL.Spec.filesOf st R) ∧
    ∀ x ∈ done, DbDone sys.rnd st' c.mode x.1.1 (V x.1.1 x.2) (jobFill x.1.1 x.2.hdr) x.2.lyrs := by
  obtain ⟨m, hm, rest, hxs, d1, st1, m1, e, hr⟩ := hs
  have hsub : ∀ x ∈ done, x ∈ xs := fun x h => by rw [hxs]; exact List.mem_append_left _ h
  have hA' : done.Pairwise (DecApart c.mode V) := by
    have := separateDb_apart hA
    rw [hxs] at this
    exact (List.pairwise_append.1 this).1
  obtain ⟨st2, m2, e2, -, h1, h2⟩ := dec_batch step done st m (hI m hm) (fun x h => hx x (hsub x h)) hA'
  rw [e] at e2
  injection e2 with e2
  injection e2 with _ e2
  injection e2 with e2 _
  subst e2
  refine ⟨fun R hR => ?_, fun x h => ?_⟩
  · rw [hr R (fun x hx => hR x (by rw [hxs]; exact List.mem_append_right _ (List.mem_of_mem_head? hx))), h1 R (fun x hx => hR x (hsub x hx))]
  · refine done_stays (P := fun n => ∃ z, rest.head? = some z ∧ DbTargets c.mode z.1.1 (V z.1.1 z.2).grp n) (hx x (hsub x h)).2.out
      (fun R hR => hr R (fun z hz ht => hR ⟨z, hz, ht⟩)) ?_ (h2 x h)
    rintro n hn ⟨z, hz, ht⟩
    have hp := hA.2
    rw [hxs] at hp
    exact (List.pairwise_append.1 hp).2.2 x h z (List.mem_of_mem_head? hz) n hn ht

theorem again_all {sys : Sys} {d : Disk} {mode : IOMode} {own : Bool} {V : Job → DecPlan → View} {xs ys : List ((Job × JobDb) × DecPlan)} {st st' : Store}
    (hs : SameJobs xs ys) (hA : SeparateDb mode V xs) (hO : OldFiles mode V ys st')
    (he : ∀ R : CCGL.Spec.Key, (∀ x ∈ xs, ¬ DbTargets mode x.1.1 (V x.1.1 x.2).grp R.name) → CCGL.Spec.filesOf st' R = CCGL.Spec.filesOf st R)
    (hy : ∀ y ∈ ys, DecJob sys d st mode own y.1 y.2 (V y.1.1 y.2)) : ∀ y ∈ ys, DecJob sys d st' mode own y.1 y.2 (V y.1.1 y.2) := by
  intro y h
  obtain ⟨y', hy', e3, e4⟩ := same_mem hs h
  refine decJob_again (P := fun n => ∃ x ∈ xs, DbTargets mode x.1.1 (V x.1.1 x.2).grp n) (fun R hR => he R (fun x hx ht => hR ⟨x, hx, ht⟩)) ?_ (hO y h) (hy y h)
  rintro hg n hn ⟨x, hx, ht⟩
  rw [← e3] at hg hn
  exact hA.1 x hx y' hy' hg n hn ht

theorem holds_any {rnd : ℚ → ℚ} {st st' : Store} {name : Str} {o : Opts} {h : Header} {v : Int → Int → ℚ} (hg : CCGL.Spec.GoodKey ⟨name, o⟩)
    (he : CCGL.Spec.filesOf st' ⟨name, o⟩ = CCGL.Spec.filesOf st ⟨name, o⟩) (H : HoldsGrid rnd st name o h v) : HoldsGrid rnd st' name o h v := by
  refine ⟨H.header, fun ok1 ok2 h1 h2 => ?_⟩
  have := readGridfs_congr (rnd := rnd) (T := .double) (ok1 := ok1) (ok2 := ok2) (rd := true) (h := initialHeader) (s := initialStr) hg he
  dsimp only at this
  rw [this]
  exact H.reads ok1 ok2 h1 h2

/-- The mask is read as before if it is not an output. -/
theorem mask_stays {sys : Sys} {md : MaskDb} {d : Disk} {st st' : Store} {c : Cfg} {hM : Header} {vM : Int → Int → ℚ} {P : Str → Prop}
    (he : ∀ R : CCGL.Spec.Key, ¬ P R.name → CCGL.Spec.filesOf st' R = CCGL.Spec.filesOf st R) (hi : c.maskFmt = .gfs → ¬ P c.maskPath ∧ Char.ofNat 0 ∉ c.maskPath)
    (H : MaskFrom sys md d st c hM vM) : MaskFrom sys md d st' c hM vM := by
  cases H with
  | file a b => exact .file a b
  | bucket a b e f g h i => exact .bucket a b e (holds_any (maskOpts_good (hi a).2) (he _ (hi a).1) f) g h i

theorem loadedDb_eq {sys : Sys} {md : MaskDb} {d : Disk} {st : Store} {c : Cfg} {m m0 m' : Option RasterS} (h : LoadedDb sys md d st c m)
    (e1 : loadMaskDb sys md d st c = .ok (.go m0)) (e2 : prepareMask c.mode m0 = .ok m') : m = m' := by
  obtain ⟨n, f1, f2⟩ := h
  rw [e1] at f1
  injection f1 with f1
  injection f1 with f1
  subst f1
  rw [e2] at f2
  exact (Out.ok.inj f2).symm

/-- C101: a run without mask with output to the bucket is stopped: the outputs of the jobs that are done are complete, only files with names of outputs have changed,
and the same command, started again (`dbs'`, `md'`: what the driver then does), stores what it would have stored. -/
theorem C101_db_plain {sys : Sys} (hrnd : ∀ v, CCGL.Spec.Representable .float v → sys.rnd v = v) {w : World} {md md' : MaskDb} {dbs dbs' : Nat → JobDb}
    {d : Disk} {st : Store} {args : List Str} {c : Cfg} {js : List Job} (hc : configure w args = .ok (.go c)) (hjs : jobs c = .ok js)
    (hu : c.useMongo = true) (hinc : c.incNodata = true) (hmode : Layers c.mode) (hno : c.maskPath = [])
    {xs ys done : List ((Job × JobDb) × DecPlan)} (hxs : withDb dbs js = xs.map (·.1)) (hys : withDb dbs' js = ys.map (·.1)) (hsame : SameJobs xs ys)
    (hA : SeparateDb c.mode (fun j p => ownView j p.hdr p.val) xs)
    (hx : ∀ x ∈ xs, DecJob sys d st c.mode true x.1 x.2 (ownView x.1.1 x.2.hdr x.2.val))
    (hy : ∀ x ∈ ys, DecJob sys d st c.mode true x.1 x.2 (ownView x.1.1 x.2.hdr x.2.val)) {st1 : Store}
    (hs : StoppedDb sys md d c (fun j p => ownView j p.hdr p.val) xs st st1 done) (hO : OldFiles c.mode (fun j p => ownView j p.hdr p.val) ys st1) :
    (∀ R : CCGL.Spec.Key, (∀ x ∈ xs, ¬ DbTargets c.mode x.1.1 (ownView x.1.1 x.2.hdr x.2.val).grp R.name) → CCGL.Spec.filesOf st1 R = CCGL.Spec.filesOf st R) ∧
    (∀ x ∈ done, DbDone sys.rnd st1 c.mode x.1.1 (ownView x.1.1 x.2.hdr x.2.val) (jobFill x.1.1 x.2.hdr) x.2.lyrs) ∧
    ∃ st', runDb sys w md' dbs' d st1 args = .ok (0, d, st') ∧ RunDone sys c.mode (fun j p => ownView j p.hdr p.val) ys st1 st' := by
  have hl : loadMaskDb sys md d st c = .ok (.go none) := by
    unfold loadMaskDb
    rw [if_pos hno]
  obtain ⟨h1, h2⟩ := stoppedDb_leaves (sys := sys) (md := md) (d := d) (c := c) (own := true) (V := fun j p => ownView j p.hdr p.val)
    (I := fun m => m = none) (ok := fun _ => True) (by
      rintro st _ ⟨j, jd⟩ p rfl - H
      rcases H.kind with h | ⟨h1, h3, h4⟩
      · obtain ⟨st', e, o1, o2⟩ := C90_recls_partial hrnd H.input H.fmt h H.out
        exact ⟨st', none, e, rfl, o1, o2⟩
      · have HO := H.out
        rw [h3] at HO
        by_cases hmk : c.mode = .mask
        · rw [hmk] at HO ⊢
          obtain ⟨st', e, o1, o2⟩ := C90_plain_partial hrnd H.input H.fmt h1 HO
          exact ⟨st', none, e, rfl, o1, by rw [h3]; exact o2⟩
        · have h2 : WantsSingle c.mode := hmode.resolve_left hmk
          obtain ⟨st', e, o1, o2⟩ := C90_own_partial hrnd H.input H.fmt h1 h2 (h4 rfl h2) HO
          exact ⟨st', none, e, rfl, o1, by rw [h3]; exact o2⟩) (fun m hm => loadedDb_eq hm hl rfl) (fun x h => ⟨trivial, hx x h⟩) hA hs
  exact ⟨h1, h2, C91_plain_run_partial hrnd hc hjs hu hinc hmode hno hys (separateDb_apart (separateDb_same hsame hA)) (again_all hsame hA hO h1 hy)⟩

/-- C101: the same in the mode MASK with a mask, in a file or in the bucket, that no job stores. -/
theorem C101_db_mask {sys : Sys} (hrnd : ∀ v, CCGL.Spec.Representable .float v → sys.rnd v = v) {w : World} {md md' : MaskDb} {dbs dbs' : Nat → JobDb}
    {d : Disk} {st : Store} {args : List Str} {c : Cfg} {js : List Job} (hc : configure w args = .ok (.go c)) (hjs : jobs c = .ok js)
    (hu : c.useMongo = true) (hinc : c.incNodata = true) (hmode : c.mode = .mask) {hM : Header} {vM : Int → Int → ℚ}
    (hmask : MaskFrom sys md d st c hM vM) (hmask' : MaskFrom sys md' d st c hM vM)
    {xs ys done : List ((Job × JobDb) × DecPlan)} (hxs : withDb dbs js = xs.map (·.1)) (hys : withDb dbs' js = ys.map (·.1)) (hsame : SameJobs xs ys)
    (hqn : c.maskFmt = .gfs → (∀ x ∈ xs, ¬ DbTargets .mask x.1.1 (maskedView x.1.1 hM vM x.2.hdr x.2.val).grp c.maskPath) ∧ Char.ofNat 0 ∉ c.maskPath)
    (hA : SeparateDb .mask (fun j p => maskedView j hM vM p.hdr p.val) xs)
    (hx : ∀ x ∈ xs, (CCGL.Spec.CommonGrid x.2.hdr hM ∧ Overlaps hM vM x.2.hdr) ∧ DecJob sys d st .mask false x.1 x.2 (maskedView x.1.1 hM vM x.2.hdr x.2.val))
    (hy : ∀ x ∈ ys, DecJob sys d st .mask false x.1 x.2 (maskedView x.1.1 hM vM x.2.hdr x.2.val)) {st1 : Store}
    (hs : StoppedDb sys md d c (fun j p => maskedView j hM vM p.hdr p.val) xs st st1 done)
    (hO : OldFiles .mask (fun j p => maskedView j hM vM p.hdr p.val) ys st1) :
    (∀ R : CCGL.Spec.Key, (∀ x ∈ xs, ¬ DbTargets .mask x.1.1 (maskedView x.1.1 hM vM x.2.hdr x.2.val).grp R.name) →
      CCGL.Spec.filesOf st1 R = CCGL.Spec.filesOf st R) ∧
    (∀ x ∈ done, DbDone sys.rnd st1 .mask x.1.1 (maskedView x.1.1 hM vM x.2.hdr x.2.val) (jobFill x.1.1 x.2.hdr) x.2.lyrs) ∧
    ∃ st', runDb sys w md' dbs' d st1 args = .ok (0, d, st') ∧ RunDone sys .mask (fun j p => maskedView j hM vM p.hdr p.val) ys st1 st' := by
  obtain ⟨M, eM, hm⟩ := mask_is hmask
  have hp : prepareMask c.mode (some ⟨M, []⟩) = .ok (some ⟨M, []⟩) := by
    unfold prepareMask
    dsimp only
    rw [if_pos hmode]
  obtain ⟨h1, h2⟩ := stoppedDb_leaves (sys := sys) (md := md) (d := d) (c := c) (own := false) (V := fun j p => maskedView j hM vM p.hdr p.val)
    (I := fun x => ∃ m, x = some ⟨m, []⟩ ∧ IsMask m hM vM) (ok := fun p => CCGL.Spec.CommonGrid p.hdr hM ∧ Overlaps hM vM p.hdr) (by
      rw [hmode]
      rintro st _ ⟨j, jd⟩ p ⟨m, rfl, hm⟩ ⟨hg, hov⟩ H
      rcases H.kind with h | ⟨h1, h3, -⟩
      · obtain ⟨st', m', e, hm', o1, o2⟩ := C90_mask_recls_partial hrnd hm H.input hg hov H.fmt h H.out
        exact ⟨st', _, e, ⟨m', rfl, hm'⟩, o1, o2⟩
      · have HO := H.out
        rw [h3] at HO
        obtain ⟨st', m', e, hm', o1, o2⟩ := C90_mask_partial hrnd hm H.input hg hov H.fmt h1 HO
        exact ⟨st', _, e, ⟨m', rfl, hm'⟩, o1, by rw [h3]; exact o2⟩) (fun m hm' => ⟨M, loadedDb_eq hm' eM hp, hm⟩) (by rw [hmode]; exact hx) (by rw [hmode]; exact hA) hs
  rw [hmode] at h1 h2
  refine ⟨h1, h2, C91_mask_run_partial hrnd hc hjs hu hinc hmode
    (mask_stays (P := fun n => ∃ x ∈ xs, DbTargets .mask x.1.1 (maskedView x.1.1 hM vM x.2.hdr x.2.val).grp n) (fun R hR => h1 R (fun x hx ht => hR ⟨x, hx, ht⟩))
      (fun hg => ⟨fun ⟨x, hx, ht⟩ => (hqn hg).1 x hx ht, (hqn hg).2⟩) hmask') hys (separateDb_apart (separateDb_same hsame hA)) (fun y h => ⟨?_, again_all hsame hA hO h1 hy y h⟩)⟩
  obtain ⟨x, hx', -, e2⟩ := same_mem hsame h
  rw [← e2]
  exact (hx x hx').1

/-- C101: the same in the modes DEC and MASKDEC. -/
theorem C101_db_units {sys : Sys} (hrnd : ∀ v, CCGL.Spec.Representable .float v → sys.rnd v = v) {w : World} {md md' : MaskDb} {dbs dbs' : Nat → JobDb}
    {d : Disk} {st : Store} {args : List Str} {c : Cfg} {js : List Job} (hc : configure w args = .ok (.go c)) (hjs : jobs c = .ok js)
    (hu : c.useMongo = true) (hinc : c.incNodata = true) (hmode : c.mode = .dec ∨ c.mode = .maskdec) {hM : Header} {vM : Int → Int → ℚ}
    (hmask : MaskFrom sys md d st c hM vM) (hmask' : MaskFrom sys md' d st c hM vM) (hco : CCGL.Spec.CoordsPresent hM) (hv : ∃ row col, HasValue hM vM row col)
    {xs ys done : List ((Job × JobDb) × DecPlan)} (hxs : withDb dbs js = xs.map (·.1)) (hys : withDb dbs' js = ys.map (·.1)) (hsame : SameJobs xs ys)
    (hqn : c.maskFmt = .gfs → (∀ x ∈ xs, ¬ DbTargets c.mode x.1.1 (unitsView x.1.1 hM vM x.2.hdr x.2.val).grp c.maskPath) ∧ Char.ofNat 0 ∉ c.maskPath)
    (hA : SeparateDb c.mode (fun j p => unitsView j hM vM p.hdr p.val) xs)
    (hx : ∀ x ∈ xs, (CCGL.Spec.CommonGrid x.2.hdr hM ∧ Overlaps hM vM x.2.hdr) ∧ DecJob sys d st c.mode false x.1 x.2 (unitsView x.1.1 hM vM x.2.hdr x.2.val))
    (hy : ∀ x ∈ ys, DecJob sys d st c.mode false x.1 x.2 (unitsView x.1.1 hM vM x.2.hdr x.2.val)) {st1 : Store}
    (hs : StoppedDb sys md d c (fun j p => unitsView j hM vM p.hdr p.val) xs st st1 done)
    (hO : OldFiles c.mode (fun j p => unitsView j hM vM p.hdr p.val) ys st1) :
    (∀ R : CCGL.Spec.Key, (∀ x ∈ xs, ¬ DbTargets c.mode x.1.1 (unitsView x.1.1 hM vM x.2.hdr x.2.val).grp R.name) →
      CCGL.Spec.filesOf st1 R = CCGL.Spec.filesOf st R) ∧
    (∀ x ∈ done, DbDone sys.rnd st1 c.mode x.1.1 (unitsView x.1.1 hM vM x.2.hdr x.2.val) (jobFill x.1.1 x.2.hdr) x.2.lyrs) ∧
    ∃ st', runDb sys w md' dbs' d st1 args = .ok (0, d, st') ∧ RunDone sys c.mode (fun j p => unitsView j hM vM p.hdr p.val) ys st1 st' := by
  obtain ⟨M, eM, hb, hcl, hg, hn, hval, h2⟩ := mask_source hmask
  obtain ⟨m, b, eb, hm⟩ := cutMask_of hb hcl hg hn hval h2 hv
  obtain ⟨h1, h2⟩ := stoppedDb_leaves (sys := sys) (md := md) (d := d) (c := c) (own := false) (V := fun j p => unitsView j hM vM p.hdr p.val)
    (I := fun x => x = some m) (ok := fun p => CCGL.Spec.CommonGrid p.hdr hM ∧ Overlaps hM vM p.hdr) (by
      rintro st _ ⟨j, jd⟩ p rfl ⟨hg, hov⟩ H
      rcases H.kind with h | ⟨h1, h3, -⟩
      · obtain ⟨st', e, o1, o2⟩ := C90_units_recls_partial hrnd hm H.input hg hco hov H.fmt h H.out
        exact ⟨st', _, e, rfl, o1, o2⟩
      · have HO := H.out
        rw [h3] at HO
        obtain ⟨st', e, o1, o2⟩ := C90_units_partial hrnd hm H.input hg hco hov H.fmt h1 hmode HO
        exact ⟨st', _, e, rfl, o1, by rw [h3]; exact o2⟩)
    (fun m' hm' => loadedDb_eq hm' eM (prepare_cut (by rcases hmode with h | h <;> rw [h] <;> simp) eb)) hx hA hs
  refine ⟨h1, h2, C91_units_run_partial hrnd hc hjs hu hinc hmode
    (mask_stays (P := fun n => ∃ x ∈ xs, DbTargets c.mode x.1.1 (unitsView x.1.1 hM vM x.2.hdr x.2.val).grp n) (fun R hR => h1 R (fun x hx ht => hR ⟨x, hx, ht⟩))
      (fun hg => ⟨fun ⟨x, hx, ht⟩ => (hqn hg).1 x hx ht, (hqn hg).2⟩) hmask') hco hv hys (separateDb_apart (separateDb_same hsame hA))
    (fun y h => ⟨?_, again_all hsame hA hO h1 hy y h⟩)⟩
  obtain ⟨x, hx', -, e2⟩ := same_mem hsame h
  rw [← e2]
  exact (hx x hx').1

end App
end CCGL
