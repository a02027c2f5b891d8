import Verif.Props.AppGfsLayers
import Verif.Props.AppGfsRun
/-!
# Runs of `mask_rasterio` whose jobs have several input files and output to GridFS (C92)
-/
namespace CCGL
namespace App
open Fs Disk Main Raster Gfs Disk.Spec App.Spec

/-- Two jobs do not store under the same name. -/
def Spec.StackApart (x y : (Job × JobDb) × StackPlan) : Prop := storedName x.1.1.out ≠ storedName y.1.1.out

/-- What a run of such jobs leaves in the bucket. -/
def Spec.StackDone (sys : Sys) (hdr : StackPlan → Header) (L : Job → StackPlan → Nat → Int → Int → ℚ → Prop) (xs : List ((Job × JobDb) × StackPlan)) (st st' : Store) : Prop :=
  (∀ R : CCGL.Spec.Key, (∀ x ∈ xs, R.name ≠ storedName x.1.1.out) → CCGL.Spec.filesOf st' R = CCGL.Spec.filesOf st R) ∧
  ∀ x ∈ xs, InBucketLayers sys st' x.1.1 (hdr x.2) x.2.hdr.noData (x.2.rest.length + 1) (L x.1.1 x.2)

theorem stack_batch {sys : Sys} {d : Disk} {I : Option RasterS → Prop} {ok : StackPlan → Prop} {hdr : StackPlan → Header}
    {L : Job → StackPlan → Nat → Int → Int → ℚ → Prop}
    (step : ∀ st m jj p, I m → ok p → StackJob d st jj p (hdr p) → ∃ (st' : Store) (m' : Option RasterS),
      layerJobDb sys true .mask (d, st, m) jj = .ok (d, st', m') ∧ I m' ∧
      StoredLayers sys st st' jj.1 jj.2 (hdr p) p.hdr.noData (p.rest.length + 1) (L jj.1 p)) :
    ∀ (xs : List ((Job × JobDb) × StackPlan)) (st : Store) (m : Option RasterS), I m →
      (∀ x ∈ xs, ok x.2 ∧ StackJob d st x.1 x.2 (hdr x.2)) → xs.Pairwise StackApart →
      ∃ st' m', (xs.map (·.1)).foldlM (layerJobDb sys true .mask) (d, st, m) = .ok (d, st', m') ∧ I m' ∧ StackDone sys hdr L xs st st' := by
  intro xs
  induction xs with
  | nil =>
    intro st m hI _ _
    exact ⟨st, m, rfl, hI, fun _ _ => rfl, by intro x h; cases h⟩
  | cons x xs ih =>
    intro st m hI hx hA
    obtain ⟨hA1, hA2⟩ := List.pairwise_cons.1 hA
    obtain ⟨hok, H⟩ := hx x List.mem_cons_self
    obtain ⟨st1, m1, e1, hI1, k⟩ := step st m x.1 x.2 hI hok H
    have hx1 : ∀ y ∈ xs, ok y.2 ∧ StackJob d st1 y.1 y.2 (hdr y.2) := by
      intro y hy
      obtain ⟨a, b⟩ := hx y (List.mem_cons_of_mem _ hy)
      refine ⟨a, { b with out := { b.out with old := ?_ } }⟩
      intro f hf hh
      have h1 : f ∈ CCGL.Spec.filesOf st1 ⟨storedName y.1.1.out, wholeOpts y.1.1.type⟩ := mem_filesOf.2 ⟨hf, hh⟩
      rw [k.others _ (fun h => hA1 y hy h.symm)] at h1
      exact b.out.old f (mem_filesOf.1 h1).1 hh
    obtain ⟨st2, m2, e2, hI2, k3, k4⟩ := ih st1 m1 hI1 hx1 hA2
    refine ⟨st2, m2, ?_, hI2, ?_, ?_⟩
    · rw [List.map_cons, List.foldlM_cons, e1]
      exact e2
    · intro R hR
      rw [k3 R (fun y hy => hR y (List.mem_cons_of_mem _ hy)), k.others R (hR x List.mem_cons_self)]
    · intro y hy
      rcases List.mem_cons.1 hy with rfl | hy
      · obtain ⟨w, w1, w2⟩ := k.file H.done
        exact ⟨w, w1, layers_congr H.out.key.name (k3 _ (fun z hz => hA1 z hz)) w2⟩
      · exact k4 y hy

/-- C92: the jobs of the mode MASK with several files and output to GridFS, with a mask. -/
theorem C92_gfs_mask_jobs_partial {sys : Sys} (hrnd : ∀ v, CCGL.Spec.Representable .float v → sys.rnd v = v) {d : Disk} {st : Store} {m : Raster} {hM : Header}
    {vM : Int → Int → ℚ} (hm : IsMask m hM vM) {xs : List ((Job × JobDb) × StackPlan)} (hA : xs.Pairwise StackApart)
    (hj : ∀ x ∈ xs, (CCGL.Spec.CommonGrid x.2.hdr hM ∧ Overlaps hM vM x.2.hdr ∧ ∀ l ∈ x.2.rest, CCGL.Spec.CommonGrid l.hdr hM) ∧ StackJob d st x.1 x.2 hM) :
    ∃ st', runJobsDb sys true .mask (some ⟨m, []⟩) d st (xs.map (·.1)) = .ok (0, d, st') ∧
      StackDone sys (fun _ => hM) (fun j p => MaskedLayers hM vM p.hdr p.val j.default.toQ p.rest) xs st st' := by
  obtain ⟨st', m', e, -, h⟩ := stack_batch (sys := sys) (d := d) (I := fun m => ∃ r, m = some ⟨r, []⟩ ∧ IsMask r hM vM)
    (ok := fun p => CCGL.Spec.CommonGrid p.hdr hM ∧ Overlaps hM vM p.hdr ∧ ∀ l ∈ p.rest, CCGL.Spec.CommonGrid l.hdr hM) (hdr := fun _ => hM)
    (L := fun j p => MaskedLayers hM vM p.hdr p.val j.default.toQ p.rest) (by
      rintro st _ jj p ⟨r, rfl, hr⟩ ⟨g1, g2, g3⟩ H
      obtain ⟨s, hs, hf⟩ := H.inputs
      obtain ⟨st', m', e, hm', hS⟩ := C92_gfs_mask_partial hrnd hr H.fmt.1 hs H.more.1 hf H.more.2 g1 g3 g2 H.fmt.2.1 H.fmt.2.2 H.out H.fits
      exact ⟨st', some ⟨m', []⟩, e, ⟨m', rfl, hm'⟩, hS⟩) xs st (some ⟨m, []⟩) ⟨m, rfl, hm⟩ hj hA
  exact ⟨st', runJobsDb_layers (.inl rfl) e, h⟩

/-- C92: the same without a mask. -/
theorem C92_gfs_plain_jobs_partial {sys : Sys} (hrnd : ∀ v, CCGL.Spec.Representable .float v → sys.rnd v = v) {d : Disk} {st : Store}
    {xs : List ((Job × JobDb) × StackPlan)} (hA : xs.Pairwise StackApart)
    (hj : ∀ x ∈ xs, (∀ l ∈ x.2.rest, CCGL.Spec.CommonGrid l.hdr x.2.hdr) ∧ StackJob d st x.1 x.2 x.2.hdr) :
    ∃ st', runJobsDb sys true .mask none d st (xs.map (·.1)) = .ok (0, d, st') ∧
      StackDone sys (fun p => p.hdr) (fun _ p => PlainLayers p.hdr p.val p.rest) xs st st' := by
  obtain ⟨st', m', e, -, h⟩ := stack_batch (sys := sys) (d := d) (I := fun m => m = none)
    (ok := fun p => ∀ l ∈ p.rest, CCGL.Spec.CommonGrid l.hdr p.hdr) (hdr := fun p => p.hdr) (L := fun _ p => PlainLayers p.hdr p.val p.rest) (by
      rintro st _ jj p rfl g H
      obtain ⟨s, hs, hf⟩ := H.inputs
      obtain ⟨st', e, hS⟩ := C92_gfs_plain_partial hrnd H.fmt.1 hs H.more.1 hf H.more.2 g H.fmt.2.1 H.fmt.2.2 H.out H.fits
      exact ⟨st', none, e, rfl, hS⟩) xs st none rfl hj hA
  exact ⟨st', runJobsDb_layers (.inl rfl) e, h⟩

/-- C92: a run of the program in the mode MASK with a mask in a file or in the bucket. -/
theorem C92_gfs_mask_run_partial {sys : Sys} (hrnd : ∀ v, CCGL.Spec.Representable .float v → sys.rnd v = v) {w : World} {md : MaskDb} {dbs : Nat → JobDb}
    {d : Disk} {st : Store} {args : List Str} {c : Cfg} {js : List Job} (hc : configure w args = .ok (.go c)) (hjs : jobs c = .ok js)
    (hu : c.useMongo = true) (hinc : c.incNodata = true) (hmode : c.mode = .mask) {hM : Header} {vM : Int → Int → ℚ} (hmask : MaskFrom sys md d st c hM vM)
    {xs : List ((Job × JobDb) × StackPlan)} (hxs : withDb dbs js = xs.map (·.1)) (hA : xs.Pairwise StackApart)
    (hj : ∀ x ∈ xs, (CCGL.Spec.CommonGrid x.2.hdr hM ∧ Overlaps hM vM x.2.hdr ∧ ∀ l ∈ x.2.rest, CCGL.Spec.CommonGrid l.hdr hM) ∧ StackJob d st x.1 x.2 hM) :
    ∃ st', runDb sys w md dbs d st args = .ok (0, d, st') ∧
      StackDone sys (fun _ => hM) (fun j p => MaskedLayers hM vM p.hdr p.val j.default.toQ p.rest) xs st st' := by
  obtain ⟨M, eM, hm⟩ := mask_is hmask
  obtain ⟨st', e, h⟩ := C92_gfs_mask_jobs_partial hrnd hm hA hj
  refine ⟨st', ?_, h⟩
  have hp : prepareMask c.mode (some ⟨M, []⟩) = .ok (some ⟨M, []⟩) := by
    unfold prepareMask
    dsimp only
    rw [if_pos hmode]
  rw [runDb_go hc hjs hu eM hp, hinc, hxs, hmode]
  exact e

/-- C92: a run of the program in the mode MASK without a mask. -/
theorem C92_gfs_plain_run_partial {sys : Sys} (hrnd : ∀ v, CCGL.Spec.Representable .float v → sys.rnd v = v) {w : World} {md : MaskDb} {dbs : Nat → JobDb}
    {d : Disk} {st : Store} {args : List Str} {c : Cfg} {js : List Job} (hc : configure w args = .ok (.go c)) (hjs : jobs c = .ok js)
    (hu : c.useMongo = true) (hinc : c.incNodata = true) (hmode : c.mode = .mask) (hno : c.maskPath = [])
    {xs : List ((Job × JobDb) × StackPlan)} (hxs : withDb dbs js = xs.map (·.1)) (hA : xs.Pairwise StackApart)
    (hj : ∀ x ∈ xs, (∀ l ∈ x.2.rest, CCGL.Spec.CommonGrid l.hdr x.2.hdr) ∧ StackJob d st x.1 x.2 x.2.hdr) :
    ∃ st', runDb sys w md dbs d st args = .ok (0, d, st') ∧
      StackDone sys (fun p => p.hdr) (fun _ p => PlainLayers p.hdr p.val p.rest) xs st st' := by
  obtain ⟨st', e, h⟩ := C92_gfs_plain_jobs_partial hrnd hA hj
  refine ⟨st', ?_, h⟩
  have hl : loadMaskDb sys md d st c = .ok (.go none) := by
    unfold loadMaskDb
    rw [if_pos hno]
  rw [runDb_go hc hjs hu hl rfl, hinc, hxs, hmode]
  exact e

end App
end CCGL
