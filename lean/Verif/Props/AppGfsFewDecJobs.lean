import Verif.Props.AppGfsFewDec
import Verif.Props.AppGfsDecJobs
import Verif.Props.AppGfsFewJobs
import Verif.Props.AppGfsRun
/-!
# All jobs of a run that store groups of cells or reclassified grids in GridFS without NoData cells (C90, C91)
-/
namespace CCGL
namespace App
open Fs Disk Main Raster Gfs Disk.Spec App.Spec

/-- The job reads a file and can be carried out with output to the bucket without NoData cells: `V` is what its raster shows. -/
structure Spec.FewDecJob (d : Disk) (st : Store) (mode : IOMode) (jj : Job × JobDb) (p : DecPlan) (V : View) : Prop where
  fmt : jj.1.outFmt = .gfs
  inFmt : jj.1.inFmt = .sfile
  input : ∃ s, jj.1.inputs = [s] ∧ RasterFile d s p.hdr p.val
  one : jj.1.recls = false → p.lyrs = 1
  out : FewOut st mode jj.1 jj.2 V (jobFill jj.1 p.hdr) p.lyrs

theorem fewOut_stays {st st' : Store} {mode : IOMode} {j : Job} {jd : JobDb} {V : View} {fill : ℚ} {m : Int} {P : Str → Prop}
    (he : ∀ R : CCGL.Spec.Key, ¬ P R.name → CCGL.Spec.filesOf st' R = CCGL.Spec.filesOf st R) (hne : ∀ name, DbTargets mode j V.grp name → ¬ P name)
    (H : FewOut st mode j jd V fill m) : FewOut st' mode j jd V fill m := by
  refine { H with old := ?_ }
  intro name ht f hf hh
  have : f ∈ CCGL.Spec.filesOf st' ⟨name, fewOpts j.type⟩ := mem_filesOf.2 ⟨hf, hh⟩
  rw [he _ (hne name ht)] at this
  exact H.old name ht f (mem_filesOf.1 this).1 hh

theorem fewDone_stays {rnd : ℚ → ℚ} {st0 st st' : Store} {mode : IOMode} {j : Job} {jd : JobDb} {V : View} {fill : ℚ} {m : Int} {C : Int → Int → Prop}
    {P : Str → Prop} (O : FewOut st0 mode j jd V fill m)
    (he : ∀ R : CCGL.Spec.Key, ¬ P R.name → CCGL.Spec.filesOf st' R = CCGL.Spec.filesOf st R) (hne : ∀ name, DbTargets mode j V.grp name → ¬ P name)
    (H : FewDone rnd st mode j V fill m C) : FewDone rnd st' mode j V fill m C := by
  have hz : Char.ofNat 0 ∉ storedName j.out := by rw [stored_zero]; exact (few_file_key O 0).name
  refine ⟨?_, ?_, ?_⟩
  · intro hs k hk h0
    exact fewSingle_congr (few_file_key O k).name (he _ (hne _ (.inl ⟨hs, k, hk, rfl⟩))) (H.single hs k hk h0)
  · intro hre ha hp
    obtain ⟨w, h1, h2⟩ := H.all hre ha hp
    exact ⟨w, holdsSome_congr hz (he _ (hne _ (.inr ⟨ha, fun _ => hp, rfl⟩))) h1, h2⟩
  · intro hre ha
    obtain ⟨w, h1, h2⟩ := H.plain hre ha
    exact ⟨w, holdsCells_congr hz (he _ (hne _ (.inr ⟨ha, fun h => by (rw [hre] at h; cases h), rfl⟩))) h1, h2⟩

/-- All jobs with output to the bucket without NoData cells, given what one job does. -/
theorem few_dec_batch {sys : Sys} {d : Disk} {mode : IOMode} {V : Job → DecPlan → View} {C : Job → DecPlan → Int → Int → Prop} {I : Option RasterS → Prop}
    {ok : Job → DecPlan → Prop}
    (step : ∀ st m jj p, I m → ok jj.1 p → FewDecJob d st mode jj p (V jj.1 p) → ∃ (st' : Store) (m' : Option RasterS),
      layerJobDb sys false mode (d, st, m) jj = .ok (d, st', m') ∧ I m' ∧ OthersStay st st' mode jj.1 (V jj.1 p).grp ∧
      FewDone sys.rnd st' mode jj.1 (V jj.1 p) (jobFill jj.1 p.hdr) p.lyrs (C jj.1 p)) :
    ∀ (xs : List ((Job × JobDb) × DecPlan)) (st : Store) (m : Option RasterS), I m →
      (∀ x ∈ xs, ok x.1.1 x.2 ∧ FewDecJob d st mode x.1 x.2 (V x.1.1 x.2)) → xs.Pairwise (DecApart mode V) →
      ∃ st' m', (xs.map (·.1)).foldlM (layerJobDb sys false mode) (d, st, m) = .ok (d, st', m') ∧ I m' ∧
        (∀ R : CCGL.Spec.Key, (∀ x ∈ xs, ¬ DbTargets mode x.1.1 (V x.1.1 x.2).grp R.name) → CCGL.Spec.filesOf st' R = CCGL.Spec.filesOf st R) ∧
        ∀ x ∈ xs, FewDone sys.rnd st' mode x.1.1 (V x.1.1 x.2) (jobFill x.1.1 x.2.hdr) x.2.lyrs (C x.1.1 x.2) := by
  intro xs
  induction xs with
  | nil =>
    intro st m hI _ _
    exact ⟨st, m, rfl, hI, fun _ _ => rfl, by intro x h; cases h⟩
  | cons x xs ih =>
    intro st m hI hx hA
    obtain ⟨hA1, hA2⟩ := List.pairwise_cons.1 hA
    obtain ⟨hok, H⟩ := hx x List.mem_cons_self
    obtain ⟨st1, m1, e1, hI1, k1, k2⟩ := step st m x.1 x.2 hI hok H
    have k1' : ∀ R : CCGL.Spec.Key, ¬ DbTargets mode x.1.1 (V x.1.1 x.2).grp R.name → CCGL.Spec.filesOf st1 R = CCGL.Spec.filesOf st R :=
      fun R hR => k1 R (fun name hn he => hR (by rw [he]; exact hn))
    have hx1 : ∀ y ∈ xs, ok y.1.1 y.2 ∧ FewDecJob d st1 mode y.1 y.2 (V y.1.1 y.2) := by
      intro y hy
      obtain ⟨a, b⟩ := hx y (List.mem_cons_of_mem _ hy)
      refine ⟨a, ⟨b.fmt, b.inFmt, b.input, b.one, fewOut_stays k1' ?_ b.out⟩⟩
      intro n hn ht
      exact (hA1 y hy n ht).1 hn
    obtain ⟨st2, m2, e2, hI2, k3, k4⟩ := ih st1 m1 hI1 hx1 hA2
    refine ⟨st2, m2, ?_, hI2, ?_, ?_⟩
    · rw [List.map_cons, List.foldlM_cons, e1]
      exact e2
    · intro R hR
      rw [k3 R (fun y hy => hR y (List.mem_cons_of_mem _ hy)), k1' R (hR x List.mem_cons_self)]
    · intro y hy
      rcases List.mem_cons.1 hy with rfl | hy
      · refine fewDone_stays (P := fun n => ∃ z ∈ xs, DbTargets mode z.1.1 (V z.1.1 z.2).grp n) H.out (fun R hR => k3 R (fun z hz ht => hR ⟨z, hz, ht⟩)) ?_ k2
        rintro n hn ⟨z, hz, ht⟩
        exact (hA1 z hz n hn).1 ht
      · exact k4 y hy

theorem runJobsDb_layers_few {sys : Sys} {mode : IOMode} (h : Layers mode) {mask : Option RasterS} {d d' : Disk} {st st' : Store} {js : List (Job × JobDb)} {m'}
    (e : js.foldlM (layerJobDb sys false mode) (d, st, mask) = .ok (d', st', m')) : runJobsDb sys false mode mask d st js = .ok (0, d', st') := by
  unfold runJobsDb
  have h1 : mode ≠ .com := by rintro rfl; rcases h with h | h | h <;> cases h
  have h2 : mode ≠ .unknown := by rintro rfl; rcases h with h | h | h <;> cases h
  rw [if_neg h1, if_neg h2, e]
  rfl

/-- C90, INCLUDE_NODATA FALSE: all jobs of the modes DEC and MASKDEC without a mask, and the reclassifying jobs of the mode MASK. -/
theorem C90_few_own_jobs {sys : Sys} (hrnd : ∀ v, CCGL.Spec.Representable .float v → sys.rnd v = v) {d : Disk} {st : Store} {mode : IOMode}
    (hmode : Layers mode) {xs : List ((Job × JobDb) × DecPlan)}
    (hA : xs.Pairwise (DecApart mode (fun j p => ownView j p.hdr p.val)))
    (hj : ∀ x ∈ xs, (x.1.1.recls = true ∨ (WantsSingle mode ∧ (WantsAll mode →
        ∃ row col, HasValue (plainHdr x.1.1 x.2.hdr) (plainVal x.1.1 x.2.hdr x.2.val) row col))) ∧
      FewDecJob d st mode x.1 x.2 (ownView x.1.1 x.2.hdr x.2.val)) :
    ∃ st', runJobsDb sys false mode none d st (xs.map (·.1)) = .ok (0, d, st') ∧
      (∀ R : CCGL.Spec.Key, (∀ x ∈ xs, ¬ DbTargets mode x.1.1 (ownView x.1.1 x.2.hdr x.2.val).grp R.name) →
        CCGL.Spec.filesOf st' R = CCGL.Spec.filesOf st R) ∧
      ∀ x ∈ xs, FewDone sys.rnd st' mode x.1.1 (ownView x.1.1 x.2.hdr x.2.val) (jobFill x.1.1 x.2.hdr) x.2.lyrs
        (HasValue (plainHdr x.1.1 x.2.hdr) (plainVal x.1.1 x.2.hdr x.2.val)) := by
  obtain ⟨st', m', e, -, k1, k2⟩ := few_dec_batch (sys := sys) (d := d) (mode := mode) (V := fun j p => ownView j p.hdr p.val)
    (C := fun j p => HasValue (plainHdr j p.hdr) (plainVal j p.hdr p.val))
    (I := fun m => m = none) (ok := fun j p => j.recls = true ∨ (WantsSingle mode ∧ (WantsAll mode →
        ∃ row col, HasValue (plainHdr j p.hdr) (plainVal j p.hdr p.val) row col))) (by
      rintro st _ ⟨j, jd⟩ p rfl hok H
      obtain ⟨s, hs1, hs2⟩ := H.input
      cases hre : j.recls with
      | true =>
        obtain ⟨st', e, o1, o2⟩ := C90_few_recls hrnd H.inFmt hs1 hs2 H.fmt hre H.out
        exact ⟨st', none, e, rfl, o1, o2⟩
      | false =>
        have h1 := H.one hre
        rcases hok with hok | ⟨hok1, hok2⟩
        · rw [hre] at hok; cases hok
        have HO := H.out
        rw [h1] at HO
        obtain ⟨st', e, o1, o2⟩ := C90_few_own hrnd H.inFmt hs1 hs2 H.fmt hre hok1 hok2 HO
        exact ⟨st', none, e, rfl, o1, by rw [h1]; exact o2⟩) xs st none rfl (fun x hx => hj x hx) hA
  exact ⟨st', runJobsDb_layers_few hmode e, k1, k2⟩

/-- C90, INCLUDE_NODATA FALSE: all reclassifying jobs of the mode MASK with a mask. -/
theorem C90_few_mask_jobs {sys : Sys} (hrnd : ∀ v, CCGL.Spec.Representable .float v → sys.rnd v = v) {d : Disk} {st : Store} {m : Raster} {hM : Header}
    {vM : Int → Int → ℚ} (hm : IsMask m hM vM) {xs : List ((Job × JobDb) × DecPlan)}
    (hA : xs.Pairwise (DecApart .mask (fun j p => maskedView j hM vM p.hdr p.val)))
    (hj : ∀ x ∈ xs, (x.1.1.recls = true ∧ CCGL.Spec.CommonGrid x.2.hdr hM ∧ Overlaps hM vM x.2.hdr) ∧
      FewDecJob d st .mask x.1 x.2 (maskedView x.1.1 hM vM x.2.hdr x.2.val)) :
    ∃ st', runJobsDb sys false .mask (some ⟨m, []⟩) d st (xs.map (·.1)) = .ok (0, d, st') ∧
      (∀ R : CCGL.Spec.Key, (∀ x ∈ xs, ¬ DbTargets .mask x.1.1 (maskedView x.1.1 hM vM x.2.hdr x.2.val).grp R.name) →
        CCGL.Spec.filesOf st' R = CCGL.Spec.filesOf st R) ∧
      ∀ x ∈ xs, FewDone sys.rnd st' .mask x.1.1 (maskedView x.1.1 hM vM x.2.hdr x.2.val) (jobFill x.1.1 x.2.hdr) x.2.lyrs (HasValue hM vM) := by
  obtain ⟨st', m', e, -, k1, k2⟩ := few_dec_batch (sys := sys) (d := d) (mode := .mask) (V := fun j p => maskedView j hM vM p.hdr p.val)
    (C := fun _ _ => HasValue hM vM) (I := fun x => ∃ m, x = some ⟨m, []⟩ ∧ IsMask m hM vM)
    (ok := fun j p => j.recls = true ∧ CCGL.Spec.CommonGrid p.hdr hM ∧ Overlaps hM vM p.hdr) (by
      rintro st _ ⟨j, jd⟩ p ⟨m, rfl, hm⟩ ⟨hre, hg, hov⟩ H
      obtain ⟨s, hs1, hs2⟩ := H.input
      obtain ⟨st', m', e, hm', o1, o2⟩ := C90_few_mask_recls hrnd hm H.inFmt hs1 hs2 hg hov H.fmt hre H.out
      exact ⟨st', _, e, ⟨m', rfl, hm'⟩, o1, o2⟩) xs st _ ⟨m, rfl, hm⟩ hj hA
  exact ⟨st', runJobsDb_layers_few (.inl rfl) e, k1, k2⟩

/-- C90, INCLUDE_NODATA FALSE: all jobs of the modes DEC and MASKDEC with a mask whose subsets have been built. -/
theorem C90_few_units_jobs {sys : Sys} (hrnd : ∀ v, CCGL.Spec.Representable .float v → sys.rnd v = v) {d : Disk} {st : Store} {m : RasterS} {hM : Header}
    {vM : Int → Int → ℚ} (hm : CutMask m hM vM) (hco : CCGL.Spec.CoordsPresent hM) {mode : IOMode} (hmode : mode = .dec ∨ mode = .maskdec)
    {xs : List ((Job × JobDb) × DecPlan)} (hA : xs.Pairwise (DecApart mode (fun j p => unitsView j hM vM p.hdr p.val)))
    (hj : ∀ x ∈ xs, (CCGL.Spec.CommonGrid x.2.hdr hM ∧ Overlaps hM vM x.2.hdr) ∧ FewDecJob d st mode x.1 x.2 (unitsView x.1.1 hM vM x.2.hdr x.2.val)) :
    ∃ st', runJobsDb sys false mode (some m) d st (xs.map (·.1)) = .ok (0, d, st') ∧
      (∀ R : CCGL.Spec.Key, (∀ x ∈ xs, ¬ DbTargets mode x.1.1 (unitsView x.1.1 hM vM x.2.hdr x.2.val).grp R.name) →
        CCGL.Spec.filesOf st' R = CCGL.Spec.filesOf st R) ∧
      ∀ x ∈ xs, FewDone sys.rnd st' mode x.1.1 (unitsView x.1.1 hM vM x.2.hdr x.2.val) (jobFill x.1.1 x.2.hdr) x.2.lyrs (HasValue hM vM) := by
  obtain ⟨st', m', e, -, k1, k2⟩ := few_dec_batch (sys := sys) (d := d) (mode := mode) (V := fun j p => unitsView j hM vM p.hdr p.val)
    (C := fun _ _ => HasValue hM vM) (I := fun x => x = some m) (ok := fun _ p => CCGL.Spec.CommonGrid p.hdr hM ∧ Overlaps hM vM p.hdr) (by
      rintro st _ ⟨j, jd⟩ p rfl ⟨hg, hov⟩ H
      obtain ⟨s, hs1, hs2⟩ := H.input
      cases hre : j.recls with
      | true =>
        obtain ⟨st', e, o1, o2⟩ := C90_few_units_recls hrnd hm H.inFmt hs1 hs2 hg hco hov H.fmt hre H.out
        exact ⟨st', _, e, rfl, o1, o2⟩
      | false =>
        have h1 := H.one hre
        have HO := H.out
        rw [h1] at HO
        obtain ⟨st', e, o1, o2⟩ := C90_few_units hrnd hm H.inFmt hs1 hs2 hg hco hov H.fmt hre hmode HO
        exact ⟨st', _, e, rfl, o1, by rw [h1]; exact o2⟩) xs st _ rfl hj hA
  exact ⟨st', runJobsDb_layers_few (.inr hmode) e, k1, k2⟩

/-- As `RunDone`, without NoData cells; `C` are the cells of the whole grids. -/
def Spec.FewRunDone (sys : Sys) (mode : IOMode) (V : Job → DecPlan → View) (C : Job → DecPlan → Int → Int → Prop) (xs : List ((Job × JobDb) × DecPlan))
    (st st' : Store) : Prop :=
  (∀ R : CCGL.Spec.Key, (∀ x ∈ xs, ¬ DbTargets mode x.1.1 (V x.1.1 x.2).grp R.name) → CCGL.Spec.filesOf st' R = CCGL.Spec.filesOf st R) ∧
  ∀ x ∈ xs, FewDone sys.rnd st' mode x.1.1 (V x.1.1 x.2) (jobFill x.1.1 x.2.hdr) x.2.lyrs (C x.1.1 x.2)

/-- C91, INCLUDE_NODATA FALSE: a run of the modes DEC and MASKDEC (and, if every job reclassifies, MASK) without mask. -/
theorem C91_few_own_run {sys : Sys} (hrnd : ∀ v, CCGL.Spec.Representable .float v → sys.rnd v = v) {w : World} {md : MaskDb} {dbs : Nat → JobDb}
    {d : Disk} {st : Store} {args : List Str} {c : Cfg} {js : List Job} (hc : configure w args = .ok (.go c)) (hjs : jobs c = .ok js)
    (hu : c.useMongo = true) (hinc : c.incNodata = false) (hmode : Layers c.mode) (hno : c.maskPath = [])
    {xs : List ((Job × JobDb) × DecPlan)} (hxs : withDb dbs js = xs.map (·.1))
    (hA : xs.Pairwise (DecApart c.mode (fun j p => ownView j p.hdr p.val)))
    (hj : ∀ x ∈ xs, (x.1.1.recls = true ∨ (WantsSingle c.mode ∧ (WantsAll c.mode →
        ∃ row col, HasValue (plainHdr x.1.1 x.2.hdr) (plainVal x.1.1 x.2.hdr x.2.val) row col))) ∧
      FewDecJob d st c.mode x.1 x.2 (ownView x.1.1 x.2.hdr x.2.val)) :
    ∃ st', runDb sys w md dbs d st args = .ok (0, d, st') ∧ FewRunDone sys c.mode (fun j p => ownView j p.hdr p.val)
      (fun j p => HasValue (plainHdr j p.hdr) (plainVal j p.hdr p.val)) xs st st' := by
  obtain ⟨st', e, h1, h2⟩ := C90_few_own_jobs hrnd hmode hA hj
  refine ⟨st', ?_, h1, h2⟩
  have hl : loadMaskDb sys md d st c = .ok (.go none) := by
    unfold loadMaskDb
    rw [if_pos hno]
  rw [runDb_go hc hjs hu hl rfl, hinc, hxs]
  exact e

/-- C91, INCLUDE_NODATA FALSE: a run of the mode MASK with a mask, all jobs reclassify (`C91_few_run` has the jobs that do not). -/
theorem C91_few_mask_recls_run {sys : Sys} (hrnd : ∀ v, CCGL.Spec.Representable .float v → sys.rnd v = v) {w : World} {md : MaskDb} {dbs : Nat → JobDb}
    {d : Disk} {st : Store} {args : List Str} {c : Cfg} {js : List Job} (hc : configure w args = .ok (.go c)) (hjs : jobs c = .ok js)
    (hu : c.useMongo = true) (hinc : c.incNodata = false) (hmode : c.mode = .mask) {hM : Header} {vM : Int → Int → ℚ} (hmask : MaskFrom sys md d st c hM vM)
    {xs : List ((Job × JobDb) × DecPlan)} (hxs : withDb dbs js = xs.map (·.1))
    (hA : xs.Pairwise (DecApart .mask (fun j p => maskedView j hM vM p.hdr p.val)))
    (hj : ∀ x ∈ xs, (x.1.1.recls = true ∧ CCGL.Spec.CommonGrid x.2.hdr hM ∧ Overlaps hM vM x.2.hdr) ∧
      FewDecJob d st .mask x.1 x.2 (maskedView x.1.1 hM vM x.2.hdr x.2.val)) :
    ∃ st', runDb sys w md dbs d st args = .ok (0, d, st') ∧ FewRunDone sys .mask (fun j p => maskedView j hM vM p.hdr p.val)
      (fun _ _ => HasValue hM vM) xs st st' := by
  obtain ⟨M, eM, hm⟩ := mask_is hmask
  obtain ⟨st', e, h1, h2⟩ := C90_few_mask_jobs hrnd hm hA hj
  refine ⟨st', ?_, h1, h2⟩
  have hp : prepareMask c.mode (some ⟨M, []⟩) = .ok (some ⟨M, []⟩) := by
    unfold prepareMask
    dsimp only
    rw [if_pos hmode]
  rw [runDb_go hc hjs hu eM hp, hinc, hxs, hmode]
  exact e

/-- C91, INCLUDE_NODATA FALSE: a run of the modes DEC and MASKDEC with a mask in a file or in the bucket. -/
theorem C91_few_units_run {sys : Sys} (hrnd : ∀ v, CCGL.Spec.Representable .float v → sys.rnd v = v) {w : World} {md : MaskDb} {dbs : Nat → JobDb}
    {d : Disk} {st : Store} {args : List Str} {c : Cfg} {js : List Job} (hc : configure w args = .ok (.go c)) (hjs : jobs c = .ok js)
    (hu : c.useMongo = true) (hinc : c.incNodata = false) (hmode : c.mode = .dec ∨ c.mode = .maskdec) {hM : Header} {vM : Int → Int → ℚ}
    (hmask : MaskFrom sys md d st c hM vM) (hco : CCGL.Spec.CoordsPresent hM) (hv : ∃ row col, HasValue hM vM row col)
    {xs : List ((Job × JobDb) × DecPlan)} (hxs : withDb dbs js = xs.map (·.1))
    (hA : xs.Pairwise (DecApart c.mode (fun j p => unitsView j hM vM p.hdr p.val)))
    (hj : ∀ x ∈ xs, (CCGL.Spec.CommonGrid x.2.hdr hM ∧ Overlaps hM vM x.2.hdr) ∧ FewDecJob d st c.mode x.1 x.2 (unitsView x.1.1 hM vM x.2.hdr x.2.val)) :
    ∃ st', runDb sys w md dbs d st args = .ok (0, d, st') ∧ FewRunDone sys c.mode (fun j p => unitsView j hM vM p.hdr p.val)
      (fun _ _ => HasValue hM vM) xs st st' := by
  obtain ⟨M, eM, hb, hcl, hg, hn, hval, h2⟩ := mask_source hmask
  obtain ⟨m, b, eb, hm⟩ := cutMask_of hb hcl hg hn hval h2 hv
  obtain ⟨st', e, h1, h2⟩ := C90_few_units_jobs hrnd hm hco hmode hA hj
  refine ⟨st', ?_, h1, h2⟩
  rw [runDb_go hc hjs hu eM (prepare_cut (by rcases hmode with h | h <;> rw [h] <;> simp) eb), hinc, hxs]
  exact e

end App
end CCGL
