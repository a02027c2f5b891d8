import Verif.Props.AppGfsDec
import Verif.Props.AppRunAll
/-!
# All jobs of a run that store groups of cells or reclassified grids in GridFS (C90)
-/
namespace CCGL
namespace App
open Fs Disk Main Raster Gfs Disk.Spec App.Spec

/-- What is known about a job in advance: header and values of its input, number of layers of its output (1 without reclassification). -/
structure Spec.DecPlan where
  hdr : Header
  val : Int → Int → ℚ
  lyrs : Int

/-- The job can be carried out with output to the bucket: `V` is what its raster shows. Without reclassification and mask, if single groups and the
whole grid are asked for, some cell has a value. -/
structure Spec.DecJob (sys : Sys) (d : Disk) (st : Store) (mode : IOMode) (own : Bool) (jj : Job × JobDb) (p : DecPlan) (V : View) : Prop where
  fmt : jj.1.outFmt = .gfs
  kind : jj.1.recls = true ∨ (jj.1.recls = false ∧ p.lyrs = 1 ∧
    (own = true → WantsSingle mode → WantsAll mode → ∃ row col, HasValue V.hdr V.val row col))
  input : Input sys d st jj.1 jj.2 p.hdr p.val
  nul : ∀ n ∈ jj.1.inputs, Char.ofNat 0 ∉ n
  out : DbOut st mode jj.1 jj.2 V (jobFill jj.1 p.hdr) p.lyrs

/-- The first job stores no file that the second one reads or stores. -/
def Spec.DecApart (mode : IOMode) (V : Job → DecPlan → View) (a b : (Job × JobDb) × DecPlan) : Prop :=
  ∀ name, DbTargets mode a.1.1 (V a.1.1 a.2).grp name →
    ¬ DbTargets mode b.1.1 (V b.1.1 b.2).grp name ∧ (b.1.1.inFmt = .gfs → name ∉ b.1.1.inputs)

theorem input_stays {sys : Sys} {d : Disk} {st st' : Store} {j : Job} {jd : JobDb} {h : Header} {v : Int → Int → ℚ} {P : Str → Prop}
    (he : ∀ R : CCGL.Spec.Key, ¬ P R.name → CCGL.Spec.filesOf st' R = CCGL.Spec.filesOf st R) (hn : ∀ n ∈ j.inputs, Char.ofNat 0 ∉ n)
    (hne : j.inFmt = .gfs → ∀ n ∈ j.inputs, ¬ P n) (H : Input sys d st j jd h v) : Input sys d st' j jd h v := by
  cases H with
  | file s h1 h2 h3 => exact .file s h1 h2 h3
  | bucket n more h1 h2 h3 h4 h5 h6 =>
    exact .bucket n more h1 h2 (holds_congr (hn n (by rw [h2]; simp)) (he _ (hne h1 n (by rw [h2]; simp))) h3) h4 h5 h6

theorem dbOut_stays {st st' : Store} {mode : IOMode} {j : Job} {jd : JobDb} {V : View} {fill : ℚ} {m : Int} {P : Str → Prop}
    (he : ∀ R : CCGL.Spec.Key, ¬ P R.name → CCGL.Spec.filesOf st' R = CCGL.Spec.filesOf st R) (hne : ∀ name, DbTargets mode j V.grp name → ¬ P name)
    (H : DbOut st mode j jd V fill m) : DbOut st' mode j jd V fill m := by
  refine { H with old := ?_ }
  intro name ht f hf hh
  have : f ∈ CCGL.Spec.filesOf st' ⟨name, wholeOpts j.type⟩ := mem_filesOf.2 ⟨hf, hh⟩
  rw [he _ (hne name ht)] at this
  exact H.old name ht f (mem_filesOf.1 this).1 hh

theorem whole_congr {rnd : ℚ → ℚ} {st st' : Store} {name : Str} {ty : RDT} {h : Header} {m : Int} {u : Nat → Int → Int → ℚ} {g : Groups}
    (hn : Char.ofNat 0 ∉ name) (hf : CCGL.Spec.filesOf st' ⟨name, wholeOpts ty⟩ = CCGL.Spec.filesOf st ⟨name, wholeOpts ty⟩)
    (H : DbWhole rnd st name (wholeOpts ty) h m u g) : DbWhole rnd st' name (wholeOpts ty) h m u g := by
  obtain ⟨w, h1, h2⟩ := H
  exact ⟨w, layers_congr hn hf h1, h2⟩

theorem done_stays {rnd : ℚ → ℚ} {st0 st st' : Store} {mode : IOMode} {j : Job} {jd : JobDb} {V : View} {fill : ℚ} {m : Int} {P : Str → Prop}
    (O : DbOut st0 mode j jd V fill m)
    (he : ∀ R : CCGL.Spec.Key, ¬ P R.name → CCGL.Spec.filesOf st' R = CCGL.Spec.filesOf st R) (hne : ∀ name, DbTargets mode j V.grp name → ¬ P name)
    (H : DbDone rnd st mode j V fill m) : DbDone rnd st' mode j V fill m := by
  have hz : Char.ofNat 0 ∉ storedName j.out := by rw [stored_zero]; exact (subFile_key O 0).name
  refine ⟨?_, ?_, ?_⟩
  · intro hs k hk h0
    exact single_congr (subFile_key O k).name (he _ (hne _ (.inl ⟨hs, k, hk, rfl⟩))) (H.single hs k hk h0)
  · intro hre ha hp
    exact whole_congr hz (he _ (hne _ (.inr ⟨ha, fun _ => hp, rfl⟩))) (H.all hre ha hp)
  · intro hre ha
    obtain ⟨w, h1, h2⟩ := H.plain hre ha
    exact ⟨w, holds_congr hz (he _ (hne _ (.inr ⟨ha, fun h => by (rw [hre] at h; cases h), rfl⟩))) h1, h2⟩

/-- All jobs with output to the bucket, given what one job does. -/
theorem dec_batch {sys : Sys} {d : Disk} {mode : IOMode} {own : Bool} {V : Job → DecPlan → View} {I : Option RasterS → Prop} {ok : DecPlan → Prop}
    (step : ∀ st m jj p, I m → ok p → DecJob sys d st mode own jj p (V jj.1 p) → ∃ (st' : Store) (m' : Option RasterS),
      layerJobDb sys true mode (d, st, m) jj = .ok (d, st', m') ∧ I m' ∧ OthersStay st st' mode jj.1 (V jj.1 p).grp ∧
      DbDone sys.rnd st' mode jj.1 (V jj.1 p) (jobFill jj.1 p.hdr) p.lyrs) :
    ∀ (xs : List ((Job × JobDb) × DecPlan)) (st : Store) (m : Option RasterS), I m →
      (∀ x ∈ xs, ok x.2 ∧ DecJob sys d st mode own x.1 x.2 (V x.1.1 x.2)) → xs.Pairwise (DecApart mode V) →
      ∃ st' m', (xs.map (·.1)).foldlM (layerJobDb sys true mode) (d, st, m) = .ok (d, st', m') ∧ I m' ∧
        (∀ R : CCGL.Spec.Key, (∀ x ∈ xs, ¬ DbTargets mode x.1.1 (V x.1.1 x.2).grp R.name) → CCGL.Spec.filesOf st' R = CCGL.Spec.filesOf st R) ∧
        ∀ x ∈ xs, DbDone sys.rnd st' mode x.1.1 (V x.1.1 x.2) (jobFill x.1.1 x.2.hdr) x.2.lyrs := by
  intro xs
  induction xs with
  | nil =>
    intro st m hI _ _
    exact ⟨st, m, rfl, hI, fun _ _ => rfl, by intro x h; cases h⟩
  | cons x xs ih =>
    intro st m hI hx hA
    obtain ⟨hA1, hA2⟩ := List.pairwise_cons.1 hA
    obtain ⟨hok, H⟩ := hx x List.mem_cons_self
    obtain ⟨st1, m1, e1, hI1, k1, k2⟩ := step st m x.1 x.2 hI hok H
    have k1' : ∀ R : CCGL.Spec.Key, ¬ DbTargets mode x.1.1 (V x.1.1 x.2).grp R.name → CCGL.Spec.filesOf st1 R = CCGL.Spec.filesOf st R :=
      fun R hR => k1 R (fun name hn he => hR (by rw [he]; exact hn))
    have hx1 : ∀ y ∈ xs, ok y.2 ∧ DecJob sys d st1 mode own y.1 y.2 (V y.1.1 y.2) := by
      intro y hy
      obtain ⟨a, b⟩ := hx y (List.mem_cons_of_mem _ hy)
      refine ⟨a, ⟨b.fmt, b.kind, input_stays k1' b.nul ?_ b.input, b.nul, dbOut_stays k1' ?_ b.out⟩⟩
      · intro hg n hn ht
        exact (hA1 y hy n ht).2 hg hn
      · intro n hn ht
        exact (hA1 y hy n ht).1 hn
    obtain ⟨st2, m2, e2, hI2, k3, k4⟩ := ih st1 m1 hI1 hx1 hA2
    refine ⟨st2, m2, ?_, hI2, ?_, ?_⟩
    · rw [List.map_cons, List.foldlM_cons, e1]
      exact e2
    · intro R hR
      rw [k3 R (fun y hy => hR y (List.mem_cons_of_mem _ hy)), k1' R (hR x List.mem_cons_self)]
    · intro y hy
      rcases List.mem_cons.1 hy with rfl | hy
      · refine done_stays (P := fun n => ∃ z ∈ xs, DbTargets mode z.1.1 (V z.1.1 z.2).grp n) H.out (fun R hR => k3 R (fun z hz ht => hR ⟨z, hz, ht⟩)) ?_ k2
        rintro n hn ⟨z, hz, ht⟩
        exact (hA1 z hz n hn).1 ht
      · exact k4 y hy

theorem runJobsDb_layers {sys : Sys} {mode : IOMode} (h : Layers mode) {mask : Option RasterS} {d d' : Disk} {st st' : Store} {js : List (Job × JobDb)} {m'}
    (e : js.foldlM (layerJobDb sys true mode) (d, st, mask) = .ok (d', st', m')) : runJobsDb sys true mode mask d st js = .ok (0, d', st') := by
  unfold runJobsDb
  have h1 : mode ≠ .com := by rintro rfl; rcases h with h | h | h <;> cases h
  have h2 : mode ≠ .unknown := by rintro rfl; rcases h with h | h | h <;> cases h
  rw [if_neg h1, if_neg h2, e]
  rfl

/-- C90: all jobs without a mask. -/
theorem C90_own_jobs_partial {sys : Sys} (hrnd : ∀ v, CCGL.Spec.Representable .float v → sys.rnd v = v) {d : Disk} {st : Store} {mode : IOMode}
    (hmode : Layers mode) {xs : List ((Job × JobDb) × DecPlan)}
    (hA : xs.Pairwise (DecApart mode (fun j p => ownView j p.hdr p.val)))
    (hj : ∀ x ∈ xs, DecJob sys d st mode true x.1 x.2 (ownView x.1.1 x.2.hdr x.2.val)) :
    ∃ st', runJobsDb sys true mode none d st (xs.map (·.1)) = .ok (0, d, st') ∧
      (∀ R : CCGL.Spec.Key, (∀ x ∈ xs, ¬ DbTargets mode x.1.1 (ownView x.1.1 x.2.hdr x.2.val).grp R.name) →
        CCGL.Spec.filesOf st' R = CCGL.Spec.filesOf st R) ∧
      ∀ x ∈ xs, DbDone sys.rnd st' mode x.1.1 (ownView x.1.1 x.2.hdr x.2.val) (jobFill x.1.1 x.2.hdr) x.2.lyrs := by
  obtain ⟨st', m', e, -, k1, k2⟩ := dec_batch (sys := sys) (d := d) (mode := mode) (own := true) (V := fun j p => ownView j p.hdr p.val)
    (I := fun m => m = none) (ok := fun _ => True) (by
      rintro st _ ⟨j, jd⟩ p rfl - H
      rcases H.kind with h | ⟨h1, h3, h4⟩
      · obtain ⟨st', e, o1, o2⟩ := C90_recls_partial hrnd H.input H.fmt h H.out
        exact ⟨st', none, e, rfl, o1, o2⟩
      · have HO := H.out
        rw [h3] at HO
        by_cases hmk : mode = .mask
        · subst hmk
          obtain ⟨st', e, o1, o2⟩ := C90_plain_partial hrnd H.input H.fmt h1 HO
          exact ⟨st', none, e, rfl, o1, by rw [h3]; exact o2⟩
        · have h2 : WantsSingle mode := hmode.resolve_left hmk
          obtain ⟨st', e, o1, o2⟩ := C90_own_partial hrnd H.input H.fmt h1 h2 (h4 rfl h2) HO
          exact ⟨st', none, e, rfl, o1, by rw [h3]; exact o2⟩) xs st none rfl (fun x hx => ⟨trivial, hj x hx⟩) hA
  exact ⟨st', runJobsDb_layers hmode e, k1, k2⟩

/-- C90: all jobs of the mode MASK with a mask. -/
theorem C90_mask_jobs_partial {sys : Sys} (hrnd : ∀ v, CCGL.Spec.Representable .float v → sys.rnd v = v) {d : Disk} {st : Store} {m : Raster} {hM : Header}
    {vM : Int → Int → ℚ} (hm : IsMask m hM vM) {xs : List ((Job × JobDb) × DecPlan)}
    (hA : xs.Pairwise (DecApart .mask (fun j p => maskedView j hM vM p.hdr p.val)))
    (hj : ∀ x ∈ xs, (CCGL.Spec.CommonGrid x.2.hdr hM ∧ Overlaps hM vM x.2.hdr) ∧ DecJob sys d st .mask false x.1 x.2 (maskedView x.1.1 hM vM x.2.hdr x.2.val)) :
    ∃ st', runJobsDb sys true .mask (some ⟨m, []⟩) d st (xs.map (·.1)) = .ok (0, d, st') ∧
      (∀ R : CCGL.Spec.Key, (∀ x ∈ xs, ¬ DbTargets .mask x.1.1 (maskedView x.1.1 hM vM x.2.hdr x.2.val).grp R.name) →
        CCGL.Spec.filesOf st' R = CCGL.Spec.filesOf st R) ∧
      ∀ x ∈ xs, DbDone sys.rnd st' .mask x.1.1 (maskedView x.1.1 hM vM x.2.hdr x.2.val) (jobFill x.1.1 x.2.hdr) x.2.lyrs := by
  obtain ⟨st', m', e, -, k1, k2⟩ := dec_batch (sys := sys) (d := d) (mode := .mask) (own := false) (V := fun j p => maskedView j hM vM p.hdr p.val)
    (I := fun x => ∃ m, x = some ⟨m, []⟩ ∧ IsMask m hM vM) (ok := fun p => CCGL.Spec.CommonGrid p.hdr hM ∧ Overlaps hM vM p.hdr) (by
      rintro st _ ⟨j, jd⟩ p ⟨m, rfl, hm⟩ ⟨hg, hov⟩ H
      rcases H.kind with h | ⟨h1, h3, -⟩
      · obtain ⟨st', m', e, hm', o1, o2⟩ := C90_mask_recls_partial hrnd hm H.input hg hov H.fmt h H.out
        exact ⟨st', _, e, ⟨m', rfl, hm'⟩, o1, o2⟩
      · have HO := H.out
        rw [h3] at HO
        obtain ⟨st', m', e, hm', o1, o2⟩ := C90_mask_partial hrnd hm H.input hg hov H.fmt h1 HO
        exact ⟨st', _, e, ⟨m', rfl, hm'⟩, o1, by rw [h3]; exact o2⟩) xs st _ ⟨m, rfl, hm⟩ hj hA
  exact ⟨st', runJobsDb_layers (.inl rfl) e, k1, k2⟩

/-- C90: all jobs of the modes DEC and MASKDEC with a mask whose subsets have been built. -/
theorem C90_units_jobs_partial {sys : Sys} (hrnd : ∀ v, CCGL.Spec.Representable .float v → sys.rnd v = v) {d : Disk} {st : Store} {m : RasterS} {hM : Header}
    {vM : Int → Int → ℚ} (hm : CutMask m hM vM) (hco : CCGL.Spec.CoordsPresent hM) {mode : IOMode} (hmode : mode = .dec ∨ mode = .maskdec)
    {xs : List ((Job × JobDb) × DecPlan)} (hA : xs.Pairwise (DecApart mode (fun j p => unitsView j hM vM p.hdr p.val)))
    (hj : ∀ x ∈ xs, (CCGL.Spec.CommonGrid x.2.hdr hM ∧ Overlaps hM vM x.2.hdr) ∧ DecJob sys d st mode false x.1 x.2 (unitsView x.1.1 hM vM x.2.hdr x.2.val)) :
    ∃ st', runJobsDb sys true mode (some m) d st (xs.map (·.1)) = .ok (0, d, st') ∧
      (∀ R : CCGL.Spec.Key, (∀ x ∈ xs, ¬ DbTargets mode x.1.1 (unitsView x.1.1 hM vM x.2.hdr x.2.val).grp R.name) →
        CCGL.Spec.filesOf st' R = CCGL.Spec.filesOf st R) ∧
      ∀ x ∈ xs, DbDone sys.rnd st' mode x.1.1 (unitsView x.1.1 hM vM x.2.hdr x.2.val) (jobFill x.1.1 x.2.hdr) x.2.lyrs := by
  obtain ⟨st', m', e, -, k1, k2⟩ := dec_batch (sys := sys) (d := d) (mode := mode) (own := false) (V := fun j p => unitsView j hM vM p.hdr p.val)
    (I := fun x => x = some m) (ok := fun p => CCGL.Spec.CommonGrid p.hdr hM ∧ Overlaps hM vM p.hdr) (by
      rintro st _ ⟨j, jd⟩ p rfl ⟨hg, hov⟩ H
      rcases H.kind with h | ⟨h1, h3, -⟩
      · obtain ⟨st', e, o1, o2⟩ := C90_units_recls_partial hrnd hm H.input hg hco hov H.fmt h H.out
        exact ⟨st', _, e, rfl, o1, o2⟩
      · have HO := H.out
        rw [h3] at HO
        obtain ⟨st', e, o1, o2⟩ := C90_units_partial hrnd hm H.input hg hco hov H.fmt h1 hmode HO
        exact ⟨st', _, e, rfl, o1, by rw [h3]; exact o2⟩) xs st _ rfl hj hA
  exact ⟨st', runJobsDb_layers (.inr hmode) e, k1, k2⟩

end App
end CCGL
