import Verif.Spec.AppGfsFewReclsLRun
import Verif.Props.AppGfsStackFew
import Verif.Props.AppGfsFewDecJobs
/-!
# Runs of `mask_rasterio` with output to GridFS without NoData cells, jobs with several input files among them (C98)
-/
namespace CCGL
namespace App
open Fs Disk Main Raster Gfs Disk.Spec App.Spec

theorem layersFew_stays {rnd : ℚ → ℚ} {st0 st st' : Store} {mode : IOMode} {j : Job} {jd : JobDb} {V : View} {N : Nat → Int → Int → ℚ → Prop} {fill : ℚ} {m : Int}
    {C : Int → Int → Prop} {P : Str → Prop} (O : FewOut st0 mode j jd V fill m)
    (he : ∀ R : CCGL.Spec.Key, ¬ P R.name → CCGL.Spec.filesOf st' R = CCGL.Spec.filesOf st R) (hne : ∀ name, DbTargets mode j V.grp name → ¬ P name)
    (H : DbLayersFew rnd st mode j V N fill m C) : DbLayersFew rnd st' mode j V N fill m C := by
  have hz : Char.ofNat 0 ∉ storedName j.out := by rw [stored_zero]; exact (few_file_key O 0).name
  obtain ⟨u, h1, h2, h3⟩ := H
  refine ⟨u, h1, ?_, ?_⟩
  · intro hs k hk h0
    exact fewSingle_congr (few_file_key O k).name (he _ (hne _ (.inl ⟨hs, k, hk, rfl⟩))) (h2 hs k hk h0)
  · intro ha hp
    obtain ⟨w, q1, q2⟩ := h3 ha hp
    exact ⟨w, holdsSome_congr hz (he _ (hne _ (.inr ⟨ha, fun _ => hp, rfl⟩))) q1, q2⟩

theorem stackFewOut_stays {st st' : Store} {mode : IOMode} {j : Job} {jd : JobDb} {V : View} {N : Nat → Int → Int → ℚ → Prop} {n : Nat} {P : Str → Prop}
    (he : ∀ R : CCGL.Spec.Key, ¬ P R.name → CCGL.Spec.filesOf st' R = CCGL.Spec.filesOf st R) (hne : ∀ name, DbTargets mode j V.grp name → ¬ P name)
    (H : StackFewOut st mode j jd V N n) : StackFewOut st' mode j jd V N n := by
  refine { H with old := ?_ }
  intro name ht f hf hh
  have : f ∈ CCGL.Spec.filesOf st' ⟨name, fewOpts j.type⟩ := mem_filesOf.2 ⟨hf, hh⟩
  rw [he _ (hne name ht)] at this
  exact H.old name ht f (mem_filesOf.1 this).1 hh

theorem stackFewDone_stays {rnd : ℚ → ℚ} {st0 st st' : Store} {mode : IOMode} {j : Job} {jd : JobDb} {V : View} {N : Nat → Int → Int → ℚ → Prop} {n : Nat}
    {C : Int → Int → Prop} {P : Str → Prop} (O : StackFewOut st0 mode j jd V N n) (hre : j.recls = false)
    (he : ∀ R : CCGL.Spec.Key, ¬ P R.name → CCGL.Spec.filesOf st' R = CCGL.Spec.filesOf st R) (hne : ∀ name, DbTargets mode j V.grp name → ¬ P name)
    (H : DbStackFew rnd st mode j V N n C) : DbStackFew rnd st' mode j V N n C := by
  have hz : Char.ofNat 0 ∉ storedName j.out := by rw [stored_zero]; exact (few_file_keyS O 0).name
  obtain ⟨u, h1, h2, h3⟩ := H
  refine ⟨u, h1, ?_, ?_⟩
  · intro hs k hk h0
    exact fewSingle_congr (few_file_keyS O k).name (he _ (hne _ (.inl ⟨hs, k, hk, rfl⟩))) (h2 hs k hk h0)
  · intro ha
    exact holdsSome_congr hz (he _ (hne _ (.inr ⟨ha, fun h => by (rw [hre] at h; cases h), rfl⟩))) (h3 ha)

/-- All jobs with output to the bucket, given what one job does. -/
theorem few_full_batch {sys : Sys} {d : Disk} {mode : IOMode} {V : Job → FullPlan → View} {N S : Job → FullPlan → Nat → Int → Int → ℚ → Prop}
    {C : Job → FullPlan → Int → Int → Prop} {I : Option RasterS → Prop} {ok : Job → FullPlan → Prop}
    (step : ∀ st m jj p, I m → ok jj.1 p → FewFullJob d st mode jj p (V jj.1 p) (S jj.1 p) → ∃ (st' : Store) (m' : Option RasterS),
      layerJobDb sys false mode (d, st, m) jj = .ok (d, st', m') ∧ I m' ∧ OthersStay st st' mode jj.1 (V jj.1 p).grp ∧
      FewFullOut sys.rnd st' mode jj.1 p (V jj.1 p) (N jj.1 p) (S jj.1 p) (C jj.1 p)) :
    ∀ (xs : List ((Job × JobDb) × FullPlan)) (st : Store) (m : Option RasterS), I m →
      (∀ x ∈ xs, ok x.1.1 x.2 ∧ FewFullJob d st mode x.1 x.2 (V x.1.1 x.2) (S x.1.1 x.2)) → xs.Pairwise (FullApart mode V) →
      ∃ st' m', (xs.map (·.1)).foldlM (layerJobDb sys false mode) (d, st, m) = .ok (d, st', m') ∧ I m' ∧ FewFullDone sys mode V N S C xs st st' := by
  intro xs
  induction xs with
  | nil =>
    intro st m hI _ _
    exact ⟨st, m, rfl, hI, fun _ _ => rfl, by intro x h; cases h⟩
  | cons x xs ih =>
    intro st m hI hx hA
    obtain ⟨hA1, hA2⟩ := List.pairwise_cons.1 hA
    obtain ⟨hok, H⟩ := hx x List.mem_cons_self
    obtain ⟨st1, m1, e1, hI1, k1, k2⟩ := step st m x.1 x.2 hI hok H
    have k1' : ∀ R : CCGL.Spec.Key, ¬ DbTargets mode x.1.1 (V x.1.1 x.2).grp R.name → CCGL.Spec.filesOf st1 R = CCGL.Spec.filesOf st R :=
      fun R hR => k1 R (fun name hn he => hR (by rw [he]; exact hn))
    have hx1 : ∀ y ∈ xs, ok y.1.1 y.2 ∧ FewFullJob d st1 mode y.1 y.2 (V y.1.1 y.2) (S y.1.1 y.2) := by
      intro y hy
      obtain ⟨a, b⟩ := hx y (List.mem_cons_of_mem _ hy)
      have hout : ∀ n, DbTargets mode y.1.1 (V y.1.1 y.2).grp n → ¬ DbTargets mode x.1.1 (V x.1.1 x.2).grp n := fun n hn ht => (hA1 y hy n ht).1 hn
      exact ⟨a, ⟨b.fmt, b.inputs, fun h0 => ⟨(b.single h0).1, fewOut_stays k1' hout (b.single h0).2⟩,
        fun h0 h1 => ⟨(b.table h0 h1).1, fewOut_stays k1' hout (b.table h0 h1).2⟩, fun h0 h1 => stackFewOut_stays k1' hout (b.stack h0 h1)⟩⟩
    obtain ⟨st2, m2, e2, hI2, k3, k4⟩ := ih st1 m1 hI1 hx1 hA2
    refine ⟨st2, m2, ?_, hI2, ?_, ?_⟩
    · rw [List.map_cons, List.foldlM_cons, e1]
      exact e2
    · intro R hR
      rw [k3 R (fun y hy => hR y (List.mem_cons_of_mem _ hy)), k1' R (hR x List.mem_cons_self)]
    · intro y hy
      rcases List.mem_cons.1 hy with rfl | hy
      · have he : ∀ R : CCGL.Spec.Key, ¬ (fun n => ∃ z ∈ xs, DbTargets mode z.1.1 (V z.1.1 z.2).grp n) R.name → CCGL.Spec.filesOf st2 R = CCGL.Spec.filesOf st1 R :=
          fun R hR => k3 R (fun z hz ht => hR ⟨z, hz, ht⟩)
        have hne : ∀ n, DbTargets mode y.1.1 (V y.1.1 y.2).grp n → ¬ (fun n => ∃ z ∈ xs, DbTargets mode z.1.1 (V z.1.1 z.2).grp n) n := by
          rintro n hn ⟨z, hz, ht⟩
          exact (hA1 z hz n hn).1 ht
        exact ⟨fun h0 => fewDone_stays (H.single h0).2 he hne (k2.single h0), fun h0 h1 => layersFew_stays (H.table h0 h1).2 he hne (k2.table h0 h1),
          fun h0 h1 => stackFewDone_stays (H.stack h0 h1) h1 he hne (k2.stack h0 h1)⟩
      · exact k4 y hy

/-- C98 (and C90), INCLUDE_NODATA FALSE: all jobs without a mask; those of the mode MASK have a table (the others: C87, C92). -/
theorem C98_gfs_few_plain_jobs_partial {sys : Sys} (hrnd : ∀ v, CCGL.Spec.Representable .float v → sys.rnd v = v) {d : Disk} {st : Store} {mode : IOMode}
    (hmode : Layers mode) {xs : List ((Job × JobDb) × FullPlan)}
    (hA : xs.Pairwise (FullApart mode (fun j p => ownView j p.hdr p.val)))
    (hj : ∀ x ∈ xs, ((x.1.1.recls = true ∨ (WantsSingle mode ∧ (WantsAll mode → ∃ row col, HasValue (plainHdr x.1.1 x.2.hdr) (plainVal x.1.1 x.2.hdr x.2.val) row col))) ∧
        ∀ l ∈ x.2.rest, CCGL.Spec.CommonGrid l.hdr x.2.hdr) ∧
      FewFullJob d st mode x.1 x.2 (ownView x.1.1 x.2.hdr x.2.val) (ownNum x.1.1 x.2.hdr x.2.val x.2.rest)) :
    ∃ st', runJobsDb sys false mode none d st (xs.map (·.1)) = .ok (0, d, st') ∧
      FewFullDone sys mode (fun j p => ownView j p.hdr p.val) (fun j p => plainNum j p.hdr p.val p.rest) (fun j p => ownNum j p.hdr p.val p.rest)
        (fun j p => HasValue (plainHdr j p.hdr) (plainVal j p.hdr p.val)) xs st st' := by
  obtain ⟨st', m', e, -, k⟩ := few_full_batch (sys := sys) (d := d) (mode := mode) (V := fun j p => ownView j p.hdr p.val)
    (N := fun j p => plainNum j p.hdr p.val p.rest) (S := fun j p => ownNum j p.hdr p.val p.rest) (C := fun j p => HasValue (plainHdr j p.hdr) (plainVal j p.hdr p.val))
    (I := fun m => m = none) (ok := fun j p => (j.recls = true ∨ (WantsSingle mode ∧ (WantsAll mode →
        ∃ row col, HasValue (plainHdr j p.hdr) (plainVal j p.hdr p.val) row col))) ∧ ∀ l ∈ p.rest, CCGL.Spec.CommonGrid l.hdr p.hdr) (by
      rintro st _ ⟨j, jd⟩ p rfl ⟨hok, hgl⟩ HH
      obtain ⟨⟨s, b4, b4'⟩, b5⟩ := HH.inputs
      obtain ⟨b1, b2⟩ := HH.fmt
      by_cases h0 : p.rest = []
      · obtain ⟨H1, HO⟩ := HH.single h0
        have hs1 : j.inputs = [s] := by (have := b4; rw [h0] at this; exact this)
        suffices ∃ st', layerJobDb sys false mode (d, st, none) (j, jd) = .ok (d, st', none) ∧ OthersStay st st' mode j (ownView j p.hdr p.val).grp ∧
            FewDone sys.rnd st' mode j (ownView j p.hdr p.val) (jobFill j p.hdr) p.lyrs (HasValue (plainHdr j p.hdr) (plainVal j p.hdr p.val)) by
          obtain ⟨st', e, o1, o2⟩ := this
          exact ⟨st', none, e, rfl, o1, ⟨fun _ => o2, fun h => absurd h0 h, fun h => absurd h0 h⟩⟩
        cases b3 : j.recls with
        | true => exact C90_few_recls hrnd b1 hs1 b4' b2 b3 HO
        | false =>
          rcases hok with hok | ⟨hok1, hok2⟩
          · rw [b3] at hok; cases hok
          have h3 : p.lyrs = 1 := H1 b3
          have HO := HO
          rw [h3] at HO
          rw [h3]
          exact C90_few_own hrnd b1 hs1 b4' b2 b3 hok1 hok2 HO
      · cases b3 : j.recls with
        | false =>
          rcases hok with hok | ⟨hok1, hok2⟩
          · rw [b3] at hok; cases hok
          obtain ⟨st', e, o1, o2⟩ := C98_gfs_few_stack_own_partial hrnd b1 b4 h0 b4' b5 hgl b2 b3 hok1 hok2 (HH.stack h0 b3)
          exact ⟨st', none, e, rfl, o1, ⟨fun h => absurd h h0, fun _ h => by (rw [b3] at h; cases h), fun _ _ => o2⟩⟩
        | true =>
          obtain ⟨b6, b7⟩ := HH.table h0 b3
          obtain ⟨st', e, o1, o2⟩ := C98_gfs_few_plain_partial hrnd b1 b4 h0 b4' b5 hgl b2 b3 b6 b7
          exact ⟨st', none, e, rfl, o1, ⟨fun h => absurd h h0, fun _ _ => o2, fun _ h => by (rw [b3] at h; cases h)⟩⟩) xs st none rfl hj hA
  exact ⟨st', runJobsDb_layers_few hmode e, k⟩

/-- C98 (and C90), INCLUDE_NODATA FALSE: all reclassifying jobs of the mode MASK with a mask. -/
theorem C98_gfs_few_mask_jobs_partial {sys : Sys} (hrnd : ∀ v, CCGL.Spec.Representable .float v → sys.rnd v = v) {d : Disk} {st : Store} {m : Raster} {hM : Header}
    {vM : Int → Int → ℚ} (hm : IsMask m hM vM) {xs : List ((Job × JobDb) × FullPlan)}
    (hA : xs.Pairwise (FullApart .mask (fun j p => maskedView j hM vM p.hdr p.val)))
    (hj : ∀ x ∈ xs, (x.1.1.recls = true ∧ CCGL.Spec.CommonGrid x.2.hdr hM ∧ Overlaps hM vM x.2.hdr ∧ ∀ l ∈ x.2.rest, CCGL.Spec.CommonGrid l.hdr hM) ∧
      FewFullJob d st .mask x.1 x.2 (maskedView x.1.1 hM vM x.2.hdr x.2.val) (maskNum x.1.1 hM vM x.2.hdr x.2.val x.2.rest)) :
    ∃ st', runJobsDb sys false .mask (some ⟨m, []⟩) d st (xs.map (·.1)) = .ok (0, d, st') ∧
      FewFullDone sys .mask (fun j p => maskedView j hM vM p.hdr p.val) (fun j p => maskNum j hM vM p.hdr p.val p.rest) (fun j p => maskNum j hM vM p.hdr p.val p.rest)
        (fun _ _ => HasValue hM vM) xs st st' := by
  obtain ⟨st', m', e, -, k⟩ := few_full_batch (sys := sys) (d := d) (mode := .mask) (V := fun j p => maskedView j hM vM p.hdr p.val)
    (N := fun j p => maskNum j hM vM p.hdr p.val p.rest) (S := fun j p => maskNum j hM vM p.hdr p.val p.rest) (C := fun _ _ => HasValue hM vM)
    (I := fun x => ∃ m, x = some ⟨m, []⟩ ∧ IsMask m hM vM)
    (ok := fun j p => j.recls = true ∧ CCGL.Spec.CommonGrid p.hdr hM ∧ Overlaps hM vM p.hdr ∧ ∀ l ∈ p.rest, CCGL.Spec.CommonGrid l.hdr hM) (by
      rintro st _ ⟨j, jd⟩ p ⟨m, rfl, hm⟩ ⟨hre, hg, hov, hgl⟩ HH
      obtain ⟨⟨s, b4, b4'⟩, b5⟩ := HH.inputs
      obtain ⟨b1, b2⟩ := HH.fmt
      by_cases h0 : p.rest = []
      · have hs1 : j.inputs = [s] := by (have := b4; rw [h0] at this; exact this)
        obtain ⟨st', m', e, hm', o1, o2⟩ := C90_few_mask_recls hrnd hm b1 hs1 b4' hg hov b2 hre (HH.single h0).2
        exact ⟨st', _, e, ⟨m', rfl, hm'⟩, o1, ⟨fun _ => o2, fun h => absurd h0 h, fun h => absurd h0 h⟩⟩
      · obtain ⟨b6, b7⟩ := HH.table h0 hre
        obtain ⟨st', m', e, hm', o1, o2⟩ := C98_gfs_few_mask_partial hrnd hm b1 b4 h0 b4' b5 hg hgl hov b2 hre b6 b7
        exact ⟨st', _, e, ⟨m', rfl, hm'⟩, o1, ⟨fun h => absurd h h0, fun _ _ => o2, fun _ h => by
          (have hre : j.recls = true := hre; rw [hre] at h; cases h)⟩⟩) xs st _ ⟨m, rfl, hm⟩ hj hA
  exact ⟨st', runJobsDb_layers_few (.inl rfl) e, k⟩

/-- C98 (and C90), INCLUDE_NODATA FALSE: all jobs of the modes DEC and MASKDEC with a mask whose subsets have been built. -/
theorem C98_gfs_few_groups_jobs_partial {sys : Sys} (hrnd : ∀ v, CCGL.Spec.Representable .float v → sys.rnd v = v) {d : Disk} {st : Store} {m : RasterS} {hM : Header}
    {vM : Int → Int → ℚ} (hm : CutMask m hM vM) (hco : CCGL.Spec.CoordsPresent hM) {mode : IOMode} (hmode : mode = .dec ∨ mode = .maskdec)
    {xs : List ((Job × JobDb) × FullPlan)} (hA : xs.Pairwise (FullApart mode (fun j p => unitsView j hM vM p.hdr p.val)))
    (hj : ∀ x ∈ xs, (CCGL.Spec.CommonGrid x.2.hdr hM ∧ Overlaps hM vM x.2.hdr ∧ ∀ l ∈ x.2.rest, CCGL.Spec.CommonGrid l.hdr hM) ∧
      FewFullJob d st mode x.1 x.2 (unitsView x.1.1 hM vM x.2.hdr x.2.val) (maskNum x.1.1 hM vM x.2.hdr x.2.val x.2.rest)) :
    ∃ st', runJobsDb sys false mode (some m) d st (xs.map (·.1)) = .ok (0, d, st') ∧
      FewFullDone sys mode (fun j p => unitsView j hM vM p.hdr p.val) (fun j p => maskNum j hM vM p.hdr p.val p.rest) (fun j p => maskNum j hM vM p.hdr p.val p.rest)
        (fun _ _ => HasValue hM vM) xs st st' := by
  obtain ⟨st', m', e, -, k⟩ := few_full_batch (sys := sys) (d := d) (mode := mode) (V := fun j p => unitsView j hM vM p.hdr p.val)
    (N := fun j p => maskNum j hM vM p.hdr p.val p.rest) (S := fun j p => maskNum j hM vM p.hdr p.val p.rest) (C := fun _ _ => HasValue hM vM)
    (I := fun x => x = some m) (ok := fun _ p => CCGL.Spec.CommonGrid p.hdr hM ∧ Overlaps hM vM p.hdr ∧ ∀ l ∈ p.rest, CCGL.Spec.CommonGrid l.hdr hM) (by
      rintro st _ ⟨j, jd⟩ p rfl ⟨hg, hov, hgl⟩ HH
      obtain ⟨⟨s, b4, b4'⟩, b5⟩ := HH.inputs
      obtain ⟨b1, b2⟩ := HH.fmt
      by_cases h0 : p.rest = []
      · obtain ⟨H1, HO⟩ := HH.single h0
        have hs1 : j.inputs = [s] := by (have := b4; rw [h0] at this; exact this)
        cases b3 : j.recls with
        | true =>
          obtain ⟨st', e, o1, o2⟩ := C90_few_units_recls hrnd hm b1 hs1 b4' hg hco hov b2 b3 HO
          exact ⟨st', _, e, rfl, o1, ⟨fun _ => o2, fun h => absurd h0 h, fun h => absurd h0 h⟩⟩
        | false =>
          have h3 : p.lyrs = 1 := H1 b3
          have HO := HO
          rw [h3] at HO
          obtain ⟨st', e, o1, o2⟩ := C90_few_units hrnd hm b1 hs1 b4' hg hco hov b2 b3 hmode HO
          exact ⟨st', _, e, rfl, o1, ⟨fun _ => by rw [h3]; exact o2, fun h => absurd h0 h, fun h => absurd h0 h⟩⟩
      · cases b3 : j.recls with
        | false =>
          obtain ⟨st', e, o1, o2⟩ := C98_gfs_few_stack_units_partial hrnd hm b1 b4 h0 b4' b5 hg hco hgl hov b2 b3 hmode (HH.stack h0 b3)
          exact ⟨st', _, e, rfl, o1, ⟨fun h => absurd h h0, fun _ h => by (rw [b3] at h; cases h), fun _ _ => o2⟩⟩
        | true =>
          obtain ⟨b6, b7⟩ := HH.table h0 b3
          obtain ⟨st', e, o1, o2⟩ := C98_gfs_few_groups_partial hrnd hm b1 b4 h0 b4' b5 hg hco hgl hov b2 b3 b6 b7
          exact ⟨st', _, e, rfl, o1, ⟨fun h => absurd h h0, fun _ _ => o2, fun _ h => by (rw [b3] at h; cases h)⟩⟩) xs st _ rfl hj hA
  exact ⟨st', runJobsDb_layers_few (.inr hmode) e, k⟩

/-- C98 (and C91), INCLUDE_NODATA FALSE: a run of the program without mask. -/
theorem C98_gfs_few_plain_run_partial {sys : Sys} (hrnd : ∀ v, CCGL.Spec.Representable .float v → sys.rnd v = v) {w : World} {md : MaskDb} {dbs : Nat → JobDb}
    {d : Disk} {st : Store} {args : List Str} {c : Cfg} {js : List Job} (hc : configure w args = .ok (.go c)) (hjs : jobs c = .ok js)
    (hu : c.useMongo = true) (hinc : c.incNodata = false) (hmode : Layers c.mode) (hno : c.maskPath = [])
    {xs : List ((Job × JobDb) × FullPlan)} (hxs : withDb dbs js = xs.map (·.1))
    (hA : xs.Pairwise (FullApart c.mode (fun j p => ownView j p.hdr p.val)))
    (hj : ∀ x ∈ xs, ((x.1.1.recls = true ∨ (WantsSingle c.mode ∧ (WantsAll c.mode → ∃ row col, HasValue (plainHdr x.1.1 x.2.hdr) (plainVal x.1.1 x.2.hdr x.2.val) row col))) ∧
        ∀ l ∈ x.2.rest, CCGL.Spec.CommonGrid l.hdr x.2.hdr) ∧ FewFullJob d st c.mode x.1 x.2 (ownView x.1.1 x.2.hdr x.2.val) (ownNum x.1.1 x.2.hdr x.2.val x.2.rest)) :
    ∃ st', runDb sys w md dbs d st args = .ok (0, d, st') ∧
      FewFullDone sys c.mode (fun j p => ownView j p.hdr p.val) (fun j p => plainNum j p.hdr p.val p.rest) (fun j p => ownNum j p.hdr p.val p.rest)
        (fun j p => HasValue (plainHdr j p.hdr) (plainVal j p.hdr p.val)) xs st st' := by
  obtain ⟨st', e, h⟩ := C98_gfs_few_plain_jobs_partial hrnd hmode hA hj
  refine ⟨st', ?_, h⟩
  have hl : loadMaskDb sys md d st c = .ok (.go none) := by
    unfold loadMaskDb
    rw [if_pos hno]
  rw [runDb_go hc hjs hu hl rfl, hinc, hxs]
  exact e

/-- C98 (and C91), INCLUDE_NODATA FALSE: a run of the program in the mode MASK with a mask in a file or in the bucket. -/
theorem C98_gfs_few_mask_run_partial {sys : Sys} (hrnd : ∀ v, CCGL.Spec.Representable .float v → sys.rnd v = v) {w : World} {md : MaskDb} {dbs : Nat → JobDb}
    {d : Disk} {st : Store} {args : List Str} {c : Cfg} {js : List Job} (hc : configure w args = .ok (.go c)) (hjs : jobs c = .ok js)
    (hu : c.useMongo = true) (hinc : c.incNodata = false) (hmode : c.mode = .mask) {hM : Header} {vM : Int → Int → ℚ} (hmask : MaskFrom sys md d st c hM vM)
    {xs : List ((Job × JobDb) × FullPlan)} (hxs : withDb dbs js = xs.map (·.1))
    (hA : xs.Pairwise (FullApart .mask (fun j p => maskedView j hM vM p.hdr p.val)))
    (hj : ∀ x ∈ xs, (x.1.1.recls = true ∧ CCGL.Spec.CommonGrid x.2.hdr hM ∧ Overlaps hM vM x.2.hdr ∧ ∀ l ∈ x.2.rest, CCGL.Spec.CommonGrid l.hdr hM) ∧
      FewFullJob d st .mask x.1 x.2 (maskedView x.1.1 hM vM x.2.hdr x.2.val)
        (maskNum x.1.1 hM vM x.2.hdr x.2.val x.2.rest)) :
    ∃ st', runDb sys w md dbs d st args = .ok (0, d, st') ∧
      FewFullDone sys .mask (fun j p => maskedView j hM vM p.hdr p.val) (fun j p => maskNum j hM vM p.hdr p.val p.rest) (fun j p => maskNum j hM vM p.hdr p.val p.rest)
        (fun _ _ => HasValue hM vM) xs st st' := by
  obtain ⟨M, eM, hm⟩ := mask_is hmask
  obtain ⟨st', e, h⟩ := C98_gfs_few_mask_jobs_partial hrnd hm hA hj
  refine ⟨st', ?_, h⟩
  have hp : prepareMask c.mode (some ⟨M, []⟩) = .ok (some ⟨M, []⟩) := by
    unfold prepareMask
    dsimp only
    rw [if_pos hmode]
  rw [runDb_go hc hjs hu eM hp, hinc, hxs, hmode]
  exact e

/-- C98 (and C91), INCLUDE_NODATA FALSE: a run of the program in the modes DEC and MASKDEC with a mask in a file or in the bucket. -/
theorem C98_gfs_few_groups_run_partial {sys : Sys} (hrnd : ∀ v, CCGL.Spec.Representable .float v → sys.rnd v = v) {w : World} {md : MaskDb} {dbs : Nat → JobDb}
    {d : Disk} {st : Store} {args : List Str} {c : Cfg} {js : List Job} (hc : configure w args = .ok (.go c)) (hjs : jobs c = .ok js)
    (hu : c.useMongo = true) (hinc : c.incNodata = false) (hmode : c.mode = .dec ∨ c.mode = .maskdec) {hM : Header} {vM : Int → Int → ℚ}
    (hmask : MaskFrom sys md d st c hM vM) (hco : CCGL.Spec.CoordsPresent hM) (hv : ∃ row col, HasValue hM vM row col)
    {xs : List ((Job × JobDb) × FullPlan)} (hxs : withDb dbs js = xs.map (·.1))
    (hA : xs.Pairwise (FullApart c.mode (fun j p => unitsView j hM vM p.hdr p.val)))
    (hj : ∀ x ∈ xs, (CCGL.Spec.CommonGrid x.2.hdr hM ∧ Overlaps hM vM x.2.hdr ∧ ∀ l ∈ x.2.rest, CCGL.Spec.CommonGrid l.hdr hM) ∧
      FewFullJob d st c.mode x.1 x.2 (unitsView x.1.1 hM vM x.2.hdr x.2.val)
        (maskNum x.1.1 hM vM x.2.hdr x.2.val x.2.rest)) :
    ∃ st', runDb sys w md dbs d st args = .ok (0, d, st') ∧
      FewFullDone sys c.mode (fun j p => unitsView j hM vM p.hdr p.val) (fun j p => maskNum j hM vM p.hdr p.val p.rest) (fun j p => maskNum j hM vM p.hdr p.val p.rest)
        (fun _ _ => HasValue hM vM) xs st st' := by
  obtain ⟨M, eM, hb, hcl, hg, hn, hval, h2⟩ := mask_source hmask
  obtain ⟨m, b, eb, hm⟩ := cutMask_of hb hcl hg hn hval h2 hv
  obtain ⟨st', e, h⟩ := C98_gfs_few_groups_jobs_partial hrnd hm hco hmode hA hj
  refine ⟨st', ?_, h⟩
  rw [runDb_go hc hjs hu eM (prepare_cut (by rcases hmode with h | h <;> rw [h] <;> simp) eb), hinc, hxs]
  exact e

end App
end CCGL
