import Verif.Spec.AppGfsReclsLRun
import Verif.Props.AppGfsStack
import Verif.Props.AppGfsRun
/-!
# Runs of `mask_rasterio` with output to GridFS, jobs with several input files and a table among them (C98)
-/
namespace CCGL
namespace App
open Fs Disk Main Raster Gfs Disk.Spec App.Spec

theorem layersOut_stays {rnd : ℚ → ℚ} {st0 st st' : Store} {mode : IOMode} {j : Job} {jd : JobDb} {V : View} {N : Nat → Int → Int → ℚ → Prop} {fill : ℚ} {m : Int}
    {P : Str → Prop} (O : DbOut st0 mode j jd V fill m)
    (he : ∀ R : CCGL.Spec.Key, ¬ P R.name → CCGL.Spec.filesOf st' R = CCGL.Spec.filesOf st R) (hne : ∀ name, DbTargets mode j V.grp name → ¬ P name)
    (H : DbLayers rnd st mode j V N fill m) : DbLayers rnd st' mode j V N fill m := by
  have hz : Char.ofNat 0 ∉ storedName j.out := by rw [stored_zero]; exact (subFile_key O 0).name
  obtain ⟨u, h1, h2, h3⟩ := H
  refine ⟨u, h1, ?_, ?_⟩
  · intro hs k hk h0
    exact single_congr (subFile_key O k).name (he _ (hne _ (.inl ⟨hs, k, hk, rfl⟩))) (h2 hs k hk h0)
  · intro ha hp
    exact whole_congr hz (he _ (hne _ (.inr ⟨ha, fun _ => hp, rfl⟩))) (h3 ha hp)

theorem stackOut_stays {st st' : Store} {mode : IOMode} {j : Job} {jd : JobDb} {V : View} {N : Nat → Int → Int → ℚ → Prop} {n : Nat} {P : Str → Prop}
    (he : ∀ R : CCGL.Spec.Key, ¬ P R.name → CCGL.Spec.filesOf st' R = CCGL.Spec.filesOf st R) (hne : ∀ name, DbTargets mode j V.grp name → ¬ P name)
    (H : StackOut st mode j jd V N n) : StackOut st' mode j jd V N n := by
  refine { H with old := ?_ }
  intro name ht f hf hh
  have : f ∈ CCGL.Spec.filesOf st' ⟨name, wholeOpts j.type⟩ := mem_filesOf.2 ⟨hf, hh⟩
  rw [he _ (hne name ht)] at this
  exact H.old name ht f (mem_filesOf.1 this).1 hh

theorem stackDone_stays {rnd : ℚ → ℚ} {st0 st st' : Store} {mode : IOMode} {j : Job} {jd : JobDb} {V : View} {N : Nat → Int → Int → ℚ → Prop} {n : Nat}
    {P : Str → Prop} (O : StackOut st0 mode j jd V N n) (hre : j.recls = false)
    (he : ∀ R : CCGL.Spec.Key, ¬ P R.name → CCGL.Spec.filesOf st' R = CCGL.Spec.filesOf st R) (hne : ∀ name, DbTargets mode j V.grp name → ¬ P name)
    (H : DbStack rnd st mode j V N n) : DbStack rnd st' mode j V N n := by
  have hz : Char.ofNat 0 ∉ storedName j.out := by rw [stored_zero]; exact (subFile_keyS O 0).name
  obtain ⟨u, h1, h2, h3⟩ := H
  refine ⟨u, h1, ?_, ?_⟩
  · intro hs k hk h0
    exact single_congr (subFile_keyS O k).name (he _ (hne _ (.inl ⟨hs, k, hk, rfl⟩))) (h2 hs k hk h0)
  · intro ha
    exact layers_congr hz (he _ (hne _ (.inr ⟨ha, fun h => by (rw [hre] at h; cases h), rfl⟩))) (h3 ha)

/-- All jobs with output to the bucket, given what one job does. -/
theorem full_batch {sys : Sys} {d : Disk} {mode : IOMode} {own : Bool} {V : Job → FullPlan → View} {N S : Job → FullPlan → Nat → Int → Int → ℚ → Prop}
    {I : Option RasterS → Prop} {ok : FullPlan → Prop}
    (step : ∀ st m jj p, I m → ok p → FullJob sys d st mode own jj p (V jj.1 p) (S jj.1 p) → ∃ (st' : Store) (m' : Option RasterS),
      layerJobDb sys true mode (d, st, m) jj = .ok (d, st', m') ∧ I m' ∧ OthersStay st st' mode jj.1 (V jj.1 p).grp ∧
      FullOut sys.rnd st' mode jj.1 p (V jj.1 p) (N jj.1 p) (S jj.1 p)) :
    ∀ (xs : List ((Job × JobDb) × FullPlan)) (st : Store) (m : Option RasterS), I m →
      (∀ x ∈ xs, ok x.2 ∧ FullJob sys d st mode own x.1 x.2 (V x.1.1 x.2) (S x.1.1 x.2)) → xs.Pairwise (FullApart mode V) →
      ∃ st' m', (xs.map (·.1)).foldlM (layerJobDb sys true mode) (d, st, m) = .ok (d, st', m') ∧ I m' ∧ FullDone sys mode V N S xs st st' := by
  intro xs
  induction xs with
  | nil =>
    intro st m hI _ _
    exact ⟨st, m, rfl, hI, fun _ _ => rfl, by intro x h; cases h⟩
  | cons x xs ih =>
    intro st m hI hx hA
    obtain ⟨hA1, hA2⟩ := List.pairwise_cons.1 hA
    obtain ⟨hok, H⟩ := hx x List.mem_cons_self
    obtain ⟨st1, m1, e1, hI1, k1, k2⟩ := step st m x.1 x.2 hI hok H
    have k1' : ∀ R : CCGL.Spec.Key, ¬ DbTargets mode x.1.1 (V x.1.1 x.2).grp R.name → CCGL.Spec.filesOf st1 R = CCGL.Spec.filesOf st R :=
      fun R hR => k1 R (fun name hn he => hR (by rw [he]; exact hn))
    have hx1 : ∀ y ∈ xs, ok y.2 ∧ FullJob sys d st1 mode own y.1 y.2 (V y.1.1 y.2) (S y.1.1 y.2) := by
      intro y hy
      obtain ⟨a, b⟩ := hx y (List.mem_cons_of_mem _ hy)
      have hout : ∀ n, DbTargets mode y.1.1 (V y.1.1 y.2).grp n → ¬ DbTargets mode x.1.1 (V x.1.1 x.2).grp n := fun n hn ht => (hA1 y hy n ht).1 hn
      refine ⟨a, ⟨fun h0 => ?_, b.several, fun h0 h1 => ⟨(b.table h0 h1).1, dbOut_stays k1' hout (b.table h0 h1).2⟩,
        fun h0 h1 => ⟨stackOut_stays k1' hout (b.stack h0 h1).1, (b.stack h0 h1).2⟩⟩⟩
      · have b := b.single h0
        refine ⟨b.fmt, b.kind, input_stays k1' b.nul ?_ b.input, b.nul, dbOut_stays k1' hout b.out⟩
        intro hg n hn ht
        exact (hA1 y hy n ht).2 hg hn
    obtain ⟨st2, m2, e2, hI2, k3, k4⟩ := ih st1 m1 hI1 hx1 hA2
    refine ⟨st2, m2, ?_, hI2, ?_, ?_⟩
    · rw [List.map_cons, List.foldlM_cons, e1]
      exact e2
    · intro R hR
      rw [k3 R (fun y hy => hR y (List.mem_cons_of_mem _ hy)), k1' R (hR x List.mem_cons_self)]
    · intro y hy
      rcases List.mem_cons.1 hy with rfl | hy
      · have he : ∀ R : CCGL.Spec.Key, ¬ (fun n => ∃ z ∈ xs, DbTargets mode z.1.1 (V z.1.1 z.2).grp n) R.name → CCGL.Spec.filesOf st2 R = CCGL.Spec.filesOf st1 R :=
          fun R hR => k3 R (fun z hz ht => hR ⟨z, hz, ht⟩)
        have hne : ∀ n, DbTargets mode y.1.1 (V y.1.1 y.2).grp n → ¬ (fun n => ∃ z ∈ xs, DbTargets mode z.1.1 (V z.1.1 z.2).grp n) n := by
          rintro n hn ⟨z, hz, ht⟩
          exact (hA1 z hz n hn).1 ht
        exact ⟨fun h0 => done_stays (H.single h0).out he hne (k2.single h0), fun h0 h1 => layersOut_stays (H.table h0 h1).2 he hne (k2.table h0 h1),
          fun h0 h1 => stackDone_stays (H.stack h0 h1).1 h1 he hne (k2.stack h0 h1)⟩
      · exact k4 y hy

theorem bucketLayers_of {st : Store} {j : Job} {jd : JobDb} {V : View} {N : Nat → Int → Int → ℚ → Prop} {n : Nat} (O : StackOut st .mask j jd V N n)
    (hre : j.recls = false) : BucketLayers st j jd V.hdr n :=
  ⟨by rw [stored_zero]; exact subFile_keyS O 0, O.whole (.inl rfl), O.type, O.rm, O.att, O.old _ (.inr ⟨.inl rfl, fun h => by (rw [hre] at h; cases h), rfl⟩)⟩

theorem not_single_mask : ¬ WantsSingle .mask := by
  rintro (h | h) <;> cases h

/-- In the mode MASK only the whole grid is stored. -/
theorem stack_of_layers {sys : Sys} {st st' : Store} {j : Job} {jd : JobDb} {V : View} {h : Header} {nd : ℚ} {n : Nat} {L N : Nat → Int → Int → ℚ → Prop}
    (hre : j.recls = false) (hV : V.hdr = { h with noData := renamedNd j.update nd j.nodata.toQ })
    (hL : ∀ l row col w, L l row col w → N l row col (renamed j.update nd j.nodata.toQ w)) (hd : ∃ i, i < 4 ∧ (jd.att i).reported = true)
    (H : StoredLayers sys st st' j jd h nd n L) : OthersStay st st' .mask j V.grp ∧ DbStack sys.rnd st' .mask j V N n := by
  refine ⟨fun R hR => H.others R (hR _ (.inr ⟨.inl rfl, fun h => by (rw [hre] at h; cases h), rfl⟩)), ?_⟩
  obtain ⟨w, w1, w2⟩ := H.file hd
  refine ⟨_, ?_, fun h => absurd h not_single_mask, fun _ => by rw [hV]; exact w2⟩
  intro row col hin l hln
  rw [hV] at hin
  exact hL l row col _ (w1 row col hin l hln)

theorem stack_mask_plain {sys : Sys} (hrnd : ∀ v, CCGL.Spec.Representable .float v → sys.rnd v = v) {d : Disk} {st : Store} {jd : JobDb} {j : Job} {s : Str}
    {rest : List LayerFile} {hR : Header} {vR : Int → Int → ℚ} (hin : j.inFmt = .sfile)
    (hs : j.inputs = s :: rest.map (·.path)) (hne : rest ≠ []) (H : RasterFile d s hR vR)
    (Hl : ∀ l ∈ rest, RasterFile d l.path l.hdr l.val) (hgl : ∀ l ∈ rest, CCGL.Spec.CommonGrid l.hdr hR)
    (hout : j.outFmt = .gfs) (hre : j.recls = false)
    (O : StackOut st .mask j jd (ownView j hR vR) (ownNum j hR vR rest) (rest.length + 1)) :
    ∃ st', layerJobDb sys true .mask (d, st, none) (j, jd) = .ok (d, st', none) ∧
      OthersStay st st' .mask j (ownView j hR vR).grp ∧ DbStack sys.rnd st' .mask j (ownView j hR vR) (ownNum j hR vR rest) (rest.length + 1) := by
  have hL : ∀ l row col w, PlainLayers hR vR rest l row col w → ownNum j hR vR rest l row col (renamed j.update hR.noData j.nodata.toQ w) :=
    fun l row col w hw => .inl ⟨w, hw, rfl⟩
  obtain ⟨r, hi, hfe, hb, hnc, h2, hl, hgr, hnd, hdf, hval⟩ := plain_layers hne H Hl hgl j.default.toQ
  obtain ⟨st', e, hS⟩ := finish_stack (sys := sys) hrnd (d := d) (st := st) (mask := none) (mask' := none) (j := j) (jd := jd) (subs := [])
    hb hnc (Nat.succ_pos _) (by rw [hl]; push_cast; rfl) hgr hnd hval hout hre (bucketLayers_of O hre)
    (fun row col hin l hln w hw => O.cells row col hin l hln _ (hL l row col w hw))
  refine ⟨st', ?_, stack_of_layers hre rfl hL O.done.1 hS⟩
  unfold layerJobDb
  rw [if_pos ⟨hin, by rw [hs]; exact hfe⟩]
  dsimp only
  rw [hs, hi, Out.ok_bind]
  exact e

theorem stack_mask {sys : Sys} (hrnd : ∀ v, CCGL.Spec.Representable .float v → sys.rnd v = v) {d : Disk} {st : Store} {m : Raster} {hM hR : Header}
    {vM vR : Int → Int → ℚ} (hm : IsMask m hM vM) {j : Job} {jd : JobDb} {s : Str} {rest : List LayerFile} (hin : j.inFmt = .sfile)
    (hs : j.inputs = s :: rest.map (·.path)) (hne : rest ≠ []) (H : RasterFile d s hR vR) (Hl : ∀ l ∈ rest, RasterFile d l.path l.hdr l.val)
    (hg : CCGL.Spec.CommonGrid hR hM) (hgl : ∀ l ∈ rest, CCGL.Spec.CommonGrid l.hdr hM) (hov : Overlaps hM vM hR) (hout : j.outFmt = .gfs)
    (hre : j.recls = false) (O : StackOut st .mask j jd (maskedView j hM vM hR vR) (maskNum j hM vM hR vR rest) (rest.length + 1)) :
    ∃ st' m', layerJobDb sys true .mask (d, st, some ⟨m, []⟩) (j, jd) = .ok (d, st', some ⟨m', []⟩) ∧ IsMask m' hM vM ∧
      OthersStay st st' .mask j (maskedView j hM vM hR vR).grp ∧
      DbStack sys.rnd st' .mask j (maskedView j hM vM hR vR) (maskNum j hM vM hR vR rest) (rest.length + 1) := by
  have hL : ∀ l row col w, MaskedLayers hM vM hR vR j.default.toQ rest l row col w → maskNum j hM vM hR vR rest l row col (renamed j.update hR.noData j.nodata.toQ w) :=
    fun l row col w hw => ⟨w, hw, rfl⟩
  obtain ⟨r, m', hi, hm', hfe, hb, hnc, h2, hl, hgr, hnd, hdf, hval⟩ := masked_layers hm hne H Hl hg hgl hov j.default.toQ
  obtain ⟨st', e, hS⟩ := finish_stack (sys := sys) hrnd (d := d) (st := st) (mask := some ⟨m, []⟩) (mask' := some ⟨m', []⟩) (j := j) (jd := jd) (subs := [])
    hb hnc (Nat.succ_pos _) (by rw [hl]; push_cast; rfl) hgr hnd hval hout hre (bucketLayers_of O hre)
    (fun row col hin l hln w hw => O.cells row col hin l hln _ (hL l row col w hw))
  obtain ⟨o1, o2⟩ := stack_of_layers (V := maskedView j hM vM hR vR) hre rfl hL O.done.1 hS
  refine ⟨st', m', ?_, hm', o1, o2⟩
  unfold layerJobDb
  rw [if_pos ⟨hin, by rw [hs]; exact hfe⟩]
  dsimp only
  rw [hs, hi, Out.ok_bind]
  exact e

/-- C98 (and C90): all jobs without a mask. -/
theorem C98_gfs_plain_jobs_partial {sys : Sys} (hrnd : ∀ v, CCGL.Spec.Representable .float v → sys.rnd v = v) {d : Disk} {st : Store} {mode : IOMode}
    (hmode : Layers mode) {xs : List ((Job × JobDb) × FullPlan)}
    (hA : xs.Pairwise (FullApart mode (fun j p => ownView j p.hdr p.val)))
    (hj : ∀ x ∈ xs, (∀ l ∈ x.2.rest, CCGL.Spec.CommonGrid l.hdr x.2.hdr) ∧ FullJob sys d st mode true x.1 x.2 (ownView x.1.1 x.2.hdr x.2.val) (ownNum x.1.1 x.2.hdr x.2.val x.2.rest)) :
    ∃ st', runJobsDb sys true mode none d st (xs.map (·.1)) = .ok (0, d, st') ∧
      FullDone sys mode (fun j p => ownView j p.hdr p.val) (fun j p => plainNum j p.hdr p.val p.rest) (fun j p => ownNum j p.hdr p.val p.rest) xs st st' := by
  obtain ⟨st', m', e, -, k⟩ := full_batch (sys := sys) (d := d) (mode := mode) (own := true) (V := fun j p => ownView j p.hdr p.val)
    (N := fun j p => plainNum j p.hdr p.val p.rest) (S := fun j p => ownNum j p.hdr p.val p.rest)
    (I := fun m => m = none) (ok := fun p => ∀ l ∈ p.rest, CCGL.Spec.CommonGrid l.hdr p.hdr) (by
      rintro st _ ⟨j, jd⟩ p rfl hgl HH
      by_cases h0 : p.rest = []
      · have H := HH.single h0
        suffices ∃ st', layerJobDb sys true mode (d, st, none) (j, jd) = .ok (d, st', none) ∧ OthersStay st st' mode j (ownView j p.hdr p.val).grp ∧
            DbDone sys.rnd st' mode j (ownView j p.hdr p.val) (jobFill j p.hdr) p.lyrs by
          obtain ⟨st', e, o1, o2⟩ := this
          exact ⟨st', none, e, rfl, o1, ⟨fun _ => o2, fun h => absurd h0 h, fun h => absurd h0 h⟩⟩
        rcases H.kind with h | ⟨h1, h3, h4⟩
        · exact C90_recls_partial hrnd H.input H.fmt h H.out
        · have HO := H.out
          rw [h3] at HO
          have h3' : p.lyrs = 1 := h3
          rw [h3']
          by_cases hmk : mode = .mask
          · subst hmk
            exact C90_plain_partial hrnd H.input H.fmt h1 HO
          · have h2 : WantsSingle mode := hmode.resolve_left hmk
            exact C90_own_partial hrnd H.input H.fmt h1 h2 (h4 rfl h2) HO
      · obtain ⟨b1, b2, ⟨s, b4, b4'⟩, b5⟩ := HH.several h0
        cases b3 : j.recls with
        | false =>
          obtain ⟨b6, b7⟩ := HH.stack h0 b3
          by_cases hmk : mode = .mask
          · subst hmk
            obtain ⟨st', e, o1, o2⟩ := stack_mask_plain hrnd b1 b4 h0 b4' b5 hgl b2 b3 b6
            exact ⟨st', none, e, rfl, o1, ⟨fun h => absurd h h0, fun _ h => by (rw [b3] at h; cases h), fun _ _ => o2⟩⟩
          · have h2 : WantsSingle mode := hmode.resolve_left hmk
            obtain ⟨st', e, o1, o2⟩ := C98_gfs_stack_own_partial hrnd b1 b4 h0 b4' b5 hgl b2 b3 h2 (b7 rfl h2) b6
            exact ⟨st', none, e, rfl, o1, ⟨fun h => absurd h h0, fun _ h => by (rw [b3] at h; cases h), fun _ _ => o2⟩⟩
        | true =>
        obtain ⟨b6, b7⟩ := HH.table h0 b3
        obtain ⟨st', e, o1, o2⟩ := C98_gfs_plain_partial hrnd b1 b4 h0 b4' b5 hgl b2 b3 b6 b7
        exact ⟨st', none, e, rfl, o1, ⟨fun h => absurd h h0, fun _ _ => o2, fun _ h => by (rw [b3] at h; cases h)⟩⟩) xs st none rfl hj hA
  exact ⟨st', runJobsDb_layers hmode e, k⟩

/-- C98 (and C90): all jobs of the mode MASK with a mask. -/
theorem C98_gfs_mask_jobs_partial {sys : Sys} (hrnd : ∀ v, CCGL.Spec.Representable .float v → sys.rnd v = v) {d : Disk} {st : Store} {m : Raster} {hM : Header}
    {vM : Int → Int → ℚ} (hm : IsMask m hM vM) {xs : List ((Job × JobDb) × FullPlan)}
    (hA : xs.Pairwise (FullApart .mask (fun j p => maskedView j hM vM p.hdr p.val)))
    (hj : ∀ x ∈ xs, (CCGL.Spec.CommonGrid x.2.hdr hM ∧ Overlaps hM vM x.2.hdr ∧ ∀ l ∈ x.2.rest, CCGL.Spec.CommonGrid l.hdr hM) ∧
      FullJob sys d st .mask false x.1 x.2 (maskedView x.1.1 hM vM x.2.hdr x.2.val)
        (maskNum x.1.1 hM vM x.2.hdr x.2.val x.2.rest)) :
    ∃ st', runJobsDb sys true .mask (some ⟨m, []⟩) d st (xs.map (·.1)) = .ok (0, d, st') ∧
      FullDone sys .mask (fun j p => maskedView j hM vM p.hdr p.val) (fun j p => maskNum j hM vM p.hdr p.val p.rest) (fun j p => maskNum j hM vM p.hdr p.val p.rest) xs st st' := by
  obtain ⟨st', m', e, -, k⟩ := full_batch (sys := sys) (d := d) (mode := .mask) (own := false) (V := fun j p => maskedView j hM vM p.hdr p.val)
    (N := fun j p => maskNum j hM vM p.hdr p.val p.rest) (S := fun j p => maskNum j hM vM p.hdr p.val p.rest)
    (I := fun x => ∃ m, x = some ⟨m, []⟩ ∧ IsMask m hM vM) (ok := fun p => CCGL.Spec.CommonGrid p.hdr hM ∧ Overlaps hM vM p.hdr ∧ ∀ l ∈ p.rest, CCGL.Spec.CommonGrid l.hdr hM) (by
      rintro st _ ⟨j, jd⟩ p ⟨m, rfl, hm⟩ ⟨hg, hov, hgl⟩ HH
      by_cases h0 : p.rest = []
      · have H := HH.single h0
        rcases H.kind with h | ⟨h1, h3, -⟩
        · obtain ⟨st', m', e, hm', o1, o2⟩ := C90_mask_recls_partial hrnd hm H.input hg hov H.fmt h H.out
          exact ⟨st', _, e, ⟨m', rfl, hm'⟩, o1, ⟨fun _ => o2, fun h => absurd h0 h, fun h => absurd h0 h⟩⟩
        · have HO := H.out
          rw [h3] at HO
          have h3' : p.lyrs = 1 := h3
          obtain ⟨st', m', e, hm', o1, o2⟩ := C90_mask_partial hrnd hm H.input hg hov H.fmt h1 HO
          exact ⟨st', _, e, ⟨m', rfl, hm'⟩, o1, ⟨fun _ => by rw [h3']; exact o2, fun h => absurd h0 h, fun h => absurd h0 h⟩⟩
      · obtain ⟨b1, b2, ⟨s, b4, b4'⟩, b5⟩ := HH.several h0
        cases b3 : j.recls with
        | false =>
          obtain ⟨b6, b7⟩ := HH.stack h0 b3
          obtain ⟨st', m', e, hm', o1, o2⟩ := stack_mask hrnd hm b1 b4 h0 b4' b5 hg hgl hov b2 b3 b6
          exact ⟨st', _, e, ⟨m', rfl, hm'⟩, o1, ⟨fun h => absurd h h0, fun _ h => by (rw [b3] at h; cases h), fun _ _ => o2⟩⟩
        | true =>
        obtain ⟨b6, b7⟩ := HH.table h0 b3
        obtain ⟨st', m', e, hm', o1, o2⟩ := C98_gfs_mask_partial hrnd hm b1 b4 h0 b4' b5 hg hgl hov b2 b3 b6 b7
        exact ⟨st', _, e, ⟨m', rfl, hm'⟩, o1, ⟨fun h => absurd h h0, fun _ _ => o2, fun _ h => by (rw [b3] at h; cases h)⟩⟩) xs st _ ⟨m, rfl, hm⟩ hj hA
  exact ⟨st', runJobsDb_layers (.inl rfl) e, k⟩

/-- C98 (and C90): all jobs of the modes DEC and MASKDEC with a mask whose subsets have been built. -/
theorem C98_gfs_groups_jobs_partial {sys : Sys} (hrnd : ∀ v, CCGL.Spec.Representable .float v → sys.rnd v = v) {d : Disk} {st : Store} {m : RasterS} {hM : Header}
    {vM : Int → Int → ℚ} (hm : CutMask m hM vM) (hco : CCGL.Spec.CoordsPresent hM) {mode : IOMode} (hmode : mode = .dec ∨ mode = .maskdec)
    {xs : List ((Job × JobDb) × FullPlan)} (hA : xs.Pairwise (FullApart mode (fun j p => unitsView j hM vM p.hdr p.val)))
    (hj : ∀ x ∈ xs, (CCGL.Spec.CommonGrid x.2.hdr hM ∧ Overlaps hM vM x.2.hdr ∧ ∀ l ∈ x.2.rest, CCGL.Spec.CommonGrid l.hdr hM) ∧
      FullJob sys d st mode false x.1 x.2 (unitsView x.1.1 hM vM x.2.hdr x.2.val)
        (maskNum x.1.1 hM vM x.2.hdr x.2.val x.2.rest)) :
    ∃ st', runJobsDb sys true mode (some m) d st (xs.map (·.1)) = .ok (0, d, st') ∧
      FullDone sys mode (fun j p => unitsView j hM vM p.hdr p.val) (fun j p => maskNum j hM vM p.hdr p.val p.rest) (fun j p => maskNum j hM vM p.hdr p.val p.rest) xs st st' := by
  obtain ⟨st', m', e, -, k⟩ := full_batch (sys := sys) (d := d) (mode := mode) (own := false) (V := fun j p => unitsView j hM vM p.hdr p.val)
    (N := fun j p => maskNum j hM vM p.hdr p.val p.rest) (S := fun j p => maskNum j hM vM p.hdr p.val p.rest)
    (I := fun x => x = some m) (ok := fun p => CCGL.Spec.CommonGrid p.hdr hM ∧ Overlaps hM vM p.hdr ∧ ∀ l ∈ p.rest, CCGL.Spec.CommonGrid l.hdr hM) (by
      rintro st _ ⟨j, jd⟩ p rfl ⟨hg, hov, hgl⟩ HH
      by_cases h0 : p.rest = []
      · have H := HH.single h0
        rcases H.kind with h | ⟨h1, h3, -⟩
        · obtain ⟨st', e, o1, o2⟩ := C90_units_recls_partial hrnd hm H.input hg hco hov H.fmt h H.out
          exact ⟨st', _, e, rfl, o1, ⟨fun _ => o2, fun h => absurd h0 h, fun h => absurd h0 h⟩⟩
        · have HO := H.out
          rw [h3] at HO
          have h3' : p.lyrs = 1 := h3
          obtain ⟨st', e, o1, o2⟩ := C90_units_partial hrnd hm H.input hg hco hov H.fmt h1 hmode HO
          exact ⟨st', _, e, rfl, o1, ⟨fun _ => by rw [h3']; exact o2, fun h => absurd h0 h, fun h => absurd h0 h⟩⟩
      · obtain ⟨b1, b2, ⟨s, b4, b4'⟩, b5⟩ := HH.several h0
        cases b3 : j.recls with
        | false =>
          obtain ⟨b6, b7⟩ := HH.stack h0 b3
          obtain ⟨st', e, o1, o2⟩ := C98_gfs_stack_units_partial hrnd hm b1 b4 h0 b4' b5 hg hco hgl hov b2 b3 hmode b6
          exact ⟨st', _, e, rfl, o1, ⟨fun h => absurd h h0, fun _ h => by (rw [b3] at h; cases h), fun _ _ => o2⟩⟩
        | true =>
        obtain ⟨b6, b7⟩ := HH.table h0 b3
        obtain ⟨st', e, o1, o2⟩ := C98_gfs_groups_partial hrnd hm b1 b4 h0 b4' b5 hg hco hgl hov b2 b3 b6 b7
        exact ⟨st', _, e, rfl, o1, ⟨fun h => absurd h h0, fun _ _ => o2, fun _ h => by (rw [b3] at h; cases h)⟩⟩) xs st _ rfl hj hA
  exact ⟨st', runJobsDb_layers (.inr hmode) e, k⟩

/-- C98 (and C91): a run of the program without mask. -/
theorem C98_gfs_plain_run_partial {sys : Sys} (hrnd : ∀ v, CCGL.Spec.Representable .float v → sys.rnd v = v) {w : World} {md : MaskDb} {dbs : Nat → JobDb}
    {d : Disk} {st : Store} {args : List Str} {c : Cfg} {js : List Job} (hc : configure w args = .ok (.go c)) (hjs : jobs c = .ok js)
    (hu : c.useMongo = true) (hinc : c.incNodata = true) (hmode : Layers c.mode) (hno : c.maskPath = [])
    {xs : List ((Job × JobDb) × FullPlan)} (hxs : withDb dbs js = xs.map (·.1))
    (hA : xs.Pairwise (FullApart c.mode (fun j p => ownView j p.hdr p.val)))
    (hj : ∀ x ∈ xs, (∀ l ∈ x.2.rest, CCGL.Spec.CommonGrid l.hdr x.2.hdr) ∧ FullJob sys d st c.mode true x.1 x.2 (ownView x.1.1 x.2.hdr x.2.val) (ownNum x.1.1 x.2.hdr x.2.val x.2.rest)) :
    ∃ st', runDb sys w md dbs d st args = .ok (0, d, st') ∧
      FullDone sys c.mode (fun j p => ownView j p.hdr p.val) (fun j p => plainNum j p.hdr p.val p.rest) (fun j p => ownNum j p.hdr p.val p.rest) xs st st' := by
  obtain ⟨st', e, h⟩ := C98_gfs_plain_jobs_partial hrnd hmode hA hj
  refine ⟨st', ?_, h⟩
  have hl : loadMaskDb sys md d st c = .ok (.go none) := by
    unfold loadMaskDb
    rw [if_pos hno]
  rw [runDb_go hc hjs hu hl rfl, hinc, hxs]
  exact e

/-- C98 (and C91): a run of the program in the mode MASK with a mask in a file or in the bucket. -/
theorem C98_gfs_mask_run_partial {sys : Sys} (hrnd : ∀ v, CCGL.Spec.Representable .float v → sys.rnd v = v) {w : World} {md : MaskDb} {dbs : Nat → JobDb}
    {d : Disk} {st : Store} {args : List Str} {c : Cfg} {js : List Job} (hc : configure w args = .ok (.go c)) (hjs : jobs c = .ok js)
    (hu : c.useMongo = true) (hinc : c.incNodata = true) (hmode : c.mode = .mask) {hM : Header} {vM : Int → Int → ℚ} (hmask : MaskFrom sys md d st c hM vM)
    {xs : List ((Job × JobDb) × FullPlan)} (hxs : withDb dbs js = xs.map (·.1))
    (hA : xs.Pairwise (FullApart .mask (fun j p => maskedView j hM vM p.hdr p.val)))
    (hj : ∀ x ∈ xs, (CCGL.Spec.CommonGrid x.2.hdr hM ∧ Overlaps hM vM x.2.hdr ∧ ∀ l ∈ x.2.rest, CCGL.Spec.CommonGrid l.hdr hM) ∧
      FullJob sys d st .mask false x.1 x.2 (maskedView x.1.1 hM vM x.2.hdr x.2.val)
        (maskNum x.1.1 hM vM x.2.hdr x.2.val x.2.rest)) :
    ∃ st', runDb sys w md dbs d st args = .ok (0, d, st') ∧
      FullDone sys .mask (fun j p => maskedView j hM vM p.hdr p.val) (fun j p => maskNum j hM vM p.hdr p.val p.rest) (fun j p => maskNum j hM vM p.hdr p.val p.rest) xs st st' := by
  obtain ⟨M, eM, hm⟩ := mask_is hmask
  obtain ⟨st', e, h⟩ := C98_gfs_mask_jobs_partial hrnd hm hA hj
  refine ⟨st', ?_, h⟩
  have hp : prepareMask c.mode (some ⟨M, []⟩) = .ok (some ⟨M, []⟩) := by
    unfold prepareMask
    dsimp only
    rw [if_pos hmode]
  rw [runDb_go hc hjs hu eM hp, hinc, hxs, hmode]
  exact e

/-- C98 (and C91): a run of the program in the modes DEC and MASKDEC with a mask in a file or in the bucket. -/
theorem C98_gfs_groups_run_partial {sys : Sys} (hrnd : ∀ v, CCGL.Spec.Representable .float v → sys.rnd v = v) {w : World} {md : MaskDb} {dbs : Nat → JobDb}
    {d : Disk} {st : Store} {args : List Str} {c : Cfg} {js : List Job} (hc : configure w args = .ok (.go c)) (hjs : jobs c = .ok js)
    (hu : c.useMongo = true) (hinc : c.incNodata = true) (hmode : c.mode = .dec ∨ c.mode = .maskdec) {hM : Header} {vM : Int → Int → ℚ}
    (hmask : MaskFrom sys md d st c hM vM) (hco : CCGL.Spec.CoordsPresent hM) (hv : ∃ row col, HasValue hM vM row col)
    {xs : List ((Job × JobDb) × FullPlan)} (hxs : withDb dbs js = xs.map (·.1))
    (hA : xs.Pairwise (FullApart c.mode (fun j p => unitsView j hM vM p.hdr p.val)))
    (hj : ∀ x ∈ xs, (CCGL.Spec.CommonGrid x.2.hdr hM ∧ Overlaps hM vM x.2.hdr ∧ ∀ l ∈ x.2.rest, CCGL.Spec.CommonGrid l.hdr hM) ∧
      FullJob sys d st c.mode false x.1 x.2 (unitsView x.1.1 hM vM x.2.hdr x.2.val)
        (maskNum x.1.1 hM vM x.2.hdr x.2.val x.2.rest)) :
    ∃ st', runDb sys w md dbs d st args = .ok (0, d, st') ∧
      FullDone sys c.mode (fun j p => unitsView j hM vM p.hdr p.val) (fun j p => maskNum j hM vM p.hdr p.val p.rest) (fun j p => maskNum j hM vM p.hdr p.val p.rest) xs st st' := by
  obtain ⟨M, eM, hb, hcl, hg, hn, hval, h2⟩ := mask_source hmask
  obtain ⟨m, b, eb, hm⟩ := cutMask_of hb hcl hg hn hval h2 hv
  obtain ⟨st', e, h⟩ := C98_gfs_groups_jobs_partial hrnd hm hco hmode hA hj
  refine ⟨st', ?_, h⟩
  rw [runDb_go hc hjs hu eM (prepare_cut (by rcases hmode with h | h <;> rw [h] <;> simp) eb), hinc, hxs]
  exact e

end App
end CCGL
