import Verif.Props.AppCrash
import Verif.Props.AppMany
/-!
# A run of `mask_rasterio` with several input files of a job is stopped and started again (C101)
-/
namespace CCGL
namespace App
open Fs Disk Main Raster Disk.Spec App.Spec

namespace Spec

/-- As `Stopped`, for runs with jobs with several input files. -/
def StoppedMany (sys : Sys) (c : Cfg) (V : Job → RPlan → View) (xs : List (Job × APlan)) (d d' : Disk) (done : List (Job × APlan)) : Prop :=
  ∃ m, Loaded d c m ∧ ∃ rest, xs = done ++ rest ∧ ∃ d1 m1, (done.map (·.1)).foldlM (layerJob sys c.mode) (d, m) = .ok (d1, m1) ∧
    OnlyAt d1 d' (fun q => ∃ x, rest.head? = some x ∧ x.2.Writes c.mode V x.1 q)

/-- No job reads what a job of the run writes, and no two jobs write the same file. -/
def SeparateMany (mode : IOMode) (V : Job → RPlan → View) (xs : List (Job × APlan)) : Prop :=
  (∀ x ∈ xs, ∀ y ∈ xs, ∀ q, x.2.Writes mode V x.1 q → ¬ y.2.reads q) ∧
  xs.Pairwise (fun a b => ∀ q, a.2.Writes mode V a.1 q → ¬ b.2.Writes mode V b.1 q)

end Spec

theorem separateMany_apart {mode : IOMode} {V : Job → RPlan → View} {xs : List (Job × APlan)} (h : SeparateMany mode V xs) : ApartAll mode V xs := by
  unfold ApartAll
  refine (List.pairwise_iff_forall_sublist.2 fun {a b} hs => ?_)
  have ha : a ∈ xs := hs.subset (by simp)
  have hb : b ∈ xs := hs.subset (by simp)
  intro q hq
  exact ⟨h.1 a ha b hb q hq, (List.pairwise_iff_forall_sublist.1 h.2 hs) q hq⟩

/-- A job can be carried out again whatever has become of files other than its inputs. -/
theorem manyJob_only {sys : Sys} {d d' : Disk} {mode : IOMode} {V : View} {j : Job} {pl : MPlan} {T : Path → Prop} (hw : Fs.Spec.WF d.fs) (hr : OnlyAt d d' T)
    (hi : ∀ q ∈ pl.inps, ¬ T q) (H : ManyJob sys d mode V j pl) : ManyJob sys d' mode V j pl := by
  obtain ⟨s, hs, Hf⟩ := H.files
  have key : ∀ x ∈ j.inputs, ∀ h v, RasterFile d x h v → RasterFile d' x h v := by
    intro x hx h v hf
    obtain ⟨q, hq, e⟩ := H.paths x hx
    exact rasterFile_only hw hr e (hi q hq) hf
  refine ⟨H.fmts, ⟨s, hs, key s (by rw [hs]; exact List.mem_cons_self) _ _ Hf⟩,
    ⟨H.more.1, fun l hl => key _ (by rw [hs]; exact List.mem_cons_of_mem _ (List.mem_map.2 ⟨l, hl, rfl⟩)) _ _ (H.more.2 l hl)⟩, ?_, ?_, ?_⟩
  · intro x hx
    obtain ⟨q, hq, e⟩ := H.paths x hx
    exact ⟨q, hq, resolve_only hr e (hi q hq)⟩
  · intro hre
    exact ⟨(H.recls hre).1, canWrite_only hr (H.recls hre).2⟩
  · intro hre hm
    obtain ⟨w1, w2, w3⟩ := H.whole hre hm
    exact ⟨w1, ⟨hr.nameIn w2.name, hr.nodir w2.nodir, fun l hl => writable_only hr (w2.write l hl), w2.suf⟩, w3⟩

theorem layersOut_only {d d' : Disk} {T : Path → Prop} (hr : OnlyAt d d' T) {p : Path} {dt core suf : Str}
    (hN : NameIn d.fs p dt core suf) {first : Int} {h : Header} {upd : Bool} {nd nv : ℚ} {n : Nat} {K : Int → Int → Prop} {V : Nat → Int → Int → ℚ → Prop}
    (hfile : ∀ l : Nat, l < n → d.fs.kindOf (p ++ [core ++ '_' :: intToDec ((l : Int) + first) ++ '.' :: suf]) = some .file)
    (hn : ∀ l : Nat, l < n → ¬ T (p ++ [core ++ '_' :: intToDec ((l : Int) + first) ++ '.' :: suf])) (H : LayersOut d dt core suf first h upd nd nv n K V) :
    LayersOut d' dt core suf first h upd nd nv n K V := by
  intro l hl
  obtain ⟨v, h1, h2⟩ := H l hl
  refine ⟨v, ?_, h2⟩
  have hN' : NameIn d.fs p dt (core ++ '_' :: intToDec ((l : Int) + first)) suf := ⟨hN.wf, hN.dir, layer_core hN.core _, hN.suf, hN.exist⟩
  have e := resolve_out hN' (hfile l hl)
  have e2 : dt ++ (core ++ '_' :: intToDec ((l : Int) + first)) ++ '.' :: suf = dt ++ core ++ '_' :: intToDec ((l : Int) + first) ++ '.' :: suf := by simp
  have := reads_only hN.wf hr e (hn l hl) (s := dt ++ (core ++ '_' :: intToDec ((l : Int) + first)) ++ '.' :: suf) (by rw [e2]; exact h1)
  rw [e2] at this
  exact this

/-- The outputs of a job with several input files stay if only other files change. -/
theorem manyDone_only {sys : Sys} {d d1 d' : Disk} {mode : IOMode} {V : View} {K : Int → Int → Prop} {L : Nat → Int → Int → ℚ → Prop} {j : Job} {pl : MPlan}
    {T : Path → Prop} (H : ManyJob sys d mode V j pl)
    (h1 : OnlyAt d d1 T) (hf : ∀ q, ManyTargets mode V j pl q → d1.fs.kindOf q = some .file) {T' : Path → Prop} (hr : OnlyAt d1 d' T')
    (hn : ∀ q, ManyTargets mode V j pl q → ¬ T' q) (D : ManyDone d1 mode V K L j pl) : ManyDone d' mode V K L j pl := by
  constructor
  · intro hre
    have hN := h1.nameIn (H.recls hre).2.name
    obtain ⟨a, b⟩ := D.recls hre
    refine ⟨fun hm hex l hl => ?_, fun hm k hk h0 => ?_⟩
    · have ht : ManyTargets mode V j pl (outPath pl.dir pl.core pl.suf pl.m 0 l) := .inl ⟨hre, .inr ⟨hm, hex, l, hl, rfl⟩⟩
      obtain ⟨w, w1, w2⟩ := a hm hex l hl
      exact ⟨w, reads_only hN.wf hr (resolve_file hN (hf _ ht)) (hn _ ht) w1, w2⟩
    · obtain ⟨r0, r1, c0, c1, hb, hS⟩ := b hm k hk h0
      refine ⟨r0, r1, c0, c1, hb, fun l hl => ?_⟩
      have ht : ManyTargets mode V j pl (outPath pl.dir pl.core pl.suf pl.m k l) := .inl ⟨hre, .inl ⟨hm, k, l, hk, hl, rfl⟩⟩
      obtain ⟨w, w1, w2⟩ := hS l hl
      exact ⟨w, reads_only hN.wf hr (resolve_file hN (hf _ ht)) (hn _ ht) w1, w2⟩
  · intro hre hm
    obtain ⟨w1, w2, -⟩ := H.whole hre hm
    exact layersOut_only hr (h1.nameIn w2.name) (fun l hl => hf _ (.inr ⟨hre, hm, l, hl, rfl⟩)) (fun l hl => hn _ (.inr ⟨hre, hm, l, hl, rfl⟩)) (D.whole hre hm)

theorem all_again {sys : Sys} {mode : IOMode} {V : Job → RPlan → View} {d d' : Disk} {j : Job} {a : APlan} {T : Path → Prop} (hw : Fs.Spec.WF d.fs)
    (hr : OnlyAt d d' T) (hi : ∀ q, a.reads q → ¬ T q) (H : a.Ok sys d mode V j) : a.Ok sys d' mode V j := by
  cases a with
  | inl pl => exact jobOk_only hw hr (hi _ rfl) H
  | inr pl => exact manyJob_only hw hr hi H

theorem all_stay {sys : Sys} {mode : IOMode} {V : Job → RPlan → View} {K : Int → Int → Prop} {L : Job → MPlan → Nat → Int → Int → ℚ → Prop} {d d1 d' : Disk} {j : Job}
    {a : APlan} {T T' : Path → Prop} (H : a.Ok sys d mode V j) (h1 : OnlyAt d d1 T) (hf : ∀ q, a.Writes mode V j q → d1.fs.kindOf q = some .file)
    (hr : OnlyAt d1 d' T') (hn : ∀ q, a.Writes mode V j q → ¬ T' q) (D : a.Done d1 mode V K L j) : a.Done d' mode V K L j := by
  cases a with
  | inl pl => exact jobDone_only H h1 hf hr hn D
  | inr pl => exact manyDone_only H h1 hf hr hn D

/-- What a stopped run leaves, given what one job does. -/
theorem stoppedMany_leaves {sys : Sys} {c : Cfg} {V : Job → RPlan → View} {K : Int → Int → Prop} {L : Job → MPlan → Nat → Int → Int → ℚ → Prop}
    {I : Option RasterS → Prop} {ok : Job → APlan → Prop}
    (step : ∀ d m j a, Fs.Spec.WF d.fs → I m → ok j a ∧ a.Ok sys d c.mode V j → ∃ d' m', layerJob sys c.mode (d, m) j = .ok (d', m') ∧ I m' ∧
      Rewritten d d' (a.Writes c.mode V j) ∧ a.Done d' c.mode V K L j)
    {xs done : List (Job × APlan)} {d d' : Disk} (hw : Fs.Spec.WF d.fs) (hI : ∀ m, Loaded d c m → I m)
    (hx : ∀ x ∈ xs, ok x.1 x.2 ∧ x.2.Ok sys d c.mode V x.1) (hA : SeparateMany c.mode V xs) (hs : StoppedMany sys c V xs d d' done) :
    OnlyAt d d' (fun q => ∃ x ∈ xs, x.2.Writes c.mode V x.1 q) ∧ ∀ x ∈ done, x.2.Done d' c.mode V K L x.1 := by
  obtain ⟨m, hm, rest, hxs, d1, m1, e, hr⟩ := hs
  have hsub : ∀ x ∈ done, x ∈ xs := fun x h => by rw [hxs]; exact List.mem_append_left _ h
  have hA' : ApartAll c.mode V done := by
    have := separateMany_apart hA
    rw [hxs] at this
    unfold ApartAll at this ⊢
    exact (List.pairwise_append.1 this).1
  obtain ⟨d2, m2, e2, -, h1, h2⟩ := batch_gen (α := APlan) (sys := sys) (mode := c.mode) (I := I)
    (Pre := fun d j a => ok j a ∧ a.Ok sys d c.mode V j) (Q := fun d j a => a.Done d c.mode V K L j) (T := fun j a => a.Writes c.mode V j) (In := fun _ a => a.reads)
    step (fun d j a H => all_nodir H.2)
    (fun d d' j a new hw hr hd hi H => ⟨H.1, all_pre hw hr hd hi H.2⟩)
    (fun d d1 d' j a new H hr1 hr hd hn D => all_post H.2 hr1 hr hd hn D)
    done d m hw (hI m hm) (fun x h => hx x (hsub x h)) hA'
  rw [e] at e2
  injection e2 with e2
  injection e2 with e2 _
  subst e2
  have hd0 : ∀ q, (∃ x ∈ done, x.2.Writes c.mode V x.1 q) → d.fs.kindOf q ≠ some .dir := by
    rintro q ⟨x, h, hq⟩
    exact all_nodir (hx x (hsub x h)).2 q hq
  have ho := rewritten_only h1 hd0
  refine ⟨ho.trans hr ?_ ?_, fun x h => ?_⟩
  · rintro q ⟨x, h, hq⟩
    exact ⟨x, hsub x h, hq⟩
  · rintro q ⟨x, h, hq⟩
    refine ⟨x, ?_, hq⟩
    rw [hxs]
    exact List.mem_append_right _ (List.mem_of_mem_head? h)
  · refine all_stay (hx x (hsub x h)).2 ho (fun q hq => h1.file q ⟨x, h, hq⟩) hr ?_ (h2 x h)
    rintro q hq ⟨y, hy, hq'⟩
    have hp := hA.2
    rw [hxs] at hp
    exact (List.pairwise_append.1 hp).2.2 x h y (List.mem_of_mem_head? hy) q hq hq'

/-- C101 (and C98): a run without mask, with several input files of some jobs, is stopped: the outputs of the jobs that are done are complete, only outputs of the run have changed, and the same command leaves, when
it is started again, what it would have left. -/
theorem C101_many_plain (sys : Sys) {w : World} {d : Disk} {args : List Str} {c : Cfg} {xs : List (Job × APlan)} (hw : Fs.Spec.WF d.fs)
    (hc : configure w args = .ok (.go c)) (hjs : jobs c = .ok (xs.map (·.1))) (hmode : Layers c.mode) (hmask : c.maskPath = [])
    (hA : SeparateMany c.mode plainView xs) (hj : ∀ x ∈ xs, (∀ l ∈ x.2.others, CCGL.Spec.CommonGrid l.hdr x.2.first) ∧ x.2.Ok sys d c.mode (plainView) x.1) {d1 : Disk} {done : List (Job × APlan)}
    (hs : StoppedMany sys c plainView xs d d1 done) :
    OnlyAt d d1 (fun q => ∃ x ∈ xs, x.2.Writes c.mode (plainView) x.1 q) ∧ (∀ x ∈ done, x.2.Done d1 c.mode (plainView) (fun _ _ => True) (fun _ pl => PlainLayers pl.hdr pl.val pl.rest) x.1) ∧
    ∃ d', run sys w d1 args = .ok (0, d') ∧ Rewritten d1 d' (fun q => ∃ x ∈ xs, x.2.Writes c.mode (plainView) x.1 q) ∧
      ∀ x ∈ xs, x.2.Done d' c.mode (plainView) (fun _ _ => True) (fun _ pl => PlainLayers pl.hdr pl.val pl.rest) x.1 := by
  obtain ⟨h1, h2⟩ := stoppedMany_leaves (sys := sys) (c := c) (K := (fun _ _ => True)) (L := (fun _ pl => PlainLayers pl.hdr pl.val pl.rest)) (V := plainView) (I := fun m => m = none) (ok := fun _ a => ∀ l ∈ a.others, CCGL.Spec.CommonGrid l.hdr a.first)
    (by
      rintro d _ j a hw rfl ⟨g3, H⟩
      cases a with
      | inl pl =>
        obtain ⟨d', e, o1, o2⟩ := C78_job_plain sys hw H
        exact ⟨d', none, e, rfl, o1, o2⟩
      | inr pl =>
        obtain ⟨d', e, o1, o2⟩ := C98_job_plain sys hw g3 H
        exact ⟨d', none, e, rfl, o1, o2⟩) hw (fun m hm => loaded_none hmask hm) hj hA hs
  refine ⟨h1, h2, C98_plain_run_partial sys h1.wf hc hjs hmode hmask (separateMany_apart hA) (fun x hx => (hj x hx).1) (fun x hx => all_again hw h1 ?_ (hj x hx).2)⟩
  rintro q hi ⟨y, hy, hq⟩
  exact hA.1 y hy x hx q hq hi

/-- C101 (and C98): the same in the mode MASK with a mask, in a file that no job writes. -/
theorem C101_many_mask (sys : Sys) {w : World} {d : Disk} {args : List Str} {c : Cfg} {xs : List (Job × APlan)} (hw : Fs.Spec.WF d.fs)
    (hc : configure w args = .ok (.go c)) (hjs : jobs c = .ok (xs.map (·.1))) (hmode : c.mode = .mask) {hM : Header} {vM : Int → Int → ℚ} (hf : c.maskFmt = .sfile)
    (hmask : RasterFile d c.maskPath hM vM) {qM : Path} (hq : d.fs.resolve c.maskPath = some qM)
    (hqn : ∀ x ∈ xs, ¬ x.2.Writes .mask (maskView hM vM) x.1 qM) (hA : SeparateMany .mask (maskView hM vM) xs)
    (hj : ∀ x ∈ xs, ((CCGL.Spec.CommonGrid x.2.first hM ∧ Overlaps hM vM x.2.first) ∧ ∀ l ∈ x.2.others, CCGL.Spec.CommonGrid l.hdr hM) ∧ x.2.Ok sys d .mask (maskView hM vM) x.1) {d1 : Disk}
    {done : List (Job × APlan)} (hs : StoppedMany sys c (maskView hM vM) xs d d1 done) :
    OnlyAt d d1 (fun q => ∃ x ∈ xs, x.2.Writes .mask (maskView hM vM) x.1 q) ∧ (∀ x ∈ done, x.2.Done d1 .mask (maskView hM vM) (HasValue hM vM) (fun j pl => MaskedLayers hM vM pl.hdr pl.val j.default.toQ pl.rest) x.1) ∧
    ∃ d', run sys w d1 args = .ok (0, d') ∧ Rewritten d1 d' (fun q => ∃ x ∈ xs, x.2.Writes .mask (maskView hM vM) x.1 q) ∧
      ∀ x ∈ xs, x.2.Done d' .mask (maskView hM vM) (HasValue hM vM) (fun j pl => MaskedLayers hM vM pl.hdr pl.val j.default.toQ pl.rest) x.1 := by
  obtain ⟨M, eM, hm⟩ := mask_loaded hmask
  obtain ⟨h1, h2⟩ := stoppedMany_leaves (sys := sys) (c := c) (K := (HasValue hM vM)) (L := (fun j pl => MaskedLayers hM vM pl.hdr pl.val j.default.toQ pl.rest)) (V := maskView hM vM) (I := fun x => ∃ m, x = some ⟨m, []⟩ ∧ IsMask m hM vM)
    (ok := fun _ a => (CCGL.Spec.CommonGrid a.first hM ∧ Overlaps hM vM a.first) ∧ ∀ l ∈ a.others, CCGL.Spec.CommonGrid l.hdr hM)
    (by
      rintro d _ j a hw ⟨m, rfl, hm⟩ ⟨⟨⟨g1, g2⟩, g3⟩, H⟩
      rw [hmode] at H ⊢
      cases a with
      | inl pl =>
        obtain ⟨d', m', e, hm', o1, o2⟩ := C78_job_mask sys hm hw g1 g2 H
        exact ⟨d', _, e, ⟨m', rfl, hm'⟩, o1, o2⟩
      | inr pl =>
        obtain ⟨d', m', e, hm', o1, o2⟩ := C98_job_mask sys hm hw g1 g2 g3 H
        exact ⟨d', _, e, ⟨m', rfl, hm'⟩, o1, o2⟩) hw (fun x hx => ⟨M, loaded_mask hf hmask eM hmode hx, hm⟩) (by rw [hmode]; exact hj) (by rw [hmode]; exact hA) hs
  rw [hmode] at h1 h2
  refine ⟨h1, h2, C98_mask_run_partial sys h1.wf hc hjs hmode hf (rasterFile_only hw h1 hq ?_ hmask) (separateMany_apart hA)
    (fun x hx => (hj x hx).1) (fun x hx => all_again hw h1 ?_ (hj x hx).2)⟩
  · rintro ⟨y, hy, h⟩
    exact hqn y hy h
  · rintro q hi ⟨y, hy, h⟩
    exact hA.1 y hy x hx q h hi

/-- C101 (and C98): the same in the modes DEC and MASKDEC. -/
theorem C101_many_groups (sys : Sys) {w : World} {d : Disk} {args : List Str} {c : Cfg} {xs : List (Job × APlan)} (hw : Fs.Spec.WF d.fs)
    (hc : configure w args = .ok (.go c)) (hjs : jobs c = .ok (xs.map (·.1))) (hmode : c.mode = .dec ∨ c.mode = .maskdec) {hM : Header} {vM : Int → Int → ℚ}
    (hf : c.maskFmt = .sfile) (hmask : RasterFile d c.maskPath hM vM) (hco : CCGL.Spec.CoordsPresent hM) (hv : ∃ row col, HasValue hM vM row col) {qM : Path}
    (hq : d.fs.resolve c.maskPath = some qM) (hqn : ∀ x ∈ xs, ¬ x.2.Writes c.mode (groupsView hM vM) x.1 qM) (hA : SeparateMany c.mode (groupsView hM vM) xs)
    (hj : ∀ x ∈ xs, ((CCGL.Spec.CommonGrid x.2.first hM ∧ Overlaps hM vM x.2.first) ∧ ∀ l ∈ x.2.others, CCGL.Spec.CommonGrid l.hdr hM) ∧ x.2.Ok sys d c.mode (groupsView hM vM) x.1) {d1 : Disk}
    {done : List (Job × APlan)} (hs : StoppedMany sys c (groupsView hM vM) xs d d1 done) :
    OnlyAt d d1 (fun q => ∃ x ∈ xs, x.2.Writes c.mode (groupsView hM vM) x.1 q) ∧
    (∀ x ∈ done, x.2.Done d1 c.mode (groupsView hM vM) (HasValue hM vM) (fun j pl => MaskedLayers hM vM pl.hdr pl.val j.default.toQ pl.rest) x.1) ∧
    ∃ d', run sys w d1 args = .ok (0, d') ∧ Rewritten d1 d' (fun q => ∃ x ∈ xs, x.2.Writes c.mode (groupsView hM vM) x.1 q) ∧
      ∀ x ∈ xs, x.2.Done d' c.mode (groupsView hM vM) (HasValue hM vM) (fun j pl => MaskedLayers hM vM pl.hdr pl.val j.default.toQ pl.rest) x.1 := by
  obtain ⟨M, eM, hb, hcl, hg, hn, hval, hM2, hl, hnc⟩ := mask_file hmask NODATA
  obtain ⟨m, b, eb, hm⟩ := cutMask_of hb hcl hg hn hval hM2 hv
  obtain ⟨h1, h2⟩ := stoppedMany_leaves (sys := sys) (c := c) (K := (HasValue hM vM)) (L := (fun j pl => MaskedLayers hM vM pl.hdr pl.val j.default.toQ pl.rest)) (V := groupsView hM vM) (I := fun x => x = some m)
    (ok := fun _ a => (CCGL.Spec.CommonGrid a.first hM ∧ Overlaps hM vM a.first) ∧ ∀ l ∈ a.others, CCGL.Spec.CommonGrid l.hdr hM)
    (by
      rintro d _ j a hw rfl ⟨⟨⟨g1, g2⟩, g3⟩, H⟩
      cases a with
      | inl pl =>
        obtain ⟨d', e, o1, o2⟩ := C78_job_groups sys hm hw g1 hco g2 H
        exact ⟨d', _, e, rfl, o1, o2⟩
      | inr pl =>
        obtain ⟨d', e, o1, o2⟩ := C98_job_groups sys hm hw g1 hco g2 g3 H
        exact ⟨d', _, e, rfl, o1, o2⟩) hw (fun x hx => loaded_cut hf hmask eM hmode eb hx) hj hA hs
  refine ⟨h1, h2, C98_groups_run_partial sys h1.wf hc hjs hmode hf (rasterFile_only hw h1 hq ?_ hmask) hco hv (separateMany_apart hA)
    (fun x hx => (hj x hx).1) (fun x hx => all_again hw h1 ?_ (hj x hx).2)⟩
  · rintro ⟨y, hy, h⟩
    exact hqn y hy h
  · rintro q hi ⟨y, hy, h⟩
    exact hA.1 y hy x hx q h hi

end App
end CCGL
