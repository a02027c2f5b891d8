import Verif.Props.AppRunAll
import Verif.Props.FileFail
/-!
# A run of `mask_rasterio` is stopped and started again (C101)
-/
namespace CCGL
namespace App
open Fs Disk Main Raster Disk.Spec App.Spec

namespace Spec

/-- `m` is what the run works with as mask: what it has loaded, cut if the mode needs its groups. -/
def Loaded (d : Disk) (c : Cfg) (m : Option RasterS) : Prop := ∃ m0, loadMask d c = .ok (.go m0) ∧ prepareMask c.mode m0 = .ok m

/-- The disks a run with the jobs `xs` can leave behind if it is stopped at some point: some jobs are done, one may be at work, and whatever it has done to the
files it writes (removed, created, written in part or completely), no other file and no directory has changed since. -/
def Stopped (sys : Sys) (c : Cfg) (V : Job → RPlan → View) (xs : List (Job × RPlan)) (d d' : Disk) (done : List (Job × RPlan)) : Prop :=
  ∃ m, Loaded d c m ∧ ∃ rest, xs = done ++ rest ∧ ∃ d1 m1, (done.map (·.1)).foldlM (layerJob sys c.mode) (d, m) = .ok (d1, m1) ∧
    OnlyAt d1 d' (fun q => ∃ x, rest.head? = some x ∧ JobTargets c.mode (V x.1 x.2) x.1 x.2 q)

/-- No job reads what a job of the run writes, and no two jobs write the same file. -/
def Separate (mode : IOMode) (V : Job → RPlan → View) (xs : List (Job × RPlan)) : Prop :=
  (∀ x ∈ xs, ∀ y ∈ xs, ¬ JobTargets mode (V x.1 x.2) x.1 x.2 y.2.inp) ∧
  xs.Pairwise (fun a b => ∀ q, JobTargets mode (V a.1 a.2) a.1 a.2 q → ¬ JobTargets mode (V b.1 b.2) b.1 b.2 q)

end Spec

theorem separate_apart {mode : IOMode} {V : Job → RPlan → View} {xs : List (Job × RPlan)} (h : Separate mode V xs) : ApartJobs mode V xs := by
  unfold ApartJobs
  refine (List.pairwise_iff_forall_sublist.2 fun {a b} hs => ?_)
  have ha : a ∈ xs := hs.subset (by simp)
  have hb : b ∈ xs := hs.subset (by simp)
  intro q hq
  refine ⟨fun he => h.1 a ha b hb (he ▸ hq), ?_⟩
  exact (List.pairwise_iff_forall_sublist.1 h.2 hs) q hq

/-! ### only some files have changed -/

theorem resolve_only {d d' : Disk} {T : Path → Prop} (h : OnlyAt d d' T) {s : Str} {q : Path} (e : d.fs.resolve s = some q) (hq : ¬ T q) :
    d'.fs.resolve s = some q := by
  have hd : ∀ q, (T q ∧ d.fs.kindOf q ≠ some .dir) → d.fs.kindOf q ≠ some .dir := fun q h => h.2
  have hs : ∀ q, ¬ (T q ∧ d.fs.kindOf q ≠ some .dir) → d'.fs.kindOf q = d.fs.kindOf q := by
    intro q hn
    by_cases ht : T q
    · by_cases hk : d.fs.kindOf q = some .dir
      · rw [hk, (h.dir q).2 hk]
      · exact absurd ⟨ht, hk⟩ hn
    · exact (h.same q ht).1
  have hq' : ¬ (T q ∧ d.fs.kindOf q ≠ some .dir) := fun x => hq x.1
  unfold FS.resolve at e ⊢
  rw [h.cwd]
  cases s with
  | nil => cases e
  | cons c s =>
    dsimp only at e ⊢
    by_cases h : c = '/'
    · rw [if_pos h] at e ⊢
      exact walk_same hd hs _ _ _ hq' e
    · rw [if_neg h] at e ⊢
      exact walk_same hd hs _ _ _ hq' e

theorem reads_only {d d' : Disk} {T : Path → Prop} (hw : Fs.Spec.WF d.fs) (hr : OnlyAt d d' T) {s : Str} {q : Path} (e : d.fs.resolve s = some q) (hq : ¬ T q)
    {h : Header} {v : Int → Int → ℚ} (H : ReadsAs d s h v) : ReadsAs d' s h v := by
  intro b x hp
  obtain ⟨r', e1, e2⟩ := H b x hp
  refine ⟨r', ?_, e2⟩
  rw [← e1]
  have e' := resolve_only hr e hq
  have hf : fileExists d'.fs s = fileExists d.fs s := by
    unfold fileExists; rw [e, e']
  have a : getAbsolutePath d'.fs s = getAbsolutePath d.fs s := by
    unfold getAbsolutePath; rw [e, e']
  have hsx : getSuffix d'.fs s = getSuffix d.fs s := by
    unfold getSuffix; rw [a]
  have hdat : d'.data q = d.data q := (hr.same q hq).2
  have hdec : decode d' s = decode d s := by
    unfold decode
    rw [hsx, resolve_abs hr.wf, resolve_abs hw, e, e']
    simp only [Option.bind_some, hdat]
  unfold readFromFile
  rw [hdec, hf]

theorem rasterFile_only {d d' : Disk} {T : Path → Prop} (hw : Fs.Spec.WF d.fs) (hr : OnlyAt d d' T) {s : Str} {q : Path} (e : d.fs.resolve s = some q) (hq : ¬ T q)
    {h : Header} {v : Int → Int → ℚ} (H : RasterFile d s h v) : RasterFile d' s h v := ⟨reads_only hw hr e hq H.reads, H.rows, H.cols⟩

theorem writable_only {env : Env} {d d' : Disk} {T : Path → Prop} (hr : OnlyAt d d' T) {q : Path} (h : Writable env d.fs q) : Writable env d'.fs q :=
  ⟨hr.nodir h.nodir, by rw [hr.deny]; exact h.allow, h.rw, h.cut, h.gdal⟩

theorem canWrite_only {sys : Sys} {d d' : Disk} {mode : IOMode} {j : Job} {h g fill p dt core suf m} {T : Path → Prop} (hr : OnlyAt d d' T)
    (W : CanWrite sys d mode j h g fill p dt core suf m) : CanWrite sys d' mode j h g fill p dt core suf m :=
  ⟨W.out, W.table, W.keys, hr.nameIn W.name, W.kind, hr.nodir W.nodir,
    fun hm => ⟨(W.all hm).1, hr.nodir (W.all hm).2.1, fun l hl => writable_only hr ((W.all hm).2.2 l hl)⟩,
    fun hm k hk => ⟨(W.single hm k hk).1, hr.nodir (W.single hm k hk).2.1, fun l hl => writable_only hr ((W.single hm k hk).2.2 l hl)⟩,
    W.vals, W.nodata⟩

/-- A job can be carried out again whatever has become of files other than its input. -/
theorem jobOk_only {sys : Sys} {d d' : Disk} {mode : IOMode} {V : View} {j : Job} {pl : RPlan} {T : Path → Prop} (hw : Fs.Spec.WF d.fs) (hr : OnlyAt d d' T)
    (hi : ¬ T pl.inp) (H : JobOk sys d mode V j pl) : JobOk sys d' mode V j pl := by
  obtain ⟨s, hs, hp, Hf⟩ := H.input
  refine ⟨H.fmts, ⟨s, hs, resolve_only hr hp hi, rasterFile_only hw hr hp hi Hf⟩, fun hre => canWrite_only hr (H.recls hre), fun hre hm => ?_⟩
  obtain ⟨w1, w2, w3⟩ := H.whole hre hm
  exact ⟨w1, ⟨hr.nameIn w2.name, writable_only hr w2.write, w2.suf⟩, w3⟩

theorem rewritten_only {d d' : Disk} {T : Path → Prop} (h : Rewritten d d' T) (hd : ∀ q, T q → d.fs.kindOf q ≠ some .dir) : OnlyAt d d' T := by
  refine ⟨h.wf, h.deny, h.cwd, fun q => ?_, h.same⟩
  by_cases hq : T q
  · rw [h.file q hq]
    exact ⟨(fun e => by cases e), (fun e => absurd e (hd q hq))⟩
  · rw [(h.same q hq).1]

/-- The outputs of a job stay if only other files change. -/
theorem jobDone_only {sys : Sys} {d d1 d' : Disk} {mode : IOMode} {V : View} {j : Job} {pl : RPlan} {T : Path → Prop} (H : JobOk sys d mode V j pl)
    (h1 : OnlyAt d d1 T) (hf : ∀ q, JobTargets mode V j pl q → d1.fs.kindOf q = some .file) {T' : Path → Prop} (hr : OnlyAt d1 d' T')
    (hn : ∀ q, JobTargets mode V j pl q → ¬ T' q) (D : JobDone d1 mode V j pl) : JobDone d' mode V j pl := by
  constructor
  · intro hre
    have hN := h1.nameIn (H.recls hre).name
    obtain ⟨a, b⟩ := D.recls hre
    refine ⟨fun hm hex l hl => ?_, fun hm k hk h0 => ?_⟩
    · have ht : JobTargets mode V j pl (outPath pl.dir pl.core pl.suf pl.m 0 l) := .inl ⟨hre, .inr ⟨hm, hex, l, hl, rfl⟩⟩
      obtain ⟨w, w1, w2⟩ := a hm hex l hl
      exact ⟨w, reads_only hN.wf hr (resolve_file hN (hf _ ht)) (hn _ ht) w1, w2⟩
    · obtain ⟨r0, r1, c0, c1, hb, hS⟩ := b hm k hk h0
      refine ⟨r0, r1, c0, c1, hb, fun l hl => ?_⟩
      have ht : JobTargets mode V j pl (outPath pl.dir pl.core pl.suf pl.m k l) := .inl ⟨hre, .inl ⟨hm, k, l, hk, hl, rfl⟩⟩
      obtain ⟨w, w1, w2⟩ := hS l hl
      exact ⟨w, reads_only hN.wf hr (resolve_file hN (hf _ ht)) (hn _ ht) w1, w2⟩
  · intro hre hm
    obtain ⟨w1, w2, -⟩ := H.whole hre hm
    have hN := h1.nameIn w2.name
    have ht : JobTargets mode V j pl (pl.dir ++ [pl.core ++ '.' :: pl.suf]) := .inr ⟨hre, hm, rfl⟩
    have h := D.whole hre hm
    rw [w1] at h ⊢
    exact reads_only hN.wf hr (resolve_out hN (hf _ ht)) (hn _ ht) h

/-! ### the stopped run -/

/-- What a stopped run leaves, given what one job does. -/
theorem stopped_leaves {sys : Sys} {c : Cfg} {V : Job → RPlan → View} {I : Option RasterS → Prop} {ok : Job → RPlan → Prop}
    (step : ∀ d m j pl, Fs.Spec.WF d.fs → I m → ok j pl → JobOk sys d c.mode (V j pl) j pl → ∃ d' m', layerJob sys c.mode (d, m) j = .ok (d', m') ∧ I m' ∧
      Rewritten d d' (JobTargets c.mode (V j pl) j pl) ∧ JobDone d' c.mode (V j pl) j pl)
    {xs done : List (Job × RPlan)} {d d' : Disk} (hw : Fs.Spec.WF d.fs) (hI : ∀ m, Loaded d c m → I m)
    (hx : ∀ x ∈ xs, ok x.1 x.2 ∧ JobOk sys d c.mode (V x.1 x.2) x.1 x.2) (hA : Separate c.mode V xs) (hs : Stopped sys c V xs d d' done) :
    OnlyAt d d' (fun q => ∃ x ∈ xs, JobTargets c.mode (V x.1 x.2) x.1 x.2 q) ∧ ∀ x ∈ done, JobDone d' c.mode (V x.1 x.2) x.1 x.2 := by
  obtain ⟨m, hm, rest, hxs, d1, m1, e, hr⟩ := hs
  have hsub : ∀ x ∈ done, x ∈ xs := fun x h => by rw [hxs]; exact List.mem_append_left _ h
  have hA' : ApartJobs c.mode V done := by
    have := separate_apart hA
    rw [hxs] at this
    unfold ApartJobs at this ⊢
    exact (List.pairwise_append.1 this).1
  obtain ⟨d2, m2, e2, -, h1, h2⟩ := batch_all step done d m hw (hI m hm) (fun x h => hx x (hsub x h)) hA'
  rw [e] at e2
  injection e2 with e2
  injection e2 with e2 _
  subst e2
  have hd0 : ∀ q, (∃ x ∈ done, JobTargets c.mode (V x.1 x.2) x.1 x.2 q) → d.fs.kindOf q ≠ some .dir := by
    rintro q ⟨x, h, hq⟩
    exact jobTargets_nodir (hx x (hsub x h)).2 hq
  have ho := rewritten_only h1 hd0
  refine ⟨ho.trans hr ?_ ?_, fun x h => ?_⟩
  · rintro q ⟨x, h, hq⟩
    exact ⟨x, hsub x h, hq⟩
  · rintro q ⟨x, h, hq⟩
    refine ⟨x, ?_, hq⟩
    rw [hxs]
    exact List.mem_append_right _ (List.mem_of_mem_head? h)
  · refine jobDone_only (hx x (hsub x h)).2 ho (fun q hq => h1.file q ⟨x, h, hq⟩) hr ?_ (h2 x h)
    rintro q hq ⟨y, hy, hq'⟩
    have hp := hA.2
    rw [hxs] at hp
    exact (List.pairwise_append.1 hp).2.2 x h y (List.mem_of_mem_head? hy) q hq hq'

theorem loaded_none {d : Disk} {c : Cfg} {m : Option RasterS} (h : c.maskPath = []) (hm : Loaded d c m) : m = none := by
  obtain ⟨m0, e1, e2⟩ := hm
  unfold loadMask at e1
  rw [if_pos h] at e1
  injection e1 with e1
  injection e1 with e1
  subst e1
  exact (Out.ok.inj e2).symm

theorem loaded_mask {d : Disk} {c : Cfg} {m : Option RasterS} {hM vM} (hf : c.maskFmt = .sfile) (hmask : RasterFile d c.maskPath hM vM) {M : Raster}
    (eM : readFromFile d c.maskPath false NODATA = .ok (some M)) (hmode : c.mode = .mask) (hm : Loaded d c m) : m = some ⟨M, []⟩ := by
  obtain ⟨m0, e1, e2⟩ := hm
  rw [loadMask_file hf hmask eM] at e1
  injection e1 with e1
  injection e1 with e1
  subst e1
  unfold prepareMask at e2
  rw [hmode] at e2
  exact (Out.ok.inj e2).symm

theorem loaded_cut {d : Disk} {c : Cfg} {x : Option RasterS} {hM vM} (hf : c.maskFmt = .sfile) (hmask : RasterFile d c.maskPath hM vM) {M : Raster}
    (eM : readFromFile d c.maskPath false NODATA = .ok (some M)) (hmode : c.mode = .dec ∨ c.mode = .maskdec) {m b} (eb : buildSubSet ⟨M, []⟩ [] = .ok (m, b))
    (hm : Loaded d c x) : x = some m := by
  obtain ⟨m0, e1, e2⟩ := hm
  rw [loadMask_file hf hmask eM] at e1
  injection e1 with e1
  injection e1 with e1
  subst e1
  unfold prepareMask at e2
  dsimp only at e2
  rw [if_neg (by rcases hmode with h | h <;> rw [h] <;> simp), eb] at e2
  exact (Out.ok.inj e2).symm

/-- C101: a run without mask is stopped: the outputs of the jobs that are done are complete, only outputs of the run have changed, and the same command leaves, when
it is started again, what it would have left. -/
theorem C101_plain (sys : Sys) {w : World} {d : Disk} {args : List Str} {c : Cfg} {xs : List (Job × RPlan)} (hw : Fs.Spec.WF d.fs)
    (hc : configure w args = .ok (.go c)) (hjs : jobs c = .ok (xs.map (·.1))) (hmode : Layers c.mode) (hmask : c.maskPath = [])
    (hA : Separate c.mode plainView xs) (hj : ∀ x ∈ xs, JobOk sys d c.mode (plainView x.1 x.2) x.1 x.2) {d1 : Disk} {done : List (Job × RPlan)}
    (hs : Stopped sys c plainView xs d d1 done) :
    OnlyAt d d1 (fun q => ∃ x ∈ xs, JobTargets c.mode (plainView x.1 x.2) x.1 x.2 q) ∧ (∀ x ∈ done, JobDone d1 c.mode (plainView x.1 x.2) x.1 x.2) ∧
    ∃ d', run sys w d1 args = .ok (0, d') ∧ Rewritten d1 d' (fun q => ∃ x ∈ xs, JobTargets c.mode (plainView x.1 x.2) x.1 x.2 q) ∧
      ∀ x ∈ xs, JobDone d' c.mode (plainView x.1 x.2) x.1 x.2 := by
  obtain ⟨h1, h2⟩ := stopped_leaves (sys := sys) (c := c) (V := plainView) (I := fun m => m = none) (ok := fun _ _ => True)
    (by
      rintro d _ j pl hw rfl - H
      obtain ⟨d', e, o1, o2⟩ := C78_job_plain sys hw H
      exact ⟨d', none, e, rfl, o1, o2⟩) hw (fun m hm => loaded_none hmask hm) (fun x hx => ⟨trivial, hj x hx⟩) hA hs
  refine ⟨h1, h2, C78_plain_run sys h1.wf hc hjs hmode hmask (separate_apart hA) (fun x hx => jobOk_only hw h1 ?_ (hj x hx))⟩
  rintro ⟨y, hy, hq⟩
  exact hA.1 y hy x hx hq

/-- C101: the same in the mode MASK with a mask, in a file that no job writes. -/
theorem C101_mask (sys : Sys) {w : World} {d : Disk} {args : List Str} {c : Cfg} {xs : List (Job × RPlan)} (hw : Fs.Spec.WF d.fs)
    (hc : configure w args = .ok (.go c)) (hjs : jobs c = .ok (xs.map (·.1))) (hmode : c.mode = .mask) {hM : Header} {vM : Int → Int → ℚ} (hf : c.maskFmt = .sfile)
    (hmask : RasterFile d c.maskPath hM vM) {qM : Path} (hq : d.fs.resolve c.maskPath = some qM)
    (hqn : ∀ x ∈ xs, ¬ JobTargets .mask (maskView hM vM x.1 x.2) x.1 x.2 qM) (hA : Separate .mask (maskView hM vM) xs)
    (hj : ∀ x ∈ xs, (CCGL.Spec.CommonGrid x.2.hdr hM ∧ Overlaps hM vM x.2.hdr) ∧ JobOk sys d .mask (maskView hM vM x.1 x.2) x.1 x.2) {d1 : Disk}
    {done : List (Job × RPlan)} (hs : Stopped sys c (maskView hM vM) xs d d1 done) :
    OnlyAt d d1 (fun q => ∃ x ∈ xs, JobTargets .mask (maskView hM vM x.1 x.2) x.1 x.2 q) ∧ (∀ x ∈ done, JobDone d1 .mask (maskView hM vM x.1 x.2) x.1 x.2) ∧
    ∃ d', run sys w d1 args = .ok (0, d') ∧ Rewritten d1 d' (fun q => ∃ x ∈ xs, JobTargets .mask (maskView hM vM x.1 x.2) x.1 x.2 q) ∧
      ∀ x ∈ xs, JobDone d' .mask (maskView hM vM x.1 x.2) x.1 x.2 := by
  obtain ⟨M, eM, hm⟩ := mask_loaded hmask
  obtain ⟨h1, h2⟩ := stopped_leaves (sys := sys) (c := c) (V := maskView hM vM) (I := fun x => ∃ m, x = some ⟨m, []⟩ ∧ IsMask m hM vM)
    (ok := fun _ pl => CCGL.Spec.CommonGrid pl.hdr hM ∧ Overlaps hM vM pl.hdr)
    (by
      rintro d _ j pl hw ⟨m, rfl, hm⟩ ⟨hg, hov⟩ H
      obtain ⟨d', m', e, hm', o1, o2⟩ := C78_job_mask sys hm hw hg hov (hmode ▸ H)
      rw [hmode]
      exact ⟨d', _, e, ⟨m', rfl, hm'⟩, o1, o2⟩) hw (fun x hx => ⟨M, loaded_mask hf hmask eM hmode hx, hm⟩) (by rw [hmode]; exact hj) (by rw [hmode]; exact hA) hs
  rw [hmode] at h1 h2
  refine ⟨h1, h2, C78_mask_run sys h1.wf hc hjs hmode hf (rasterFile_only hw h1 hq ?_ hmask) (separate_apart hA)
    (fun x hx => ⟨(hj x hx).1, jobOk_only hw h1 ?_ (hj x hx).2⟩)⟩
  · rintro ⟨y, hy, h⟩
    exact hqn y hy h
  · rintro ⟨y, hy, h⟩
    exact hA.1 y hy x hx h

/-- C101: the same in the modes DEC and MASKDEC. -/
theorem C101_groups (sys : Sys) {w : World} {d : Disk} {args : List Str} {c : Cfg} {xs : List (Job × RPlan)} (hw : Fs.Spec.WF d.fs)
    (hc : configure w args = .ok (.go c)) (hjs : jobs c = .ok (xs.map (·.1))) (hmode : c.mode = .dec ∨ c.mode = .maskdec) {hM : Header} {vM : Int → Int → ℚ}
    (hf : c.maskFmt = .sfile) (hmask : RasterFile d c.maskPath hM vM) (hco : CCGL.Spec.CoordsPresent hM) (hv : ∃ row col, HasValue hM vM row col) {qM : Path}
    (hq : d.fs.resolve c.maskPath = some qM) (hqn : ∀ x ∈ xs, ¬ JobTargets c.mode (groupsView hM vM x.1 x.2) x.1 x.2 qM) (hA : Separate c.mode (groupsView hM vM) xs)
    (hj : ∀ x ∈ xs, (CCGL.Spec.CommonGrid x.2.hdr hM ∧ Overlaps hM vM x.2.hdr) ∧ JobOk sys d c.mode (groupsView hM vM x.1 x.2) x.1 x.2) {d1 : Disk}
    {done : List (Job × RPlan)} (hs : Stopped sys c (groupsView hM vM) xs d d1 done) :
    OnlyAt d d1 (fun q => ∃ x ∈ xs, JobTargets c.mode (groupsView hM vM x.1 x.2) x.1 x.2 q) ∧
    (∀ x ∈ done, JobDone d1 c.mode (groupsView hM vM x.1 x.2) x.1 x.2) ∧
    ∃ d', run sys w d1 args = .ok (0, d') ∧ Rewritten d1 d' (fun q => ∃ x ∈ xs, JobTargets c.mode (groupsView hM vM x.1 x.2) x.1 x.2 q) ∧
      ∀ x ∈ xs, JobDone d' c.mode (groupsView hM vM x.1 x.2) x.1 x.2 := by
  obtain ⟨M, eM, hb, hcl, hg, hn, hval, hM2, hl, hnc⟩ := mask_file hmask NODATA
  obtain ⟨m, b, eb, hm⟩ := cutMask_of hb hcl hg hn hval hM2 hv
  obtain ⟨h1, h2⟩ := stopped_leaves (sys := sys) (c := c) (V := groupsView hM vM) (I := fun x => x = some m)
    (ok := fun _ pl => CCGL.Spec.CommonGrid pl.hdr hM ∧ Overlaps hM vM pl.hdr)
    (by
      rintro d _ j pl hw rfl ⟨hg, hov⟩ H
      obtain ⟨d', e, o1, o2⟩ := C78_job_groups sys hm hw hg hco hov H
      exact ⟨d', _, e, rfl, o1, o2⟩) hw (fun x hx => loaded_cut hf hmask eM hmode eb hx) hj hA hs
  refine ⟨h1, h2, C78_groups_run sys h1.wf hc hjs hmode hf (rasterFile_only hw h1 hq ?_ hmask) hco hv (separate_apart hA)
    (fun x hx => ⟨(hj x hx).1, jobOk_only hw h1 ?_ (hj x hx).2⟩)⟩
  · rintro ⟨y, hy, h⟩
    exact hqn y hy h
  · rintro ⟨y, hy, h⟩
    exact hA.1 y hy x hx h

end App
end CCGL
