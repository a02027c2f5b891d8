import Verif.Props.AppLayersJob
import Verif.Props.AppRunAll
/-!
# Whole runs of `mask_rasterio` in the mode MASK with jobs of one or several input files
-/
namespace CCGL
namespace App
open Fs Disk Main Raster Disk.Spec App.Spec

/-- All jobs of a list, given what one job does (`Pre`), which files it writes (`T`) and needs (`In`), and what it leaves (`Q`). -/
theorem batch_gen {α : Type} {sys : Sys} {mode : IOMode} {I : Option RasterS → Prop} {Pre Q : Disk → Job → α → Prop} {T In : Job → α → Path → Prop}
    (step : ∀ d m j a, Fs.Spec.WF d.fs → I m → Pre d j a → ∃ d' m', layerJob sys mode (d, m) j = .ok (d', m') ∧ I m' ∧ Rewritten d d' (T j a) ∧ Q d' j a)
    (nodir : ∀ d j a, Pre d j a → ∀ q, T j a q → d.fs.kindOf q ≠ some .dir)
    (pre : ∀ (d d' : Disk) j a (new : Path → Prop), Fs.Spec.WF d.fs → Rewritten d d' new → (∀ q, new q → d.fs.kindOf q ≠ some .dir) → (∀ q, In j a q → ¬ new q) →
      Pre d j a → Pre d' j a)
    (post : ∀ (d d1 d' : Disk) j a (new : Path → Prop), Pre d j a → Rewritten d d1 (T j a) → Rewritten d1 d' new → (∀ q, new q → d1.fs.kindOf q ≠ some .dir) →
      (∀ q, T j a q → ¬ new q) → Q d1 j a → Q d' j a) :
    ∀ (xs : List (Job × α)) (d : Disk) (m : Option RasterS), Fs.Spec.WF d.fs → I m → (∀ x ∈ xs, Pre d x.1 x.2) →
      xs.Pairwise (fun x y => ∀ q, T x.1 x.2 q → ¬ In y.1 y.2 q ∧ ¬ T y.1 y.2 q) →
      ∃ d' m', (xs.map (·.1)).foldlM (layerJob sys mode) (d, m) = .ok (d', m') ∧ I m' ∧
        Rewritten d d' (fun q => ∃ x ∈ xs, T x.1 x.2 q) ∧ ∀ x ∈ xs, Q d' x.1 x.2 := by
  intro xs
  induction xs with
  | nil =>
    intro d m hw hI _ _
    exact ⟨d, m, rfl, hI, rewritten_refl hw (by rintro q ⟨x, h, -⟩; cases h), by intro x h; cases h⟩
  | cons x xs ih =>
    intro d m hw hI hx hA
    obtain ⟨hA1, hA2⟩ := List.pairwise_cons.1 hA
    have H := hx x List.mem_cons_self
    obtain ⟨d1, m1, e1, hI1, hr1, hd1⟩ := step d m x.1 x.2 hw hI H
    have hd0 := nodir d x.1 x.2 H
    have hx1 : ∀ y ∈ xs, Pre d1 y.1 y.2 := fun y hy =>
      pre d d1 y.1 y.2 _ hw hr1 hd0 (fun q hq h => (hA1 y hy q h).1 hq) (hx y (List.mem_cons_of_mem _ hy))
    obtain ⟨d2, m2, e2, hI2, hr2, hd2⟩ := ih d1 m1 hr1.wf hI1 hx1 hA2
    have hnew : ∀ q, (∃ y ∈ xs, T y.1 y.2 q) → d1.fs.kindOf q ≠ some .dir := by
      rintro q ⟨y, hy, hq⟩
      exact nodir d1 y.1 y.2 (hx1 y hy) q hq
    refine ⟨d2, m2, ?_, hI2, rewritten_trans hr1 hr2 ?_, ?_⟩
    · rw [List.map_cons, List.foldlM_cons, e1]
      exact e2
    · intro q
      simp only [List.mem_cons, exists_eq_or_imp]
    · intro y hy
      rcases List.mem_cons.1 hy with rfl | hy
      · refine post d d1 d2 y.1 y.2 _ H hr1 hr2 hnew ?_ hd1
        rintro q hq ⟨z, hz, hq'⟩
        exact (hA1 z hz q hq).2 hq'
      · exact hd2 y hy

theorem outLayers_kept {env : Env} {fmt : Disk.Fmt} {d d' : Disk} {new : Path → Prop} (hr : Rewritten d d' new)
    (hd : ∀ q, new q → d.fs.kindOf q ≠ some .dir) {p : Path} {dt core suf : Str} {n : Nat} {first : Int} (h : OutLayers env fmt d p dt core suf n first) :
    OutLayers env fmt d' p dt core suf n first :=
  ⟨nameIn_same hr hd h.name, nodir_same hr h.nodir, fun l hl => writable_same hr (h.write l hl), h.suf⟩

theorem layersJob_same {sys : Sys} {d d' : Disk} {h : Header} {j : Job} {pl : LPlan} {new : Path → Prop} (hw : Fs.Spec.WF d.fs)
    (hr : Rewritten d d' new) (hd : ∀ q, new q → d.fs.kindOf q ≠ some .dir) (hi : ∀ q ∈ pl.inps, ¬ new q) (H : LayersJob sys d h j pl) :
    LayersJob sys d' h j pl := by
  obtain ⟨s, hs, Hf⟩ := H.files
  have key : ∀ x ∈ j.inputs, ∀ h v, RasterFile d x h v → RasterFile d' x h v := by
    intro x hx h v hf
    obtain ⟨q, hq, e⟩ := H.paths x hx
    exact rasterFile_same hw hr hd e (hi q hq) hf
  refine ⟨H.fmts, ⟨s, hs, key s (by rw [hs]; exact List.mem_cons_self) _ _ Hf⟩,
    ⟨H.more.1, fun l hl => key _ (by rw [hs]; exact List.mem_cons_of_mem _ (List.mem_map.2 ⟨l, hl, rfl⟩)) _ _ (H.more.2 l hl)⟩, ?_, H.out, outLayers_kept hr hd H.write, H.header,
    H.carried, H.carriedMore⟩
  intro x hx
  obtain ⟨q, hq, e⟩ := H.paths x hx
  exact ⟨q, hq, resolve_same hr hd e (hi q hq)⟩

/-- Names of layers have no slash. -/
theorem layer_core {core : Str} (h : '/' ∉ core) (k : Int) : '/' ∉ core ++ '_' :: intToDec k := by
  intro hm
  rcases List.mem_append.1 hm with hm | hm
  · exact h hm
  · rcases List.mem_cons.1 hm with hm | hm
    · cases hm
    · exact dec_no (by decide) (by decide) hm

theorem layersOut_same {d d' : Disk} {new : Path → Prop} (hr : Rewritten d d' new) (hd : ∀ q, new q → d.fs.kindOf q ≠ some .dir) {p : Path} {dt core suf : Str}
    (hN : NameIn d.fs p dt core suf) {first : Int} {h : Header} {upd : Bool} {nd nv : ℚ} {n : Nat} {K : Int → Int → Prop} {V : Nat → Int → Int → ℚ → Prop}
    (hfile : ∀ l : Nat, l < n → d.fs.kindOf (p ++ [core ++ '_' :: intToDec ((l : Int) + first) ++ '.' :: suf]) = some .file)
    (hn : ∀ l : Nat, l < n → ¬ new (p ++ [core ++ '_' :: intToDec ((l : Int) + first) ++ '.' :: suf])) (H : LayersOut d dt core suf first h upd nd nv n K V) :
    LayersOut d' dt core suf first h upd nd nv n K V := by
  intro l hl
  obtain ⟨v, h1, h2⟩ := H l hl
  refine ⟨v, ?_, h2⟩
  have hN' : NameIn d.fs p dt (core ++ '_' :: intToDec ((l : Int) + first)) suf := ⟨hN.wf, hN.dir, layer_core hN.core _, hN.suf, hN.exist⟩
  have e := resolve_out hN' (hfile l hl)
  have := reads_same hN.wf hr hd e (hn l hl) (s := dt ++ (core ++ '_' :: intToDec ((l : Int) + first)) ++ '.' :: suf) (by
    have : dt ++ (core ++ '_' :: intToDec ((l : Int) + first)) ++ '.' :: suf = dt ++ core ++ '_' :: intToDec ((l : Int) + first) ++ '.' :: suf := by simp
    rw [this]; exact h1)
  have e2 : dt ++ (core ++ '_' :: intToDec ((l : Int) + first)) ++ '.' :: suf = dt ++ core ++ '_' :: intToDec ((l : Int) + first) ++ '.' :: suf := by simp
  rw [e2] at this
  exact this

theorem any_nodir {sys : Sys} {V : Job → RPlan → View} {g : Header → Header} {d : Disk} {j : Job} {a : RPlan ⊕ LPlan} (H : AnyOk sys V g d j a) (q : Path)
    (hq : AnyTargets V j a q) : d.fs.kindOf q ≠ some .dir := by
  cases a with
  | inl pl => exact jobTargets_nodir H hq
  | inr pl =>
    obtain ⟨l, hl, rfl⟩ := hq
    exact (LayersJob.write H).write l hl |>.nodir

theorem any_pre {sys : Sys} {V : Job → RPlan → View} {g : Header → Header} {d d' : Disk} {j : Job} {a : RPlan ⊕ LPlan} {new : Path → Prop} (hw : Fs.Spec.WF d.fs)
    (hr : Rewritten d d' new) (hd : ∀ q, new q → d.fs.kindOf q ≠ some .dir) (hi : ∀ q, AnyReads a q → ¬ new q) (H : AnyOk sys V g d j a) : AnyOk sys V g d' j a := by
  cases a with
  | inl pl => exact jobOk_same hw hr hd (hi _ rfl) H
  | inr pl => exact layersJob_same hw hr hd hi H

theorem any_post {sys : Sys} {V : Job → RPlan → View} {g : Header → Header} {K : Int → Int → Prop} {L : Job → LPlan → Nat → Int → Int → ℚ → Prop} {d d1 d' : Disk} {j : Job} {a : RPlan ⊕ LPlan}
    {new : Path → Prop} (H : AnyOk sys V g d j a) (hr1 : Rewritten d d1 (AnyTargets V j a)) (hr : Rewritten d1 d' new) (hd : ∀ q, new q → d1.fs.kindOf q ≠ some .dir)
    (hn : ∀ q, AnyTargets V j a q → ¬ new q) (D : AnyDone V g K L d1 j a) : AnyDone V g K L d' j a := by
  cases a with
  | inl pl => exact jobDone_same H hr1 hr hd hn D
  | inr pl =>
    have hw : OutLayers .. := LayersJob.write H
    refine layersOut_same hr hd (nameIn_same hr1 (any_nodir H) hw.name) (fun l hl => hr1.file _ ⟨l, hl, rfl⟩) (fun l hl => hn _ ⟨l, hl, rfl⟩) D

/-- C92: a run in the mode MASK with a mask file, whose jobs have one input file (with or without reclassification) or several (without): all jobs are done, in their
order, if no job writes to a file of a later job. -/
theorem C92_mask_run_partial (sys : Sys) {w : World} {d : Disk} {args : List Str} {c : Cfg} {xs : List (Job × (RPlan ⊕ LPlan))} (hw : Fs.Spec.WF d.fs)
    (hc : configure w args = .ok (.go c)) (hjs : jobs c = .ok (xs.map (·.1))) (hmode : c.mode = .mask)
    {hM : Header} {vM : Int → Int → ℚ} (hf : c.maskFmt = .sfile) (hmask : RasterFile d c.maskPath hM vM)
    (hA : xs.Pairwise (fun x y => ∀ q, AnyTargets (maskView hM vM) x.1 x.2 q → ¬ AnyReads y.2 q ∧ ¬ AnyTargets (maskView hM vM) y.1 y.2 q))
    (hg : ∀ x ∈ xs, CCGL.Spec.CommonGrid (firstHdr x.2) hM ∧ Overlaps hM vM (firstHdr x.2))
    (hgl : ∀ x ∈ xs, ∀ pl : LPlan, x.2 = .inr pl → ∀ l ∈ pl.rest, CCGL.Spec.CommonGrid l.hdr hM)
    (hj : ∀ x ∈ xs, AnyOk sys (maskView hM vM) (fun _ => hM) d x.1 x.2) :
    ∃ d', run sys w d args = .ok (0, d') ∧ Rewritten d d' (fun q => ∃ x ∈ xs, AnyTargets (maskView hM vM) x.1 x.2 q) ∧
      ∀ x ∈ xs, AnyDone (maskView hM vM) (fun _ => hM) (HasValue hM vM) (fun j pl => MaskedLayers hM vM pl.hdr pl.val j.default.toQ pl.rest) d' x.1 x.2 := by
  obtain ⟨M, eM, hm⟩ := mask_loaded hmask
  obtain ⟨d', m', e, -, h1, h2⟩ := batch_gen (α := RPlan ⊕ LPlan) (sys := sys) (mode := .mask) (I := fun x => ∃ m, x = some ⟨m, []⟩ ∧ IsMask m hM vM)
    (Pre := fun d j a => (CCGL.Spec.CommonGrid (firstHdr a) hM ∧ Overlaps hM vM (firstHdr a)) ∧ (∀ pl : LPlan, a = .inr pl → ∀ l ∈ pl.rest, CCGL.Spec.CommonGrid l.hdr hM) ∧
      AnyOk sys (maskView hM vM) (fun _ => hM) d j a)
    (Q := AnyDone (maskView hM vM) (fun _ => hM) (HasValue hM vM) (fun j pl => MaskedLayers hM vM pl.hdr pl.val j.default.toQ pl.rest))
    (T := AnyTargets (maskView hM vM)) (In := fun _ a => AnyReads a)
    (by
      rintro d _ j a hw ⟨m, rfl, hm⟩ ⟨⟨g1, g2⟩, g3, H⟩
      cases a with
      | inl pl =>
        obtain ⟨d', m', e, hm', o1, o2⟩ := C78_job_mask sys hm hw g1 g2 H
        exact ⟨d', _, e, ⟨m', rfl, hm'⟩, o1, o2⟩
      | inr pl =>
        have H : LayersJob sys d hM j pl := H
        obtain ⟨s, hs, Hf⟩ := H.files
        obtain ⟨d', m', e, hm', o1, o2⟩ := C92_mask_partial sys hm H.fmts.1 hs H.more.1 Hf H.more.2 g1 (g3 pl rfl) g2 H.fmts.2.1 H.fmts.2.2 H.out H.write H.header H.carried
          H.carriedMore
        exact ⟨d', _, e, ⟨m', rfl, hm'⟩, o1, o2⟩)
    (fun d j a H => any_nodir H.2.2)
    (fun d d' j a new hw hr hd hi H => ⟨H.1, H.2.1, any_pre hw hr hd hi H.2.2⟩)
    (fun d d1 d' j a new H hr1 hr hd hn D => any_post H.2.2 hr1 hr hd hn D)
    xs d (some ⟨M, []⟩) hw ⟨M, rfl, hm⟩ (fun x hx => ⟨hg x hx, hgl x hx, hj x hx⟩) hA
  refine ⟨d', ?_, h1, h2⟩
  unfold run
  rw [hc]
  simp only [Out.ok_bind]
  rw [hjs]
  simp only [Out.ok_bind]
  rw [loadMask_file hf hmask eM]
  simp only [Out.ok_bind]
  have hp : prepareMask c.mode (some ⟨M, []⟩) = .ok (some ⟨M, []⟩) := by
    unfold prepareMask
    rw [hmode]
    rfl
  rw [hp]
  simp only [Out.ok_bind]
  rw [hmode]
  exact runJobs_layers (.inl rfl) e

/-- C92: the same without a mask. -/
theorem C92_plain_run_partial (sys : Sys) {w : World} {d : Disk} {args : List Str} {c : Cfg} {xs : List (Job × (RPlan ⊕ LPlan))} (hw : Fs.Spec.WF d.fs)
    (hc : configure w args = .ok (.go c)) (hjs : jobs c = .ok (xs.map (·.1))) (hmode : c.mode = .mask) (hmask : c.maskPath = [])
    (hA : xs.Pairwise (fun x y => ∀ q, AnyTargets plainView x.1 x.2 q → ¬ AnyReads y.2 q ∧ ¬ AnyTargets plainView y.1 y.2 q))
    (hgl : ∀ x ∈ xs, ∀ pl : LPlan, x.2 = .inr pl → ∀ l ∈ pl.rest, CCGL.Spec.CommonGrid l.hdr pl.hdr)
    (hj : ∀ x ∈ xs, AnyOk sys plainView id d x.1 x.2) :
    ∃ d', run sys w d args = .ok (0, d') ∧ Rewritten d d' (fun q => ∃ x ∈ xs, AnyTargets plainView x.1 x.2 q) ∧
      ∀ x ∈ xs, AnyDone plainView id (fun _ _ => True) (fun _ pl => PlainLayers pl.hdr pl.val pl.rest) d' x.1 x.2 := by
  obtain ⟨d', m', e, -, h1, h2⟩ := batch_gen (α := RPlan ⊕ LPlan) (sys := sys) (mode := .mask) (I := fun x => x = none)
    (Pre := fun d j a => (∀ pl : LPlan, a = .inr pl → ∀ l ∈ pl.rest, CCGL.Spec.CommonGrid l.hdr pl.hdr) ∧ AnyOk sys plainView id d j a)
    (Q := AnyDone plainView id (fun _ _ => True) (fun _ pl => PlainLayers pl.hdr pl.val pl.rest))
    (T := AnyTargets plainView) (In := fun _ a => AnyReads a)
    (by
      rintro d _ j a hw rfl ⟨g3, H⟩
      cases a with
      | inl pl =>
        obtain ⟨d', e, o1, o2⟩ := C78_job_plain sys hw H
        exact ⟨d', _, e, rfl, o1, o2⟩
      | inr pl =>
        have H : LayersJob sys d pl.hdr j pl := H
        obtain ⟨s, hs, Hf⟩ := H.files
        obtain ⟨d', e, o1, o2⟩ := C92_plain_partial sys H.fmts.1 hs H.more.1 Hf H.more.2 (g3 pl rfl) H.fmts.2.1 H.fmts.2.2 H.out H.write H.header H.carried
          H.carriedMore
        exact ⟨d', _, e, rfl, o1, o2⟩)
    (fun d j a H => any_nodir H.2)
    (fun d d' j a new hw hr hd hi H => ⟨H.1, any_pre hw hr hd hi H.2⟩)
    (fun d d1 d' j a new H hr1 hr hd hn D => any_post H.2 hr1 hr hd hn D)
    xs d none hw rfl (fun x hx => ⟨hgl x hx, hj x hx⟩) hA
  refine ⟨d', ?_, h1, h2⟩
  unfold run
  rw [hc]
  simp only [Out.ok_bind]
  rw [hjs]
  simp only [Out.ok_bind]
  have hl : loadMask d c = .ok (.go none) := by
    unfold loadMask
    rw [if_pos hmask]
  rw [hl]
  simp only [Out.ok_bind]
  have hp : prepareMask c.mode none = .ok none := rfl
  rw [hp]
  simp only [Out.ok_bind]
  rw [hmode]
  exact runJobs_layers (.inl rfl) e

/-- A job with two input files. -/
def exJobL : Job where
  inputs := ["/a.tif".toList, "/b.tif".toList]
  inFmt := .sfile
  out := "/l.tif".toList
  outFmt := .sfile
  default := .fin 7
  update := true
  nodata := .fin (-1)
  type := .double
  recls := false
  table := []

def exPlanL : LPlan := ⟨[["a.tif".toList], ["b.tif".toList]], exH 2, exPlanA.val, [⟨"/b.tif".toList, exH 2, exPlanB.val⟩], [], "/".toList, "l".toList, "tif".toList, 1⟩

theorem exLayers_ok (h : Header) (hh : 0 < h.rows ∧ 0 < h.cols) : LayersJob exSys exRunDisk h exJobL exPlanL where
  fmts := ⟨rfl, rfl, rfl⟩
  files := ⟨_, rfl, exRun_a⟩
  more := ⟨by unfold exPlanL; simp, by
    intro l hl
    have hl : l ∈ [(⟨"/b.tif".toList, exH 2, exPlanB.val⟩ : LayerFile)] := hl
    rw [List.mem_singleton.1 hl]
    exact exRun_b⟩
  paths := by
    intro x hx
    have hx : x ∈ ["/a.tif".toList, "/b.tif".toList] := hx
    simp only [List.mem_cons, List.not_mem_nil, or_false] at hx
    rcases hx with rfl | rfl
    · exact ⟨["a.tif".toList], by decide, by decide +kernel⟩
    · exact ⟨["b.tif".toList], by decide, by decide +kernel⟩
  out := by decide
  write := ⟨⟨exRun_wf, ⟨by simp [exPlanL], rfl⟩, by decide, by decide, rfl⟩, exRun_nodir _, fun _ _ => exRun_writable _, .inr ⟨exTif, rfl, by decide, .inr ⟨rfl, by decide⟩⟩⟩
  header := ⟨hh.1, hh.2, fun ha => (asc_not_tif ha exTif).elim⟩
  carried := exRun_carried _ _ _ _ _
  carriedMore := fun _ _ _ _ _ => ⟨fun ha => (asc_not_tif ha exTif).elim, fun _ h => by cases h⟩

theorem exLayerNames (l : Nat) : ["a_masked.tif".toList] ≠ [] ++ ["l".toList ++ '_' :: intToDec ((l : Int) + 1) ++ '.' :: "tif".toList] := by
  intro h
  injection h with h _
  injection h with h _
  exact absurd h (by decide)

def exLayerArgs : List Str := ["-mode".toList, "mask".toList, "-mask".toList, "/m.tif".toList, "-in".toList, "/a.tif".toList, "-configfile".toList, "/c.txt".toList]

theorem exNoCell (row : Int) (h : row = 0 ∨ row = 1) : ¬ ∃ i j, SameCell (exH 2) (exH 3) i j row 2 := by
  rintro ⟨i, j, h3, h4⟩
  have h5 : 0 ≤ i ∧ i < 2 ∧ 0 ≤ j ∧ j < 2 := h3
  have hj : j = 0 ∨ j = 1 := by omega
  have hi : i = 0 ∨ i = 1 := by omega
  rcases h with rfl | rfl <;> rcases hi with rfl | rfl <;> rcases hj with rfl | rfl <;> revert h4 <;> decide +kernel

/-- A run with a job of one file and a job of two files (`/a.tif,/b.tif;/l.tif;7;-1`): the second writes `/l_1.tif` and `/l_2.tif`. Cell (1, 0), NoData in `/a.tif`, gets
the default value 7 in the first layer; cell (0, 2) of the mask lies outside both files: NoData in both layers. -/
example : ∃ d', run exSys (exWorld "/a.tif,/b.tif;/l.tif;7;-1;DOUBLE\n") exRunDisk exLayerArgs = .ok (0, d') ∧
    (∃ v, ReadsAs d' "/l_1.tif".toList { exH 3 with noData := -1 } v ∧ v 0 0 = 10 ∧ v 0 1 = -1 ∧ v 1 0 = 7 ∧ v 0 2 = -1) ∧
    (∃ v, ReadsAs d' "/l_2.tif".toList { exH 3 with noData := -1 } v ∧ v 0 0 = 5 ∧ v 0 1 = -1 ∧ v 1 0 = 7 ∧ v 1 1 = 8 ∧ v 0 2 = -1) := by
  have hj : jobsOf (exWorld "/a.tif,/b.tif;/l.tif;7;-1;DOUBLE\n") exLayerArgs = .ok (some [exJobA, exJobL]) := by decide +kernel
  have hcfg : (configure (exWorld "/a.tif,/b.tif;/l.tif;7;-1;DOUBLE\n") exLayerArgs).bind (fun | .exit _ => .ub | .go c => .ok (c.mode, c.maskFmt, c.maskPath)) =
      .ok (.mask, .sfile, "/m.tif".toList) := by decide +kernel
  obtain ⟨c, h1, h2⟩ := jobsOf_go hj
  rw [h1] at hcfg
  have hcfg' : (c.mode, c.maskFmt, c.maskPath) = (IOMode.mask, DataFmt.sfile, "/m.tif".toList) := Out.ok.inj hcfg
  injection hcfg' with q1 q2
  injection q2 with q2 q3
  obtain ⟨d', e, -, hd⟩ := C92_mask_run_partial exSys (xs := [(exJobA, .inl exPlanA), (exJobL, .inr exPlanL)]) exRun_wf h1 h2 q1 q2 (by rw [q3]; exact exRun_m)
    (vM := exMaskV)
    (by
      simp only [List.pairwise_cons, List.mem_cons, List.not_mem_nil, or_false, forall_eq]
      refine ⟨?_, fun _ h => h.elim, .nil⟩
      rintro q (⟨h, -⟩ | ⟨-, -, rfl⟩)
      · cases h
      · refine ⟨fun h => ?_, ?_⟩
        · have h : ["a_masked.tif".toList] ∈ [["a.tif".toList], ["b.tif".toList]] := h
          revert h
          decide
        · rintro ⟨l, -, h⟩
          exact exLayerNames l h)
    (by
      intro x hx
      simp only [List.mem_cons, List.not_mem_nil, or_false] at hx
      rcases hx with rfl | rfl <;> exact exRun_overlap _ (by decide +kernel))
    (by
      intro x hx pl hpl l hl
      simp only [List.mem_cons, List.not_mem_nil, or_false] at hx
      rcases hx with rfl | rfl
      · cases hpl
      · injection hpl with hpl
        subst hpl
        have hl : l ∈ [(⟨"/b.tif".toList, exH 2, exPlanB.val⟩ : LayerFile)] := hl
        rw [List.mem_singleton.1 hl]
        exact (exRun_overlap exMaskV (by decide +kernel)).1)
    (by
      intro x hx
      simp only [List.mem_cons, List.not_mem_nil, or_false] at hx
      rcases hx with rfl | rfl
      · exact exJobA_ok _ ⟨by decide, by decide⟩ _
      · exact exLayers_ok _ ⟨by decide, by decide⟩)
  have hL : LayersOut .. := hd (exJobL, .inr exPlanL) (by simp)
  have hin : ∀ i j, 0 ≤ i → i < 2 → 0 ≤ j → j < 3 → (exH 3).grid.CellInside i j := fun i j => exIn 3 i j
  have hin2 : ∀ i j, 0 ≤ i → i < 2 → 0 ≤ j → j < 2 → (exH 2).grid.CellInside i j := fun i j => exIn 2 i j
  refine ⟨d', e, ?_, ?_⟩
  · obtain ⟨v, v1, v2⟩ := hL 0 (by decide)
    have hs : exPlanL.dt ++ exPlanL.core ++ '_' :: intToDec (((0 : Nat) : Int) + exPlanL.first) ++ '.' :: exPlanL.suf = "/l_1.tif".toList := by decide +kernel
    rw [hs] at v1
    refine ⟨v, v1, ?_, ?_, ?_, ?_⟩
    · obtain ⟨w, w1, w2⟩ := (v2 0 0 (hin _ _ (by decide) (by decide) (by decide) (by decide))).1 (.inr (.inl exTif))
      rw [w2, (w1.1 rfl).taken ⟨hin _ _ (by decide) (by decide) (by decide) (by decide), by decide +kernel⟩ 0 0 ⟨hin2 _ _ (by decide) (by decide) (by decide) (by decide), by decide +kernel⟩]
      decide +kernel
    · obtain ⟨w, w1, w2⟩ := (v2 0 1 (hin _ _ (by decide) (by decide) (by decide) (by decide))).1 (.inr (.inl exTif))
      rw [w2, (w1.1 rfl).none (.inl (by rintro ⟨-, h⟩; revert h; decide +kernel))]
      decide +kernel
    · obtain ⟨w, w1, w2⟩ := (v2 1 0 (hin _ _ (by decide) (by decide) (by decide) (by decide))).1 (.inr (.inl exTif))
      rw [w2, (w1.1 rfl).taken ⟨hin _ _ (by decide) (by decide) (by decide) (by decide), by decide +kernel⟩ 1 0 ⟨hin2 _ _ (by decide) (by decide) (by decide) (by decide), by decide +kernel⟩]
      decide +kernel
    · obtain ⟨w, w1, w2⟩ := (v2 0 2 (hin _ _ (by decide) (by decide) (by decide) (by decide))).1 (.inr (.inl exTif))
      rw [w2, (w1.1 rfl).none (.inr (exNoCell 0 (.inl rfl)))]
      decide +kernel
  · obtain ⟨v, v1, v2⟩ := hL 1 (by decide)
    have hs : exPlanL.dt ++ exPlanL.core ++ '_' :: intToDec (((1 : Nat) : Int) + exPlanL.first) ++ '.' :: exPlanL.suf = "/l_2.tif".toList := by decide +kernel
    rw [hs] at v1
    refine ⟨v, v1, ?_, ?_, ?_, ?_, ?_⟩
    · obtain ⟨w, w1, w2⟩ := (v2 0 0 (hin _ _ (by decide) (by decide) (by decide) (by decide))).1 (.inr (.inl exTif))
      rw [w2, (w1.2 0 (by decide) rfl).taken ⟨hin _ _ (by decide) (by decide) (by decide) (by decide), by decide +kernel⟩ 0 0 ⟨hin2 _ _ (by decide) (by decide) (by decide) (by decide), by decide +kernel⟩]
      decide +kernel
    · obtain ⟨w, w1, w2⟩ := (v2 0 1 (hin _ _ (by decide) (by decide) (by decide) (by decide))).1 (.inr (.inl exTif))
      rw [w2, (w1.2 0 (by decide) rfl).none (.inl (by rintro ⟨-, h⟩; revert h; decide +kernel))]
      decide +kernel
    · obtain ⟨w, w1, w2⟩ := (v2 1 0 (hin _ _ (by decide) (by decide) (by decide) (by decide))).1 (.inr (.inl exTif))
      rw [w2, (w1.2 0 (by decide) rfl).taken ⟨hin _ _ (by decide) (by decide) (by decide) (by decide), by decide +kernel⟩ 1 0 ⟨hin2 _ _ (by decide) (by decide) (by decide) (by decide), by decide +kernel⟩]
      decide +kernel
    · obtain ⟨w, w1, w2⟩ := (v2 1 1 (hin _ _ (by decide) (by decide) (by decide) (by decide))).1 (.inr (.inl exTif))
      rw [w2, (w1.2 0 (by decide) rfl).taken ⟨hin _ _ (by decide) (by decide) (by decide) (by decide), by decide +kernel⟩ 1 1 ⟨hin2 _ _ (by decide) (by decide) (by decide) (by decide), by decide +kernel⟩]
      decide +kernel
    · obtain ⟨w, w1, w2⟩ := (v2 0 2 (hin _ _ (by decide) (by decide) (by decide) (by decide))).1 (.inr (.inl exTif))
      rw [w2, (w1.2 0 (by decide) rfl).none (.inr (exNoCell 0 (.inl rfl)))]
      decide +kernel

def exPlainArgs : List Str := ["-mode".toList, "mask".toList, "-configfile".toList, "/c.txt".toList]

/-- The two-file job alone, without a mask: the second layer has no value where the first file has none (cell (1, 0)). -/
example : ∃ d', run exSys (exWorld "/a.tif,/b.tif;/l.tif;7;-1;DOUBLE\n") exRunDisk exPlainArgs = .ok (0, d') ∧
    ∃ v, ReadsAs d' "/l_2.tif".toList { exH 2 with noData := -1 } v ∧ v 0 0 = 5 ∧ v 1 0 = -1 := by
  have hj : jobsOf (exWorld "/a.tif,/b.tif;/l.tif;7;-1;DOUBLE\n") exPlainArgs = .ok (some [exJobL]) := by decide +kernel
  have hcfg : (configure (exWorld "/a.tif,/b.tif;/l.tif;7;-1;DOUBLE\n") exPlainArgs).bind (fun | .exit _ => .ub | .go c => .ok (c.mode, c.maskPath)) =
      .ok (.mask, []) := by decide +kernel
  obtain ⟨c, h1, h2⟩ := jobsOf_go hj
  rw [h1] at hcfg
  have hcfg' : (c.mode, c.maskPath) = (IOMode.mask, []) := Out.ok.inj hcfg
  injection hcfg' with q1 q2
  obtain ⟨d', e, -, hd⟩ := C92_plain_run_partial exSys (xs := [(exJobL, .inr exPlanL)]) exRun_wf h1 h2 q1 q2 (List.pairwise_singleton _ _)
    (by
      intro x hx pl hpl l hl
      rw [List.mem_singleton.1 hx] at hpl
      injection hpl with hpl
      subst hpl
      have hl : l ∈ [(⟨"/b.tif".toList, exH 2, exPlanB.val⟩ : LayerFile)] := hl
      rw [List.mem_singleton.1 hl]
      exact ⟨by decide, rfl, 0, 0, by decide +kernel, by decide +kernel⟩)
    (by
      intro x hx
      rw [List.mem_singleton.1 hx]
      exact exLayers_ok _ ⟨by decide, by decide⟩)
  have hL : LayersOut .. := hd (exJobL, .inr exPlanL) (by simp)
  refine ⟨d', e, ?_⟩
  obtain ⟨v, v1, v2⟩ := hL 1 (by decide)
  have hs : exPlanL.dt ++ exPlanL.core ++ '_' :: intToDec (((1 : Nat) : Int) + exPlanL.first) ++ '.' :: exPlanL.suf = "/l_2.tif".toList := by decide +kernel
  rw [hs] at v1
  have hin2 : ∀ i j, 0 ≤ i → i < 2 → 0 ≤ j → j < 2 → (exH 2).grid.CellInside i j := fun i j => exIn 2 i j
  refine ⟨v, v1, ?_, ?_⟩
  · obtain ⟨w, w1, w2⟩ := (v2 0 0 (hin2 _ _ (by decide) (by decide) (by decide) (by decide))).1 (.inr (.inl exTif))
    rw [w2, (w1.2 0 (by decide) rfl).taken ⟨hin2 _ _ (by decide) (by decide) (by decide) (by decide), by decide +kernel⟩ 0 0 ⟨hin2 _ _ (by decide) (by decide) (by decide) (by decide), by decide +kernel⟩]
    decide +kernel
  · obtain ⟨w, w1, w2⟩ := (v2 1 0 (hin2 _ _ (by decide) (by decide) (by decide) (by decide))).1 (.inr (.inl exTif))
    rw [w2, (w1.2 0 (by decide) rfl).none (.inl (by rintro ⟨-, h⟩; revert h; decide +kernel))]
    decide +kernel

end App
end CCGL
