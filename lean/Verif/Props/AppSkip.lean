import Verif.Props.AppBatch
/-! # C77: missing inputs, missing masks and masks that cannot be read -/
namespace CCGL
namespace App
open Fs Disk Main Raster Disk.Spec App.Spec

/-- Some input of the job does not exist, or it names none, or it is not a job on files. -/
def Spec.Missing (d : Disk) (j : Job) : Prop := j.inFmt ≠ .sfile ∨ j.inputs = [] ∨ ∃ s ∈ j.inputs, d.fs.resolve s = none

/-- The file exists, and `ReadFromFile` returns false. -/
def Spec.Unreadable (d : Disk) (s : Str) : Prop := (∃ p, d.fs.resolve s = some p) ∧ ∀ calcPos dflt, readFromFile d s calcPos dflt = .ok none

/-- C77: a job with a missing input is skipped: nothing is written and the mask stays as it is. -/
theorem C77_missing_input (sys : Sys) (mode : IOMode) (d : Disk) (mask : Option RasterS) {j : Job} (h : Missing d j) :
    layerJob sys mode (d, mask) j = .ok (d, mask) := by
  unfold layerJob
  rw [if_neg]
  rintro ⟨h1, h2⟩
  unfold filesExist at h2
  rcases h with h | h | ⟨s, hs, h⟩
  · exact h h1
  · rw [h] at h2; cases h2
  · split at h2
    · cases h2
    · have := List.all_eq_true.1 h2 s hs
      unfold fileExists at this
      simp only [h] at this
      cases this

/-- C77: a run in which the inputs of all jobs are missing ends with code 0 and changes nothing. -/
theorem C77_missing_jobs (sys : Sys) {mode : IOMode} (hm : mode ≠ .com) (d : Disk) (mask : Option RasterS) {js : List Job}
    (h : ∀ j ∈ js, Missing d j) : runJobs sys mode mask d js = .ok (0, d) := by
  have hf : js.foldlM (layerJob sys mode) (d, mask) = .ok (d, mask) := by
    induction js with
    | nil => rfl
    | cons j js ih =>
      rw [List.foldlM_cons, C77_missing_input sys mode d mask (h j (by simp))]
      exact ih (fun k hk => h k (by simp [hk]))
  unfold runJobs
  rw [if_neg hm]
  split
  · rfl
  · rw [hf]; rfl

/-- C77: jobs with missing inputs do not disturb the jobs after them. -/
theorem C77_missing_first (sys : Sys) {mode : IOMode} (hm : mode ≠ .com) (d : Disk) (mask : Option RasterS) {js ks : List Job}
    (h : ∀ j ∈ js, Missing d j) : runJobs sys mode mask d (js ++ ks) = runJobs sys mode mask d ks := by
  have hf : (js ++ ks).foldlM (layerJob sys mode) (d, mask) = ks.foldlM (layerJob sys mode) (d, mask) := by
    induction js with
    | nil => rfl
    | cons j js ih =>
      rw [List.cons_append, List.foldlM_cons, C77_missing_input sys mode d mask (h j (by simp))]
      exact ih (fun k hk => h k (by simp [hk]))
  unfold runJobs
  rw [if_neg hm, if_neg hm, hf]

/-- C77: a mask file that exists but cannot be read ends the program with code 3 before any job. -/
theorem C77_unreadable_mask (sys : Sys) {w : World} {d : Disk} {args : List Str} {c : Cfg} {js : List Job}
    (hc : configure w args = .ok (.go c)) (hjs : jobs c = .ok js) (hf : c.maskFmt = .sfile) (hne : c.maskPath ≠ [])
    (hu : Unreadable d c.maskPath) : run sys w d args = .ok (3, d) := by
  obtain ⟨⟨p, hp⟩, hr⟩ := hu
  have hex : fileExists d.fs c.maskPath = true := by unfold fileExists; rw [hp]; rfl
  have hl : loadMask d c = .ok (.exit 3) := by
    unfold loadMask
    rw [if_neg hne, if_pos ⟨hf, hex⟩]
    unfold initFile
    rw [hr]
    rfl
  unfold run
  rw [hc]
  simp only [Out.ok_bind]
  rw [hjs]
  simp only [Out.ok_bind]
  rw [hl]
  rfl

/-- C77: if the arguments or the configuration file end the program, no file is touched and the exit code is the one of C76. -/
theorem C77_exit (sys : Sys) {w : World} (d : Disk) {args : List Str} {n : Nat} (hc : configure w args = .ok (.exit n)) :
    run sys w d args = .ok (n, d) := by
  unfold run
  rw [hc]
  rfl

/-- C77: a mask that does not exist is ignored in the mode MASK: the run is the one without a mask. -/
theorem C77_no_mask_run (sys : Sys) {w : World} {d : Disk} {args : List Str} {c : Cfg} {js : List Job} (hw : Fs.Spec.WF d.fs)
    (hc : configure w args = .ok (.go c)) (hjs : jobs c = .ok js) (hmode : c.mode = .mask) (hmask : d.fs.resolve c.maskPath = none)
    {pls : List Plan} (hA : Apart pls) (hj : List.Forall₂ (fun j pl => FileJob sys d pl.hdr j pl) js pls) :
    ∃ d', run sys w d args = .ok (0, d') ∧ Rewritten d d' (fun q => ∃ pl ∈ pls, q = pl.out) ∧ List.Forall₂ (PlainOutput d') js pls := by
  obtain ⟨d', e, h1, h2⟩ := C77_plain_jobs sys hw hA hj
  refine ⟨d', ?_, h1, h2⟩
  unfold run
  rw [hc]
  simp only [Out.ok_bind]
  rw [hjs]
  simp only [Out.ok_bind]
  have hl : loadMask d c = .ok (.go none) := by
    unfold loadMask
    split
    · rfl
    · rw [if_neg]
      rintro ⟨-, h⟩
      unfold fileExists at h
      rw [hmask] at h
      cases h
  rw [hl]
  simp only [Out.ok_bind]
  have hp : prepareMask c.mode none = .ok none := rfl
  rw [hp]
  simp only [Out.ok_bind]
  rw [hmode, e]

/-- The mask is a text that is not a GeoTIFF. -/
def exBadMask : Disk := { exRunDisk with data := fun p => if p = ["m.tif".toList] then none else exRunDisk.data p }

theorem exBadMask_unreadable : Unreadable exBadMask "/m.tif".toList := by
  refine ⟨⟨_, (by decide +kernel : exBadMask.fs.resolve "/m.tif".toList = some ["m.tif".toList])⟩, ?_⟩
  intro calcPos dflt
  have h1 : fileExists exBadMask.fs "/m.tif".toList = true := by decide +kernel
  have h2 : (decode exBadMask "/m.tif".toList) = .ok none := by decide +kernel
  unfold readFromFile
  rw [h1, h2]; rfl

example : (run exSys (exWorld "") exBadMask ["-mask".toList, "/m.tif".toList, "-in".toList, "/a.tif".toList]).bind (fun x => .ok x.1) =
    .ok 3 := by decide +kernel

example : (run exSys (exWorld "") exRunDisk []).bind (fun x => .ok x.1) = .ok 1 := by decide +kernel

example : Missing exRunDisk { exOneJob with inputs := ["/gone.tif".toList] } :=
  .inr (.inr ⟨"/gone.tif".toList, by simp, by decide +kernel⟩)

end App
end CCGL
