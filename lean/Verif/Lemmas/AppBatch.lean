import Verif.Props.AppRun
/-!
# Files that are not rewritten read as before
-/
namespace CCGL
namespace App
open Fs Disk Main Raster Disk.Spec App.Spec

theorem walk_same {fs fs' : FS} {new : Path → Prop} (hd : ∀ q, new q → fs.kindOf q ≠ some .dir)
    (hs : ∀ q, ¬ new q → fs'.kindOf q = fs.kindOf q) : ∀ (cs : List Str) (cur q : Path), ¬ new q → fs.walk cur cs = some q →
      fs'.walk cur cs = some q := by
  intro cs
  induction cs with
  | nil =>
    intro cur q hq e
    have e0 : fs.walk cur [] = if (fs.kindOf cur).isSome then some cur else none := rfl
    have e1 : fs'.walk cur [] = if (fs'.kindOf cur).isSome then some cur else none := rfl
    rw [e0] at e
    rw [e1]
    by_cases h : (fs.kindOf cur).isSome = true
    · rw [if_pos h] at e
      injection e with e
      subst e
      rw [hs _ hq, if_pos h]
    · rw [if_neg h] at e; cases e
  | cons c cs ih =>
    intro cur q hq e
    have e0 : fs.walk cur (c :: cs) = if fs.kindOf cur ≠ some .dir then none else if c = [] ∨ c = ['.'] then fs.walk cur cs
        else if c = ['.', '.'] then fs.walk cur.dropLast cs else fs.walk (cur ++ [c]) cs := rfl
    have e1 : fs'.walk cur (c :: cs) = if fs'.kindOf cur ≠ some .dir then none else if c = [] ∨ c = ['.'] then fs'.walk cur cs
        else if c = ['.', '.'] then fs'.walk cur.dropLast cs else fs'.walk (cur ++ [c]) cs := rfl
    rw [e0] at e
    rw [e1]
    by_cases h : fs.kindOf cur = some .dir
    · have hn : ¬ new cur := fun hn => hd _ hn h
      rw [if_neg (by simp [h])] at e
      rw [hs _ hn, if_neg (by simp [h])]
      by_cases h1 : c = [] ∨ c = ['.']
      · rw [if_pos h1] at e ⊢
        exact ih _ _ hq e
      rw [if_neg h1] at e ⊢
      by_cases h2 : c = ['.', '.']
      · rw [if_pos h2] at e ⊢
        exact ih _ _ hq e
      rw [if_neg h2] at e ⊢
      exact ih _ _ hq e
    · rw [if_pos h] at e; cases e

theorem resolve_same {d d' : Disk} {new : Path → Prop} (hr : Rewritten d d' new) (hd : ∀ q, new q → d.fs.kindOf q ≠ some .dir)
    {s : Str} {q : Path} (e : d.fs.resolve s = some q) (hq : ¬ new q) : d'.fs.resolve s = some q := by
  have hs : ∀ q, ¬ new q → d'.fs.kindOf q = d.fs.kindOf q := fun q h => (hr.same q h).1
  unfold FS.resolve at e ⊢
  rw [hr.cwd]
  cases s with
  | nil => cases e
  | cons c s =>
    dsimp only at e ⊢
    by_cases h : c = '/'
    · rw [if_pos h] at e ⊢
      exact walk_same hd hs _ _ _ hq e
    · rw [if_neg h] at e ⊢
      exact walk_same hd hs _ _ _ hq e

theorem decode_same {d d' : Disk} {new : Path → Prop} (hw : Fs.Spec.WF d.fs) (hr : Rewritten d d' new)
    (hd : ∀ q, new q → d.fs.kindOf q ≠ some .dir)
    {s : Str} {q : Path} (e : d.fs.resolve s = some q) (hq : ¬ new q) : decode d' s = decode d s := by
  have e' := resolve_same hr hd e hq
  have a : getAbsolutePath d'.fs s = getAbsolutePath d.fs s := by
    unfold getAbsolutePath; rw [e, e']
  have hsx : getSuffix d'.fs s = getSuffix d.fs s := by
    unfold getSuffix; rw [a]
  have hdat : d'.data q = d.data q := (hr.same q hq).2
  unfold decode
  rw [hsx, resolve_abs hr.wf, resolve_abs hw, e, e']
  simp only [Option.bind_some, hdat]

theorem readFromFile_same {d d' : Disk} {new : Path → Prop} (hw : Fs.Spec.WF d.fs) (hr : Rewritten d d' new)
    (hd : ∀ q, new q → d.fs.kindOf q ≠ some .dir)
    {s : Str} {q : Path} (e : d.fs.resolve s = some q) (hq : ¬ new q) (b : Bool) (x : ℚ) :
    readFromFile d' s b x = readFromFile d s b x := by
  have h : fileExists d'.fs s = fileExists d.fs s := by
    unfold fileExists; rw [e, resolve_same hr hd e hq]
  unfold readFromFile
  rw [decode_same hw hr hd e hq, h]

/-- A file that is not rewritten reads as before. -/
theorem reads_same {d d' : Disk} {new : Path → Prop} (hw : Fs.Spec.WF d.fs) (hr : Rewritten d d' new)
    (hd : ∀ q, new q → d.fs.kindOf q ≠ some .dir)
    {s : Str} {q : Path} (e : d.fs.resolve s = some q) (hq : ¬ new q) {h : Header} {v : Int → Int → ℚ} (H : ReadsAs d s h v) :
    ReadsAs d' s h v := by
  intro b x hp
  obtain ⟨r', e1, e2⟩ := H b x hp
  exact ⟨r', by rw [readFromFile_same hw hr hd e hq, e1], e2⟩

theorem rasterFile_same {d d' : Disk} {new : Path → Prop} (hw : Fs.Spec.WF d.fs) (hr : Rewritten d d' new)
    (hd : ∀ q, new q → d.fs.kindOf q ≠ some .dir)
    {s : Str} {q : Path} (e : d.fs.resolve s = some q) (hq : ¬ new q) {h : Header} {v : Int → Int → ℚ} (H : RasterFile d s h v) :
    RasterFile d' s h v := ⟨reads_same hw hr hd e hq H.reads, H.rows, H.cols⟩

theorem outName_same {env : Env} {fmt : Disk.Fmt} {d d' : Disk} {new : Path → Prop} (hr : Rewritten d d' new)
    (hd : ∀ q, new q → d.fs.kindOf q ≠ some .dir) {p : Path} {dt core suf : Str} (h : OutName env fmt d p dt core suf)
    (hq : ¬ new (p ++ [core ++ '.' :: suf])) : OutName env fmt d' p dt core suf := by
  refine ⟨⟨hr.wf, h.name.dir, h.name.core, h.name.suf, ?_⟩, ⟨?_, ?_, h.write.rw, h.write.cut, h.write.gdal⟩, h.suf⟩
  · rw [(hr.same p (fun hn => hd _ hn h.name.exist)).1]; exact h.name.exist
  · rw [(hr.same _ hq).1]; exact h.write.nodir
  · rw [hr.deny]; exact h.write.allow

/-- A written file is found under its name. -/
theorem resolve_out {d : Disk} {p : Path} {dt core suf : Str} (hn : NameIn d.fs p dt core suf)
    (hf : d.fs.kindOf (p ++ [core ++ '.' :: suf]) = some .file) :
    d.fs.resolve (dt ++ core ++ '.' :: suf) = some (p ++ [core ++ '.' :: suf]) := by
  rw [List.append_assoc, resolve_full hn.wf p dt _ hn.dir (base_good core suf hn.core hn.suf.1 hn.suf.2.1 hn.suf.2.2), if_pos (by rw [hf]; rfl)]

end App
end CCGL
