import Verif.Props.KeyValues
import Verif.Props.FsFind
/-!
# C67: format and path arguments
-/
namespace CCGL
open Spec

/-- What is left of the refused and accepted arguments. -/
def fmtOutcome (fmt : DataFmt) (paths : List Str) : Option (DataFmt × List Str) → Bool × DataFmt × List Str
  | none => (false, fmt, paths)
  | some x => (true, x.1, paths ++ x.2)

theorem exist_iff (fs : Fs.FS) (tag : Str) (l : List Str) :
    (!stringMatch tag "OUT".toList && Fs.filesExist fs l) = true ↔ Existing (fun s => Fs.fileExists fs s = true) tag l := by
  rw [Bool.and_eq_true, Fs.C65_filesExist, Bool.not_eq_true', Bool.eq_false_iff, Ne, C34_match]
  exact Iff.rfl

theorem fmt_known_iff (s : Str) : (stringToDataFormat s = .gfs ∨ stringToDataFormat s = .sfile) ↔
    stringToDataFormat s ≠ .unknown := by
  cases stringToDataFormat s <;> simp

theorem fields_unique (d : Char) (s : Str) (a b : List Str) (h1 : Fields d s a) (h2 : Fields d s b) : a = b := by
  rw [fields_iff] at h1 h2
  rw [← h1, ← h2]

/-- The meaning of the arguments is unique. -/
theorem fmtPaths_unique (ex : Str → Prop) (tag : Str) (strs : List Str) (a b : Option (DataFmt × List Str))
    (ha : FmtPaths ex tag strs a) (hb : FmtPaths ex tag strs b) : a = b := by
  have name_unique : ∀ (s : Str) (m m' : DataFmt) (n n' : Str), n ∈ fmtNames m → n' ∈ fmtNames m' → SameText s n → SameText s n' →
      m = m' := by
    intro s m m' n n' h1 h2 h3 h4
    have hm : m ≠ .unknown := by rintro rfl; simp [fmtNames] at h1
    have hm' : m' ≠ .unknown := by rintro rfl; simp [fmtNames] at h2
    rw [← (C58_format s m hm).2 ⟨n, h1, h3⟩, ← (C58_format s m' hm').2 ⟨n', h2, h4⟩]
  cases ha with
  | nothing =>
    cases hb with
    | nothing => rfl
    | existing _ fs h => exact absurd rfl h
  | existing _ fs h h1 h2 =>
    cases hb with
    | nothing => exact absurd rfl h
    | existing _ fs' h' h1' h2' => rw [fields_unique _ _ _ _ h1 h1']
    | named s rest fs' fmt n h1' h2' => rw [fields_unique _ _ _ _ h1 h1'] at h2; exact absurd h2 h2'
    | slash s f fs' h1' h2' => rw [fields_unique _ _ _ _ h1 h1'] at h2; exact absurd h2 h2'
    | name s f fs' h1' h2' => rw [fields_unique _ _ _ _ h1 h1'] at h2; exact absurd h2 h2'
    | illegal s t rest fs' h1' h2' => rw [fields_unique _ _ _ _ h1 h1'] at h2; exact absurd h2 h2'
  | named s rest fs fmt n h1 h2 h3 h4 =>
    cases hb with
    | existing _ fs' h' h1' h2' => rw [fields_unique _ _ _ _ h1 h1'] at h2; exact absurd h2' h2
    | named _ _ fs' fmt' n' h1' h2' h3' h4' => rw [fields_unique _ _ _ _ h1 h1', name_unique s _ _ _ _ h3 h3' h4 h4']
    | slash _ f fs' h1' h2' h3' => exact absurd h4 (h3' _ _ h3)
    | name _ f fs' h1' h2' h3' => exact absurd h4 (h3' _ _ h3)
    | illegal _ t rest fs' h1' h2' h3' => exact absurd h4 (h3' _ _ h3)
  | slash s f fs h1 h2 h3 h4 =>
    cases hb with
    | existing _ fs' h' h1' h2' => rw [fields_unique _ _ _ _ h1 h1'] at h2; exact absurd h2' h2
    | named _ _ fs' fmt' n' h1' h2' h3' h4' => exact absurd h4' (h3 _ _ h3')
    | slash _ f' fs' h1' h2' h3' => rw [fields_unique _ _ _ _ h1 h1']
    | name _ f' fs' h1' h2' h3' h4' =>
      have e := fields_unique _ _ _ _ h1 h1'; injection e with e1 e2; rw [e1] at h4; exact absurd h4 h4'
  | name s f fs h1 h2 h3 h4 =>
    cases hb with
    | existing _ fs' h' h1' h2' => rw [fields_unique _ _ _ _ h1 h1'] at h2; exact absurd h2' h2
    | named _ _ fs' fmt' n' h1' h2' h3' h4' => exact absurd h4' (h3 _ _ h3')
    | slash _ f' fs' h1' h2' h3' h4' =>
      have e := fields_unique _ _ _ _ h1 h1'; injection e with e1 e2; rw [e1] at h4; exact absurd h4' h4
    | name _ f' fs' h1' h2' h3' => rw [fields_unique _ _ _ _ h1 h1']
  | illegal s t rest fs h1 h2 h3 =>
    cases hb with
    | existing _ fs' h' h1' h2' => rw [fields_unique _ _ _ _ h1 h1'] at h2; exact absurd h2' h2
    | named _ _ fs' fmt' n' h1' h2' h3' h4' => exact absurd h4' (h3 _ _ h3')
    | illegal => rfl

/-- C67: the arguments of `-in`, `-mask` and `-out` get the format and the paths they mean; refused arguments change nothing. The
only exception is a single empty text, for which the code throws. -/
theorem C67_parse_total (fs : Fs.FS) (tag : Str) (strs : List Str) (fmt : DataFmt) (paths : List Str) (h : strs ≠ [[]]) :
    ∃ o, FmtPaths (fun s => Fs.fileExists fs s = true) tag strs o ∧
      parseFmtPaths (Fs.filesExist fs) tag strs fmt paths = .ok (fmtOutcome fmt paths o) := by
  cases strs with
  | nil => exact ⟨none, .nothing, rfl⟩
  | cons s rest =>
    have hf : ∀ t, Fields ',' t (splitDelim ',' t) := fun t => (fields_iff ',' t _).2 rfl
    cases rest with
    | nil =>
      unfold parseFmtPaths
      dsimp only
      by_cases hex : Existing (fun s => Fs.fileExists fs s = true) tag (splitDelim ',' s)
      · rw [if_pos ((exist_iff fs tag _).2 hex)]
        exact ⟨some (.sfile, splitDelim ',' s), .existing _ _ (by simp) (hf s) hex, rfl⟩
      rw [if_neg (fun h => hex ((exist_iff fs tag _).1 h)), if_pos rfl]
      by_cases hk : stringToDataFormat s = .gfs ∨ stringToDataFormat s = .sfile
      · rw [if_pos hk]
        obtain ⟨n, hn, hs⟩ := (C58_format s _ ((fmt_known_iff s).1 hk)).1 rfl
        exact ⟨some (stringToDataFormat s, splitDelim ',' s), .named s [] _ _ n (hf s) hex hn hs, rfl⟩
      rw [if_neg hk]
      have hun := (C58_format_unknown s).1 (by
        by_contra hne; exact hk ((fmt_known_iff s).2 hne))
      have hsne : s ≠ [] := by rintro rfl; exact h rfl
      cases hsp : splitDelim ',' s with
      | nil => exact absurd hsp (splitDelim_ne_nil ',' s hsne)
      | cons f l =>
        have hff := hf s
        rw [hsp] at hff hex
        dsimp only
        by_cases hsl : '/' ∈ f
        · rw [if_pos hsl]; exact ⟨some (.sfile, f :: l), .slash s f l hff hex hun hsl, rfl⟩
        · rw [if_neg hsl]; exact ⟨some (.gfs, f :: l), .name s f l hff hex hun hsl, rfl⟩
    | cons t rest =>
      unfold parseFmtPaths
      dsimp only
      by_cases hex : Existing (fun s => Fs.fileExists fs s = true) tag (splitDelim ',' t)
      · rw [if_pos ((exist_iff fs tag _).2 hex)]
        exact ⟨some (.sfile, splitDelim ',' t), .existing _ _ (by simp) (hf t) hex, rfl⟩
      rw [if_neg (fun h => hex ((exist_iff fs tag _).1 h)), if_neg (by simp)]
      by_cases hk : stringToDataFormat s = .gfs ∨ stringToDataFormat s = .sfile
      · rw [if_pos hk]
        obtain ⟨n, hn, hs⟩ := (C58_format s _ ((fmt_known_iff s).1 hk)).1 rfl
        exact ⟨some (stringToDataFormat s, splitDelim ',' t), .named s (t :: rest) _ _ n (hf t) hex hn hs, rfl⟩
      rw [if_neg hk]
      have hun := (C58_format_unknown s).1 (by
        by_contra hne; exact hk ((fmt_known_iff s).2 hne))
      exact ⟨none, .illegal s t rest _ (hf t) hex hun, rfl⟩

/-- C67: any meaning in the sense of the specification is the one that is returned. -/
theorem C67_parse_partial (fs : Fs.FS) (tag : Str) (strs : List Str) (fmt : DataFmt) (paths : List Str) (o : Option (DataFmt × List Str))
    (ho : FmtPaths (fun s => Fs.fileExists fs s = true) tag strs o) :
    parseFmtPaths (Fs.filesExist fs) tag strs fmt paths = .ok (fmtOutcome fmt paths o) := by
  have h : strs ≠ [[]] := by
    rintro rfl
    have hn : ∀ f l, ¬ Fields ',' ([] : Str) (f :: l) := by
      intro f l h; rw [fields_iff, splitDelim_nil] at h; exact absurd h (by simp)
    cases ho with
    | existing _ l h1 h2 h3 =>
      cases l with
      | nil => exact h3.2.1 rfl
      | cons f l => exact hn f l h2
    | named s rest l fmt n h1 h2 h3 h4 =>
      have hl := h4.1
      cases fmt <;> simp [fmtNames] at h3 <;> rcases h3 with rfl | rfl <;> simp at hl
    | slash s f l h1 => exact hn f l h1
    | name s f l h1 => exact hn f l h1
  obtain ⟨o', h1, h2⟩ := C67_parse_total fs tag strs fmt paths h
  rw [fmtPaths_unique _ _ _ _ _ ho h1, h2]

/-- C67 is false of a single empty text (`-in ""`): `vector::at` throws. -/
theorem C67_false_empty (exist : List Str → Bool) (tag : Str) (fmt : DataFmt) (paths : List Str) (he : exist [] = false) :
    parseFmtPaths exist tag [[]] fmt paths = .exn := by
  unfold parseFmtPaths
  dsimp only
  rw [splitDelim_nil, he, Bool.and_false, if_neg (by simp), if_pos rfl, if_neg (by decide)]

/-- Three kinds of arguments: an existing file after the word "gfs", two names in the database, an unknown format. -/
example :
    let fs : Fs.FS := ⟨[(["a.tif".toList], .file)], [], fun _ => false⟩
    parseFmtPaths (Fs.filesExist fs) "IN".toList ["gfs".toList, "/a.tif".toList] .unknown [] = .ok (true, .sfile, ["/a.tif".toList]) ∧
    parseFmtPaths (Fs.filesExist fs) "IN".toList ["b,c".toList] .unknown [] = .ok (true, .gfs, ["b".toList, "c".toList]) ∧
    parseFmtPaths (Fs.filesExist fs) "OUT".toList ["xyz".toList, "/a.tif".toList] .gfs ["q".toList] = .ok (false, .gfs, ["q".toList]) := by
  decide +kernel

end CCGL
