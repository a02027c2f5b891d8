import Verif.Props.FsNames
import Verif.Props.Str
/-!
# C56: finding files; C65: creating, testing and deleting single entries
-/
namespace CCGL.Fs
open Spec CCGL.Spec

theorem contains_iff (s t : Str) : contains s t = true ↔ Occurs t s := by
  induction s with
  | nil =>
    constructor
    · intro h
      have : t = [] := by simpa [contains] using h
      exact ⟨[], [], by simp [this]⟩
    · rintro ⟨a, b, h⟩
      have h1 : t = [] := by
        have := congrArg List.length h
        simp only [List.length_nil, List.length_append] at this
        exact List.length_eq_zero_iff.1 (by omega)
      simp [contains, h1]
  | cons x s ih =>
    rw [contains, Bool.or_eq_true, ih, List.isPrefixOf_iff_prefix]
    constructor
    · rintro (⟨b, h⟩ | ⟨a, b, h⟩)
      · exact ⟨[], b, by simpa using h.symm⟩
      · exact ⟨x :: a, b, by rw [h]; simp⟩
    · rintro ⟨a, b, h⟩
      cases a with
      | nil => left; exact ⟨b, by simpa using h.symm⟩
      | cons y a =>
        right
        rw [List.cons_append, List.cons_append] at h
        exact ⟨a, b, List.tail_eq_of_cons_eq h⟩

/-- The suffix `FindFiles` computes for a name listed in a directory: the text after the last dot; for a name without dot
it is empty unless the same name exists in the working directory and that directory's path contains a dot. -/
theorem suffix_of_name {fs : FS} (h : WF fs) (n suf : Str) (hn : GoodName n) (hs : SuffixOf n suf)
    (hcwd : '.' ∈ n ∨ (∀ c ∈ fs.cwd, '.' ∉ c) ∨ fs.kindOf (fs.cwd ++ [n]) = none) : getSuffix fs n = suf := by
  have hr : fs.resolve n = if (fs.kindOf (fs.cwd ++ [n])).isSome then some (fs.cwd ++ [n]) else none := by
    have hsp := splitSlash_word '/' n hn.2.1
    unfold FS.resolve
    cases n with
    | nil => exact absurd rfl hn.1
    | cons c n =>
      dsimp only
      rw [if_neg (by rintro rfl; exact hn.2.1 (by simp)), hsp, walk_good h [c :: n] (by simpa using hn)]
  have habs : getAbsolutePath fs n = n ∨ ((fs.kindOf (fs.cwd ++ [n])).isSome ∧
      getAbsolutePath fs n = fs.cwd.flatMap (fun c => '/' :: c) ++ '/' :: n) := by
    split at hr
    · next hex => right; exact ⟨hex, by rw [abs_some _ _ hr, render_snoc]⟩
    · left; exact abs_none _ hr
  unfold getSuffix
  rcases hs with ⟨core, rfl, hs1, hs2⟩ | ⟨rfl, hnd⟩
  · rcases habs with h1 | ⟨_, h1⟩
    · rw [h1]; exact suffix_of_dotted core suf hs1 hs2
    · rw [h1, show fs.cwd.flatMap (fun c => '/' :: c) ++ '/' :: (core ++ '.' :: suf) =
        (fs.cwd.flatMap (fun c => '/' :: c) ++ '/' :: core) ++ '.' :: suf by simp]
      exact suffix_of_dotted _ suf hs1 hs2
  · rcases habs with h1 | ⟨hex, h1⟩
    · rw [h1]; exact suffix_of_undotted n hnd
    · rw [h1]
      apply suffix_of_undotted
      rcases hcwd with h2 | h2 | h2
      · exact absurd h2 hnd
      · simp only [List.mem_append, List.mem_flatMap, List.mem_cons, not_or, not_exists, not_and]
        exact ⟨fun c hc => ⟨by decide, h2 c hc⟩, by decide, hnd⟩
      · rw [h2] at hex; simp at hex

/-- C56, what is found, exactly: an entry (file or directory) of the directory is returned iff it is not hidden and its
suffix equals the expression ignoring case, or its suffix occurs in the expression, or the expression is a wildcard. -/
theorem C56_found (fs : FS) (h : WF fs) (s expr : Str) (p : Path) (hs : fs.resolve s = some p)
    (hk : fs.kindOf p = some .dir) (hnul : Char.ofNat 0 ∉ expr) (n suf : Str) (hsuf : SuffixOf n suf)
    (hn0 : Char.ofNat 0 ∉ n) (hcwd : '.' ∈ n ∨ (∀ c ∈ fs.cwd, '.' ∉ c) ∨ fs.kindOf (fs.cwd ++ [n]) = none) :
    (render p ++ '/' :: n) ∈ findFiles fs s expr ↔
      (fs.kindOf (p ++ [n])).isSome ∧ ¬ Hidden n ∧
        (SameText suf expr ∨ Occurs suf expr ∨ SameText expr ".*".toList ∨ SameText expr "*.*".toList) := by
  unfold findFiles
  rw [abs_some s p hs]
  dsimp only
  rw [resolve_exist h p (by rw [hk]; rfl)]
  dsimp only
  rw [if_neg (by simp [hk]), List.mem_map]
  have hsn : Char.ofNat 0 ∉ suf := by
    rcases hsuf with ⟨core, rfl, _, _⟩ | ⟨rfl, _⟩
    · intro hc; exact hn0 (by simp [hc])
    · simp
  constructor
  · rintro ⟨m, hm, he⟩
    have hmn : m = n := by
      have := List.append_cancel_left he
      exact List.tail_eq_of_cons_eq this
    subst hmn
    rw [List.mem_filter, mem_names h, Bool.and_eq_true, decide_eq_true_eq] at hm
    refine ⟨hm.1, hm.2.1, ?_⟩
    have hgood := wf_good h _ hm.1 m (by simp)
    have := hm.2.2
    unfold findMatches at this
    rw [suffix_of_name h m suf hgood hsuf hcwd] at this
    simp only [Bool.or_eq_true] at this
    rw [C34_cstring _ _ hsn hnul, contains_iff, C34_cstring _ _ hnul (by decide), C34_cstring _ _ hnul (by decide),
      C34_match, C34_match, C34_match] at this
    tauto
  · rintro ⟨h1, h2, h3⟩
    refine ⟨n, ?_, rfl⟩
    rw [List.mem_filter, mem_names h, Bool.and_eq_true, decide_eq_true_eq]
    refine ⟨h1, h2, ?_⟩
    have hgood := wf_good h _ h1 n (by simp)
    unfold findMatches
    rw [suffix_of_name h n suf hgood hsuf hcwd]
    simp only [Bool.or_eq_true]
    rw [C34_cstring _ _ hsn hnul, contains_iff, C34_cstring _ _ hnul (by decide), C34_cstring _ _ hnul (by decide),
      C34_match, C34_match, C34_match]
    tauto

/-- C56, nothing else is returned, nothing twice, and nothing from a text that names no directory. -/
theorem C56_only (fs : FS) (h : WF fs) (s expr : Str) :
    (findFiles fs s expr).Nodup ∧
    ∀ x ∈ findFiles fs s expr, ∃ p n, fs.resolve s = some p ∧ fs.kindOf p = some .dir ∧
      (fs.kindOf (p ++ [n])).isSome ∧ ¬ Hidden n ∧ x = render p ++ '/' :: n := by
  unfold findFiles
  dsimp only
  rw [resolve_abs h]
  cases hs : fs.resolve s with
  | none => simp
  | some p =>
    dsimp only
    by_cases hk : fs.kindOf p = some .dir
    · rw [if_neg (by simp [hk]), abs_some s p hs]
      constructor
      · apply List.Nodup.map
        · intro a b hab
          exact List.tail_eq_of_cons_eq (List.append_cancel_left hab)
        · exact (names_nodup h p).filter _
      · intro x hx
        obtain ⟨n, hn, rfl⟩ := List.mem_map.1 hx
        rw [List.mem_filter, mem_names h, Bool.and_eq_true, decide_eq_true_eq] at hn
        exact ⟨p, n, rfl, hk, hn.1, hn.2.1, rfl⟩
    · rw [if_pos hk]; simp

/-- C56, the plain case: with an expression that is no wildcard, an entry whose non-empty suffix does not merely occur in
the expression is found iff it is not hidden and the suffix equals the expression ignoring case. -/
theorem C56_exact_partial (fs : FS) (h : WF fs) (s expr : Str) (p : Path) (hs : fs.resolve s = some p)
    (hk : fs.kindOf p = some .dir) (hnul : Char.ofNat 0 ∉ expr) (n core suf : Str) (hn : n = core ++ '.' :: suf)
    (hs1 : suf ≠ []) (hs2 : '.' ∉ suf) (hn0 : Char.ofNat 0 ∉ n) (hocc : Occurs suf expr → SameText suf expr)
    (hw : ¬ SameText expr ".*".toList ∧ ¬ SameText expr "*.*".toList) :
    (render p ++ '/' :: n) ∈ findFiles fs s expr ↔
      (fs.kindOf (p ++ [n])).isSome ∧ ¬ Hidden n ∧ SameText suf expr := by
  rw [C56_found fs h s expr p hs hk hnul n suf (Or.inl ⟨core, hn, hs1, hs2⟩) hn0 (Or.inl (by rw [hn]; simp))]
  tauto

/-- C56 is false as stated: entries without suffix, subdirectories and entries with a part of the expression as suffix
are returned too, and a suffix given with its dot is matched case-sensitively. -/
theorem C56_false :
    findFiles exTree "/w".toList "tif".toList = ["/w/sub".toList] ∧
    findFiles { exTree with entries := [(["a.tif".toList], .file), (["b.TIF".toList], .file), (["README".toList], .file)] }
      "/".toList ".tiff".toList = ["//a.tif".toList, "//README".toList] := by decide +kernel

/-! ## C65 -/

/-- C65, `FileExists`/`DirectoryExists`/`PathExists` of the text of an absolute path. -/
theorem C65_exists (fs : FS) (h : WF fs) (p : Path) (hp : ∀ c ∈ p, GoodName c) :
    (fileExists fs (render p) = true ↔ (fs.kindOf p).isSome) ∧
    (pathExists fs (render p) = true ↔ (fs.kindOf p).isSome) ∧
    (directoryExists fs (render p) = true ↔ fs.kindOf p = some .dir) := by
  have hr := resolve_render h p hp
  refine ⟨?_, ?_, ?_⟩
  · unfold fileExists
    rw [hr]
    split <;> simp_all
  · unfold pathExists
    rw [resolve_abs h, hr]
    split <;> simp_all
  · rw [directoryExists_iff h, hr]
    constructor
    · rintro ⟨q, h1, h2⟩
      split at h1
      · rw [Option.some.inj h1]; exact h2
      · simp at h1
    · intro h1
      rw [if_pos (by rw [h1]; rfl)]
      exact ⟨p, rfl, h1⟩

/-- C65, `FilesExist`: false for an empty list, otherwise whether all exist. -/
theorem C65_filesExist (fs : FS) (l : List Str) :
    filesExist fs l = true ↔ l ≠ [] ∧ ∀ s ∈ l, fileExists fs s = true := by
  unfold filesExist
  cases l with
  | nil => simp
  | cons a l => simp

/-- The state with one directory added. -/
def FS.addDir (fs : FS) (p : Path) : FS := { fs with entries := fs.entries ++ [(p, .dir)] }

theorem kindOf_addDir (fs : FS) (p q : Path) (hp : p ≠ []) (hno : fs.kindOf p = none) :
    (fs.addDir p).kindOf q = if q = p then some .dir else fs.kindOf q := by
  unfold FS.kindOf FS.addDir
  dsimp only
  by_cases hq : q = []
  · rw [if_pos hq, if_pos hq, if_neg (by rintro rfl; exact hp hq)]
  rw [if_neg hq, if_neg hq, List.find?_append]
  by_cases hqp : q = p
  · subst hqp
    unfold FS.kindOf at hno
    rw [if_neg hq, Option.map_eq_none_iff] at hno
    rw [if_pos rfl, hno]
    simp
  · rw [if_neg hqp]
    have : List.find? (fun e : Path × Kind => decide (e.1 = q)) [(p, Kind.dir)] = none := by
      simp [Ne.symm hqp]
    rw [this, Option.or_none]

theorem wf_addDir {fs : FS} (h : WF fs) (p : Path) (n : Str) (hk : fs.kindOf p = some .dir) (hn : GoodName n)
    (hno : fs.kindOf (p ++ [n]) = none) : WF (fs.addDir (p ++ [n])) := by
  have hm {e} (he : e ∈ (fs.addDir (p ++ [n])).entries) : e ∈ fs.entries ∨ e = (p ++ [n], Kind.dir) := by
    rcases List.mem_append.1 he with h1 | h1
    · exact Or.inl h1
    · exact Or.inr (List.mem_singleton.1 h1)
  refine ⟨?_, ?_, ?_, ?_⟩
  · show ((fs.entries ++ [(p ++ [n], Kind.dir)]).map (·.1)).Nodup
    rw [List.map_append, List.nodup_append]
    refine ⟨h.nodup, by simp, ?_⟩
    intro a ha b hb hab
    obtain ⟨e, he, rfl⟩ := List.mem_map.1 ha
    simp only [List.map_cons, List.map_nil, List.mem_singleton] at hb
    have := (kindOf_iff h e.1 (h.nonroot e he) e.2).2 he
    rw [hab, hb, hno] at this
    simp at this
  · intro e he
    rcases hm he with h1 | h1
    · exact h.nonroot e h1
    · rw [h1]; simp
  · intro e he
    rcases hm he with h1 | h1
    · exact h.good e h1
    · rw [h1]
      intro c hc
      rcases List.mem_append.1 hc with h2 | h2
      · exact wf_good h p (by rw [hk]; rfl) c h2
      · rw [List.mem_singleton.1 h2]; exact hn
  · intro e he
    rw [kindOf_addDir _ _ _ (by simp) hno]
    rcases hm he with h1 | h1
    · have h2 := h.parent e h1
      rw [if_neg, h2]
      intro h3
      rw [h3, hno] at h2
      simp at h2
    · rw [h1]
      simp only [List.dropLast_concat]
      rw [if_neg, hk]
      intro h3
      have := congrArg List.length h3
      simp at this

/-- C65, `MakeDirectory`: for the text of an absolute path. An existing directory: success, nothing changes. A free name in
an existing directory (creation allowed): success, exactly this directory is added. Otherwise: failure, nothing
changes. -/
theorem C65_makeDirectory (fs : FS) (h : WF fs) (p : Path) (n : Str) (hp : ∀ c ∈ p, GoodName c) (hn : GoodName n) :
    (fs.kindOf (p ++ [n]) = some .dir → makeDirectory fs (render (p ++ [n])) = (true, fs)) ∧
    (fs.kindOf (p ++ [n]) = none → fs.kindOf p = some .dir → fs.deny (p ++ [n]) = false →
      ∃ r, makeDirectory fs (render (p ++ [n])) = (true, r) ∧ WF r ∧
        ∀ q, r.kindOf q = if q = p ++ [n] then some .dir else fs.kindOf q) ∧
    ((fs.kindOf (p ++ [n]) = some .file ∨ fs.kindOf p ≠ some .dir ∨
        (fs.deny (p ++ [n]) = true ∧ fs.kindOf (p ++ [n]) ≠ some .dir)) →
      makeDirectory fs (render (p ++ [n])) = (false, fs)) := by
  have hpn : ∀ c ∈ p ++ [n], GoodName c := by
    intro c hc
    rcases List.mem_append.1 hc with h1 | h1
    · exact hp c h1
    · rw [List.mem_singleton.1 h1]; exact hn
  have habs : getAbsolutePath fs (render (p ++ [n])) = render (p ++ [n]) := by
    have hr := resolve_render h (p ++ [n]) hpn
    split at hr
    · exact abs_some _ _ hr
    · exact abs_none _ hr
  have hde := (C65_exists fs h (p ++ [n]) hpn).2.2
  have hmk : fs.mkdir (render (p ++ [n])) =
      (if fs.kindOf p ≠ some .dir ∨ (fs.kindOf (p ++ [n])).isSome ∨ fs.deny (p ++ [n]) = true then (false, fs)
        else (true, fs.addDir (p ++ [n]))) := by
    have hs := splitSlash_path p (good_noslash hp) n
    rw [splitSlash_word _ _ hn.2.1, ← render_snoc] at hs
    obtain ⟨t, ht⟩ := render_ne (p ++ [n])
    unfold FS.mkdir
    rw [ht] at hs ⊢
    dsimp only
    rw [hs]
    have hdw : (([] :: (p ++ [n])).reverse.dropWhile (fun x : Str => x.isEmpty)).reverse = [] :: (p ++ [n]) := by
      have : ([] :: (p ++ [n]) : List Str).reverse = n :: (([] :: p : List Str).reverse) := by simp
      rw [this, List.dropWhile_cons_of_neg (by simpa using hn.1)]
      simp
    rw [hdw]
    have hgl : ([] :: (p ++ [n]) : List Str).getLast? = some n := by
      rw [← List.cons_append, List.getLast?_append]; simp
    rw [hgl]
    dsimp only
    rw [if_neg (by rintro (h1 | h1); exact hn.2.2.1 h1; exact hn.2.2.2 h1)]
    have hdl : ([] :: (p ++ [n]) : List Str).dropLast = [] :: p := by
      rw [← List.cons_append, List.dropLast_concat]
    rw [hdl, if_pos rfl, walk_empty _ _ _ (kindOf_nil fs), walk_good h p hp, List.nil_append]
    by_cases hex : (fs.kindOf p).isSome
    · rw [if_pos hex]; rfl
    · rw [if_neg hex, if_pos]
      left
      intro h1
      rw [h1] at hex; simp at hex
  unfold makeDirectory
  rw [habs]
  dsimp only
  refine ⟨?_, ?_, ?_⟩
  · intro h1
    rw [if_pos (hde.2 h1)]
  · intro h1 h2 h3
    rw [if_neg (by rw [hde, h1]; simp), hmk, if_neg (by rw [h1, h2, h3]; simp)]
    exact ⟨_, rfl, wf_addDir h p n h2 hn h1, fun q => kindOf_addDir fs _ q (by simp) h1⟩
  · intro h1
    have hnd : fs.kindOf (p ++ [n]) ≠ some .dir := by
      rcases h1 with h1 | h1 | h1
      · rw [h1]; simp
      · intro h2
        exact h1 (wf_parent h p n (by rw [h2]; rfl))
      · exact h1.2
    rw [if_neg (fun h2 => hnd (hde.1 h2)), hmk, if_pos]
    rcases h1 with h1 | h1 | h1
    · right; left; rw [h1]; rfl
    · left; exact h1
    · right; right; exact h1.1

/-- C65, `MakeDirectory` twice is the same as once. -/
theorem C65_makeDirectory_twice (fs : FS) (h : WF fs) (p : Path) (n : Str) (hp : ∀ c ∈ p, GoodName c) (hn : GoodName n)
    (r : FS) (hr : makeDirectory fs (render (p ++ [n])) = (true, r)) :
    WF r ∧ makeDirectory r (render (p ++ [n])) = (true, r) := by
  obtain ⟨h1, h2, h3⟩ := C65_makeDirectory fs h p n hp hn
  by_cases hd : fs.kindOf (p ++ [n]) = some .dir
  · rw [h1 hd] at hr
    obtain rfl : fs = r := by simpa using hr
    exact ⟨h, h1 hd⟩
  · by_cases hbad : fs.kindOf (p ++ [n]) = some .file ∨ fs.kindOf p ≠ some .dir ∨
        (fs.deny (p ++ [n]) = true ∧ fs.kindOf (p ++ [n]) ≠ some .dir)
    · rw [h3 hbad] at hr; simp at hr
    · rw [not_or, not_or] at hbad
      have hnone : fs.kindOf (p ++ [n]) = none := by
        cases hx : fs.kindOf (p ++ [n]) with
        | none => rfl
        | some k => cases k with
          | file => exact absurd hx hbad.1
          | dir => exact absurd hx hd
      obtain ⟨r', h4, h5, h6⟩ := h2 hnone (by simpa using hbad.2.1) (by
        cases hx : fs.deny (p ++ [n]) with
        | false => rfl
        | true => exact absurd ⟨hx, hd⟩ hbad.2.2)
      rw [h4] at hr
      obtain rfl : r' = r := by simpa using hr
      refine ⟨h5, (C65_makeDirectory r' h5 p n hp hn).1 ?_⟩
      rw [h6, if_pos rfl]

/-- C65, `DeleteExistedFile`: result 0 iff the text names a removable entry, which then is the only one to vanish. -/
theorem C65_deleteFile (fs : FS) (h : WF fs) (s : Str) :
    (∀ p, fs.resolve s = some p → p ≠ [] → Removable fs p →
      (deleteExistedFile fs s).1 = 0 ∧ ∀ q, (deleteExistedFile fs s).2.kindOf q = if q = p then none else fs.kindOf q) ∧
    ((∀ p, fs.resolve s = some p → p = [] ∨ ¬ Removable fs p) → deleteExistedFile fs s = (-1, fs)) := by
  constructor
  · intro p hp h0 hR
    unfold deleteExistedFile
    rw [abs_some s p hp]
    have hre := resolve_exist h p hR.1
    have : fileExists fs (render p) = true := by unfold fileExists; rw [hre]; rfl
    dsimp only
    rw [if_pos this, remove_some h _ p hre h0 hR.2.2 hR.2.1]
    exact ⟨rfl, fun q => kindOf_erase fs p q h0⟩
  · intro hno
    unfold deleteExistedFile
    dsimp only
    split
    · have hr : fs.remove (getAbsolutePath fs s) = (false, fs) := by
        rcases remove_cases h (getAbsolutePath fs s) with h1 | ⟨q, h2, h3, h4, h5, _⟩
        · exact h1
        · rw [resolve_abs h] at h2
          rcases hno q h2 with h6 | h6
          · exact absurd h6 h3
          · exact absurd ⟨resolve_isSome fs s q h2, h5, h4⟩ h6
      rw [hr]; rfl
    · rfl

/-- C55, cleaning a directory that does not exist creates it (see `C65_makeDirectory`). -/
theorem C55_clean_missing (fs : FS) (h : WF fs) (p : Path) (hp : ∀ c ∈ p, GoodName c) (hk : fs.kindOf p ≠ some .dir) :
    cleanDirectory fs (render p) = makeDirectory fs (render p) := by
  have habs : getAbsolutePath fs (render p) = render p := by
    have hr := resolve_render h p hp
    split at hr
    · exact abs_some _ _ hr
    · exact abs_none _ hr
  unfold cleanDirectory
  rw [habs]
  dsimp only
  rw [if_neg]
  rw [(C65_exists fs h p hp).2.2]; exact hk

example : exTree.kindOf ["new".toList] = none ∧ exTree.kindOf [] = some .dir ∧ GoodName "new".toList := by
  unfold GoodName; decide

end CCGL.Fs
