import Verif.Props.Fs
/-!
# C52, C53: parts of file names; C56: finding files; C65: creating and testing
-/
namespace CCGL.Fs
open Spec

/-! ## Parts of a name -/

theorem flat_ends (p : Path) : p.flatMap (fun c => '/' :: c) ++ ['/'] = p.flatMap (fun c => '/' :: c) ++ '/' :: [] := rfl

theorem base_good (core suf : Str) (hc : '/' ∉ core) (hs1 : suf ≠ []) (hs2 : '.' ∉ suf) (hs3 : '/' ∉ suf) :
    GoodName (core ++ '.' :: suf) := by
  refine ⟨by simp, ?_, ?_, ?_⟩
  · simp [hc, hs3]
  · intro h
    have := congrArg List.getLast? h
    simp only [List.getLast?_append, List.getLast?_cons] at this
    cases hl : suf.getLast? with
    | none => exact hs1 (List.getLast?_eq_none_iff.1 hl)
    | some x =>
      rw [hl] at this
      simp only [Option.getD_some, Option.some_or] at this
      have h1 : x ∈ suf := List.mem_of_getLast? hl
      have h2 : x = '.' := by simpa using this
      exact hs2 (h2 ▸ h1)
  · intro h
    have := congrArg List.getLast? h
    simp only [List.getLast?_append, List.getLast?_cons] at this
    cases hl : suf.getLast? with
    | none => exact hs1 (List.getLast?_eq_none_iff.1 hl)
    | some x =>
      rw [hl] at this
      simp only [Option.getD_some, Option.some_or] at this
      have h1 : x ∈ suf := List.mem_of_getLast? hl
      have h2 : x = '.' := by simpa using this
      exact hs2 (h2 ▸ h1)

/-- The absolute form of a well-formed absolute name is the name itself, whether the file exists or not. -/
theorem abs_full {fs : FS} (h : WF fs) (p : Path) (d n : Str) (hd : DirText p d) (hn : GoodName n) :
    getAbsolutePath fs (d ++ n) = d ++ n := by
  have e : d ++ n = p.flatMap (fun c => '/' :: c) ++ '/' :: n := by rw [hd.2]; simp
  have hr := resolve_child h p n hd.1 hn
  rw [← e] at hr
  by_cases hex : (fs.kindOf (p ++ [n])).isSome
  · rw [if_pos hex] at hr
    rw [abs_some _ _ hr, render_snoc, e]
  · rw [if_neg hex] at hr
    rw [abs_none _ hr]

theorem resolve_full {fs : FS} (h : WF fs) (p : Path) (d n : Str) (hd : DirText p d) (hn : GoodName n) :
    fs.resolve (d ++ n) = if (fs.kindOf (p ++ [n])).isSome then some (p ++ [n]) else none := by
  have e : d ++ n = p.flatMap (fun c => '/' :: c) ++ '/' :: n := by rw [hd.2]; simp
  rw [e, resolve_child h p n hd.1 hn]

theorem dirText_ends {p : Path} {d : Str} (hd : DirText p d) : ∃ a, d = a ++ '/' :: [] := ⟨_, hd.2⟩

/-- `SplitString` by '.' of a text with a non-empty last piece. -/
theorem split_dot_last (a suf : Str) (hs1 : suf ≠ []) (hs2 : '.' ∉ suf) :
    ∃ ts, ts ≠ [] ∧ splitDelim '.' (a ++ '.' :: suf) = ts ++ [suf] := by
  have key : ∀ a : Str, ∃ ts, ts ≠ [] ∧ (∀ t ∈ ts, '.' ∉ t) ∧ Spec.join '.' (ts ++ [suf]) = a ++ '.' :: suf := by
    intro a
    induction a with
    | nil => exact ⟨[[]], by simp, by simp, by simp [Spec.join]⟩
    | cons x a ih =>
      obtain ⟨ts, h1, h2, h3⟩ := ih
      by_cases hx : x = '.'
      · refine ⟨[] :: ts, by simp, ?_, ?_⟩
        · intro t ht
          rcases List.mem_cons.1 ht with rfl | ht
          · simp
          · exact h2 t ht
        · cases ts with
          | nil => exact absurd rfl h1
          | cons t ts =>
            rw [hx]
            show _ = '.' :: (a ++ '.' :: suf)
            rw [← h3]; rfl
      · cases ts with
        | nil => exact absurd rfl h1
        | cons t ts =>
          refine ⟨(x :: t) :: ts, by simp, ?_, ?_⟩
          · intro u hu
            rcases List.mem_cons.1 hu with rfl | hu
            · simp [Ne.symm hx, h2 t (by simp)]
            · exact h2 u (by simp [hu])
          · show _ = x :: (a ++ '.' :: suf)
            rw [← h3]
            cases ts <;> rfl
  obtain ⟨ts, h1, h2, h3⟩ := key a
  refine ⟨ts, h1, ?_⟩
  rw [← h3]
  apply splitDelim_join
  · intro f hf
    rcases List.mem_append.1 hf with hf | hf
    · exact h2 f hf
    · rw [List.mem_singleton.1 hf]; exact hs2
  · simp [hs1]

theorem suffix_of_dotted (a suf : Str) (hs1 : suf ≠ []) (hs2 : '.' ∉ suf) :
    (let tokens := splitDelim '.' (a ++ '.' :: suf)
     if tokens.length ≥ 2 then tokens.getLast?.getD [] else []) = suf := by
  obtain ⟨ts, h1, h2⟩ := split_dot_last a suf hs1 hs2
  dsimp only
  rw [h2, if_pos]
  · simp
  · cases ts with
    | nil => exact absurd rfl h1
    | cons t ts => simp

theorem suffix_of_undotted (a : Str) (h : '.' ∉ a) :
    (let tokens := splitDelim '.' a
     if tokens.length ≥ 2 then tokens.getLast?.getD [] else []) = [] := by
  dsimp only
  by_cases h0 : a = []
  · rw [h0, splitDelim_nil]; rfl
  · rw [splitDelim_cons_none '.' a h0 a (getlineOne_none '.' a h)]; rfl

theorem getSuffix_full {fs : FS} (h : WF fs) (p : Path) (d core suf : Str) (hd : DirText p d) (hc : '/' ∉ core)
    (hs1 : suf ≠ []) (hs2 : '.' ∉ suf) (hs3 : '/' ∉ suf) : getSuffix fs (d ++ core ++ '.' :: suf) = suf := by
  unfold getSuffix
  have := abs_full h p d _ hd (base_good core suf hc hs1 hs2 hs3)
  rw [← List.append_assoc] at this
  rw [this]
  exact suffix_of_dotted (d ++ core) suf hs1 hs2

theorem getCore_full {fs : FS} (h : WF fs) (p : Path) (d core suf : Str) (hd : DirText p d) (hc : '/' ∉ core)
    (hs1 : suf ≠ []) (hs2 : '.' ∉ suf) (hs3 : '/' ∉ suf) : getCoreFileName fs (d ++ core ++ '.' :: suf) = core := by
  unfold getCoreFileName
  have := abs_full h p d _ hd (base_good core suf hc hs1 hs2 hs3)
  rw [← List.append_assoc] at this
  rw [this]
  obtain ⟨a, ha⟩ := dirText_ends hd
  have f1 : findLastOf '/' (d ++ core ++ '.' :: suf) = some a.length := by
    rw [ha, show a ++ ['/'] ++ core ++ '.' :: suf = a ++ '/' :: (core ++ '.' :: suf) by simp]
    exact findLastOf_append '/' a _ (by simp [hc, hs3])
  have f2 : findLastOf '.' (d ++ core ++ '.' :: suf) = some (d ++ core).length := findLastOf_append '.' _ _ hs2
  dsimp only
  rw [f1, f2]
  have hl : d.length = a.length + 1 := by rw [ha]; simp
  dsimp only
  have hge : (d ++ core).length ≥ a.length + 1 := by rw [List.length_append, hl]; exact Nat.le_add_right _ _
  rw [if_pos hge]
  unfold substr
  rw [← hl, List.append_assoc, List.drop_append_of_le_length (by omega), List.drop_length, List.nil_append,
    List.length_append, Nat.add_sub_cancel_left, List.take_left]

theorem getPath_of_abs {fs : FS} (h : WF fs) (s a b : Str) (hs : getAbsolutePath fs s = a ++ '/' :: b) (hb : '/' ∉ b)
    (hnd : ∀ q, fs.resolve s = some q → fs.kindOf q ≠ some .dir) : getPathFromFullName fs s = a ++ ['/'] := by
  unfold getPathFromFullName
  dsimp only
  have : ¬ (directoryExists fs (getAbsolutePath fs s) = true) := by
    rw [directoryExists_iff h, resolve_abs h]
    rintro ⟨q, h1, h2⟩
    exact hnd q h1 h2
  rw [if_neg this, hs, findLastOf_append '/' a b hb]
  simp [substr, List.take_append]

theorem getPath_full {fs : FS} (h : WF fs) (p : Path) (d n : Str) (hd : DirText p d) (hn : GoodName n)
    (hnd : fs.kindOf (p ++ [n]) ≠ some .dir) : getPathFromFullName fs (d ++ n) = d := by
  obtain ⟨a, ha⟩ := dirText_ends hd
  rw [getPath_of_abs h (d ++ n) a n (by rw [abs_full h p d n hd hn, ha]; simp) hn.2.1, ha]
  intro q hq
  rw [resolve_full h p d n hd hn] at hq
  split at hq
  · rw [← Option.some.inj hq]; exact hnd
  · simp at hq

theorem concat_full {fs : FS} (h : WF fs) (p : Path) (d core suf : Str) (hd : DirText p d) :
    concatFullName fs d core suf = d ++ core ++ (if suf = [] then [] else '.' :: suf) := by
  have habs : getAbsolutePath fs d = d ∨ (getAbsolutePath fs d ++ ['/'] = d ∧ '/' ∉ [] ∧ p ≠ []) := by
    cases hr : fs.resolve d with
    | none => left; exact abs_none d hr
    | some q =>
      have hs := splitSlash_path p (good_noslash hd.1) []
      rw [show splitSlash '/' [] = [[]] from rfl] at hs
      have hw : fs.resolve d = fs.walk [] (p ++ [[]]) := by
        have : ∃ s, d = '/' :: s := by
          rw [hd.2]
          cases p with
          | nil => exact ⟨_, rfl⟩
          | cons c p => exact ⟨_, rfl⟩
        obtain ⟨s, hs'⟩ := this
        have e : p.flatMap (fun c => '/' :: c) ++ '/' :: [] = '/' :: s := by rw [← hs', hd.2]
        rw [hs'] at *
        rw [e] at hs
        rw [FS.resolve]
        simp only [if_true]
        rw [hs, walk_empty _ _ _ (kindOf_nil fs)]
      have walk_app : ∀ (cs : Path) (cur : Path), (∀ c ∈ cs, GoodName c) → ∀ r, fs.walk cur (cs ++ [[]]) = some r →
          r = cur ++ cs := by
        intro cs
        induction cs with
        | nil =>
          intro cur _ r hr
          rw [List.nil_append, FS.walk] at hr
          split at hr
          · simp at hr
          · rw [if_pos (Or.inl rfl), FS.walk] at hr
            split at hr
            · rw [← Option.some.inj hr]; simp
            · simp at hr
        | cons c cs ih =>
          intro cur hg r hr
          have hgc := hg c (by simp)
          rw [List.cons_append, FS.walk] at hr
          split at hr
          · simp at hr
          · rw [if_neg (by rintro (h1 | h1); exact hgc.1 h1; exact hgc.2.2.1 h1), if_neg hgc.2.2.2] at hr
            have := ih (cur ++ [c]) (fun x hx => hg x (by simp [hx])) r hr
            simpa using this
      rw [hw] at hr
      have hq := walk_app p [] hd.1 q hr
      rw [List.nil_append] at hq
      subst hq
      have hr2 : fs.resolve d = some q := by rw [hw, hr]
      rw [abs_some d q hr2]
      cases q with
      | nil => left; rw [hd.2]; rfl
      | cons c q =>
        right
        exact ⟨by rw [hd.2]; rfl, by simp, by simp⟩
  have hfin : ∀ P : Str, P = d → (if suf ≠ [] then P ++ core ++ '.' :: suf else P ++ core) =
      d ++ core ++ (if suf = [] then [] else '.' :: suf) := by
    intro P hP
    rw [hP]
    by_cases hsuf : suf = []
    · simp [hsuf]
    · simp [hsuf]
  unfold concatFullName
  dsimp only
  apply hfin
  obtain ⟨a, ha⟩ := dirText_ends hd
  rcases habs with h1 | ⟨h1, _, hp⟩
  · rw [h1, ha, findLastOf_append '/' a [] (by simp)]
    simp
  · have h2 : getAbsolutePath fs d = a := by
      have := h1.trans ha
      exact List.append_cancel_right this
    have hfl : ∃ b n, a = b ++ '/' :: n ∧ '/' ∉ n ∧ n ≠ [] := by
      have h3 : a = p.flatMap (fun c => '/' :: c) := by
        have := ha.symm.trans hd.2
        exact List.append_cancel_right this
      rw [h3]
      obtain ⟨p', c, rfl⟩ : ∃ p' c, p = p' ++ [c] := ⟨p.dropLast, p.getLast hp, (List.dropLast_append_getLast hp).symm⟩
      refine ⟨p'.flatMap (fun c => '/' :: c), c, by simp, (hd.1 c (by simp)).2.1, (hd.1 c (by simp)).1⟩
    obtain ⟨b, n, hb, hn, hn0⟩ := hfl
    rw [h2, hb, findLastOf_append '/' b n hn]
    dsimp only
    rw [if_pos, ← hb, ha]
    rw [List.length_append, List.length_cons]
    have : 0 < n.length := List.length_pos_iff.2 hn0
    omega

/-- C52: for every directory (existing or not), core name and suffix, and every state of the file system in which the full
name is not an existing directory, the three parts are returned and concatenation gives the name back. -/
theorem C52_parts (fs : FS) (h : WF fs) (p : Path) (d core suf : Str) (hd : DirText p d) (hc : '/' ∉ core)
    (hs1 : suf ≠ []) (hs2 : '.' ∉ suf) (hs3 : '/' ∉ suf)
    (hnd : fs.kindOf (p ++ [core ++ '.' :: suf]) ≠ some .dir) :
    getPathFromFullName fs (d ++ core ++ '.' :: suf) = d ∧
    getCoreFileName fs (d ++ core ++ '.' :: suf) = core ∧
    getSuffix fs (d ++ core ++ '.' :: suf) = suf ∧
    concatFullName fs d core suf = d ++ core ++ '.' :: suf := by
  refine ⟨?_, getCore_full h p d core suf hd hc hs1 hs2 hs3, getSuffix_full h p d core suf hd hc hs1 hs2 hs3, ?_⟩
  · rw [List.append_assoc]
    exact getPath_full h p d _ hd (base_good core suf hc hs1 hs2 hs3) hnd
  · rw [concat_full h p d core suf hd, if_neg hs1]

/-- C52, names without suffix: path and core name are right, also if a directory name contains a dot; the suffix is empty
if no directory name contains one. -/
theorem C52_parts_nosuffix_partial (fs : FS) (h : WF fs) (p : Path) (d core : Str) (hd : DirText p d) (hc0 : core ≠ [])
    (hc : '/' ∉ core) (hc2 : '.' ∉ core) (hnd : fs.kindOf (p ++ [core]) ≠ some .dir) :
    getPathFromFullName fs (d ++ core) = d ∧
    getCoreFileName fs (d ++ core) = core ∧
    ((∀ c ∈ p, '.' ∉ c) → getSuffix fs (d ++ core) = []) ∧
    concatFullName fs d core [] = d ++ core := by
  have hg : GoodName core := ⟨hc0, hc, by rintro rfl; simp at hc2, by rintro rfl; simp at hc2⟩
  refine ⟨getPath_full h p d core hd hg hnd, ?_, ?_, by rw [concat_full h p d core [] hd]; simp⟩
  · unfold getCoreFileName
    rw [abs_full h p d core hd hg]
    obtain ⟨a, ha⟩ := dirText_ends hd
    have f1 : findLastOf '/' (d ++ core) = some a.length := by
      rw [ha, show a ++ ['/'] ++ core = a ++ '/' :: core by simp]
      exact findLastOf_append '/' a _ hc
    have hl : d.length = a.length + 1 := by rw [ha]; simp
    dsimp only
    rw [f1]
    dsimp only
    unfold substr
    have hdrop : List.drop (a.length + 1) (d ++ core) = core := by
      rw [← hl, List.drop_append_of_le_length (Nat.le_refl _), List.drop_length, List.nil_append]
    rw [hdrop]
    apply List.take_of_length_le
    by_cases hdot : '.' ∈ d
    · obtain ⟨i, hi, hi2⟩ : ∃ i, findLastOf '.' (d ++ core) = some i ∧ i < d.length := by
        obtain ⟨x, y, hxy, hy⟩ : ∃ x y, d = x ++ '.' :: y ∧ '.' ∉ y := by
          have aux : ∀ l : Str, '.' ∈ l → ∃ x y, l = x ++ '.' :: y ∧ '.' ∉ y := by
            intro l
            induction l using List.reverseRecOn with
            | nil => intro hl; simp at hl
            | append_singleton l c ih =>
              intro hl
              by_cases hcd : c = '.'
              · exact ⟨l, [], by rw [hcd], by simp⟩
              · have hl' : '.' ∈ l := by
                  rcases List.mem_append.1 hl with h1 | h1
                  · exact h1
                  · exact absurd (List.mem_singleton.1 h1).symm hcd
                obtain ⟨x, y, h1, h2⟩ := ih hl'
                exact ⟨x, y ++ [c], by rw [h1]; simp, by simp [h2, Ne.symm hcd]⟩
          exact aux d hdot
        refine ⟨x.length, ?_, by rw [hxy]; simp⟩
        rw [hxy, show x ++ '.' :: y ++ core = x ++ '.' :: (y ++ core) by simp]
        exact findLastOf_append '.' x _ (by simp [hy, hc2])
      rw [hi]
      dsimp only
      rw [if_neg (Nat.not_le.2 (Nat.lt_of_lt_of_eq hi2 hl))]
      simp
    · rw [findLastOf_none '.' (d ++ core) (by simp [hdot, hc2])]
      dsimp only
      rw [if_pos (by
        rw [List.length_append]; exact Nat.le_trans (Nat.le_of_eq hl.symm) (Nat.le_add_right _ _)), List.length_append]
      exact Nat.le_sub_of_add_le (by rw [Nat.add_comm]; exact Nat.add_le_add_right (Nat.le_of_eq hl.symm) _)
  · intro hp
    unfold getSuffix
    rw [abs_full h p d core hd hg]
    apply suffix_of_undotted
    rw [List.mem_append, not_or]
    refine ⟨?_, hc2⟩
    rw [hd.2]
    simp only [List.mem_append, List.mem_flatMap, List.mem_cons, not_or, not_exists, not_and]
    exact ⟨fun c hc => ⟨by decide, hp c hc⟩, by decide, by simp⟩

/-- C52, the defect: the suffix of a name without suffix in a directory with a dot in its name is not empty. -/
theorem C52_false_dotted_dir (fs : FS) (h : WF fs) :
    getSuffix fs "/a.b/c".toList = "b/c".toList := by
  unfold getSuffix
  have hd : DirText [['a', '.', 'b']] "/a.b/".toList := by
    refine ⟨?_, by decide⟩
    unfold GoodName
    decide
  have := abs_full h _ _ ['c'] hd (by unfold GoodName; decide)
  rw [show "/a.b/".toList ++ ['c'] = "/a.b/c".toList by decide] at this
  rw [this]
  have := suffix_of_dotted "/a".toList "b/c".toList (by decide) (by decide)
  exact this

/-- C52, relative names: a name that does not resolve is taken apart as text. -/
theorem C52_relative (fs : FS) (h : WF fs) (core suf : Str) (hc : '/' ∉ core) (hs1 : suf ≠ []) (hs2 : '.' ∉ suf)
    (hs3 : '/' ∉ suf) (hno : fs.resolve (core ++ '.' :: suf) = none) :
    getPathFromFullName fs (core ++ '.' :: suf) = [] ∧ getCoreFileName fs (core ++ '.' :: suf) = core ∧
    getSuffix fs (core ++ '.' :: suf) = suf ∧ concatFullName fs [] core suf = core ++ '.' :: suf := by
  have hns : '/' ∉ core ++ '.' :: suf := by simp [hc, hs3]
  refine ⟨?_, ?_, ?_, ?_⟩
  · unfold getPathFromFullName
    rw [abs_none _ hno]
    dsimp only
    rw [if_neg, findLastOf_none _ _ hns]
    rw [directoryExists_iff h, hno]; simp
  · unfold getCoreFileName
    rw [abs_none _ hno]
    dsimp only
    rw [findLastOf_none _ _ hns, findLastOf_append '.' core suf hs2]
    simp [substr]
  · unfold getSuffix
    rw [abs_none _ hno]
    exact suffix_of_dotted core suf hs1 hs2
  · unfold concatFullName
    have : getAbsolutePath fs [] = [] := abs_none _ rfl
    rw [this]
    simp [findLastOf, hs1]

/-! ## C53 -/

/-- C53: the renaming helpers change exactly their part of the name. -/
theorem C53_rename (fs : FS) (h : WF fs) (p : Path) (d core suf : Str) (hd : DirText p d) (hc : '/' ∉ core)
    (hs1 : suf ≠ []) (hs2 : '.' ∉ suf) (hs3 : '/' ∉ suf)
    (hnd : fs.kindOf (p ++ [core ++ '.' :: suf]) ≠ some .dir) (new : Str) (deli : Char) :
    replaceSuffix fs (d ++ core ++ '.' :: suf) new = d ++ core ++ '.' :: new ∧
    appendCoreFileName fs (d ++ core ++ '.' :: suf) new deli = d ++ (core ++ deli :: new) ++ '.' :: suf ∧
    prefixCoreFileName fs (d ++ core ++ '.' :: suf) new deli = d ++ (new ++ deli :: core) ++ '.' :: suf := by
  obtain ⟨h1, h2, h3, _⟩ := C52_parts fs h p d core suf hd hc hs1 hs2 hs3 hnd
  refine ⟨?_, ?_, ?_⟩
  · unfold replaceSuffix
    rw [h1, h2, h3]
    dsimp only
    rw [if_neg]
    rintro (h4 | h4)
    · rw [hd.2] at h4; simp at h4
    · exact hs1 h4
  · unfold appendCoreFileName
    rw [h1, h2, h3, concat_full h p d _ suf hd, if_neg hs1]
  · unfold prefixCoreFileName
    rw [h1, h2, h3, concat_full h p d _ suf hd, if_neg hs1]

/-- C53, integers: the inserted text is the decimal form of the number. -/
theorem C53_rename_int (fs : FS) (h : WF fs) (p : Path) (d core suf : Str) (hd : DirText p d) (hc : '/' ∉ core)
    (hs1 : suf ≠ []) (hs2 : '.' ∉ suf) (hs3 : '/' ∉ suf)
    (hnd : fs.kindOf (p ++ [core ++ '.' :: suf]) ≠ some .dir) (n : Int) (deli : Char) :
    appendCoreFileNameInt fs (d ++ core ++ '.' :: suf) n deli = d ++ (core ++ deli :: intToDec n) ++ '.' :: suf ∧
    prefixCoreFileNameInt fs (d ++ core ++ '.' :: suf) n deli = d ++ (intToDec n ++ deli :: core) ++ '.' :: suf :=
  ⟨(C53_rename fs h p d core suf hd hc hs1 hs2 hs3 hnd _ deli).2.1,
    (C53_rename fs h p d core suf hd hc hs1 hs2 hs3 hnd _ deli).2.2⟩

/-- C53, different inserted texts give different names (so results of different subsets or layers never collide). -/
theorem C53_injective (fs : FS) (h : WF fs) (p : Path) (d core suf : Str) (hd : DirText p d) (hc : '/' ∉ core)
    (hs1 : suf ≠ []) (hs2 : '.' ∉ suf) (hs3 : '/' ∉ suf)
    (hnd : fs.kindOf (p ++ [core ++ '.' :: suf]) ≠ some .dir) (n m : Str) (deli : Char)
    (he : appendCoreFileName fs (d ++ core ++ '.' :: suf) n deli = appendCoreFileName fs (d ++ core ++ '.' :: suf) m deli) :
    n = m := by
  rw [(C53_rename fs h p d core suf hd hc hs1 hs2 hs3 hnd n deli).2.1,
    (C53_rename fs h p d core suf hd hc hs1 hs2 hs3 hnd m deli).2.1] at he
  have h1 := List.append_cancel_right he
  have h2 := List.append_cancel_left h1
  have h3 := List.append_cancel_left h2
  exact List.tail_eq_of_cons_eq h3

/-- C53, without a suffix (or a directory) `ReplaceSuffix` gives the empty text. -/
theorem C53_replace_nosuffix (fs : FS) (s new : Str)
    (hs : getSuffix fs s = [] ∨ getPathFromFullName fs s = []) : replaceSuffix fs s new = [] := by
  unfold replaceSuffix
  dsimp only
  rw [if_pos hs.symm]

example : DirText ["data".toList, "v1.2".toList] "/data/v1.2/".toList := by
  refine ⟨?_, by decide⟩
  unfold GoodName
  decide
example : replaceSuffix exTree "/w/a.txt".toList "tif".toList = "/w/a.tif".toList ∧
    appendCoreFileName exTree "/w/dem.asc".toList "1".toList '_' = "/w/dem_1.asc".toList ∧
    getCoreFileName exTree "/a.b/c".toList = "c".toList := by decide +kernel

end CCGL.Fs
