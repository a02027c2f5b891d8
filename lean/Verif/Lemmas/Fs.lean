import Verif.Spec.Fs
import Verif.Lemmas.Str
import Verif.Props.KeyValues
import Mathlib.Data.List.Basic
/-!
Lemmas about the file-system model.
-/
namespace CCGL.Fs
open Spec

/-! ### Texts -/

theorem findLastOf_none (c : Char) (s : Str) (h : c ∉ s) : findLastOf c s = none := by
  induction s with
  | nil => rfl
  | cons x s ih =>
    rw [List.mem_cons, not_or] at h
    rw [findLastOf, ih h.2]
    simp [Ne.symm h.1]

theorem findLastOf_append (c : Char) (a b : Str) (h : c ∉ b) : findLastOf c (a ++ c :: b) = some a.length := by
  induction a with
  | nil => simp [findLastOf, findLastOf_none c b h]
  | cons x a ih => simp [findLastOf, ih]

theorem splitSlash_ne_nil (c : Char) (s : Str) : splitSlash c s ≠ [] := by
  cases s with
  | nil => simp [splitSlash]
  | cons x s =>
    rw [splitSlash]
    split
    · simp
    · split <;> simp

theorem splitSlash_word (c : Char) (w : Str) (h : c ∉ w) : splitSlash c w = [w] := by
  induction w with
  | nil => rfl
  | cons x w ih =>
    rw [List.mem_cons, not_or] at h
    rw [splitSlash, if_neg (Ne.symm h.1), ih h.2]

theorem splitSlash_append (c : Char) (w s : Str) (h : c ∉ w) : splitSlash c (w ++ c :: s) = w :: splitSlash c s := by
  induction w with
  | nil => simp [splitSlash]
  | cons x w ih =>
    rw [List.mem_cons, not_or] at h
    rw [List.cons_append, splitSlash, if_neg (Ne.symm h.1), ih h.2]

/-- The text of a path followed by something starting with a slash. -/
theorem splitSlash_path (p : Path) (hp : ∀ c ∈ p, '/' ∉ c) (s : Str) :
    splitSlash '/' (p.flatMap (fun c => '/' :: c) ++ '/' :: s) = [] :: (p ++ splitSlash '/' s) := by
  induction p with
  | nil => simp [splitSlash]
  | cons c p ih =>
    have h1 := ih (fun x hx => hp x (List.mem_cons_of_mem _ hx))
    rw [List.flatMap_cons, List.append_assoc, List.cons_append, splitSlash, if_pos rfl]
    congr 1
    cases p with
    | nil =>
      simp only [List.flatMap_nil, List.nil_append]
      rw [splitSlash_append _ _ _ (hp c (by simp))]
      rfl
    | cons c' p' =>
      rw [List.flatMap_cons, List.append_assoc, List.cons_append] at h1 ⊢
      rw [splitSlash, if_pos rfl] at h1
      rw [splitSlash_append _ _ _ (hp c (by simp))]
      have h2 := List.tail_eq_of_cons_eq h1
      rw [h2]; rfl

theorem render_ne (p : Path) : ∃ s, render p = '/' :: s := by
  cases p with
  | nil => exact ⟨[], rfl⟩
  | cons c p => exact ⟨_, rfl⟩

theorem render_snoc (p : Path) (n : Str) : render (p ++ [n]) = p.flatMap (fun c => '/' :: c) ++ '/' :: n := by
  cases p with
  | nil => simp [render]
  | cons c p => simp [render]

/-! ### The tree -/

theorem kindOf_nil (fs : FS) : fs.kindOf [] = some .dir := by simp [FS.kindOf]

theorem find_entry {es : List (Path × Kind)} (hn : (es.map (·.1)).Nodup) (p : Path) (k : Kind) (hm : (p, k) ∈ es) :
    es.find? (fun e => decide (e.1 = p)) = some (p, k) := by
  induction es with
  | nil => simp at hm
  | cons e es ih =>
    rw [List.map_cons, List.nodup_cons] at hn
    rcases List.mem_cons.1 hm with rfl | hm
    · simp
    · have : e.1 ≠ p := by
        rintro rfl
        exact hn.1 (List.mem_map.2 ⟨_, hm, rfl⟩)
      rw [List.find?_cons_of_neg (by simpa using this)]
      exact ih hn.2 hm

theorem kindOf_iff {fs : FS} (h : WF fs) (p : Path) (hp : p ≠ []) (k : Kind) :
    fs.kindOf p = some k ↔ (p, k) ∈ fs.entries := by
  unfold FS.kindOf
  rw [if_neg hp]
  constructor
  · intro h1
    obtain ⟨e, he, rfl⟩ := Option.map_eq_some_iff.1 h1
    have h2 := List.find?_some he
    have h3 := List.mem_of_find?_eq_some he
    simp only [decide_eq_true_eq] at h2
    rw [← h2]; exact h3
  · intro h1
    rw [find_entry h.nodup p k h1]; rfl

theorem kindOf_isSome {fs : FS} (h : WF fs) (p : Path) (hp : p ≠ []) :
    (fs.kindOf p).isSome ↔ ∃ k, (p, k) ∈ fs.entries := by
  rw [Option.isSome_iff_exists]
  exact exists_congr fun k => kindOf_iff h p hp k

theorem wf_good {fs : FS} (h : WF fs) (p : Path) (hs : (fs.kindOf p).isSome) : ∀ c ∈ p, GoodName c := by
  by_cases hp : p = []
  · simp [hp]
  · obtain ⟨k, hk⟩ := (kindOf_isSome h p hp).1 hs
    exact h.good _ hk

theorem wf_parent {fs : FS} (h : WF fs) (p : Path) (c : Str) (hs : (fs.kindOf (p ++ [c])).isSome) :
    fs.kindOf p = some .dir := by
  obtain ⟨k, hk⟩ := (kindOf_isSome h (p ++ [c]) (by simp)).1 hs
  have := h.parent _ hk
  simpa using this

theorem wf_prefix {fs : FS} (h : WF fs) (b a : Path) (hb : b ≠ []) (hs : (fs.kindOf (a ++ b)).isSome) :
    fs.kindOf a = some .dir := by
  induction b using List.reverseRecOn with
  | nil => exact absurd rfl hb
  | append_singleton b c ih =>
    rw [← List.append_assoc] at hs
    have h1 := wf_parent h _ _ hs
    by_cases hb : b = []
    · simpa [hb] using h1
    · exact ih hb (by rw [h1]; rfl)

theorem mem_names {fs : FS} (h : WF fs) (p : Path) (n : Str) :
    n ∈ fs.names p ↔ (fs.kindOf (p ++ [n])).isSome := by
  rw [kindOf_isSome h _ (by simp)]
  unfold FS.names
  rw [List.mem_filterMap]
  constructor
  · rintro ⟨e, he, h1⟩
    split at h1
    · next h2 =>
      refine ⟨e.2, ?_⟩
      have h3 : e.1 = p ++ [n] := by
        rw [← h2]
        exact (List.dropLast_append_getLast? n h1).symm
      rw [← h3]; exact he
    · simp at h1
  · rintro ⟨k, hk⟩
    exact ⟨_, hk, by simp⟩

theorem names_nil {fs : FS} (h : WF fs) (p : Path) : fs.names p = [] ↔ ∀ n, fs.kindOf (p ++ [n]) = none := by
  rw [List.eq_nil_iff_forall_not_mem]
  refine forall_congr' fun n => ?_
  rw [mem_names h]
  cases fs.kindOf (p ++ [n]) <;> simp

/-! ### Path resolution -/

theorem walk_good {fs : FS} (h : WF fs) (cs : Path) (hc : ∀ c ∈ cs, GoodName c) (cur : Path) :
    fs.walk cur cs = if (fs.kindOf (cur ++ cs)).isSome then some (cur ++ cs) else none := by
  induction cs generalizing cur with
  | nil => simp [FS.walk]
  | cons c cs ih =>
    have hg := hc c (by simp)
    have ih' := ih (fun x hx => hc x (List.mem_cons_of_mem _ hx)) (cur ++ [c])
    rw [List.append_assoc, List.singleton_append] at ih'
    rw [FS.walk]
    by_cases hk : fs.kindOf cur = some .dir
    · rw [if_neg (by simp [hk]), if_neg (by rintro (h1 | h1); exact hg.1 h1; exact hg.2.2.1 h1), if_neg hg.2.2.2, ih']
    · rw [if_pos hk, if_neg]
      intro h1
      exact hk (wf_prefix h _ _ (by simp) h1)

theorem walk_empty (fs : FS) (cur : Path) (cs : List Str) (hk : fs.kindOf cur = some .dir) :
    fs.walk cur ([] :: cs) = fs.walk cur cs := by
  rw [FS.walk, if_neg (by simp [hk]), if_pos (Or.inl rfl)]

theorem good_noslash {p : Path} (hp : ∀ c ∈ p, GoodName c) : ∀ c ∈ p, '/' ∉ c := fun c hc => (hp c hc).2.1

theorem resolve_child {fs : FS} (h : WF fs) (p : Path) (n : Str) (hp : ∀ c ∈ p, GoodName c) (hn : GoodName n) :
    fs.resolve (p.flatMap (fun c => '/' :: c) ++ '/' :: n) =
      if (fs.kindOf (p ++ [n])).isSome then some (p ++ [n]) else none := by
  have hs := splitSlash_path p (good_noslash hp) n
  rw [splitSlash_word _ _ hn.2.1] at hs
  have : ∃ s, p.flatMap (fun c => '/' :: c) ++ '/' :: n = '/' :: s := by
    cases p with
    | nil => exact ⟨_, rfl⟩
    | cons c p => exact ⟨_, rfl⟩
  obtain ⟨s, hs'⟩ := this
  rw [hs'] at hs ⊢
  rw [FS.resolve]
  simp only [if_true]
  rw [hs, walk_empty _ _ _ (kindOf_nil fs), walk_good h (p ++ [n]), List.nil_append]
  intro c hc
  rcases List.mem_append.1 hc with h1 | h1
  · exact hp c h1
  · rw [List.mem_singleton.1 h1]; exact hn

theorem resolve_render {fs : FS} (h : WF fs) (p : Path) (hp : ∀ c ∈ p, GoodName c) :
    fs.resolve (render p) = if (fs.kindOf p).isSome then some p else none := by
  induction p using List.reverseRecOn with
  | nil => simp [render, FS.resolve, splitSlash, FS.walk, kindOf_nil]
  | append_singleton p n _ =>
    rw [render_snoc, resolve_child h p n (fun c hc => hp c (by simp [hc])) (hp n (by simp))]

theorem resolve_exist {fs : FS} (h : WF fs) (p : Path) (hs : (fs.kindOf p).isSome) : fs.resolve (render p) = some p := by
  rw [resolve_render h p (wf_good h p hs), if_pos hs]

theorem resolve_sub {fs : FS} (h : WF fs) (p : Path) (n : Str) (hp : ∀ c ∈ p, GoodName c) (hn : GoodName n) :
    fs.resolve (render p ++ '/' :: n) = if (fs.kindOf (p ++ [n])).isSome then some (p ++ [n]) else none := by
  cases p with
  | nil =>
    have e : render [] ++ '/' :: n = '/' :: '/' :: n := rfl
    rw [e, FS.resolve]
    simp only [if_true]
    rw [splitSlash, if_pos rfl, splitSlash, if_pos rfl, splitSlash_word _ _ hn.2.1, walk_empty _ _ _ (kindOf_nil fs),
      walk_empty _ _ _ (kindOf_nil fs), walk_good h [n] (by simpa using hn)]
  | cons c p => exact resolve_child h (c :: p) n hp hn

/-- Every resolved path exists. -/
theorem walk_isSome (fs : FS) : ∀ (cs : List Str) (cur p : Path), fs.walk cur cs = some p → (fs.kindOf p).isSome
  | [], cur, p, h => by
    rw [FS.walk] at h
    split at h
    · next h1 => rw [← Option.some.inj h]; exact h1
    · simp at h
  | c :: cs, cur, p, h => by
    rw [FS.walk] at h
    split at h
    · simp at h
    · split at h
      · exact walk_isSome fs cs _ _ h
      · split at h
        · exact walk_isSome fs cs _ _ h
        · exact walk_isSome fs cs _ _ h

theorem resolve_isSome (fs : FS) (s : Str) (p : Path) (h : fs.resolve s = some p) : (fs.kindOf p).isSome := by
  unfold FS.resolve at h
  split at h
  · simp at h
  · split at h
    · exact walk_isSome fs _ _ _ h
    · exact walk_isSome fs _ _ _ h

theorem abs_some {fs : FS} (s : Str) (p : Path) (h : fs.resolve s = some p) : getAbsolutePath fs s = render p := by
  unfold getAbsolutePath; rw [h]

theorem abs_none {fs : FS} (s : Str) (h : fs.resolve s = none) : getAbsolutePath fs s = s := by
  unfold getAbsolutePath; rw [h]

/-- Making a path absolute does not change what it denotes. -/
theorem resolve_abs {fs : FS} (h : WF fs) (s : Str) : fs.resolve (getAbsolutePath fs s) = fs.resolve s := by
  cases hs : fs.resolve s with
  | none => rw [abs_none s hs, hs]
  | some p => rw [abs_some s p hs, resolve_exist h p (resolve_isSome fs s p hs)]

theorem abs_abs {fs : FS} (h : WF fs) (s : Str) : getAbsolutePath fs (getAbsolutePath fs s) = getAbsolutePath fs s := by
  cases hs : fs.resolve s with
  | none => rw [abs_none s hs, abs_none s hs]
  | some p =>
    rw [abs_some s p hs, abs_some (render p) p (resolve_exist h p (resolve_isSome fs s p hs))]

theorem directoryExists_iff {fs : FS} (h : WF fs) (s : Str) :
    directoryExists fs s = true ↔ ∃ p, fs.resolve s = some p ∧ fs.kindOf p = some .dir := by
  unfold directoryExists
  rw [resolve_abs h]
  cases hs : fs.resolve s with
  | none => simp
  | some p => simp

end CCGL.Fs

namespace CCGL.Fs
open Spec

/-! ### Removing -/

/-- Result of dropping one path. -/
def FS.erase (fs : FS) (p : Path) : FS := { fs with entries := fs.entries.filter (fun e => decide (e.1 ≠ p)) }

theorem kindOf_erase (fs : FS) (p q : Path) (hp : p ≠ []) :
    (fs.erase p).kindOf q = if q = p then none else fs.kindOf q := by
  unfold FS.kindOf FS.erase
  dsimp only
  by_cases hq : q = []
  · rw [if_pos hq, if_pos hq, if_neg (by rintro rfl; exact hp hq)]
  rw [if_neg hq, if_neg hq]
  by_cases hqp : q = p
  · subst hqp
    rw [if_pos rfl, Option.map_eq_none_iff, List.find?_eq_none]
    intro e he
    have := (List.mem_filter.1 he).2
    simpa using this
  · rw [if_neg hqp]
    congr 1
    induction fs.entries with
    | nil => rfl
    | cons e es ih =>
      by_cases h1 : e.1 = p
      · rw [List.filter_cons_of_neg (by simpa using h1), ih, List.find?_cons_of_neg]
        rw [h1]; simpa using Ne.symm hqp
      · rw [List.filter_cons_of_pos (by simpa using h1)]
        by_cases h2 : e.1 = q
        · rw [List.find?_cons_of_pos (by simpa using h2), List.find?_cons_of_pos (by simpa using h2)]
        · rw [List.find?_cons_of_neg (by simpa using h2), List.find?_cons_of_neg (by simpa using h2), ih]

theorem wf_erase {fs : FS} (h : WF fs) (p : Path) (hp : p ≠ []) (hl : ∀ n, fs.kindOf (p ++ [n]) = none) :
    WF (fs.erase p) := by
  have hm {e} (he : e ∈ (fs.erase p).entries) : e ∈ fs.entries ∧ e.1 ≠ p := by
    have := List.mem_filter.1 he
    exact ⟨this.1, by simpa using this.2⟩
  refine ⟨?_, fun e he => h.nonroot e (hm he).1, fun e he => h.good e (hm he).1, ?_⟩
  · have : ((fs.erase p).entries.map (·.1)).Sublist (fs.entries.map (·.1)) := List.Sublist.map _ List.filter_sublist
    exact this.nodup h.nodup
  · intro e he
    have h1 := hm he
    rw [kindOf_erase fs p _ hp, if_neg, h.parent e h1.1]
    intro h2
    have hne := h.nonroot e h1.1
    have h3 : e.1 = p ++ [e.1.getLast hne] := by rw [← h2]; exact (List.dropLast_append_getLast hne).symm
    have h4 := (kindOf_iff h e.1 hne e.2).2 h1.1
    rw [h3, hl] at h4
    simp at h4

theorem remove_some {fs : FS} (h : WF fs) (s : Str) (p : Path) (hs : fs.resolve s = some p) (hp : p ≠ [])
    (hd : fs.deny p = false) (hl : ∀ n, fs.kindOf (p ++ [n]) = none) : fs.remove s = (true, fs.erase p) := by
  unfold FS.remove
  rw [hs]
  dsimp only
  rw [if_neg]
  · rfl
  · rintro (h1 | h1 | h1)
    · exact hp h1
    · rw [hd] at h1; simp at h1
    · exact h1.2 ((names_nil h p).2 hl)

/-- A file has nothing below it. -/
theorem file_leaf {fs : FS} (h : WF fs) (p : Path) (hk : fs.kindOf p ≠ some .dir) (n : Str) :
    fs.kindOf (p ++ [n]) = none := by
  cases hc : fs.kindOf (p ++ [n]) with
  | none => rfl
  | some k => exact absurd (wf_parent h p n (by rw [hc]; rfl)) hk

/-- What `remove` does, in any case. -/
theorem remove_cases {fs : FS} (h : WF fs) (s : Str) :
    (fs.remove s = (false, fs)) ∨
    (∃ p, fs.resolve s = some p ∧ p ≠ [] ∧ fs.deny p = false ∧ (∀ n, fs.kindOf (p ++ [n]) = none) ∧
      fs.remove s = (true, fs.erase p)) := by
  cases hs : fs.resolve s with
  | none => left; unfold FS.remove; rw [hs]
  | some p =>
    by_cases hc : p = [] ∨ fs.deny p = true ∨ (fs.kindOf p = some .dir ∧ fs.names p ≠ [])
    · left; unfold FS.remove; rw [hs]; dsimp only; rw [if_pos hc]
    · right
      rw [not_or, not_or] at hc
      have hl : ∀ n, fs.kindOf (p ++ [n]) = none := by
        by_cases hk : fs.kindOf p = some .dir
        · rw [← names_nil h]
          by_contra hcon
          exact hc.2.2 ⟨hk, hcon⟩
        · exact file_leaf h p hk
      have hd : fs.deny p = false := by simpa using hc.2.1
      exact ⟨p, rfl, hc.1, hd, hl, remove_some h s p hs hc.1 hd hl⟩

theorem remove_wf {fs : FS} (h : WF fs) (s : Str) : WF (fs.remove s).2 := by
  rcases remove_cases h s with h1 | ⟨p, _, hp, _, hl, h1⟩
  · rw [h1]; exact h
  · rw [h1]; exact wf_erase h p hp hl

theorem erase_deny (fs : FS) (p : Path) : (fs.erase p).deny = fs.deny := rfl

theorem remove_deny (fs : FS) (s : Str) : (fs.remove s).2.deny = fs.deny ∧ (fs.remove s).2.cwd = fs.cwd := by
  unfold FS.remove
  split
  · exact ⟨rfl, rfl⟩
  · split <;> exact ⟨rfl, rfl⟩

end CCGL.Fs
