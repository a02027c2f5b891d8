import Verif.Base
import Verif.Model.Str
import Verif.Spec.Str
namespace CCGL
open Spec

theorem isTrimChar_iff (c : Char) : isTrimChar c = true ↔ Blank c := by
  simp [isTrimChar, Blank, or_assoc]

theorem findFirst_spec (p : Char → Bool) (s : Str) :
    (findFirstNotOf p s = none ∧ ∀ c ∈ s, p c = true) ∨
    ∃ i, findFirstNotOf p s = some i ∧ i < s.length ∧ (∀ c ∈ s.take i, p c = true) ∧
      ∀ c, (s.drop i).head? = some c → p c = false := by
  induction s with
  | nil => left; simp [findFirstNotOf]
  | cons c s ih =>
    by_cases hc : p c = true
    · simp only [findFirstNotOf, hc, if_true]
      rcases ih with ⟨h1, h2⟩ | ⟨i, h1, h2, h3, h4⟩
      · left; simp [h1, hc]; exact h2
      · right; refine ⟨i+1, by simp [h1], by simp; omega, ?_, by simpa using h4⟩
        intro x hx; simp at hx; rcases hx with rfl | hx
        · exact hc
        · exact h3 x hx
    · right; refine ⟨0, by simp [findFirstNotOf, hc], by simp, by simp, ?_⟩
      simp; simpa using hc

theorem findLast_spec (p : Char → Bool) (s : Str) :
    (findLastNotOf p s = none ∧ ∀ c ∈ s, p c = true) ∨
    ∃ i, findLastNotOf p s = some i ∧ i < s.length ∧ (∀ c ∈ s.drop (i+1), p c = true) ∧
      ∀ c, (s.take (i+1)).getLast? = some c → p c = false := by
  induction s with
  | nil => left; simp [findLastNotOf]
  | cons c s ih =>
    rcases ih with ⟨h1, h2⟩ | ⟨i, h1, h2, h3, h4⟩
    · by_cases hc : p c = true
      · left; simp [findLastNotOf, h1, hc]; exact h2
      · right; refine ⟨0, by simp [findLastNotOf, h1, hc], by simp, by simpa using h2, ?_⟩
        simp; simpa using hc
    · right; refine ⟨i+1, by simp [findLastNotOf, h1], by simp; omega, by simpa using h3, ?_⟩
      intro x hx
      apply h4 x
      rw [List.take_succ_cons] at hx
      have hne : s.take (i+1) ≠ [] := by
        intro h; have := congrArg List.length h; simp at this; subst this; simp at h2
      rw [List.getLast?_cons] at hx
      rw [List.getLast?_eq_some_getLast hne] at hx ⊢
      simpa using hx

theorem dropWhile_append_of_all (b : Char → Bool) (pre t : Str) (h : ∀ c ∈ pre, b c = true) :
    (pre ++ t).dropWhile b = t.dropWhile b := by
  induction pre with
  | nil => rfl
  | cons c pre ih =>
    have hc := h c (by simp)
    simp only [List.cons_append, List.dropWhile_cons, hc, if_true]
    exact ih (fun x hx => h x (by simp [hx]))

theorem dropWhile_eq_self_of_head (b : Char → Bool) (t : Str)
    (h : ∀ c, t.head? = some c → b c = false) : t.dropWhile b = t := by
  cases t with
  | nil => rfl
  | cons c t => simp [h c (by simp)]

theorem isTrimmed_eq {s r : Str} (h : IsTrimmed s r) :
    r = ((s.dropWhile isTrimChar).reverse.dropWhile isTrimChar).reverse := by
  obtain ⟨pre, suf, rfl, hp, hs, hh, hl⟩ := h
  have hp' : ∀ c ∈ pre, isTrimChar c = true := fun c hc => (isTrimChar_iff c).2 (hp c hc)
  have hs' : ∀ c ∈ suf, isTrimChar c = true := fun c hc => (isTrimChar_iff c).2 (hs c hc)
  rw [List.append_assoc, dropWhile_append_of_all _ _ _ hp']
  by_cases hr : r = []
  · subst hr
    have : (suf.dropWhile isTrimChar) = [] := by
      have := dropWhile_append_of_all isTrimChar suf [] hs'
      simpa using this
    simp [this]
  · have h1 : (r ++ suf).dropWhile isTrimChar = r ++ suf := by
      apply dropWhile_eq_self_of_head
      intro c hc
      have : r.head? = some c := by
        cases r with
        | nil => exact absurd rfl hr
        | cons a r => simpa using hc
      have := hh c this
      rw [← isTrimChar_iff] at this; simpa using this
    rw [h1, List.reverse_append, dropWhile_append_of_all _ _ _ (by simpa using hs'),
      dropWhile_eq_self_of_head, List.reverse_reverse]
    intro c hc
    rw [List.head?_reverse] at hc
    have := hl c hc
    rw [← isTrimChar_iff] at this; simpa using this

theorem isTrimmed_unique {s r r' : Str} (h : IsTrimmed s r) (h' : IsTrimmed s r') : r = r' := by
  rw [isTrimmed_eq h, isTrimmed_eq h']

theorem not_blank {c : Char} (h : isTrimChar c = false) : ¬ Blank c := by
  rw [← isTrimChar_iff]; simp [h]

theorem trim_isTrimmed (s : Str) : IsTrimmed s (trim s) := by
  unfold trim
  split
  · next h => subst h; exact ⟨[], [], by simp⟩
  rcases findFirst_spec isTrimChar s with ⟨h1, h2⟩ | ⟨b, h1, h2, h3, h4⟩
  · simp only [h1, findLastNotOf]
    exact ⟨s, [], by simp, fun c hc => (isTrimChar_iff c).1 (h2 c hc), by simp, by simp, by simp⟩
  · simp only [h1]
    rcases findLast_spec isTrimChar (s.drop b) with ⟨g1, g2⟩ | ⟨e, g1, g2, g3, g4⟩
    · exfalso
      have hne : s.drop b ≠ [] := by simp; omega
      obtain ⟨c, t, hct⟩ := List.exists_cons_of_ne_nil hne
      have := h4 c (by simp [hct])
      have := g2 c (by simp [hct])
      simp_all
    · simp only [g1]
      refine ⟨s.take b, (s.drop b).drop (e+1), ?_, ?_, ?_, ?_, ?_⟩
      · rw [List.append_assoc, List.take_append_drop, List.take_append_drop]
      · exact fun c hc => (isTrimChar_iff c).1 (h3 c hc)
      · exact fun c hc => (isTrimChar_iff c).1 (g3 c hc)
      · intro c hc
        apply not_blank
        apply h4
        simpa [List.head?_take] using hc
      · exact fun c hc => not_blank (g4 c hc)

theorem trimSpaces_isTrimmed (s : Str) : IsTrimmed s (trimSpaces s) := by
  unfold trimSpaces
  rcases findFirst_spec isTrimChar s with ⟨h1, h2⟩ | ⟨b, h1, h2, h3, h4⟩
  · simp only [h1]
    exact ⟨s, [], by simp, fun c hc => (isTrimChar_iff c).1 (h2 c hc), by simp, by simp, by simp⟩
  · rcases findLast_spec isTrimChar s with ⟨g1, g2⟩ | ⟨e, g1, g2, g3, g4⟩
    · exfalso
      have hne : s.drop b ≠ [] := by simp; omega
      obtain ⟨c, t, hct⟩ := List.exists_cons_of_ne_nil hne
      have := h4 c (by simp [hct])
      have := g2 c (List.mem_of_mem_drop (i := b) (by simp [hct]))
      simp_all
    · simp only [h1, g1, substr]
      have hbe : b ≤ e := by
        by_contra hlt
        have hmem : s[e] ∈ s.take b := by
          rw [List.mem_take_iff_getElem]; exact ⟨e, by omega, rfl⟩
        have h5 := h3 _ hmem
        have h6 := g4 s[e] (by
          rw [List.getLast?_take]; simp [List.getElem?_eq_getElem g2])
        simp_all
      have key : (s.drop b).take (e - b + 1) = (s.take (e+1)).drop b := by
        rw [List.drop_take]; congr 1; omega
      refine ⟨s.take b, s.drop (e+1), ?_, ?_, ?_, ?_, ?_⟩
      · have : s.take b ++ (s.drop b).take (e - b + 1) = s.take (e+1) := by
          have h := List.take_add (l := s) (i := b) (j := e - b + 1)
          rw [show b + (e - b + 1) = e + 1 by omega] at h
          exact h.symm
        rw [this, List.take_append_drop]
      · exact fun c hc => (isTrimChar_iff c).1 (h3 c hc)
      · exact fun c hc => (isTrimChar_iff c).1 (g3 c hc)
      · intro c hc
        apply not_blank
        apply h4
        simpa [List.head?_take] using hc
      · intro c hc
        apply not_blank
        apply g4
        rw [key, List.getLast?_drop] at hc
        split at hc
        · simp at hc
        · exact hc

/-! ### Splitting at a delimiter -/

theorem getlineOne_append (d : Char) (f rest : Str) (h : d ∉ f) :
    getlineOne d (f ++ d :: rest) = (f, some rest) := by
  induction f with
  | nil => simp [getlineOne]
  | cons c f ih =>
    have hc : c ≠ d := by rintro rfl; simp at h
    have := ih (by simp at h; exact h.2)
    simp [getlineOne, hc, this]

theorem getlineOne_none (d : Char) (f : Str) (h : d ∉ f) : getlineOne d f = (f, none) := by
  induction f with
  | nil => simp [getlineOne]
  | cons c f ih =>
    have hc : c ≠ d := by rintro rfl; simp at h
    have := ih (by simp at h; exact h.2)
    simp [getlineOne, hc, this]

theorem getlineOne_cases (d : Char) (s : Str) :
    (d ∉ (getlineOne d s).1) ∧
    (((getlineOne d s).2 = none ∧ s = (getlineOne d s).1) ∨
     ∃ r, (getlineOne d s).2 = some r ∧ s = (getlineOne d s).1 ++ d :: r) := by
  induction s with
  | nil => simp [getlineOne]
  | cons c s ih =>
    by_cases hc : c = d
    · subst hc; simp [getlineOne]
    · obtain ⟨h0, h⟩ := ih
      simp only [getlineOne, hc, if_false]
      refine ⟨by simp [h0]; exact fun h => hc h.symm, ?_⟩
      rcases h with ⟨h1, h2⟩ | ⟨r, h1, h2⟩
      · left; exact ⟨h1, by rw [← h2]⟩
      · right; exact ⟨r, h1, by rw [List.cons_append, ← h2]⟩

theorem splitDelim_nil (d : Char) : splitDelim d [] = [] := by rw [splitDelim]

theorem splitDelim_cons_none (d : Char) (s : Str) (hs : s ≠ []) (f : Str)
    (h : getlineOne d s = (f, none)) : splitDelim d s = [f] := by
  cases s with
  | nil => exact absurd rfl hs
  | cons c t => 
    rw [splitDelim]; split
    · rw [h]
    · next r hr => rw [h] at hr; simp at hr

theorem splitDelim_cons_some (d : Char) (s : Str) (f r : Str)
    (h : getlineOne d s = (f, some r)) : splitDelim d s = f :: splitDelim d r := by
  cases s with
  | nil => simp [getlineOne] at h
  | cons c t =>
    rw [splitDelim]; split
    · next hr => rw [h] at hr; simp at hr
    · next r' hr => rw [h] at hr ⊢; simp at hr; rw [hr]

theorem splitDelim_join (d : Char) (fs : List Str) (hd : ∀ f ∈ fs, d ∉ f)
    (hlast : fs.getLast? ≠ some []) : splitDelim d (join d fs) = fs := by
  induction fs with
  | nil => simp [join, splitDelim_nil]
  | cons f fs ih =>
    cases fs with
    | nil =>
      simp only [join]
      have hf : f ≠ [] := by rintro rfl; simp at hlast
      exact splitDelim_cons_none d f hf f (getlineOne_none d f (hd f (by simp)))
    | cons g fs =>
      simp only [join]
      rw [splitDelim_cons_some d _ f _ (getlineOne_append d f _ (hd f (by simp)))]
      rw [ih (fun x hx => hd x (by simp at hx ⊢; right; exact hx))]
      rw [List.getLast?_cons_cons] at hlast; exact hlast

/-- Fields never contain the delimiter, and joining them gives the text without one trailing delimiter. -/
theorem splitDelim_spec (d : Char) (s : Str) :
    (∀ f ∈ splitDelim d s, d ∉ f) ∧
    (if s.getLast? = some d then s = join d (splitDelim d s) ++ [d] else s = join d (splitDelim d s)) := by
  induction hn : s.length using Nat.strongRecOn generalizing s with
  | _ n ih =>
    cases s with
    | nil => simp [splitDelim_nil, join]
    | cons c t =>
      obtain ⟨h0, h⟩ := getlineOne_cases d (c :: t)
      rcases h with ⟨h1, h2⟩ | ⟨r, h1, h2⟩
      · have e : getlineOne d (c :: t) = ((getlineOne d (c::t)).1, none) := by
          rw [← h1]
        rw [splitDelim_cons_none d _ (by simp) _ e]
        refine ⟨by simpa using h0, ?_⟩
        have hl : (c :: t).getLast? ≠ some d := by
          intro hh
          have := List.mem_of_getLast? hh
          rw [h2] at this; exact h0 this
        rw [if_neg hl]; simpa [join] using h2
      · have e : getlineOne d (c :: t) = ((getlineOne d (c::t)).1, some r) := by
          rw [← h1]
        rw [splitDelim_cons_some d _ _ _ e]
        have hr := ih r.length (by have := getlineOne_length d _ _ h1; omega) r rfl
        obtain ⟨hr1, hr2⟩ := hr
        refine ⟨by intro f hf; simp at hf; rcases hf with rfl | hf; exacts [h0, hr1 f hf], ?_⟩
        generalize hf : (getlineOne d (c::t)).1 = f at *
        rw [h2]
        cases hrn : r with
        | nil => simp [splitDelim_nil, join]
        | cons c' t' =>
          rw [← hrn]
          have hgl : (f ++ d :: r).getLast? = r.getLast? := by
            rw [List.getLast?_append, hrn, List.getLast?_cons_cons, List.getLast?_eq_some_getLast (by simp)]
            rfl
          have hsne : splitDelim d r ≠ [] := by
            intro h; rw [h] at hr2; rw [hrn] at hr2
            split at hr2
            · next hh =>
              simp only [join, List.nil_append, List.cons.injEq] at hr2
              have e2 : getlineOne d r = ([], some []) := by rw [hrn, hr2.1, hr2.2]; simp [getlineOne]
              rw [splitDelim_cons_some d _ _ _ e2] at h; simp at h
            · simp [join] at hr2
          obtain ⟨g, gs, hg⟩ := List.exists_cons_of_ne_nil hsne
          rw [hgl]
          have hj : join d (f :: splitDelim d r) = f ++ d :: join d (splitDelim d r) := by
            rw [hg]; rfl
          rw [hj]
          split
          · next hh => rw [if_pos hh] at hr2; simp only [List.append_assoc, List.cons_append]; rw [← hr2]
          · next hh => rw [if_neg hh] at hr2; rw [← hr2]

/-! ### Splitting at blanks -/

theorem dropWhile_nil_iff (b : Char → Bool) (s : Str) :
    s.dropWhile b = [] ↔ ∀ c ∈ s, b c = true := by
  induction s with
  | nil => simp
  | cons c s ih => by_cases h : b c = true <;> simp [h, ih]

theorem dropWhile_head (b : Char → Bool) (s : Str) (c : Char) (h : (s.dropWhile b).head? = some c) :
    b c = false := by
  induction s with
  | nil => simp at h
  | cons a s ih =>
    by_cases ha : b a = true
    · simp only [List.dropWhile_cons, ha, if_true] at h; exact ih h
    · simp only [List.dropWhile_cons, ha] at h; simp at h; subst h; simpa using ha

theorem takeWhile_mem (b : Char → Bool) (s : Str) (c : Char) (h : c ∈ s.takeWhile b) : b c = true := by
  induction s with
  | nil => simp at h
  | cons a s ih =>
    by_cases ha : b a = true
    · simp only [List.takeWhile_cons, ha, if_true, List.mem_cons] at h
      rcases h with rfl | h
      · exact ha
      · exact ih h
    · simp [ha] at h

theorem char_eq_iff_toNat (c : Char) (n : Nat) (hn : n < 0xd800) : c = Char.ofNat n ↔ c.toNat = n := by
  constructor
  · rintro rfl
    simp [Char.ofNat, Char.toNat, Nat.isValidChar, hn, Char.ofNatAux]
  · intro h
    rw [← h]; exact (Char.ofNat_toNat c).symm

theorem isSpaceC_iff (c : Char) : isSpaceC c = true ↔ White c := by
  have h1 : c = ' ' ↔ c.toNat = 32 := char_eq_iff_toNat c 32 (by omega)
  have h2 : c = '\t' ↔ c.toNat = 9 := char_eq_iff_toNat c 9 (by omega)
  have h3 : c = '\n' ↔ c.toNat = 10 := char_eq_iff_toNat c 10 (by omega)
  have h4 := char_eq_iff_toNat c 11 (by omega)
  have h5 := char_eq_iff_toNat c 12 (by omega)
  have h6 : c = '\r' ↔ c.toNat = 13 := char_eq_iff_toNat c 13 (by omega)
  simp only [isSpaceC, Bool.or_eq_true, decide_eq_true_eq, White, h1, h2, h3, h4, h5, h6]
  omega

theorem isSpaceC_false_iff (c : Char) : isSpaceC c = false ↔ ¬ White c := by
  rw [← isSpaceC_iff]; simp

theorem extractWord_white (f s : Str) (h : ∀ c ∈ s, White c) : extractWord f s = (f, [], true) := by
  have : s.dropWhile isSpaceC = [] := by
    rw [dropWhile_nil_iff]; exact fun c hc => (isSpaceC_iff c).2 (h c hc)
  simp [extractWord, this]

theorem takeWhile_word (w rest : Str) (hw : ∀ c ∈ w, ¬ White c)
    (hr : ∀ c, rest.head? = some c → White c) :
    (w ++ rest).takeWhile (fun c => !isSpaceC c) = w ∧
    (w ++ rest).dropWhile (fun c => !isSpaceC c) = rest := by
  induction w with
  | nil =>
    cases rest with
    | nil => simp
    | cons c r => have := (isSpaceC_iff c).2 (hr c (by simp)); simp [this]
  | cons c w ih =>
    have hc := (isSpaceC_false_iff c).2 (hw c (by simp))
    have := ih (fun x hx => hw x (by simp [hx]))
    simp [hc, this]

theorem extractWord_word (f pre w rest : Str) (hp : ∀ c ∈ pre, White c) (hne : w ≠ [])
    (hw : ∀ c ∈ w, ¬ White c) (hr : ∀ c, rest.head? = some c → White c) :
    extractWord f (pre ++ w ++ rest) = (w, rest, rest.isEmpty) := by
  have h1 : (pre ++ w ++ rest).dropWhile isSpaceC = w ++ rest := by
    rw [List.append_assoc, dropWhile_append_of_all _ _ _ (fun c hc => (isSpaceC_iff c).2 (hp c hc))]
    apply dropWhile_eq_self_of_head
    intro c hc
    obtain ⟨a, w', rfl⟩ := List.exists_cons_of_ne_nil hne
    simp at hc; subst hc
    exact (isSpaceC_false_iff _).2 (hw _ (by simp))
  obtain ⟨h2, h3⟩ := takeWhile_word w rest hw hr
  have : w ++ rest ≠ [] := by simp [hne]
  simp only [extractWord, h1, this, if_false, h2, h3]

theorem isWords_nil {ws : List Str} (h : IsWords [] ws) : ws = [] := by
  generalize hs : ([] : Str) = s at h
  cases h with
  | nil => rfl
  | cons pre w rest ws _ hne _ _ _ =>
    exfalso
    have := hs.symm
    simp at this
    exact hne this.2.1

open Classical in
theorem splitSpacesLoop_spec (n : Nat) (f s : Str) (ws : List Str) (h : IsWords s ws)
    (hn : s.length < n) :
    splitSpacesLoop n (extractWord f s) =
      ws ++ (if s = [] ∨ (∃ c, s.getLast? = some c ∧ White c) then [(ws.getLast?).getD f] else []) := by
  induction h generalizing n f with
  | nil s hs =>
    rw [extractWord_white f s hs]
    cases n with
    | zero => omega
    | succ n =>
      simp only [splitSpacesLoop, if_true]
      rw [if_pos]; · simp
      cases hl : s.getLast? with
      | none => left; simpa using hl
      | some c => right; exact ⟨c, rfl, hs c (List.mem_of_getLast? hl)⟩
  | cons pre w rest ws hp hne hw hr hws ih =>
    rw [extractWord_word f pre w rest hp hne hw hr]
    cases n with
    | zero => omega
    | succ n =>
      simp only [splitSpacesLoop]
      have hwlen : 0 < w.length := List.length_pos_of_ne_nil hne
      by_cases hrest : rest = []
      · subst hrest
        obtain rfl : ws = [] := isWords_nil hws
        have hnw : ¬ (pre ++ w ++ [] = [] ∨ ∃ c, (pre ++ w ++ []).getLast? = some c ∧ White c) := by
          rintro (h | ⟨c, h1, h2⟩)
          · simp at h; exact hne h.2
          · rw [List.append_nil, List.getLast?_append_of_ne_nil _ hne] at h1
            exact hw c (List.mem_of_getLast? h1) h2
        rw [if_neg hnw]; simp
      · have he : rest.isEmpty = false := by simpa using hrest
        rw [he]
        simp only [Bool.false_eq_true, if_false]
        rw [ih n w (by simp at hn; omega), List.cons_append]
        congr 1
        have e1 : (pre ++ w ++ rest).getLast? = rest.getLast? := List.getLast?_append_of_ne_nil _ hrest
        have e2 : ¬ (pre ++ w ++ rest = []) := by simp [hrest]
        rw [e1]
        simp only [hrest, e2, false_or]
        congr 1
        rw [List.getLast?_cons]
        cases ws.getLast? <;> simp

open Classical in
theorem splitSpaces_spec (s : Str) (ws : List Str) (h : IsWords s ws) :
    splitSpaces s =
      ws ++ (if s = [] ∨ (∃ c, s.getLast? = some c ∧ White c) then [(ws.getLast?).getD []] else []) :=
  splitSpacesLoop_spec _ _ _ _ h (by omega)

/-- Every text has its words. -/
theorem exists_words (s : Str) : ∃ ws, IsWords s ws := by
  induction hn : s.length using Nat.strongRecOn generalizing s with
  | _ n ih =>
    by_cases h : s.dropWhile isSpaceC = []
    · refine ⟨[], .nil s ?_⟩
      rw [dropWhile_nil_iff] at h
      exact fun c hc => (isSpaceC_iff c).1 (h c hc)
    · let t := s.dropWhile isSpaceC
      let w := t.takeWhile (fun c => !isSpaceC c)
      let r := t.dropWhile (fun c => !isSpaceC c)
      have ht : s.takeWhile isSpaceC ++ t = s := List.takeWhile_append_dropWhile
      have hwr : w ++ r = t := List.takeWhile_append_dropWhile
      have hwne : w ≠ [] := by
        intro hw
        have : t = r := by rw [← hwr, hw]; rfl
        obtain ⟨c, t', hc⟩ := List.exists_cons_of_ne_nil h
        have hct : t = c :: t' := hc
        have : isSpaceC c = false := dropWhile_head isSpaceC s c (by rw [hc]; rfl)
        have : w = c :: t'.takeWhile (fun c => !isSpaceC c) := by
          show t.takeWhile _ = _
          rw [hct, List.takeWhile_cons]; simp [this]
        rw [hw] at this; simp at this
      obtain ⟨ws, hws⟩ := ih r.length (by
        have h1 := congrArg List.length ht
        have h2 := congrArg List.length hwr
        simp at h1 h2
        have := List.length_pos_of_ne_nil hwne
        omega) r rfl
      refine ⟨w :: ws, ?_⟩
      have := IsWords.cons (s.takeWhile isSpaceC) w r ws ?_ hwne ?_ ?_ hws
      · rwa [List.append_assoc, hwr, ht] at this
      · exact fun c hc => (isSpaceC_iff c).1 (takeWhile_mem _ _ _ hc)
      · intro c hc
        have := takeWhile_mem _ _ _ hc
        exact (isSpaceC_false_iff c).1 (by simpa using this)
      · intro c hc
        have := dropWhile_head _ _ _ hc
        exact (isSpaceC_iff c).1 (by simpa using this)

/-! ### Case-insensitive matching -/

theorem toNat_ofNat (n : Nat) (h : n < 0xd800) : (Char.ofNat n).toNat = n := by
  simp [Char.ofNat, Char.toNat, Nat.isValidChar, h, Char.ofNatAux]

theorem toUpperC_toNat (c : Char) :
    (toUpperC c).toNat = if 97 ≤ c.toNat ∧ c.toNat ≤ 122 then c.toNat - 32 else c.toNat := by
  unfold toUpperC
  have e1 : 'a'.toNat = 97 := rfl
  have e2 : 'z'.toNat = 122 := rfl
  rw [e1, e2]
  split
  · rw [toNat_ofNat]; omega
  · rfl

theorem toLowerC_toNat (c : Char) :
    (toLowerC c).toNat = if 65 ≤ c.toNat ∧ c.toNat ≤ 90 then c.toNat + 32 else c.toNat := by
  unfold toLowerC
  have e1 : 'A'.toNat = 65 := rfl
  have e2 : 'Z'.toNat = 90 := rfl
  rw [e1, e2]
  split
  · rw [toNat_ofNat]; omega
  · rfl

theorem char_ext_toNat {a b : Char} (h : a.toNat = b.toNat) : a = b := by
  rw [← Char.ofNat_toNat a, h, Char.ofNat_toNat]

theorem toUpperC_eq_iff (a b : Char) : toUpperC a = toUpperC b ↔ SameLetter a b := by
  constructor
  · intro h
    have := congrArg Char.toNat h
    rw [toUpperC_toNat, toUpperC_toNat] at this
    by_cases hab : a.toNat = b.toNat
    · exact .inl (char_ext_toNat hab)
    · right; split at this <;> split at this <;> omega
  · rintro (rfl | h | h)
    · rfl
    · apply char_ext_toNat; rw [toUpperC_toNat, toUpperC_toNat]; split <;> split <;> omega
    · apply char_ext_toNat; rw [toUpperC_toNat, toUpperC_toNat]; split <;> split <;> omega

theorem toLowerC_eq_iff (a b : Char) : toLowerC a = toLowerC b ↔ SameLetter a b := by
  constructor
  · intro h
    have := congrArg Char.toNat h
    rw [toLowerC_toNat, toLowerC_toNat] at this
    by_cases hab : a.toNat = b.toNat
    · exact .inl (char_ext_toNat hab)
    · right; split at this <;> split at this <;> omega
  · rintro (rfl | h | h)
    · rfl
    · apply char_ext_toNat; rw [toLowerC_toNat, toLowerC_toNat]; split <;> split <;> omega
    · apply char_ext_toNat; rw [toLowerC_toNat, toLowerC_toNat]; split <;> split <;> omega

theorem map_eq_iff_sameText (f : Char → Char) (hf : ∀ a b, f a = f b ↔ SameLetter a b) (s t : Str) :
    s.map f = t.map f ↔ SameText s t := by
  constructor
  · intro h
    refine ⟨by simpa using congrArg List.length h, fun i a b ha hb => ?_⟩
    have := congrArg (fun l => l[i]?) h
    simp only [List.getElem?_map, ha, hb, Option.map_some, Option.some.injEq] at this
    exact (hf a b).1 this
  · rintro ⟨hl, h⟩
    apply List.ext_getElem?
    intro i
    simp only [List.getElem?_map]
    by_cases hi : i < s.length
    · have hi' : i < t.length := by omega
      have e1 := List.getElem?_eq_getElem hi
      have e2 := List.getElem?_eq_getElem hi'
      rw [e1, e2]; simp only [Option.map_some, Option.some.injEq]
      exact (hf _ _).2 (h i _ _ e1 e2)
    · rw [List.getElem?_eq_none (by omega), List.getElem?_eq_none (by omega)]

theorem stringMatch_iff (s t : Str) : stringMatch s t = true ↔ SameText s t := by
  simp only [stringMatch, beq_iff_eq, getUpper]
  exact map_eq_iff_sameText _ toUpperC_eq_iff s t

theorem cstr_of_no_nul (s : Str) (h : Char.ofNat 0 ∉ s) : cstr s = s := by
  unfold cstr
  induction s with
  | nil => rfl
  | cons c s ih =>
    simp only [List.mem_cons, not_or] at h
    have := ih h.2
    rw [List.takeWhile_cons, this]; simp [Ne.symm h.1]

/-! ### String maps -/

def StrMap.WF (m : StrMap) : Prop := (m.map (·.1)).Nodup

theorem StrMap.get_append (m n : StrMap) (k : Str) :
    StrMap.get (m ++ n) k = (m.get k).or (n.get k) := by
  induction m with
  | nil => simp [StrMap.get]
  | cons e m ih =>
    simp only [List.cons_append, StrMap.get]
    split
    · rfl
    · exact ih

theorem StrMap.get_assign (m : StrMap) (k v k' : Str) :
    (m.assign k v).get k' = if k' = k then (m.get k).map (fun _ => v) else m.get k' := by
  induction m with
  | nil => simp [StrMap.assign, StrMap.get]
  | cons e m ih =>
    simp only [StrMap.assign, StrMap.get]
    by_cases h1 : e.1 = k
    · subst h1
      by_cases h2 : k' = e.1
      · subst h2; simp [StrMap.get]
      · have : ¬ (e.1 = k') := fun h => h2 h.symm
        simp [StrMap.get, this, h2]
    · simp only [h1, if_false, StrMap.get]
      by_cases h2 : k' = k
      · subst h2; simp only [h1, if_false]; rw [ih]; simp
      · rw [ih]; simp [h2]

theorem StrMap.update_get (m : StrMap) (k v k' : Str) :
    (updateStringMap m k v).get k' = if k' = k then some v else m.get k' := by
  unfold updateStringMap
  split
  · next h =>
    rw [StrMap.get_assign]
    split
    · next h' => 
      obtain ⟨x, hx⟩ := Option.isSome_iff_exists.1 h
      rw [hx]; rfl
    · rfl
  · next h =>
    simp only [StrMap.emplace, h]
    simp only [Bool.false_eq_true, if_false]
    rw [StrMap.get_append]
    split
    · next h' =>
      subst h'
      have : m.get k' = none := by simpa using h
      rw [this]; simp [StrMap.get]
    · next h' =>
      have : StrMap.get [(k, v)] k' = none := by
        simp [StrMap.get, Ne.symm h']
      rw [this]; simp

theorem StrMap.get_none_of_not_mem (m : StrMap) (k : Str) (h : k ∉ m.map (·.1)) : m.get k = none := by
  induction m with
  | nil => rfl
  | cons e m ih =>
    simp only [List.map_cons, List.mem_cons, not_or] at h
    simp only [StrMap.get]
    rw [if_neg (fun he => h.1 he.symm), ih h.2]

theorem copy_fold (inp out : StrMap) :
    inp.foldl (fun o e => if (o.get e.1).isSome then o.assign e.1 e.2 else o.emplace e.1 e.2) out
      = inp.foldl (fun o e => updateStringMap o e.1 e.2) out := rfl

theorem copy_get_aux (inp out : StrMap) (h : inp.WF) (k : Str) :
    (inp.foldl (fun o e => updateStringMap o e.1 e.2) out).get k = (inp.get k).or (out.get k) := by
  induction inp generalizing out with
  | nil => simp [StrMap.get]
  | cons e inp ih =>
    have hw : StrMap.WF inp := (List.nodup_cons.1 h).2
    have hni := (List.nodup_cons.1 h).1
    rw [List.foldl_cons, ih _ hw, StrMap.update_get]
    by_cases hk : k = e.1
    · subst hk
      have : StrMap.get inp e.1 = none := by
        exact StrMap.get_none_of_not_mem _ _ hni
      rw [this]; simp [StrMap.get]
    · have : e.1 ≠ k := fun h => hk h.symm
      simp [StrMap.get, hk, this]

theorem copy_get (inp out : StrMap) (h : inp.WF) (k : Str) :
    (copyStringMap inp out).get k = (inp.get k).or (out.get k) := by
  unfold copyStringMap
  split
  · next he => 
    have : inp = [] := by simpa using he
    subst this; simp [StrMap.get]
  · rw [copy_fold]; exact copy_get_aux inp out h k

end CCGL
