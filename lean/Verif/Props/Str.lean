import Verif.Lemmas.Str
/-!
# Properties of the string functions (C31–C34, C38)
-/
namespace CCGL
open Spec

/-! ## C31 -/

/-- C31: `Trim` returns the text without its maximal blank prefix and suffix. -/
theorem C31_trim (s : Str) : IsTrimmed s (trim s) := trim_isTrimmed s

/-- C31: so does `TrimSpaces`. -/
theorem C31_trimSpaces (s : Str) : IsTrimmed s (trimSpaces s) := trimSpaces_isTrimmed s

/-- C31: the specification determines the result, hence both functions agree. -/
theorem C31_unique (s r r' : Str) (h : IsTrimmed s r) (h' : IsTrimmed s r') : r = r' :=
  isTrimmed_unique h h'

theorem C31_agree (s : Str) : trim s = trimSpaces s :=
  isTrimmed_unique (trim_isTrimmed s) (trimSpaces_isTrimmed s)

/-- C31: trimming twice changes nothing more. -/
theorem C31_idempotent (s : Str) : trim (trim s) = trim s := by
  obtain ⟨_, _, _, _, _, h1, h2⟩ := trim_isTrimmed s
  exact isTrimmed_unique (trim_isTrimmed _) ⟨[], [], by simp, by simp, by simp, h1, h2⟩

example : trim " \ta b\n".toList = "a b".toList := by decide
example : trimSpaces " \r\n ".toList = [] := by decide
example : ∃ r r', IsTrimmed " x".toList r ∧ IsTrimmed " x".toList r' :=
  ⟨_, _, trim_isTrimmed _, trimSpaces_isTrimmed _⟩

/-! ## C32 -/

/-- C32: splitting inverts joining for fields without the delimiter that do not end with an empty one. -/
theorem C32_split_join (d : Char) (fs : List Str) (hd : ∀ f ∈ fs, d ∉ f)
    (hlast : fs.getLast? ≠ some []) : splitDelim d (join d fs) = fs := splitDelim_join d fs hd hlast

/-- C32: joining inverts splitting unless the text ends with the delimiter (then that one is lost). -/
theorem C32_join_split (d : Char) (s : Str) :
    if s.getLast? = some d then s = join d (splitDelim d s) ++ [d] else s = join d (splitDelim d s) :=
  (splitDelim_spec d s).2

/-- C32: no field contains the delimiter. -/
theorem C32_fields (d : Char) (s : Str) : ∀ f ∈ splitDelim d s, d ∉ f := (splitDelim_spec d s).1

/-- C32: the case excluded by `hlast` is real: a final empty field is lost. -/
theorem C32_trailing_empty_lost (d : Char) (fs : List Str) (hne : fs ≠ []) (hd : ∀ f ∈ fs, d ∉ f)
    (hl : fs.getLast? ≠ some []) : splitDelim d (join d (fs ++ [[]])) = fs := by
  have hj : join d (fs ++ [[]]) = join d fs ++ [d] := by
    clear hd hl
    induction fs with
    | nil => exact absurd rfl hne
    | cons f fs ih =>
      cases fs with
      | nil => simp [join]
      | cons g fs =>
        have := ih (by simp)
        simp only [List.cons_append] at this ⊢
        simp only [join, List.append_assoc, List.cons_append, this]
  have h1 := splitDelim_spec d (join d fs ++ [d])
  have h2 : (join d fs ++ [d]).getLast? = some d := by simp
  rw [if_pos h2] at h1
  rw [hj]
  have h3 : join d fs = join d (splitDelim d (join d fs ++ [d])) := by
    have := h1.2; simpa using this
  -- by C32 the split of the joined text is unique
  have key : ∀ t : Str, t.getLast? ≠ some d → t ≠ [] → splitDelim d (t ++ [d]) = splitDelim d t := by
    intro t
    induction hn : t.length using Nat.strongRecOn generalizing t with
    | _ n ih =>
      intro ht htne
      obtain ⟨h0, h⟩ := getlineOne_cases d t
      rcases h with ⟨e1, e2⟩ | ⟨r, e1, e2⟩
      · generalize hf : (getlineOne d t).1 = f at *
        subst e2
        rw [splitDelim_cons_some d _ _ _ (getlineOne_append d t [] h0), splitDelim_nil,
          splitDelim_cons_none d t htne t (getlineOne_none d t h0)]
      · generalize hf : (getlineOne d t).1 = f at *
        have hrne : r ≠ [] := by
          rintro rfl; rw [e2] at ht; simp at ht
        rw [splitDelim_cons_some d t f r (by rw [e2]; exact getlineOne_append d f r h0)]
        have : t ++ [d] = f ++ d :: (r ++ [d]) := by rw [e2]; simp
        rw [this, splitDelim_cons_some d _ f _ (getlineOne_append d f _ h0)]
        congr 1
        apply ih r.length _ r rfl
        · intro hr; apply ht; rw [e2, List.getLast?_append_of_ne_nil _ (by simp)]
          rw [List.getLast?_cons, hr]; rfl
        · exact hrne
        · rw [← hn, e2]; simp; omega
  by_cases hjn : join d fs = []
  · -- then fs is a single empty field, excluded
    exfalso
    cases fs with
    | nil => exact hne rfl
    | cons f fs =>
      cases fs with
      | nil => simp [join] at hjn; subst hjn; simp at hl
      | cons g fs => simp [join] at hjn
  · by_cases hlast : (join d fs).getLast? = some d
    · exfalso
      have : ∀ fs : List Str, fs ≠ [] → (∀ f ∈ fs, d ∉ f) → fs.getLast? ≠ some [] →
          (join d fs).getLast? ≠ some d := by
        intro fs
        induction fs with
        | nil => intro h; exact absurd rfl h
        | cons f fs ih =>
          intro _ hdd hll hh
          cases fs with
          | nil => exact hdd f (by simp) (List.mem_of_getLast? hh)
          | cons g fs =>
            have hjj : join d (g :: fs) ≠ [] := by
              cases fs with
              | nil => simp only [join]; rintro rfl; simp at hll
              | cons g' fs => simp [join]
            simp only [join] at hh
            rw [List.getLast?_append_of_ne_nil _ (by simp), List.getLast?_cons,
              List.getLast?_eq_some_getLast hjj] at hh
            apply ih (by simp) (fun x hx => hdd x (by simp at hx ⊢; right; exact hx))
            · rw [List.getLast?_cons_cons] at hll; exact hll
            · rw [List.getLast?_eq_some_getLast hjj]; simpa using hh
      exact this fs hne hd hl hlast
    · rw [key _ hlast hjn]; exact splitDelim_join d fs hd hl

example : splitDelim ',' "a,,b".toList = ["a".toList, [], "b".toList] := by
  have := C32_split_join ',' ["a".toList, [], "b".toList] (by decide) (by decide)
  exact this
example : (∀ f ∈ ["a".toList, [], "b".toList], ',' ∉ f) ∧
    ["a".toList, [], "b".toList].getLast? ≠ some [] := by decide

/-! ## C33 -/

/-- C33 (partial): for texts that do not end with white space (in particular trimmed non-empty texts)
`SplitString(text)` returns exactly the words. Missing: texts that are empty or end with white space,
for which the property is false (`C33_trailing_white`, `C33_false`). -/
theorem C33_words_partial (s : Str) (ws : List Str) (h : IsWords s ws) (hne : s ≠ [])
    (hl : ∀ c, s.getLast? = some c → ¬ White c) : splitSpaces s = ws := by
  rw [splitSpaces_spec s ws h, if_neg, List.append_nil]
  rintro (h | ⟨c, h1, h2⟩)
  · exact hne h
  · exact hl c h1 h2

/-- C33: the exact behaviour on the excluded texts: the last word (or an empty word) is appended once more. -/
theorem C33_trailing_white (s : Str) (ws : List Str) (h : IsWords s ws)
    (hl : s = [] ∨ ∃ c, s.getLast? = some c ∧ White c) :
    splitSpaces s = ws ++ [(ws.getLast?).getD []] := by
  rw [splitSpaces_spec s ws h, if_pos hl]

/-- Every text has its list of words, so the theorems above cover every text. -/
theorem C33_total (s : Str) : ∃ ws, IsWords s ws := exists_words s

/-- C33 is false of the code: some text has words different from the result. -/
theorem C33_false : ¬ ∀ (s : Str) (ws : List Str), IsWords s ws → splitSpaces s = ws := by
  intro h
  have := h [] [] (.nil [] (by simp))
  revert this; decide

example : splitSpaces "a b ".toList = ["a".toList, "b".toList, "b".toList] := by decide
example : splitSpaces " ab  c".toList = ["ab".toList, "c".toList] := by decide
example : IsWords " ab  c".toList ["ab".toList, "c".toList] :=
  .cons [' '] ['a', 'b'] [' ', ' ', 'c'] _ (by simp [White]) (by simp) (by simp [White])
    (by simp [White]) (.cons [' ', ' '] ['c'] [] _ (by simp [White]) (by simp) (by simp [White])
      (by simp) (.nil [] (by simp)))

/-! ## C34 -/

/-- C34: `StringMatch` is equality up to ASCII letter case. -/
theorem C34_match (s t : Str) : stringMatch s t = true ↔ SameText s t := stringMatch_iff s t

theorem C34_refl (s : Str) : stringMatch s s = true := by simp [stringMatch]
theorem C34_symm (s t : Str) : stringMatch s t = stringMatch t s := by
  simp only [stringMatch, Bool.beq_comm]
theorem C34_trans (s t u : Str) (h : stringMatch s t = true) (h' : stringMatch t u = true) :
    stringMatch s u = true := by
  simp only [stringMatch, beq_iff_eq] at *; rw [h, h']

/-- C34: `GetUpper` keeps the length and matches its argument; applying it twice changes nothing more. -/
theorem C34_upper (s : Str) : SameText s (getUpper s) ∧ (getUpper s).length = s.length ∧
    getUpper (getUpper s) = getUpper s ∧ (∀ c ∈ getUpper s, ¬ (97 ≤ c.toNat ∧ c.toNat ≤ 122)) := by
  have hid : getUpper (getUpper s) = getUpper s := by
    simp only [getUpper, List.map_map]
    apply List.map_congr_left
    intro c _
    apply char_ext_toNat
    simp only [Function.comp, toUpperC_toNat]
    split_ifs <;> omega
  refine ⟨?_, by simp [getUpper], hid, ?_⟩
  · rw [← stringMatch_iff]; simp [stringMatch, hid]
  · intro c hc
    simp only [getUpper, List.mem_map] at hc
    obtain ⟨a, _, rfl⟩ := hc
    rw [toUpperC_toNat]; split <;> omega

/-- C34: the C-string overload agrees with the `std::string` overload on texts without NUL. -/
theorem C34_cstring (s t : Str) (hs : Char.ofNat 0 ∉ s) (ht : Char.ofNat 0 ∉ t) :
    stringMatchC s t = stringMatch s t := by
  rw [Bool.eq_iff_iff, stringMatch_iff]
  simp only [stringMatchC, beq_iff_eq, cstr_of_no_nul s hs, cstr_of_no_nul t ht]
  exact map_eq_iff_sameText _ toLowerC_eq_iff s t

/-- C34: C strings are compared up to the terminating NUL. -/
theorem C34_cstring_nul (s t x y : Str) (hs : Char.ofNat 0 ∉ s) (ht : Char.ofNat 0 ∉ t) :
    stringMatchC (s ++ Char.ofNat 0 :: x) (t ++ Char.ofNat 0 :: y) = true ↔ SameText s t := by
  have key : ∀ (s x : Str), Char.ofNat 0 ∉ s → cstr (s ++ Char.ofNat 0 :: x) = s := by
    intro s x h
    unfold cstr
    rw [List.takeWhile_append_of_pos (by
      intro c hc
      have : c ≠ Char.ofNat 0 := fun e => h (e ▸ hc)
      simpa using this)]
    simp
  rw [← C34_match, ← C34_cstring s t hs ht]
  unfold stringMatchC
  rw [key s x hs, key t y ht, cstr_of_no_nul s hs, cstr_of_no_nul t ht]

example : stringMatch "Float".toList "FLOAT".toList = true := by decide
example : stringMatch "a{".toList "A[".toList = false := by decide
example : Char.ofNat 0 ∉ "NoData".toList := by decide

/-! ## C38 -/

/-- C38: a copied map holds the source's entries; all other keys are untouched. -/
theorem C38_copy (inp out : StrMap) (h : (inp.map (·.1)).Nodup) (k : Str) :
    (copyStringMap inp out).get k = match inp.get k with
      | some v => some v
      | none => out.get k := by
  rw [copy_get inp out h k]
  cases inp.get k <;> simp

/-- C38: an update sets its key and nothing else. -/
theorem C38_update (m : StrMap) (k v k' : Str) :
    (updateStringMap m k v).get k' = if k' = k then some v else m.get k' := StrMap.update_get m k v k'

/-- C38, every history: after any sequence of updates a key has the value of the last update to it. -/
theorem C38_history (m : StrMap) (us : List (Str × Str)) (k : Str) :
    (us.foldl (fun m u => updateStringMap m u.1 u.2) m).get k =
      match us.reverse.find? (fun u => u.1 = k) with
      | some u => some u.2
      | none => m.get k := by
  induction us generalizing m with
  | nil => simp
  | cons u us ih =>
    rw [List.foldl_cons, ih, List.reverse_cons, List.find?_append]
    cases h : us.reverse.find? (fun u => u.1 = k) with
    | some x => simp
    | none =>
      simp only [Option.none_or]
      rw [StrMap.update_get]
      by_cases hk : k = u.1
      · subst hk; simp
      · have : ¬ (u.1 = k) := fun h => hk h.symm
        simp [hk, this]

/-- C38: updates keep the keys of the map unique (the invariant of `std::map`). -/
theorem C38_keys_unique (m : StrMap) (k v : Str) (h : (m.map (·.1)).Nodup) :
    ((updateStringMap m k v).map (·.1)).Nodup := by
  have hassign : ∀ m : StrMap, (m.assign k v).map (·.1) = m.map (·.1) := by
    intro m
    induction m with
    | nil => rfl
    | cons e m ih => simp only [StrMap.assign]; split <;> simp [ih]
  unfold updateStringMap
  split
  · rw [hassign]; exact h
  · next hk =>
    simp only [StrMap.emplace, hk]
    simp only [Bool.false_eq_true, if_false, List.map_append, List.map_cons, List.map_nil]
    have hni : k ∉ m.map (·.1) := by
      intro hmem
      apply hk
      clear h hk hassign
      induction m with
      | nil => simp at hmem
      | cons e m ih =>
        simp only [StrMap.get]
        split
        · rfl
        · next he =>
          simp only [List.map_cons, List.mem_cons] at hmem
          rcases hmem with h | h
          · exact absurd h.symm he
          · exact ih h
    rw [List.nodup_append]
    refine ⟨h, by simp, ?_⟩
    intro a ha b hb
    simp at hb; subst hb
    rintro rfl; exact hni ha

example : (copyStringMap [("a".toList, "2".toList)] [("a".toList, "1".toList), ("b".toList, "3".toList)]).get
    "a".toList = some "2".toList := by decide
example : (([("a".toList, "2".toList)] : StrMap).map (·.1)).Nodup := by decide

end CCGL
