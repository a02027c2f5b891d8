import Verif.Lemmas.AppItems
/-!
# Where the settings of `mask_rasterio` come from
-/
namespace CCGL
open Spec
namespace Main

theorem isOpt_iff (a : Str) : isOpt a = true ↔ IsOption a := by
  unfold isOpt IsOption
  rw [Bool.and_eq_true, decide_eq_true_eq, Bool.not_eq_true']
  constructor
  · rintro ⟨h1, h2⟩
    refine ⟨h1, ?_⟩
    have hne : a ≠ [] := by rintro rfl; simp at h1
    rw [← numFlag a hne, h2]
    simp
  · rintro ⟨h1, h2⟩
    refine ⟨h1, ?_⟩
    have hne : a ≠ [] := by rintro rfl; simp at h1
    rw [← numFlag a hne] at h2
    simpa using h2

theorem upper_same (s t : Str) : getUpper s = getUpper t ↔ SameText s t := by
  rw [← stringMatch_iff]
  unfold stringMatch
  rw [beq_iff_eq]

theorem upper_cons (c : Char) (s : Str) : getUpper (c :: s) = toUpperC c :: getUpper s := rfl

/-- The key of an option. -/
theorem key_iff {o name : Str} (h : o.head? = some '-') : SameText o ('-' :: name) ↔ getUpper (o.drop 1) = getUpper name := by
  cases o with
  | nil => simp at h
  | cons c t =>
    have hc : c = '-' := by simpa using h
    subst hc
    rw [← upper_same, upper_cons, upper_cons]
    simp

theorem starts_dash {k name : Str} (h : SameText k ('-' :: name)) : k.head? = some '-' := by
  rw [← upper_same] at h
  cases k with
  | nil => simp [getUpper] at h
  | cons c t =>
    rw [upper_cons, upper_cons] at h
    injection h with h1 h2
    have : toUpperC '-' = '-' := by decide
    rw [this] at h1
    have hc : c = '-' := by
      unfold toUpperC at h1
      by_cases hl : 'a'.toNat ≤ c.toNat ∧ c.toNat ≤ 'z'.toNat
      · rw [if_pos hl] at h1
        have h97 : 97 ≤ c.toNat := hl.1
        have h122 : c.toNat ≤ 122 := hl.2
        exfalso
        have h2 : (Char.ofNat (c.toNat - 32)).toNat = c.toNat - 32 := toNat_ofNat _ (by omega)
        rw [h1] at h2
        have : ('-' : Char).toNat = 45 := rfl
        omega
      · rw [if_neg hl] at h1; exact h1
    rw [hc]; rfl

theorem notOpt_iff (a : Str) : (!isOpt a) = true ↔ ¬ IsOption a := by
  rw [Bool.not_eq_true', Bool.eq_false_iff, Ne, isOpt_iff]

theorem takeWhile_values {rest vals post : List Str} (h : rest = vals ++ post) (h1 : ∀ v ∈ vals, ¬ IsOption v)
    (h2 : ∀ o', post.head? = some o' → IsOption o') : rest.takeWhile (fun x => !isOpt x) = vals := by
  rw [h, List.takeWhile_append_of_pos (fun v hv => (notOpt_iff v).2 (h1 v hv))]
  cases post with
  | nil => simp
  | cons p post =>
    have := (isOpt_iff p).2 (h2 p rfl)
    rw [List.takeWhile_cons_of_neg (by rw [this]; simp), List.append_nil]

theorem optionAt_zero {a : Str} {rest : List Str} {name : Str} {vals : List Str} : OptionAt (a :: rest) 0 name vals ↔
    isOpt a = true ∧ getUpper (a.drop 1) = getUpper name ∧ vals = rest.takeWhile (fun x => !isOpt x) ∧ vals ≠ [] := by
  constructor
  · rintro ⟨o, post, h1, h2, h3, h4, h5, h6⟩
    rw [List.drop_zero] at h1
    injection h1 with e1 e2
    subst e1
    exact ⟨(isOpt_iff _).2 h2, (key_iff h2.1).1 h3, (takeWhile_values e2 h5 h6).symm, h4⟩
  · rintro ⟨h1, h2, h3, h4⟩
    have h1' := (isOpt_iff _).1 h1
    refine ⟨a, rest.dropWhile (fun x => !isOpt x), ?_, h1', (key_iff h1'.1).2 h2, h4, ?_, ?_⟩
    · rw [h3, List.takeWhile_append_dropWhile, List.drop_zero]
    · intro v hv
      rw [h3] at hv
      exact (notOpt_iff v).1 (List.all_eq_true.1 (List.all_takeWhile (p := fun x => !isOpt x) (l := rest)) v hv)
    · intro o' ho
      have := List.head?_dropWhile_not (fun x => !isOpt x) rest
      rw [ho] at this
      have hh : (!isOpt o') = false := by simpa using this
      rw [← isOpt_iff]
      simpa using hh

theorem optionAt_succ {a : Str} {rest : List Str} {i : Nat} {name : Str} {vals : List Str} :
    OptionAt (a :: rest) (i + 1) name vals ↔ OptionAt rest i name vals := Iff.rfl

theorem onCommand_cons {a : Str} {rest : List Str} {name : Str} {vals : List Str} : OnCommandLine (a :: rest) name vals ↔
    OptionAt (a :: rest) 0 name vals ∨ ((∀ v, ¬ OptionAt (a :: rest) 0 name v) ∧ OnCommandLine rest name vals) := by
  constructor
  · rintro ⟨i, h1, h2⟩
    cases i with
    | zero => exact Or.inl h1
    | succ i =>
      refine Or.inr ⟨h2 0 (by omega), i, optionAt_succ.1 h1, ?_⟩
      intro j hj v hv
      exact h2 (j + 1) (by omega) v (optionAt_succ.2 hv)
  · rintro (h | ⟨h1, i, h2, h3⟩)
    · exact ⟨0, h, fun j hj => by omega⟩
    · refine ⟨i + 1, optionAt_succ.2 h2, ?_⟩
      intro j hj v hv
      cases j with
      | zero => exact h1 v hv
      | succ j => exact h3 j (by omega) v (optionAt_succ.1 hv)

theorem onCommand_nil {name : Str} {vals : List Str} : ¬ OnCommandLine [] name vals := by
  rintro ⟨i, ⟨o, post, h, _⟩, _⟩
  simp at h

/-- `insert` in terms of values. -/
theorem insert_iff {m : Args} (hm : Sorted m) (k k' : Str) (v vals : List Str) :
    (m.insert k v).get k' = some vals ↔ m.get k' = some vals ∨ (m.get k' = none ∧ k = k' ∧ v = vals) := by
  rw [hm.get_insert]
  by_cases h : k = k'
  · subst h
    rw [if_pos rfl]
    cases m.get k with
    | none => simp
    | some x => simp
  · rw [if_neg h]
    simp [h]

theorem insert_none {m : Args} (hm : Sorted m) (k k' : Str) (v : List Str) :
    (m.insert k v).get k' = none ↔ m.get k' = none ∧ k ≠ k' := by
  rw [hm.get_insert]
  by_cases h : k = k'
  · simp [h]
  · rw [if_neg h]; simp [h]

theorem putOption_sorted {m : Args} (hm : Sorted m) (g : Str × List Str) : Sorted (putOption m g) := by
  unfold putOption
  split
  · exact hm
  · split
    · exact hm
    · exact hm.insert _ _

theorem foldl_sorted {m : Args} (hm : Sorted m) (gs : List (Str × List Str)) : Sorted (gs.foldl putOption m) := by
  induction gs generalizing m with
  | nil => exact hm
  | cons g gs ih => exact ih (putOption_sorted hm g)

theorem groups_get {name : Str} (hn : ¬ SameText name "configfile".toList) (args : List Str) {m : Args} (hm : Sorted m) (vals : List Str) :
    ((groups args).foldl putOption m).get (getUpper name) = some vals ↔
      m.get (getUpper name) = some vals ∨ (m.get (getUpper name) = none ∧ OnCommandLine args name vals) := by
  induction args generalizing m with
  | nil =>
    constructor
    · intro h; exact Or.inl h
    · rintro (h | ⟨_, h⟩)
      · exact h
      · exact absurd h onCommand_nil
  | cons a rest ih =>
    rw [onCommand_cons]
    by_cases ha : isOpt a = true
    · have hg : groups (a :: rest) = (a, rest.takeWhile (fun x => !isOpt x)) :: groups rest := by
        show (if isOpt a then _ else _) = _
        rw [if_pos ha]
      have hdash := ((isOpt_iff a).1 ha).1
      rw [hg, List.foldl_cons, ih (putOption_sorted hm _)]
      unfold putOption
      dsimp only
      by_cases hv : rest.takeWhile (fun x => !isOpt x) = []
      · rw [if_pos hv]
        have hno : ∀ v, ¬ OptionAt (a :: rest) 0 name v := by
          intro v h
          obtain ⟨_, _, h3, h4⟩ := optionAt_zero.1 h
          exact h4 (h3.trans hv)
        simp [hno]
      · rw [if_neg hv]
        by_cases hc : stringMatch a "-configfile".toList = true
        · rw [if_pos hc]
          have hno : ∀ v, ¬ OptionAt (a :: rest) 0 name v := by
            intro v h
            obtain ⟨_, h2, _, _⟩ := optionAt_zero.1 h
            rw [stringMatch_iff] at hc
            have h5 := (key_iff (o := a) (name := "configfile".toList) hdash).1 hc
            exact hn ((upper_same _ _).1 (h2.symm.trans h5))
          simp [hno]
        · rw [if_neg hc]
          rw [insert_iff hm, insert_none hm]
          have h0 : ∀ v, OptionAt (a :: rest) 0 name v ↔ getUpper (a.drop 1) = getUpper name ∧ rest.takeWhile (fun x => !isOpt x) = v := by
            intro v
            rw [optionAt_zero]
            constructor
            · rintro ⟨_, h2, h3, _⟩; exact ⟨h2, h3.symm⟩
            · rintro ⟨h2, h3⟩; exact ⟨ha, h2, h3.symm, h3 ▸ hv⟩
          simp only [h0]
          by_cases hk : getUpper (a.drop 1) = getUpper name
          · simp only [hk, true_and, ne_eq, not_true_eq_false, and_false, false_and, or_false]
            constructor
            · rintro (h | h)
              · exact Or.inl h
              · exact Or.inr ⟨h.1, Or.inl h.2⟩
            · rintro (h | ⟨h, h' | ⟨h', _⟩⟩)
              · exact Or.inl h
              · exact Or.inr ⟨h, h'⟩
              · exact absurd rfl (h' _)
          · simp only [hk, false_and, and_false, or_false, not_false_eq_true, implies_true, true_and, ne_eq, and_true, false_or]
    · have hg : groups (a :: rest) = groups rest := by
        show (if isOpt a then _ else _) = _
        rw [if_neg ha]
      have hno : ∀ v, ¬ OptionAt (a :: rest) 0 name v := by
        intro v h
        exact ha (optionAt_zero.1 h).1
      rw [hg, ih hm]
      simp [hno]

theorem command_get {name : Str} (hn : ¬ SameText name "configfile".toList) (args : List Str) (vals : List Str) :
    (commandArgs args).get (getUpper name) = some vals ↔ OnCommandLine args name vals := by
  unfold commandArgs
  rw [groups_get hn args (m := []) List.Pairwise.nil vals]
  simp [Args.get]

theorem command_sorted (args : List Str) : Sorted (commandArgs args) := foldl_sorted List.Pairwise.nil _

theorem command_none {name : Str} (hn : ¬ SameText name "configfile".toList) (args : List Str) :
    (commandArgs args).get (getUpper name) = none ↔ ∀ v, ¬ OnCommandLine args name v := by
  constructor
  · intro h v hv
    rw [← command_get hn] at hv
    rw [h] at hv
    cases hv
  · intro h
    cases hg : (commandArgs args).get (getUpper name) with
    | none => rfl
    | some v => exact absurd ((command_get hn args v).1 hg) (h v)

/-! ## The configuration file -/

/-- A content line: trimmed, not empty, no comment. -/
def Content (l : Str) : Prop := trimSpaces l = l ∧ l ≠ [] ∧ l.head? ≠ some '#'

theorem contentLines_mem {ls out : List Str} (h : ContentLines ls out) : ∀ l ∈ out, Content l := by
  induction h with
  | nil => simp
  | skip _ _ _ _ _ _ _ ih => exact ih
  | keep l r ls out h hne hr hs ih =>
    intro x hx
    rcases List.mem_cons.1 hx with rfl | hx
    · refine ⟨?_, hne, hr⟩
      obtain ⟨pre, suf, _, _, _, h4, h5⟩ := h
      exact isTrimmed_unique (trimSpaces_isTrimmed x) ⟨[], [], by simp, by simp, by simp, h4, h5⟩
    · exact ih x hx

theorem putLine_content {l : Str} (hl : Content l) (st : Args × List (List Str)) : putLine st l =
    if l.head? = some '-' then
      (if (splitDelim '\t' l).length < 2 then st
       else (st.1.insert (getUpper (((splitDelim '\t' l).headD []).drop 1)) (splitDelim '\t' l).tail, st.2))
    else (st.1, st.2 ++ [splitDelim ';' l]) := by
  unfold putLine
  dsimp only
  rw [hl.1, if_neg hl.2.1, if_neg hl.2.2]
  by_cases h : l.head? = some '-'
  · rw [if_pos h, if_pos h]
  · rw [if_neg h, if_neg h, if_neg (splitDelim_ne_nil ';' l hl.2.1)]

theorem optionLine_iff {l name : Str} {vals : List Str} : OptionLine l name vals ↔ l.head? = some '-' ∧
    2 ≤ (splitDelim '\t' l).length ∧ getUpper (((splitDelim '\t' l).headD []).drop 1) = getUpper name ∧ (splitDelim '\t' l).tail = vals := by
  have hhead : l.head? = some '-' → ∀ k vs, splitDelim '\t' l = k :: vs → k.head? = some '-' := by
    intro h k vs hs
    cases l with
    | nil => simp at h
    | cons c t =>
      have hc : c = '-' := by simpa using h
      subst hc
      rw [splitDelim] at hs
      have h1 : (getlineOne '\t' ('-' :: t)).1 = '-' :: (getlineOne '\t' t).1 := by
        rw [getlineOne, if_neg (by decide)]
      split at hs
      · injection hs with e1 _
        rw [← e1, h1]; rfl
      · injection hs with e1 _
        rw [← e1, h1]; rfl
  constructor
  · rintro ⟨k, h1, h2, h3⟩
    have h1' := (fields_iff _ _ _).1 h1
    have hk := starts_dash h3
    refine ⟨?_, ?_, ?_, ?_⟩
    · cases l with
      | nil => rw [splitDelim_nil] at h1'; cases h1'
      | cons c t =>
        rw [splitDelim] at h1'
        have hc : (getlineOne '\t' (c :: t)).1 = k := by
          split at h1'
          · injection h1'
          · injection h1'
        rw [getlineOne] at hc
        by_cases ht : c = '\t'
        · rw [if_pos ht] at hc
          rw [← hc] at hk
          simp at hk
        · rw [if_neg ht] at hc
          rw [← hc] at hk
          simpa using hk
    · rw [h1']
      cases vals with
      | nil => exact absurd rfl h2
      | cons => simp
    · rw [h1']
      exact (key_iff hk).1 h3
    · rw [h1']; rfl
  · rintro ⟨h1, h2, h3, h4⟩
    cases hs : splitDelim '\t' l with
    | nil => rw [hs] at h2; simp at h2
    | cons k vs =>
      rw [hs] at h2 h3 h4
      have hk := hhead h1 k vs hs
      refine ⟨k, (fields_iff _ _ _).2 ?_, ?_, (key_iff hk).2 h3⟩
      · rw [hs, ← h4]; rfl
      · rw [← h4]
        rintro h
        have : vs = [] := h
        rw [this] at h2
        simp at h2

theorem inFile_cons {l : Str} {ls : List Str} {name : Str} {vals : List Str} : InFile (l :: ls) name vals ↔
    OptionLine l name vals ∨ ((∀ v, ¬ OptionLine l name v) ∧ InFile ls name vals) := by
  constructor
  · rintro ⟨i, l', h1, h2, h3⟩
    cases i with
    | zero =>
      have : l = l' := by simpa using h1
      exact Or.inl (this ▸ h2)
    | succ i =>
      refine Or.inr ⟨h3 0 l (by omega) rfl, i, l', by simpa using h1, h2, ?_⟩
      intro j x hj hx
      exact h3 (j + 1) x (by omega) (by simpa using hx)
  · rintro (h | ⟨h1, i, l', h2, h3, h4⟩)
    · exact ⟨0, l, rfl, h, fun j _ hj => by omega⟩
    · refine ⟨i + 1, l', by simpa using h2, h3, ?_⟩
      intro j x hj hx
      cases j with
      | zero =>
        have : l = x := by simpa using hx
        exact this ▸ h1
      | succ j => exact h4 j x (by omega) (by simpa using hx)

theorem inFile_nil {name : Str} {vals : List Str} : ¬ InFile [] name vals := by
  rintro ⟨i, l, h, _⟩
  simp at h

theorem putLine_sorted {st : Args × List (List Str)} (hm : Sorted st.1) {l : Str} (hl : Content l) : Sorted (putLine st l).1 := by
  rw [putLine_content hl]
  split
  · split
    · exact hm
    · exact hm.insert _ _
  · exact hm

theorem lines_get (name : Str) (lines : List Str) (hl : ∀ l ∈ lines, Content l) (st : Args × List (List Str)) (hm : Sorted st.1)
    (vals : List Str) : Sorted (lines.foldl putLine st).1 ∧ ((lines.foldl putLine st).1.get (getUpper name) = some vals ↔
      st.1.get (getUpper name) = some vals ∨ (st.1.get (getUpper name) = none ∧ InFile lines name vals)) := by
  induction lines generalizing st with
  | nil =>
    refine ⟨hm, ?_⟩
    constructor
    · intro h; exact Or.inl h
    · rintro (h | ⟨_, h⟩)
      · exact h
      · exact absurd h inFile_nil
  | cons l ls ih =>
    have hc := hl l (by simp)
    obtain ⟨i1, i2⟩ := ih (fun x hx => hl x (by simp [hx])) (putLine st l) (putLine_sorted hm hc)
    refine ⟨i1, ?_⟩
    rw [List.foldl_cons, i2, inFile_cons, putLine_content hc]
    by_cases h1 : l.head? = some '-'
    · rw [if_pos h1]
      by_cases h2 : (splitDelim '\t' l).length < 2
      · rw [if_pos h2]
        have hno : ∀ v, ¬ OptionLine l name v := fun v h => by
          have := (optionLine_iff.1 h).2.1
          omega
        simp [hno]
      · rw [if_neg h2]
        dsimp only
        rw [insert_iff hm, insert_none hm]
        have h0 : ∀ v, OptionLine l name v ↔ getUpper (((splitDelim '\t' l).headD []).drop 1) = getUpper name ∧ (splitDelim '\t' l).tail = v := by
          intro v
          rw [optionLine_iff]
          constructor
          · rintro ⟨_, _, h⟩; exact h
          · intro h; exact ⟨h1, by omega, h⟩
        simp only [h0]
        by_cases hk : getUpper (((splitDelim '\t' l).headD []).drop 1) = getUpper name
        · simp only [hk, true_and, ne_eq, not_true_eq_false, and_false, false_and, or_false]
          constructor
          · rintro (h | h)
            · exact Or.inl h
            · exact Or.inr ⟨h.1, Or.inl h.2⟩
          · rintro (h | ⟨h, h' | ⟨h', _⟩⟩)
            · exact Or.inl h
            · exact Or.inr ⟨h, h'⟩
            · exact absurd rfl (h' _)
        · simp only [hk, false_and, and_false, or_false, not_false_eq_true, implies_true, true_and, ne_eq, and_true, false_or]
    · rw [if_neg h1]
      have hno : ∀ v, ¬ OptionLine l name v := fun v h => h1 (optionLine_iff.1 h).1
      simp [hno]

theorem lines_items (lines : List Str) (hl : ∀ l ∈ lines, Content l) (st : Args × List (List Str)) :
    ∃ items, (lines.foldl putLine st).2 = st.2 ++ items ∧ Items lines items := by
  unfold Items
  induction lines generalizing st with
  | nil => exact ⟨[], by simp, by simp⟩
  | cons l ls ih =>
    have hc := hl l (by simp)
    obtain ⟨items, h1, h2⟩ := ih (fun x hx => hl x (by simp [hx])) (putLine st l)
    rw [List.foldl_cons, h1, putLine_content hc]
    by_cases hd : l.head? = some '-'
    · rw [if_pos hd, List.filter_cons_of_neg (by simpa using hd)]
      refine ⟨items, ?_, h2⟩
      split <;> rfl
    · rw [if_neg hd, List.filter_cons_of_pos (by simpa using hd)]
      refine ⟨splitDelim ';' l :: items, by simp, List.Forall₂.cons ((fields_iff _ _ _).2 rfl) h2⟩

theorem items_unique {lines : List Str} {a b : List (List Str)} (ha : Items lines a) (hb : Items lines b) : a = b := by
  unfold Items at *
  generalize lines.filter _ = ls at *
  induction ls generalizing a b with
  | nil => cases ha; cases hb; rfl
  | cons l ls ih =>
    cases ha with
    | cons h1 h2 => cases hb with
      | cons h3 h4 => rw [ih h2 h4, fields_unique _ _ _ _ h1 h3]

/-! ## The path of the configuration file -/

theorem names_zero {a : Str} {rest : List Str} {p : Str} : NamesFile (a :: rest) 0 p ↔
    SameText a "-configfile".toList ∧ rest.head? = some p ∧ p.head? ≠ some '-' := by
  unfold NamesFile
  constructor
  · rintro ⟨o, h1, h2, h3, h4⟩
    have : a = o := by simpa using h1
    subst this
    refine ⟨h2, ?_, h4⟩
    cases rest <;> simpa using h3
  · rintro ⟨h2, h3, h4⟩
    refine ⟨a, rfl, h2, ?_, h4⟩
    cases rest <;> simpa using h3

theorem names_succ {a : Str} {rest : List Str} {i : Nat} {p : Str} : NamesFile (a :: rest) (i + 1) p ↔ NamesFile rest i p := by
  unfold NamesFile
  simp only [List.getElem?_cons_succ]

theorem configPath_spec (args : List Str) (hnul : ∀ a ∈ args, Char.ofNat 0 ∉ a) (p0 p : Str) (h : configPath args p0 = .ok p) :
    (∃ i, NamesFile args i p ∧ ∀ j > i, ∀ q, ¬ NamesFile args j q) ∨ (p = p0 ∧ ∀ i q, ¬ NamesFile args i q) := by
  induction args generalizing p0 with
  | nil =>
    cases h
    right
    refine ⟨rfl, ?_⟩
    rintro i q ⟨o, h, _⟩
    simp at h
  | cons a rest ih =>
    have hnul' : ∀ a ∈ rest, Char.ofNat 0 ∉ a := fun x hx => hnul x (by simp [hx])
    have hlift : ∀ {p1 : Str}, configPath rest p1 = .ok p → (∀ q, ¬ NamesFile (a :: rest) 0 q) ∧ p1 = p0 ∨ NamesFile (a :: rest) 0 p1 →
        (∃ i, NamesFile (a :: rest) i p ∧ ∀ j > i, ∀ q, ¬ NamesFile (a :: rest) j q) ∨ (p = p0 ∧ ∀ i q, ¬ NamesFile (a :: rest) i q) := by
      intro p1 hp hcase
      rcases ih hnul' p1 hp with ⟨i, h1, h2⟩ | ⟨rfl, h1⟩
      · left
        refine ⟨i + 1, names_succ.2 h1, ?_⟩
        intro j hj q hq
        cases j with
        | zero => omega
        | succ j => exact h2 j (by omega) q (names_succ.1 hq)
      · rcases hcase with ⟨hno, rfl⟩ | hz
        · right
          refine ⟨rfl, ?_⟩
          intro i q hq
          cases i with
          | zero => exact hno q hq
          | succ i => exact h1 i q (names_succ.1 hq)
        · left
          refine ⟨0, hz, ?_⟩
          intro j hj q hq
          cases j with
          | zero => omega
          | succ j => exact h1 j q (names_succ.1 hq)
    unfold configPath at h
    have hmatch : stringMatchC a "-configfile".toList = true ↔ SameText a "-configfile".toList := by
      rw [C34_cstring a _ (hnul a (by simp)) (by decide), stringMatch_iff]
    by_cases hc : a.head? = some '-' ∧ stringMatchC a "-configfile".toList = true
    · rw [if_pos hc] at h
      cases rest with
      | nil => cases h
      | cons b rest =>
        dsimp only at h
        by_cases hb : b.head? = some '-'
        · rw [if_pos hb] at h
          refine hlift h (Or.inl ⟨?_, rfl⟩)
          intro q hq
          obtain ⟨_, h2, h3⟩ := names_zero.1 hq
          have : b = q := by simpa using h2
          exact h3 (this ▸ hb)
        · rw [if_neg hb] at h
          exact hlift h (Or.inr (names_zero.2 ⟨hmatch.1 hc.2, rfl, hb⟩))
    · rw [if_neg hc] at h
      refine hlift h (Or.inl ⟨?_, rfl⟩)
      intro q hq
      obtain ⟨h1, _, _⟩ := names_zero.1 hq
      exact hc ⟨starts_dash (name := "configfile".toList) h1, hmatch.2 h1⟩

end Main
end CCGL
