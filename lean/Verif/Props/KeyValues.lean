import Verif.Props.App
/-!
# C57: key:value options
-/
namespace CCGL
open Spec

theorem splitDelim_join_end (d : Char) (fs : List Str) (hd : ∀ f ∈ fs, d ∉ f) (hne : fs ≠ []) :
    splitDelim d (join d fs ++ [d]) = fs := by
  induction fs with
  | nil => exact absurd rfl hne
  | cons f fs ih =>
    cases fs with
    | nil =>
      simp only [join]
      rw [splitDelim_cons_some d _ f _ (getlineOne_append d f _ (hd f (by simp))), splitDelim_nil]
    | cons g fs =>
      simp only [join, List.append_assoc, List.cons_append]
      rw [splitDelim_cons_some d _ f _ (getlineOne_append d f _ (hd f (by simp)))]
      rw [ih (fun x hx => hd x (List.mem_cons_of_mem _ hx)) (by simp)]

theorem splitDelim_ne_nil (d : Char) (s : Str) (h : s ≠ []) : splitDelim d s ≠ [] := by
  cases s with
  | nil => exact absurd rfl h
  | cons c t =>
    rw [splitDelim]; split <;> simp

/-- The fields of a text exist, are unique, and are what `SplitString` returns. -/
theorem fields_iff (d : Char) (s : Str) (fs : List Str) : Fields d s fs ↔ splitDelim d s = fs := by
  constructor
  · rintro ⟨hd, ⟨rfl, rfl⟩ | ⟨rfl, hne, hl⟩ | ⟨rfl, hne⟩⟩
    · exact splitDelim_nil d
    · exact splitDelim_join d fs hd hl
    · exact splitDelim_join_end d fs hd hne
  · rintro rfl
    obtain ⟨h1, h2⟩ := splitDelim_spec d s
    refine ⟨h1, ?_⟩
    by_cases hs : s = []
    · subst hs; exact .inl ⟨rfl, splitDelim_nil d⟩
    right
    have hne := splitDelim_ne_nil d s hs
    split_ifs at h2 with h3
    · exact .inr ⟨h2, hne⟩
    · refine .inl ⟨h2, hne, ?_⟩
      intro hl
      -- the joined text would end with the delimiter, or be empty
      have key : ∀ gs : List Str, gs.getLast? = some [] → join d gs = [] ∨ (join d gs).getLast? = some d := by
        intro gs
        induction gs with
        | nil => simp
        | cons f gs ih =>
          cases gs with
          | nil => intro h; simp at h; subst h; exact .inl rfl
          | cons g gs =>
            intro h
            rw [List.getLast?_cons_cons] at h
            right
            simp only [join]
            rcases ih h with h | h
            · rw [h]; simp
            · rw [List.getLast?_append, List.getLast?_cons, h]; simp
      rcases key _ hl with h | h
      · rw [h] at h2; exact hs h2
      · rw [← h2] at h; exact h3 h

theorem isEntry_iff (e : Str) (k : Int) (vts : List Str) : IsEntry e k vts ↔
    ∃ kt vt, splitDelim ':' e = [kt, vt] ∧ isInt kt = (k, true) ∧ vts = splitDelim '|' vt := by
  unfold IsEntry
  simp only [fields_iff]
  constructor
  · rintro ⟨kt, vt, h1, h2, h3, h4, h5⟩
    exact ⟨kt, vt, h1, (C35_isInt _ _).2 ⟨h2, h3, h4⟩, h5.symm⟩
  · rintro ⟨kt, vt, h1, h2, h5⟩
    obtain ⟨a, b, c⟩ := (C35_isInt _ _).1 h2
    exact ⟨kt, vt, h1, a, b, c, h5.symm⟩

theorem valueText_iff (t : Str) (v : DVal) : ValueText t v ↔ isDouble t = (v, true) := by
  unfold ValueText
  constructor
  · rintro (h | ⟨rfl, rfl⟩)
    · exact (C37_value t v h).1
    · rfl
  · intro h
    have h1 : isNumber t = true := by unfold isNumber; rw [h]
    rcases (C37_isNumber t).1 h1 with rfl | ⟨w, hw⟩
    · right
      refine ⟨rfl, ?_⟩
      have : isDouble [] = (DVal.fin 0, true) := rfl
      rw [this] at h
      exact (Prod.mk.inj h).1.symm
    · left
      rw [(C37_value t w hw).1] at h
      rw [← (Prod.mk.inj h).1]; exact hw

theorem kvValues_all (ts : List Str) (vs : List DVal) (h : List.Forall₂ ValueText ts vs) : kvValues ts = vs := by
  induction h with
  | nil => rfl
  | cons h _ ih =>
    have := (valueText_iff _ _).1 h
    simp only [kvValues]
    rw [this, ih]; simp

theorem kvValues_len (ts : List Str) (h : ts.length = (kvValues ts).length) : List.Forall₂ ValueText ts (kvValues ts) := by
  induction ts with
  | nil => exact .nil
  | cons t ts ih =>
    by_cases ht : (isDouble t).2 = true
    · have e : kvValues (t :: ts) = (isDouble t).1 :: kvValues ts := by simp [kvValues, ht]
      rw [e] at h ⊢
      refine .cons ((valueText_iff _ _).2 (by rw [← ht])) (ih (by simpa using h))
    · have e : kvValues (t :: ts) = [] := by simp [kvValues, ht]
      rw [e] at h; simp at h

theorem kvEntry_skip (st : Bool × KvMap) (e : Str) (h : ¬ ∃ k vts, IsEntry e k vts) : kvEntry st e = st := by
  unfold kvEntry
  split_ifs with he
  · rfl
  · split
    · next kt vt hs =>
      split_ifs with hi
      · exact absurd ⟨_, _, (isEntry_iff _ _ _).2 ⟨kt, vt, hs, by rw [← hi], rfl⟩⟩ h
      · rfl
    · rfl

theorem isEntry_ne {e : Str} {k : Int} {vts : List Str} (h : IsEntry e k vts) : e ≠ [] := by
  rintro rfl
  obtain ⟨kt, vt, h1, _⟩ := (isEntry_iff _ _ _).1 h
  rw [splitDelim_nil] at h1
  simp at h1

theorem kvEntry_good (st : Bool × KvMap) (e : Str) (k : Int) (vs : List DVal) (h : GoodEntry e k vs) :
    kvEntry st e = (st.1, st.2.emplace k vs) := by
  obtain ⟨vts, h, hf⟩ := h
  have hne := isEntry_ne h
  obtain ⟨kt, vt, h1, h2, rfl⟩ := (isEntry_iff _ _ _).1 h
  unfold kvEntry
  rw [if_neg hne, h1]
  simp only
  rw [if_pos (by rw [h2]), kvValues_all _ _ hf, if_pos hf.length_eq, h2]

theorem kvEntry_bad (st : Bool × KvMap) (e : Str) (h : BadEntry e) : kvEntry st e = (false, st.2) := by
  obtain ⟨k, vts, h, t, ht, hv⟩ := h
  have hne := isEntry_ne h
  obtain ⟨kt, vt, h1, h2, rfl⟩ := (isEntry_iff _ _ _).1 h
  unfold kvEntry
  rw [if_neg hne, h1]
  simp only
  rw [if_pos (by rw [h2]), if_neg]
  intro hl
  have := kvValues_len _ hl
  obtain ⟨i, hi, rfl⟩ := List.mem_iff_getElem.1 ht
  exact hv ⟨_, this.get hi (by rw [← hl]; exact hi)⟩

theorem entry_cases (e : Str) : (¬ ∃ k vts, IsEntry e k vts) ∨ (∃ k vs, GoodEntry e k vs) ∨ BadEntry e := by
  by_cases h : ∃ k vts, IsEntry e k vts
  · right
    obtain ⟨k, vts, h⟩ := h
    by_cases hb : ∀ t ∈ vts, ∃ v, ValueText t v
    · left
      have : ∃ vs, List.Forall₂ ValueText vts vs := by
        clear h
        induction vts with
        | nil => exact ⟨[], .nil⟩
        | cons t ts ih =>
          obtain ⟨v, hv⟩ := hb t List.mem_cons_self
          obtain ⟨vs, hvs⟩ := ih (fun x hx => hb x (List.mem_cons_of_mem _ hx))
          exact ⟨v :: vs, .cons hv hvs⟩
      obtain ⟨vs, hvs⟩ := this
      exact ⟨k, vs, vts, h, hvs⟩
    · right
      simp only [not_forall] at hb
      obtain ⟨t, ht, hv⟩ := hb
      exact ⟨k, vts, h, t, ht, hv⟩
  · exact .inl h

theorem isEntry_unique {e : Str} {k k' : Int} {v v' : List Str} (h : IsEntry e k v) (h' : IsEntry e k' v') :
    k = k' ∧ v = v' := by
  obtain ⟨kt, vt, h1, h2, rfl⟩ := (isEntry_iff _ _ _).1 h
  obtain ⟨kt', vt', h1', h2', rfl⟩ := (isEntry_iff _ _ _).1 h'
  rw [h1] at h1'
  simp only [List.cons.injEq, and_true] at h1'
  obtain ⟨rfl, rfl⟩ := h1'
  rw [h2] at h2'
  exact ⟨(Prod.mk.inj h2').1, rfl⟩

theorem good_unique {e : Str} {k k' : Int} {v v' : List DVal} (h : GoodEntry e k v) (h' : GoodEntry e k' v') :
    k = k' ∧ v = v' := by
  obtain ⟨ts, h1, h2⟩ := h
  obtain ⟨ts', h1', h2'⟩ := h'
  obtain ⟨rfl, rfl⟩ := isEntry_unique h1 h1'
  exact ⟨rfl, by rw [← kvValues_all _ _ h2, kvValues_all _ _ h2']⟩

theorem good_not_bad {e : Str} {k : Int} {v : List DVal} (h : GoodEntry e k v) : ¬ BadEntry e := by
  intro hb
  have h1 := kvEntry_good (true, []) e k v h
  rw [kvEntry_bad _ _ hb] at h1
  simp at h1

theorem KvMap.get_emplace (m : KvMap) (k k' : Int) (v : List DVal) :
    (m.emplace k v).get k' = if k' = k ∧ m.get k = none then some v else m.get k' := by
  unfold KvMap.emplace
  cases hk : m.get k with
  | some w => simp
  | none =>
    simp only [Option.isSome_none, Bool.false_eq_true, if_false, and_true]
    unfold KvMap.get at hk ⊢
    rw [List.find?_append]
    by_cases e : k' = k
    · subst e
      rw [if_pos rfl]
      rw [Option.map_eq_none_iff] at hk
      rw [hk]; simp
    · rw [if_neg e]
      have : ([(k, v)] : KvMap).find? (fun e => decide (e.1 = k')) = none := by
        simp; exact fun h => e h.symm
      rw [this, Option.or_none]

/-- The state after a list of entries. -/
theorem kvFold_spec (es : List Str) (st : Bool × KvMap) :
    ((es.foldl kvEntry st).1 = true ↔ st.1 = true ∧ ∀ e ∈ es, ¬ BadEntry e) ∧
    (∀ k v, st.2.get k = some v → (es.foldl kvEntry st).2.get k = some v) ∧
    (∀ k, st.2.get k = none → (∀ e ∈ es, ∀ vs, ¬ GoodEntry e k vs) → (es.foldl kvEntry st).2.get k = none) ∧
    (∀ k pre e post vs, st.2.get k = none → es = pre ++ e :: post → GoodEntry e k vs →
      (∀ e' ∈ pre, ∀ vs', ¬ GoodEntry e' k vs') → (es.foldl kvEntry st).2.get k = some vs) := by
  induction es generalizing st with
  | nil => refine ⟨by simp, by simp, by simp, ?_⟩; intro k pre e post vs _ h; simp at h
  | cons e es ih =>
    rw [List.foldl_cons]
    obtain ⟨i1, i2, i3, i4⟩ := ih (kvEntry st e)
    rcases entry_cases e with hs | ⟨k0, v0, hg⟩ | hb
    · have hng : ∀ k vs, ¬ GoodEntry e k vs := fun k vs h => hs ⟨k, _, h.choose_spec.1⟩
      have hnb : ¬ BadEntry e := by rintro ⟨k, vts, h, _⟩; exact hs ⟨k, vts, h⟩
      rw [kvEntry_skip st e hs] at i1 i2 i3 i4 ⊢
      refine ⟨?_, i2, fun k h0 hn => i3 k h0 (fun e' he' => hn e' (List.mem_cons_of_mem _ he')), ?_⟩
      · rw [i1]; simp [hnb]
      · intro k pre e' post vs h0 he hg hpre
        cases pre with
        | nil => simp at he; rw [← he.1] at hg; exact absurd hg (hng k vs)
        | cons p pre =>
          simp only [List.cons_append, List.cons.injEq] at he
          exact i4 k pre e' post vs h0 he.2 hg (fun x hx => hpre x (List.mem_cons_of_mem _ hx))
    · have hnb := good_not_bad hg
      rw [kvEntry_good st e k0 v0 hg] at i1 i2 i3 i4 ⊢
      refine ⟨by rw [i1]; simp [hnb], ?_, ?_, ?_⟩
      · intro k v h0
        apply i2
        rw [KvMap.get_emplace]
        split_ifs with hc
        · obtain ⟨rfl, hc⟩ := hc; rw [h0] at hc; simp at hc
        · exact h0
      · intro k h0 hn
        apply i3 k
        · rw [KvMap.get_emplace, if_neg]
          · exact h0
          · rintro ⟨rfl, _⟩; exact hn e List.mem_cons_self v0 hg
        · exact fun e' he' => hn e' (List.mem_cons_of_mem _ he')
      · intro k pre e' post vs h0 he hg' hpre
        cases pre with
        | nil =>
          simp only [List.nil_append, List.cons.injEq] at he
          rw [← he.1] at hg'
          obtain ⟨rfl, rfl⟩ := good_unique hg hg'
          apply i2
          rw [KvMap.get_emplace, if_pos ⟨rfl, h0⟩]
        | cons p pre =>
          simp only [List.cons_append, List.cons.injEq] at he
          have hk : k ≠ k0 := by
            rintro rfl
            exact hpre p List.mem_cons_self v0 (he.1 ▸ hg)
          refine i4 k pre e' post vs ?_ he.2 hg' (fun x hx => hpre x (List.mem_cons_of_mem _ hx))
          rw [KvMap.get_emplace, if_neg (fun h => hk h.1)]; exact h0
    · have hng : ∀ k vs, ¬ GoodEntry e k vs := fun k vs h => good_not_bad h hb
      rw [kvEntry_bad st e hb] at i1 i2 i3 i4 ⊢
      refine ⟨?_, i2, fun k h0 hn => i3 k h0 (fun e' he' => hn e' (List.mem_cons_of_mem _ he')), ?_⟩
      · rw [i1]; simp [hb]
      · intro k pre e' post vs h0 he hg hpre
        cases pre with
        | nil => simp at he; rw [← he.1] at hg; exact absurd hg (hng k vs)
        | cons p pre =>
          simp only [List.cons_append, List.cons.injEq] at he
          exact i4 k pre e' post vs h0 he.2 hg (fun x hx => hpre x (List.mem_cons_of_mem _ hx))

theorem parse_eq (s : Str) (hs : s ≠ []) (es : List Str) (h : Fields ',' s es) (kv : KvMap) :
    parseKeyValues s kv = es.foldl kvEntry (true, kv) := by
  have he := (fields_iff _ _ _).1 h
  have := splitDelim_ne_nil ',' s hs
  unfold parseKeyValues
  rw [if_neg hs]
  dsimp only
  rw [if_neg this, he]

/-- C57: an option text has exactly one division into entries. -/
theorem C57_entries (s : Str) : ∃! es, Fields ',' s es :=
  ⟨splitDelim ',' s, (fields_iff _ _ _).2 rfl, fun es h => ((fields_iff _ _ _).1 h).symm⟩

/-- C57: an entry is of unknown shape, or well formed (with one key and one list of values), or has a malformed
number, and only one of these. -/
theorem C57_shape (e : Str) :
    ((¬ ∃ k vts, IsEntry e k vts) ∨ (∃ k vs, GoodEntry e k vs) ∨ BadEntry e) ∧
    (∀ k vs, GoodEntry e k vs → ¬ BadEntry e ∧ ∀ k' vs', GoodEntry e k' vs' → k' = k ∧ vs' = vs) :=
  ⟨entry_cases e, fun _ _ h => ⟨good_not_bad h, fun _ _ h' => good_unique h' h⟩⟩

/-- C57: parsing reports success exactly if the text is not empty and no entry has a malformed number. -/
theorem C57_result (s : Str) (es : List Str) (h : Fields ',' s es) (kv : KvMap) :
    (parseKeyValues s kv).1 = true ↔ s ≠ [] ∧ ∀ e ∈ es, ¬ BadEntry e := by
  by_cases hs : s = []
  · subst hs; simp [parseKeyValues]
  · rw [parse_eq s hs es h, (kvFold_spec es (true, kv)).1]; simp [hs]

/-- C57: a well-formed entry is available under its key, unless the key was given before (by an earlier entry or
in the map passed in): the first one wins. -/
theorem C57_available (s : Str) (pre post : List Str) (e : Str) (h : Fields ',' s (pre ++ e :: post)) (kv : KvMap)
    (k : Int) (vs : List DVal) (he : GoodEntry e k vs) (h0 : kv.get k = none)
    (hpre : ∀ e' ∈ pre, ∀ vs', ¬ GoodEntry e' k vs') : (parseKeyValues s kv).2.get k = some vs := by
  have hs : s ≠ [] := by
    rintro rfl
    have := (fields_iff _ _ _).1 h
    rw [splitDelim_nil] at this; simp at this
  rw [parse_eq s hs _ h]
  exact (kvFold_spec _ (true, kv)).2.2.2 k pre e post vs h0 rfl he hpre

/-- C57: what the map held before stays. -/
theorem C57_kept (s : Str) (kv : KvMap) (k : Int) (v : List DVal) (h0 : kv.get k = some v) :
    (parseKeyValues s kv).2.get k = some v := by
  by_cases hs : s = []
  · subst hs; simpa [parseKeyValues] using h0
  · rw [parse_eq s hs _ ((fields_iff _ _ _).2 rfl)]
    exact (kvFold_spec _ (true, kv)).2.1 k v h0

/-- C57: a key that no well-formed entry gives is not in the map. -/
theorem C57_absent (s : Str) (es : List Str) (h : Fields ',' s es) (kv : KvMap) (k : Int) (h0 : kv.get k = none)
    (hn : ∀ e ∈ es, ∀ vs, ¬ GoodEntry e k vs) : (parseKeyValues s kv).2.get k = none := by
  by_cases hs : s = []
  · subst hs; simpa [parseKeyValues] using h0
  · rw [parse_eq s hs _ h]
    exact (kvFold_spec _ (true, kv)).2.2.1 k h0 hn

/-- C57: an entry of unknown shape is skipped: result and map are those of the text without it. -/
theorem C57_skip (s s' : Str) (pre post : List Str) (e : Str) (h : Fields ',' s (pre ++ e :: post))
    (h' : Fields ',' s' (pre ++ post)) (hs' : s' ≠ []) (he : ¬ ∃ k vts, IsEntry e k vts) (kv : KvMap) :
    parseKeyValues s kv = parseKeyValues s' kv := by
  have hs : s ≠ [] := by
    rintro rfl
    have := (fields_iff _ _ _).1 h
    rw [splitDelim_nil] at this; simp at this
  rw [parse_eq s hs _ h, parse_eq s' hs' _ h', List.foldl_append, List.foldl_append, List.foldl_cons,
    kvEntry_skip _ _ he]

example : parseKeyValues "1:2.5|3,x:1,1:9,-4:7".toList [] = (true, [(1, [.fin (5/2), .fin 3]), (-4, [.fin 7])]) := by
  decide +kernel
example : parseKeyValues "1:2,3:a|4".toList [] = (false, [(1, [.fin 2])]) := by decide +kernel

/-- The hypotheses above are met: the entries of such a text, a good one, a bad one and one of unknown shape. -/
example : Fields ',' "1:2.5|3,x:1,3:a".toList ["1:2.5|3".toList, "x:1".toList, "3:a".toList] :=
  (fields_iff _ _ _).2 (by decide +kernel)
example : GoodEntry "1:2.5|3".toList 1 [.fin (5/2), .fin 3] :=
  ⟨["2.5".toList, "3".toList], (isEntry_iff _ _ _).2 ⟨"1".toList, "2.5|3".toList, by decide +kernel, by decide +kernel,
    by decide +kernel⟩, .cons ((valueText_iff _ _).2 (by decide +kernel))
      (.cons ((valueText_iff _ _).2 (by decide +kernel)) .nil)⟩
example : BadEntry "3:a".toList :=
  ⟨3, ["a".toList], (isEntry_iff _ _ _).2 ⟨"3".toList, "a".toList, by decide +kernel, by decide +kernel,
    by decide +kernel⟩, "a".toList, by simp, by
      rintro ⟨v, hv⟩
      have := (valueText_iff _ _).1 hv
      have h2 : (isDouble "a".toList).2 = false := by decide +kernel
      rw [this] at h2; simp at h2⟩
example : ¬ ∃ k vts, IsEntry "x:1".toList k vts := by
  rintro ⟨k, vts, h⟩
  obtain ⟨kt, vt, h1, h2, _⟩ := (isEntry_iff _ _ _).1 h
  have e : splitDelim ':' "x:1".toList = ["x".toList, "1".toList] := by decide +kernel
  rw [e] at h1
  simp only [List.cons.injEq, and_true] at h1
  rw [← h1.1] at h2
  have h3 : (isInt "x".toList).2 = false := by decide +kernel
  rw [h2] at h3; simp at h3

end CCGL
