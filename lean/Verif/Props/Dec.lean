import Verif.Lemmas.Dec
/-!
# Recognising number texts and splitting texts into numbers (C37, C39)
-/
namespace CCGL
open Spec

/-- C37: `IsNumber` holds exactly for number texts (decimal, hexadecimal, infinity and not-a-number, with leading
white space and sign) and for the empty text. -/
theorem C37_isNumber (s : Str) : isNumber s = true ↔ s = [] ∨ ∃ v, NumText s v := by
  unfold isNumber isDouble
  simp only [decide_eq_true_eq]
  constructor
  · intro h
    rcases strtod_full h with h | h
    · exact Or.inl h
    · exact Or.inr ⟨_, h⟩
  · rintro (rfl | ⟨v, h⟩)
    · decide +kernel
    · rw [strtod_text h]

/-- C37 on non-empty texts. Missing: the empty text, which is accepted although it is no number
(`C37_false_empty`). -/
theorem C37_isNumber_partial (s : Str) (hs : s ≠ []) : isNumber s = true ↔ ∃ v, NumText s v := by
  rw [C37_isNumber]; simp [hs]

/-- C37: the value `IsDouble` reports for a number text is the number it denotes. -/
theorem C37_value (s : Str) (v : DVal) (h : NumText s v) : isDouble s = (v, true) ∧ toDouble s = v := by
  unfold toDouble isDouble
  rw [strtod_text h]
  simp

/-- A text denotes at most one number. -/
theorem C37_value_unique (s : Str) (v w : DVal) (h : NumText s v) (h' : NumText s w) : v = w := by
  have h1 := (C37_value s v h).2
  have h2 := (C37_value s w h').2
  rw [← h1, h2]

/-- C37 is false of the code for the empty text: `IsNumber("")` is true, yet it is no number text. -/
theorem C37_false_empty : isNumber [] = true ∧ ¬ ∃ v, NumText [] v := by
  refine ⟨(C37_isNumber []).2 (Or.inl rfl), ?_⟩
  rintro ⟨v, h⟩
  generalize hs : ([] : Str) = s at h
  cases h with
  | plain ws body v hw hb =>
    obtain ⟨c, t, rfl, _⟩ := numBody_head hb
    simp at hs
  | plus ws body v hw hb => simp at hs
  | minus ws body v hw hb => simp at hs

example : NumText "-12.50e+1".toList (.fin (-125)) := by
  have h := DecText.point "12".toList "50".toList "e+1".toList 1 (by decide) (by unfold Digits; decide)
    (by unfold Digits; decide) (.plus 'e' "1".toList (by decide) (by decide) (by unfold Digits; decide))
  have h2 := NumText.minus [] _ _ (by simp) (.dec _ _ h)
  have e : (DVal.fin ((decNum ("12".toList ++ "50".toList) : ℚ) / 10 ^ "50".toList.length * (10 : ℚ) ^ (1 : Int))).negate =
      .fin (-125) := by
    have e1 : decNum ("12".toList ++ "50".toList) = 1250 := by decide
    have e2 : "50".toList.length = 2 := by decide
    rw [e1, e2]
    simp only [DVal.negate]
    congr 1
    norm_num
  rw [e] at h2
  exact h2
example : isNumber "12.5kg".toList = false := by decide +kernel
example : isNumber "0x1F".toList = true := by decide +kernel
example : isNumber "  ".toList = false := by decide +kernel
example : isNumber "1 ".toList = false := by decide +kernel

/-- Text with at least one decimal digit. -/
def Spec.HasDigit (f : List Char) : Prop := ∃ c ∈ f, 48 ≤ c.toNat ∧ c.toNat ≤ 57

theorem any_digit_iff (f : Str) : f.any isDigitC = true ↔ HasDigit f := by
  simp only [List.any_eq_true, isDigitC_iff, HasDigit]

theorem filterMap_length_eq {α β : Type} (g : α → Option β) (l : List α) :
    (l.filterMap g).length = l.length ↔ ∀ x ∈ l, (g x).isSome = true := by
  induction l with
  | nil => simp
  | cons a l ih =>
    have hle := List.length_filterMap_le g l
    cases h : g a with
    | none => rw [List.filterMap_cons_none h]; simp [h]; omega
    | some b => rw [List.filterMap_cons_some h]; simp [h, ih]

/-- C39, what the code does for every non-empty list of fields: it is successful exactly if every field contains
a digit; its values are, in order, what `strtod` makes of the fields that contain one. -/
theorem C39_exact {τ : Type} (cast : DVal → τ) (d : Char) (fs : List Str) (old : List τ) (hne : fs ≠ [])
    (hd : ∀ f ∈ fs, d ∉ f) (hlast : fs.getLast? ≠ some []) :
    ((splitStringForValues cast (join d fs) d old).1 = true ↔ ∀ f ∈ fs, HasDigit f) ∧
    (splitStringForValues cast (join d fs) d old).2 =
      (fs.filter (fun f => f.any isDigitC)).map (fun f => cast (strtod f).1) := by
  unfold splitStringForValues
  rw [splitDelim_join d fs hd hlast, if_neg hne]
  constructor
  · simp only [decide_eq_true_eq]
    rw [eq_comm, filterMap_length_eq]
    constructor
    · intro h f hf
      have := h f hf
      by_cases h' : f.any isDigitC = true
      · exact (any_digit_iff f).1 h'
      · simp [h'] at this
    · intro h f hf
      rw [if_pos ((any_digit_iff f).2 (h f hf))]; rfl
  · dsimp only
    clear hne hd hlast
    induction fs with
    | nil => rfl
    | cons f fs ih =>
      by_cases h' : f.any isDigitC = true
      · rw [List.filterMap_cons_some (b := cast (strtod f).1) (by rw [if_pos h']), List.filter_cons_of_pos (p := fun f : Str => f.any isDigitC) h', ih]
        rfl
      · rw [List.filterMap_cons_none (by rw [if_neg h']), List.filter_cons_of_neg (p := fun f : Str => f.any isDigitC) h', ih]

/-- C39 for texts every field of which is either a number text with a digit (denoting `val f`) or has no digit and
is no number text: success exactly if every field is a number, and the values are the numbers of the number
fields in order. Missing: fields such as `a1` (counted as converted, `C39_false`) and `inf`/`nan` (not counted,
`C39_false_inf`). -/
theorem C39_values_partial {τ : Type} (cast : DVal → τ) (d : Char) (fs : List Str) (old : List τ) (hne : fs ≠ [])
    (hd : ∀ f ∈ fs, d ∉ f) (hlast : fs.getLast? ≠ some []) (val : Str → Option DVal)
    (hnum : ∀ f ∈ fs, (∃ v, val f = some v ∧ NumText f v ∧ HasDigit f) ∨
      (val f = none ∧ (∀ v, ¬ NumText f v) ∧ ¬ HasDigit f)) :
    ((splitStringForValues cast (join d fs) d old).1 = true ↔ ∀ f ∈ fs, ∃ v, NumText f v) ∧
    (splitStringForValues cast (join d fs) d old).2 = (fs.filterMap val).map cast := by
  obtain ⟨h1, h2⟩ := C39_exact cast d fs old hne hd hlast
  constructor
  · rw [h1]
    constructor
    · intro h f hf
      rcases hnum f hf with ⟨v, _, hv, _⟩ | ⟨_, _, h'⟩
      · exact ⟨v, hv⟩
      · exact absurd (h f hf) h'
    · intro h f hf
      rcases hnum f hf with ⟨v, _, _, hv⟩ | ⟨_, h', _⟩
      · exact hv
      · obtain ⟨v, hv⟩ := h f hf; exact absurd hv (h' v)
  · rw [h2]
    clear hne hd hlast h1 h2
    induction fs with
    | nil => rfl
    | cons f fs ih =>
      have ih := ih (fun g hg => hnum g (by simp [hg]))
      rcases hnum f (by simp) with ⟨v, hv, ht, hg⟩ | ⟨hv, _, hg⟩
      · rw [List.filter_cons_of_pos (p := fun f : Str => f.any isDigitC) ((any_digit_iff f).2 hg), List.filterMap_cons_some hv, List.map_cons, List.map_cons,
          ih, strtod_text ht]
      · rw [List.filter_cons_of_neg (p := fun f : Str => f.any isDigitC) (by rw [any_digit_iff]; exact hg), List.filterMap_cons_none hv, ih]

/-- C39: when every field is a number with a digit, the call succeeds and the i-th value is the conversion of the
i-th field. -/
theorem C39_success {τ : Type} (cast : DVal → τ) (d : Char) (fs : List Str) (vs : List DVal) (old : List τ)
    (hne : fs ≠ []) (hd : ∀ f ∈ fs, d ∉ f)
    (hv : List.Forall₂ (fun f v => NumText f v ∧ HasDigit f) fs vs) :
    splitStringForValues cast (join d fs) d old = (true, vs.map cast) := by
  have hall : ∀ f ∈ fs, HasDigit f := by
    intro f hf
    obtain ⟨v, -, h⟩ := (List.forall₂_iff_zip.1 hv |> fun h => by
      obtain ⟨i, hi, rfl⟩ := List.mem_iff_getElem.1 hf
      have hl : fs.length = vs.length := hv.length_eq
      exact ⟨vs[i]'(by omega), trivial, h.2 (by
        rw [List.mem_iff_getElem]
        exact ⟨i, by simp; omega, by simp⟩)⟩ : ∃ v, True ∧ (NumText f v ∧ HasDigit f))
    exact h.2
  have hlast : fs.getLast? ≠ some [] := by
    intro h
    obtain ⟨c, hc, _⟩ := hall [] (List.mem_of_getLast? h)
    simp at hc
  obtain ⟨h1, h2⟩ := C39_exact cast d fs old hne hd hlast
  apply Prod.ext
  · exact h1.2 hall
  · rw [h2, List.filter_eq_self.2 (fun f hf => (any_digit_iff f).2 (hall f hf))]
    clear hne hd hall hlast h1 h2
    induction hv with
    | nil => rfl
    | cons h _ ih => simp only [List.map_cons, ih, strtod_text h.1]

/-- C39: a text without fields is refused and leaves the values as they were. -/
theorem C39_empty {τ : Type} (cast : DVal → τ) (d : Char) (old : List τ) :
    splitStringForValues cast [] d old = (false, old) := by
  unfold splitStringForValues; rw [splitDelim_nil]; rfl

/-- C39 is false of the code: the field `a1` is no number, but the call succeeds with value 0. -/
theorem C39_false : splitStringForValues id "a1".toList ',' [] = (true, [.fin 0]) ∧ ¬ ∃ v, NumText "a1".toList v := by
  refine ⟨by decide +kernel, ?_⟩
  have h : isNumber "a1".toList = false := by decide +kernel
  rw [← C37_isNumber_partial _ (by decide), h]; simp

/-- C39 is false of the code: the number text `inf` is not converted. -/
theorem C39_false_inf : splitStringForValues id "inf".toList ',' [] = (false, []) ∧
    NumText "inf".toList (.inf false) := by
  refine ⟨by decide +kernel, ?_⟩
  exact .plain [] "inf".toList _ (by simp) (.inf _ (Or.inl ((sameText_lower _ _ (by decide)).2 (by decide))))

example : splitStringForValues id "1.5,x,-2".toList ',' [] = (false, [.fin (3/2), .fin (-2)]) := by decide +kernel
example : splitStringForValues id "1.5,-2".toList ',' [] = (true, [.fin (3/2), .fin (-2)]) := by decide +kernel

end CCGL
