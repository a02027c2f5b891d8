import Verif.Spec.Types
import Verif.Props.Str
/-!
# C25: raster type names
-/
namespace CCGL
open Spec

theorem stringMatch_false_of {s a b : Str} (h : stringMatch s a = true) (hab : stringMatch a b = false) :
    stringMatch s b = false := by
  rw [stringMatch, beq_iff_eq] at h
  unfold stringMatch at hab ⊢
  rw [h]; exact hab

/-- C25: a text is recognised as type `t` exactly if it is one of the names of `t` in any letter case. -/
theorem C25_names (s : Str) (t : RDT) (ht : t ≠ .unknown) :
    stringToRdt s = t ↔ ∃ n ∈ typeNames t, SameText s n := by
  constructor
  · intro h
    unfold stringToRdt at h
    simp only [← C34_match]
    split_ifs at h with h1 h2 h3 h4 h5 h6 h7 h8 h9 h10 <;> subst h <;>
      first
      | exact absurd rfl ht
      | (simp only [typeNames, List.mem_cons, List.not_mem_nil, or_false, exists_eq_or_imp, exists_eq_left,
          Bool.or_eq_true] at *
         first
         | assumption
         | (rcases h1 with (h | h) | h <;> simp only [h, true_or, or_true])
         | (rcases h2 with (h | h) | h <;> simp only [h, true_or, or_true]))
  · rintro ⟨n, hn, hs⟩
    rw [← C34_match] at hs
    have key : ∀ b : Str, stringMatch n b = false → stringMatch s b = false :=
      fun b hb => stringMatch_false_of hs hb
    have key2 : ∀ b : Str, stringMatch n b = true → stringMatch s b = true :=
      fun b hb => C34_trans s n b hs hb
    have e : ∀ b : Str, stringMatch s b = stringMatch n b := by
      intro b
      cases h : stringMatch n b with
      | true => exact key2 b h
      | false => exact key b h
    unfold stringToRdt
    simp only [e]
    cases t <;> simp only [typeNames, List.mem_cons, List.not_mem_nil, or_false] at hn <;>
      first | exact absurd rfl ht | (rcases hn with rfl | rfl | rfl <;> decide) | (rcases hn with rfl | rfl <;> decide)

/-- C25: names of no type give Unknown. -/
theorem C25_unknown (s : Str) :
    stringToRdt s = .unknown ↔ ∀ t, ∀ n ∈ typeNames t, ¬ SameText s n := by
  constructor
  · intro h t n hn hs
    by_cases ht : t = .unknown
    · subst ht; simp [typeNames] at hn
    · rw [(C25_names s t ht).2 ⟨n, hn, hs⟩] at h
      exact ht h
  · intro h
    by_contra hne
    obtain ⟨n, hn, hs⟩ := (C25_names s _ hne).1 rfl
    exact h _ n hn hs

/-- C25: the name of each type is read back as this type; in any letter case. -/
theorem C25_roundtrip (t : RDT) : stringToRdt (rdtToString t.code) = t := by
  cases t <;> decide

theorem C25_roundtrip_case (t : RDT) (s : Str) (h : SameText s (rdtToString t.code)) : stringToRdt s = t := by
  by_cases ht : t = .unknown
  · subst ht
    rw [C25_unknown]
    intro t' n hn hs
    have hs' := (C34_match _ _).2 hs
    have h' := (C34_match _ _).2 h
    have : stringMatch "Unknown".toList n = true :=
      C34_trans _ _ _ (by rw [C34_symm]; exact h') hs'
    cases t' <;> simp only [typeNames, List.mem_cons, List.not_mem_nil, or_false] at hn <;>
      first | (rcases hn with rfl | rfl | rfl <;> revert this <;> decide) |
        (rcases hn with rfl | rfl <;> revert this <;> decide)
  · refine (C25_names s t ht).2 ⟨rdtToString t.code, ?_, h⟩
    cases t <;> first | exact absurd rfl ht | decide

/-- C25: numbers that are no enumerator have the name Unknown, which is read back as Unknown. -/
theorem C25_other (type : Int) (h : ∀ t : RDT, type ≠ t.code) : rdtToString type = "Unknown".toList := by
  unfold rdtToString
  rw [if_neg (h _), if_neg (h _), if_neg (h _), if_neg (h _), if_neg (h _), if_neg (h _), if_neg (h _),
    if_neg (h _), if_neg (h _), if_neg (h _)]

/-- C25: distinct types have distinct names. -/
theorem C25_injective (t t' : RDT) (h : rdtToString t.code = rdtToString t'.code) : t = t' := by
  rw [← C25_roundtrip t, ← C25_roundtrip t', h]

/-- C25: the default NoData value is a value of the type, for every type but the unsigned 64-bit one. -/
theorem C25_default_partial (t : RDT) (ht : t ≠ .unknown) (h64 : t ≠ .uint64) :
    Representable t (defaultNoData t) := by
  cases t with
  | unknown => exact absurd rfl ht
  | uint64 => exact absurd rfl h64
  | uint8 => exact ⟨255, by decide +kernel, by decide, by decide⟩
  | int8 => exact ⟨-128, by decide +kernel, by decide, by decide⟩
  | uint16 => exact ⟨65535, by decide +kernel, by decide, by decide⟩
  | int16 => exact ⟨-32768, by decide +kernel, by decide, by decide⟩
  | uint32 => exact ⟨4294967295, by decide +kernel, by decide, by decide⟩
  | int32 => exact ⟨-2147483648, by decide +kernel, by decide, by decide⟩
  | int64 => exact ⟨-9223372036854775808, by decide +kernel, by decide, by decide⟩
  | float => exact ⟨-(2 ^ 24 - 1), 104, by decide, by decide, by decide, by norm_num [defaultNoData, MISSINGFLOAT]⟩
  | double =>
    exact ⟨-(2 ^ 24 - 1), 104, by decide, by decide, by decide, by norm_num [defaultNoData, MISSINGFLOAT]⟩

/-- C25 is false of the unsigned 64-bit type: its default NoData is 2^64, one more than its largest value
(`UINT64_MAX` rounded to `double`). -/
theorem C25_false_uint64 :
    defaultNoData .uint64 = 2 ^ 64 ∧ ¬ Representable .uint64 (defaultNoData .uint64) := by
  have e : defaultNoData .uint64 = 2 ^ 64 := by decide +kernel
  refine ⟨e, ?_⟩
  rw [e]
  rintro ⟨n, hn, _, h2⟩
  have : (n : ℚ) ≤ 18446744073709551615 := by exact_mod_cast h2
  rw [← hn] at this
  norm_num at this

/-- C25: the type of a raster is derived from its C++ type; types of the same width that are not `int64_t`
(`long long`) and `bool` are not recognised. -/
theorem C25_ctype (t : CType) :
    typeToRdt t = if t = .longlong ∨ t = .ulonglong ∨ t = .bool then .unknown else (ctypeValues t).getD .unknown := by
  cases t <;> rfl

example : stringToRdt "gdt_float32".toList = .float := by decide
example : stringToRdt "float64".toList = .unknown := by decide
example : ∀ t : RDT, (11 : Int) ≠ t.code := by intro t; cases t <;> decide
example : SameText "Int16".toList (rdtToString RDT.int16.code) := by rw [← C34_match]; decide

end CCGL
