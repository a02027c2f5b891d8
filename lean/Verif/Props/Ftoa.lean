import Verif.Spec.Ftoa
import Verif.Lemmas.DecFmt
import Verif.Lemmas.Float
import Verif.Props.Dec
/-!
# C96: floating numbers as text (`ftoa`); C97: wide and narrow strings
-/
namespace CCGL
namespace FText
open CCGL.Spec (Digits decNum NumText NumBody DecText Plain Nearest6 signed)

theorem natToDec_length_le (k : Nat) : ∀ n : Nat, n < 10 ^ (k + 1) → (natToDec n).length ≤ k + 1 := by
  induction k with
  | zero => intro n h; rw [natToDec_lt n (by simpa using h)]; simp
  | succ k ih =>
    intro n h
    by_cases hn : n < 10
    · rw [natToDec_lt n hn]; simp
    · rw [natToDec_ge n hn, List.length_append]
      have := ih (n / 10) (by rw [Nat.div_lt_iff_lt_mul (by omega)]; rw [pow_succ] at h; exact h)
      simp only [List.length_cons, List.length_nil]
      omega

theorem stripZeros_last (s : Str) : (stripZeros s).getLast? ≠ some '0' := by
  unfold stripZeros
  rw [List.getLast?_reverse]
  intro h
  have := List.head?_dropWhile_not (fun c => decide (c = '0')) s.reverse
  rw [h] at this
  simp at this

theorem trimZ_zeros (x : Str) (hx : x ≠ []) (hl : x.getLast? ≠ some '0') (z : Nat) :
    trimZ (x ++ List.replicate z '0') (x ++ List.replicate z '0').length = .ok x.length := by
  have key : ∀ k, k ≤ z → trimZ (x ++ List.replicate z '0') (x.length + k) = .ok x.length := by
    intro k
    induction k with
    | zero =>
      intro _
      obtain ⟨n, hn⟩ : ∃ n, x.length = n + 1 := ⟨x.length - 1, by have := List.length_pos_iff.2 hx; omega⟩
      rw [Nat.add_zero, hn]
      unfold trimZ
      rw [List.getElem?_append_left (by omega)]
      rw [List.getLast?_eq_getElem?, hn] at hl
      simp only [Nat.add_sub_cancel] at hl
      rw [if_neg hl]
    | succ k ih =>
      intro hk
      rw [← Nat.add_assoc]
      unfold trimZ
      rw [List.getElem?_append_right (by omega), Nat.add_sub_cancel_left, List.getElem?_replicate, if_pos (show k < z by omega), if_pos rfl]
      exact ih (by omega)
  have := key z (le_refl z)
  rw [List.length_append, List.length_replicate]
  exact this

theorem micro_near {a : ℚ} (ha : 0 ≤ a) : ((micro a : Nat) : Int) = roundEven (a * 10 ^ 6) := by
  unfold micro
  have h : (0 : ℚ) ≤ a * 10 ^ 6 := by positivity
  have h1 : 0 ≤ ⌊a * 10 ^ 6⌋ := Int.floor_nonneg.2 h
  have : 0 ≤ roundEven (a * 10 ^ 6) := by
    unfold roundEven
    dsimp only
    split_ifs <;> omega
  omega

theorem big_bound : (2 : ℕ) ^ 1024 + 1 ≤ 10 ^ 309 := by decide +kernel

theorem micro_lt_gen {a : ℚ} (h0 : 0 ≤ a) {A B : ℕ} (h : a < (A : ℚ)) (hAB : A + 1 ≤ B) : micro a / 10 ^ 6 < B := by
  have hm := micro_near h0
  have hn := roundEven_near (a * 10 ^ 6)
  rw [← hm, abs_le] at hn
  have h1 : (micro a : ℚ) ≤ a * 10 ^ 6 + 1 / 2 := by have := hn.2; push_cast at this; linarith
  have h2 : (A : ℚ) + 1 ≤ B := by exact_mod_cast hAB
  have h3 : (micro a : ℚ) < B * 10 ^ 6 := by nlinarith
  rw [Nat.div_lt_iff_lt_mul (by norm_num)]
  exact_mod_cast h3

theorem micro_lt {a : ℚ} (h0 : 0 ≤ a) (h : a < 2 ^ 1024) : micro a / 10 ^ 6 < 10 ^ (308 + 1) :=
  micro_lt_gen h0 (A := 2 ^ 1024) (by rw [Nat.cast_pow]; exact h) big_bound

/-- The text of a finite number. -/
theorem ftoa_fin (neg : Bool) {a : ℚ} (h0 : 0 ≤ a) (h : a < 2 ^ 1024) :
    ftoa (.fin neg a) = .ok (signText neg ++ fixedText (micro a) 6) := by
  have hlen := natToDec_length_le 308 _ (micro_lt h0 h)
  generalize hip : natToDec (micro a / 10 ^ 6) = ip at hlen
  have hdig0 := padDec_digits 6 (micro a % 10 ^ 6)
  have hpd := padDec_length 6 (micro a % 10 ^ 6)
  obtain ⟨z, hz⟩ := stripZeros_spec (padDec 6 (micro a % 10 ^ 6))
  have hlast := stripZeros_last (padDec 6 (micro a % 10 ^ 6))
  have hfix : fixedText (micro a) 6 = ip ++ (if stripZeros (padDec 6 (micro a % 10 ^ 6)) = [] then [] else '.' :: stripZeros (padDec 6 (micro a % 10 ^ 6))) := by
    unfold fixedText; dsimp only; rw [hip]
  rw [hfix]
  have hsg : (signText neg).length ≤ 1 := by cases neg <;> simp [signText]
  have hfmt : fmtF (.fin neg a) = (signText neg ++ (ip ++ ['.'])) ++ padDec 6 (micro a % 10 ^ 6) := by
    unfold fmtF; dsimp only; rw [hip]; simp
  have hdot1 : '.' ∉ stripZeros (padDec 6 (micro a % 10 ^ 6)) := by
    intro hm
    have := hdig0 '.' (by rw [hz]; exact List.mem_append_left _ hm)
    revert this; decide
  clear hdig0
  generalize stripZeros (padDec 6 (micro a % 10 ^ 6)) = fr at *
  generalize padDec 6 (micro a % 10 ^ 6) = pd at *
  subst hz
  have htake : (fmtF (.fin neg a)).take (320 - 1) = (signText neg ++ (ip ++ ['.']) ++ fr) ++ List.replicate z '0' := by
    rw [hfmt, List.take_of_length_le (by simp only [List.length_append, List.length_cons, List.length_nil] at *; omega), List.append_assoc]
    rw [List.append_assoc]
    simp
  have hx : signText neg ++ (ip ++ ['.']) ++ fr ≠ [] := by simp
  have hl : (signText neg ++ (ip ++ ['.']) ++ fr).getLast? ≠ some '0' := by
    by_cases hf : fr = []
    · subst hf; rw [List.append_nil, ← List.append_assoc, List.getLast?_append]; simp
    · rw [List.getLast?_append_of_ne_nil _ hf]; exact hlast
  have hdot : '.' ∈ (signText neg ++ (ip ++ ['.']) ++ fr) ++ List.replicate z '0' := by simp
  have hg : gcvtS 320 (.fin neg a) = .ok (signText neg ++ (ip ++ if fr = [] then [] else '.' :: fr)) := by
    unfold gcvtS
    dsimp only
    rw [htake, if_pos hdot, trimZ_zeros _ hx hl z, Out.ok_bind, List.take_left]
    by_cases hf : fr = []
    · subst hf
      rw [List.append_nil, ← List.append_assoc, List.getLast?_append]
      simp
    · rw [List.getLast?_append_of_ne_nil _ hf, if_neg hf]
      rw [if_neg (fun hd => hdot1 (List.mem_of_getLast? hd))]
      simp
  unfold ftoa
  rw [hg, Out.ok_bind]
  have hipne : ip ≠ [] := by rw [← hip]; exact natToDec_ne_nil _
  have hipd : '.' ∉ ip := by
    intro hm
    have := natToDec_digits _ '.' (by rw [hip]; exact hm)
    revert this; decide
  rw [if_neg (by simp [hipne])]
  rw [if_neg]
  intro hl'
  rw [← List.append_assoc] at hl'
  by_cases hf : fr = []
  · rw [if_pos hf, List.append_nil, List.getLast?_append_of_ne_nil _ hipne] at hl'
    exact hipd (List.mem_of_getLast? hl')
  · rw [if_neg hf, List.getLast?_append_of_ne_nil _ (by simp), ← List.singleton_append, List.getLast?_append_of_ne_nil _ hf] at hl'
    exact hdot1 (List.mem_of_getLast? hl')

theorem roundEven_half {q : ℚ} (h : |(roundEven q : ℚ) - q| = 1 / 2) : roundEven q % 2 = 0 := by
  unfold roundEven at h ⊢
  have h1 := Int.floor_le q
  have h2 := Int.lt_floor_add_one q
  dsimp only at h ⊢
  split_ifs at h ⊢ with a b c
  · rw [abs_of_nonpos (by linarith)] at h; linarith
  · push_cast at h; rw [abs_of_nonneg (by linarith)] at h; linarith
  · exact c
  · omega

theorem roundEven_unique {q : ℚ} {k : Int} (h : |(k : ℚ) - q| < 1 / 2) : roundEven q = k := by
  have h1 := roundEven_near q
  rw [abs_le] at h1
  rw [abs_lt] at h
  have a : (roundEven q : ℚ) < k + 1 := by linarith
  have b : (k : ℚ) < roundEven q + 1 := by linarith
  have a' : roundEven q < k + 1 := by exact_mod_cast a
  have b' : k < roundEven q + 1 := by exact_mod_cast b
  omega

/-- The number the text of `ftoa` denotes. -/
def shown (neg : Bool) (a : ℚ) : ℚ := signed neg ((micro a : ℚ) / 10 ^ 6)

theorem text_num (neg : Bool) (a : ℚ) : NumText (signText neg ++ fixedText (micro a) 6) (.fin (shown neg a)) := by
  have h := fixedText_dec (micro a) 6 [] 0 .absent
  rw [List.append_nil, zpow_zero, mul_one] at h
  cases neg with
  | false => exact NumText.plain [] _ _ (by simp) (.dec _ _ h)
  | true => exact NumText.minus [] _ _ (by simp) (.dec _ _ h)

theorem fixedText_plain (neg : Bool) (m : Nat) : Plain neg (signText neg ++ fixedText m 6) := by
  obtain ⟨z, hz⟩ := stripZeros_spec (padDec 6 (m % 10 ^ 6))
  have hdig := padDec_digits 6 (m % 10 ^ 6)
  have hlen := padDec_length 6 (m % 10 ^ 6)
  refine ⟨natToDec (m / 10 ^ 6), stripZeros (padDec 6 (m % 10 ^ 6)), ?_, natToDec_digits _, natToDec_ne_nil _, ?_, ?_, ?_, stripZeros_last _⟩
  · unfold fixedText signText
    dsimp only
    rw [List.append_assoc]
  · intro h
    have := natToDec_head _ h
    rw [this]
    rw [natToDec_lt 0 (by omega)]
    rfl
  · intro c hc
    exact hdig c (by rw [hz]; exact List.mem_append_left _ hc)
  · have := congrArg List.length hz
    rw [hlen, List.length_append, List.length_replicate] at this
    omega

theorem shown_nearest (neg : Bool) {a : ℚ} (h0 : 0 ≤ a) : Nearest6 (signed neg a) (shown neg a) := by
  have hm := micro_near h0
  have hn := roundEven_near (a * 10 ^ 6)
  have hh := roundEven_half (q := a * 10 ^ 6)
  rw [← hm] at hn hh
  have hq : (((micro a : Nat) : Int) : ℚ) = (micro a : ℚ) := by push_cast; rfl
  rw [hq] at hn hh
  have e : |(micro a : ℚ) / 10 ^ 6 - a| = |(micro a : ℚ) - a * 10 ^ 6| / 10 ^ 6 := by
    rw [show (micro a : ℚ) / 10 ^ 6 - a = ((micro a : ℚ) - a * 10 ^ 6) / 10 ^ 6 by field_simp, abs_div]
    norm_num
  have e2 : |shown neg a - signed neg a| = |(micro a : ℚ) - a * 10 ^ 6| / 10 ^ 6 := by
    unfold shown signed
    cases neg with
    | false => exact e
    | true =>
      rw [← e, ← abs_neg]
      congr 1
      simp only [if_true]
      ring
  refine ⟨if neg then -(micro a : Int) else micro a, ?_, ?_, ?_⟩
  · unfold shown signed
    cases neg
    · simp
    · simp only [if_true]; push_cast; ring
  · rw [e2]
    apply div_le_div_of_nonneg_right hn (by norm_num)
  · rw [e2]
    intro h
    have h' : |(micro a : ℚ) - a * 10 ^ 6| = 1 / 2 := by
      rw [div_eq_div_iff (by norm_num) (by norm_num)] at h
      nlinarith
    have := hh h'
    cases neg <;> simp only [if_true, if_false, Bool.false_eq_true] <;> omega

/-- C96: for every finite `double` `ftoa` ends normally (its buffer is large enough), and its text is the shortest plain decimal text of the number with six
decimals nearest to the argument (the even one in the middle); reading it gives that number. -/
theorem C96_text (neg : Bool) {a : ℚ} (h0 : 0 ≤ a) (h : a < 2 ^ 1024) :
    ∃ s v, ftoa (.fin neg a) = .ok s ∧ Plain neg s ∧ NumText s (.fin v) ∧ isNumber s = true ∧ toDouble s = .fin v ∧ Nearest6 (signed neg a) v := by
  have ht := text_num neg a
  have hv := C37_value _ _ ht
  refine ⟨_, shown neg a, ftoa_fin neg h0 h, fixedText_plain neg _, ht, ?_, hv.2, shown_nearest neg h0⟩
  unfold isNumber
  rw [hv.1]

/-- C96: numbers that have six decimals at most are shown exactly. -/
theorem C96_exact (neg : Bool) {a : ℚ} (h0 : 0 ≤ a) (h : a < 2 ^ 1024) (hd : ∃ z : Int, a = z / 10 ^ 6) :
    ∃ s, ftoa (.fin neg a) = .ok s ∧ NumText s (.fin (signed neg a)) := by
  refine ⟨_, ftoa_fin neg h0 h, ?_⟩
  have ht := text_num neg a
  obtain ⟨z, hz⟩ := hd
  have hm := micro_near h0
  have e : a * 10 ^ 6 = (z : ℚ) := by rw [hz]; field_simp
  rw [e, roundEven_int] at hm
  have : shown neg a = signed neg a := by
    have h1 : (micro a : ℚ) / 10 ^ 6 = a := by
      have : (micro a : ℚ) = z := by exact_mod_cast hm
      rw [this]
      exact hz.symm
    unfold shown
    rw [h1]
  rwa [this] at ht

open Flt in
/-- C96: a decimal number `d` with six decimals below 2^33 (about 8.5e9) survives: if the program holds the `double` nearest to `d`, `ftoa` shows exactly `d`,
and rounding what is read gives the same `double` again. -/
theorem C96_decimal (R : Rounding) (z : Int) (hz : |(z : ℝ) / 10 ^ 6| < 2 ^ 33) (neg : Bool) {a : ℚ} (h0 : 0 ≤ a)
    (hx : ((signed neg a : ℚ) : ℝ) = R.fl ((z : ℝ) / 10 ^ 6)) :
    ∃ s v, ftoa (.fin neg a) = .ok s ∧ toDouble s = .fin v ∧ v = z / 10 ^ 6 ∧ R.fl (v : ℝ) = ((signed neg a : ℚ) : ℝ) := by
  -- a double near d
  set d : ℝ := (z : ℝ) / 10 ^ 6 with hd
  have hnear : |R.fl d - d| ≤ 1 / 2 ^ 21 := by
    have hr := abs_sub_round (d * 2 ^ 20)
    generalize hk : round (d * 2 ^ 20) = k at hr
    have hb : |k| ≤ (2 : ℤ) ^ 53 := by
      have h1 : |d * 2 ^ 20| < 2 ^ 53 := by
        rw [abs_mul, abs_of_pos (by positivity : (0 : ℝ) < 2 ^ 20)]
        calc |d| * 2 ^ 20 < 2 ^ 33 * 2 ^ 20 := by apply mul_lt_mul_of_pos_right hz; positivity
          _ = 2 ^ 53 := by norm_num
      rw [abs_lt] at h1
      generalize d * 2 ^ 20 = y at h1 hr
      rw [abs_le] at hr
      rw [abs_le]
      constructor
      · have : (-(2 ^ 53) - 1 : ℝ) < (k : ℝ) := by linarith [hr.2]
        have : (-(2 ^ 53) - 1 : ℤ) < k := by exact_mod_cast this
        omega
      · have : (k : ℝ) < 2 ^ 53 + 1 := by linarith [hr.1]
        have : k < (2 ^ 53 + 1 : ℤ) := by exact_mod_cast this
        omega
    have hdb := dbl_mul_pow (k) (-20) hb (by norm_num)
    have := R.near d _ hdb
    refine this.trans ?_
    have e : (k : ℝ) * (2 : ℝ) ^ (-20 : ℤ) - d = (k - d * 2 ^ 20) / 2 ^ 20 := by
      rw [zpow_neg, show (2 : ℝ) ^ (20 : ℤ) = 2 ^ 20 by norm_cast]
      field_simp
    rw [e, abs_div, abs_of_pos (by positivity : (0 : ℝ) < 2 ^ 20), abs_sub_comm]
    rw [div_le_div_iff₀ (by positivity) (by positivity)]
    generalize |d * 2 ^ 20 - (k : ℝ)| = y at hr
    norm_num
    linarith
  rw [← hx] at hnear
  have hq : |(signed neg a : ℚ) - (z : ℚ) / 10 ^ 6| ≤ 1 / 2 ^ 21 := by
    have : ((|(signed neg a : ℚ) - (z : ℚ) / 10 ^ 6| : ℚ) : ℝ) ≤ ((1 / 2 ^ 21 : ℚ) : ℝ) := by push_cast; exact hnear
    exact_mod_cast this
  -- the argument is small
  have hzq : |(z : ℚ) / 10 ^ 6| < 2 ^ 33 := by
    have : ((|(z : ℚ) / 10 ^ 6| : ℚ) : ℝ) < ((2 ^ 33 : ℚ) : ℝ) := by push_cast; exact hz
    exact_mod_cast this
  have ha : a < 2 ^ 34 := by
    have h1 : |signed neg a| = a := by unfold signed; cases neg <;> simp [abs_of_nonneg h0]
    rw [← h1]
    have := abs_sub_abs_le_abs_sub (signed neg a) ((z : ℚ) / 10 ^ 6)
    have h2 : (1 : ℚ) / 2 ^ 21 ≤ 1 := by norm_num
    have h3 : (2 : ℚ) ^ 33 + 1 ≤ 2 ^ 34 := by norm_num
    linarith
  have hbig : a < 2 ^ 1024 := lt_trans ha (pow_lt_pow_right₀ (by norm_num) (by norm_num))
  have hm := micro_near h0
  have hre : roundEven (a * 10 ^ 6) = if neg then -z else z := by
    apply roundEven_unique
    have h4 : (10 : ℚ) ^ 6 * (1 / 2 ^ 21) < 1 / 2 := by norm_num
    have h5 : |(((if neg then -z else z : Int)) : ℚ) - a * 10 ^ 6| = 10 ^ 6 * |(signed neg a : ℚ) - (z : ℚ) / 10 ^ 6| := by
      rw [← abs_of_pos (by norm_num : (0 : ℚ) < 10 ^ 6), ← abs_mul, abs_of_pos (by norm_num : (0 : ℚ) < 10 ^ 6)]
      unfold signed
      cases neg with
      | false =>
        simp only [Bool.false_eq_true, if_false]
        rw [abs_sub_comm]
        congr 1
        field_simp
      | true =>
        simp only [if_true]
        push_cast
        congr 1
        field_simp
        ring
    rw [h5]
    calc (10 : ℚ) ^ 6 * |(signed neg a : ℚ) - (z : ℚ) / 10 ^ 6| ≤ 10 ^ 6 * (1 / 2 ^ 21) := by apply mul_le_mul_of_nonneg_left hq; norm_num
      _ < 1 / 2 := h4
  have hs : shown neg a = (z : ℚ) / 10 ^ 6 := by
    rw [hre] at hm
    unfold shown signed
    have hc : (((micro a : Nat) : Int) : ℚ) = (micro a : ℚ) := by push_cast; rfl
    cases neg with
    | false =>
      simp only [Bool.false_eq_true, if_false] at hm ⊢
      rw [← hc, hm]
    | true =>
      simp only [if_true] at hm ⊢
      rw [← hc, hm]
      push_cast
      ring
  have ht := text_num neg a
  refine ⟨_, shown neg a, ftoa_fin neg h0 hbig, (C37_value _ _ ht).2, hs, ?_⟩
  rw [hs]
  push_cast
  rw [hx]

/-- C96: infinities and NaN are shown by their names, which read as such. -/
theorem C96_special (neg : Bool) :
    (∃ s, ftoa (.inf neg) = .ok s ∧ toDouble s = .inf neg) ∧ ∃ s, ftoa (.nan neg) = .ok s ∧ toDouble s = .nan := by
  cases neg
  · exact ⟨⟨"inf".toList, by decide, by decide +kernel⟩, ⟨"nan".toList, by decide, by decide +kernel⟩⟩
  · exact ⟨⟨"-inf".toList, by decide, by decide +kernel⟩, ⟨"-nan".toList, by decide, by decide +kernel⟩⟩

/-- False: small numbers are lost: `2^-24` is shown like 0, and `-2^-24` as a negative zero. -/
theorem C96_false_small : ftoa (.fin false (1 / 2 ^ 24)) = ftoa (.fin false 0) ∧ ftoa (.fin false 0) = .ok ['0'] ∧
    ftoa (.fin true (1 / 2 ^ 24)) = .ok ['-', '0'] := ⟨by decide +kernel, by decide +kernel, by decide +kernel⟩

example : ftoa (.fin true (5 / 2)) = .ok "-2.5".toList ∧ ftoa (.fin false 1200) = .ok "1200".toList := ⟨by decide +kernel, by decide +kernel⟩

/-- A decimal number with two decimals. -/
example : ∃ s v, ftoa (.fin false (5 / 4)) = .ok s ∧ toDouble s = .fin v ∧ v = (1250000 : ℤ) / 10 ^ 6 := by
  have hd : Flt.IsDouble (5 / 4) := ⟨5, -2, by norm_num, by norm_num, by norm_num⟩
  have e : ((1250000 : ℤ) : ℝ) / 10 ^ 6 = 5 / 4 := by norm_num
  obtain ⟨s, v, e1, e2, e3, -⟩ := C96_decimal Flt.someRounding 1250000 (by rw [e]; norm_num [abs_of_pos]) false (a := 5 / 4) (by norm_num)
    (by rw [e, Flt.fl_exact _ hd]; unfold signed; norm_num)
  exact ⟨s, v, e1, e2, e3⟩

/-! ### Wide strings -/

theorem cstr_id {s : Str} (h : Char.ofNat 0 ∉ s) : cstr s = s := by
  unfold cstr
  apply takeWhile_all
  intro c hc
  simp only [ne_eq, decide_eq_true_eq]
  rintro rfl
  exact h hc

/-- C97: what the locale can convert is converted, and comes back unchanged. -/
theorem C97_convert {L : Locale} (hL : CCGL.Spec.Inverse L) {s w : Str} (hs : Char.ofNat 0 ∉ s) (hw : L.toWide s = some w) :
    atow L s = .ok w ∧ wtoa L w = .ok s := by
  have hn := hL.nul s w hw hs
  unfold atow wtoa
  rw [cstr_id hs, cstr_id hn, hw, hL.back s w hw]
  unfold convert
  dsimp only
  rw [cstr_id hs, cstr_id hn]
  exact ⟨rfl, rfl⟩

theorem cLocale_inverse : CCGL.Spec.Inverse cLocale := by
  constructor
  · intro s w h
    unfold cLocale at h ⊢
    dsimp only at h ⊢
    split_ifs at h with a
    cases h
    rw [if_pos a]
  · intro s w h hs
    unfold cLocale at h
    dsimp only at h
    split_ifs at h
    cases h
    exact hs

/-- C97: in the default locale characters below 128 are the same in both kinds of string; a NUL ends the text. -/
theorem C97_ascii {s : Str} (h : ∀ c ∈ s, c.toNat < 128) : atow cLocale s = .ok (cstr s) ∧ wtoa cLocale s = .ok (cstr s) := by
  have h1 : (cstr s).all (fun c => decide (c.toNat < 128)) = true := by
    rw [List.all_eq_true]
    intro c hc
    exact decide_eq_true (h c ((List.takeWhile_sublist _).subset hc))
  have h2 : cstr (cstr s) = cstr s := cstr_id (by
    intro hc
    have := takeWhile_mem _ _ _ hc
    simp at this)
  unfold atow wtoa cLocale convert
  dsimp only
  rw [if_pos h1]
  dsimp only
  rw [h2]
  exact ⟨rfl, rfl⟩

/-- C97: a number is the same text in a wide string. -/
theorem C97_ftow (neg : Bool) {a : ℚ} (h0 : 0 ≤ a) (h : a < 2 ^ 1024) :
    ∃ s, ftoa (.fin neg a) = .ok s ∧ ftow cLocale (.fin neg a) = .ok s := by
  obtain ⟨s, v, e, hp, -⟩ := C96_text neg h0 h
  have hc : ∀ c ∈ s, c.toNat < 128 ∧ c ≠ Char.ofNat 0 := by
    obtain ⟨ip, fr, rfl, h1, -, -, h2, -⟩ := hp.parts
    intro c hc
    have dig : ∀ c : Char, 48 ≤ c.toNat ∧ c.toNat ≤ 57 → c.toNat < 128 ∧ c ≠ Char.ofNat 0 := by
      intro c hc
      refine ⟨by omega, ?_⟩
      rintro rfl
      revert hc; decide
    rw [List.mem_append, List.mem_append] at hc
    rcases hc with (hc | hc) | hc
    · cases neg
      · simp at hc
      · simp at hc; subst hc; decide
    · exact dig c (h1 c hc)
    · split_ifs at hc with hf
      · simp at hc
      · rcases List.mem_cons.1 hc with rfl | hc
        · decide
        · exact dig c (h2 c hc)
  refine ⟨s, e, ?_⟩
  unfold ftow
  rw [e, Out.ok_bind, (C97_ascii (fun c m => (hc c m).1)).1, cstr_id (fun m => (hc _ m).2 rfl)]

/-- False: a character the locale cannot convert is undefined behaviour instead of an error. -/
theorem C97_false (L : Locale) (s : Str) (h : L.toWide (cstr s) = none) : atow L s = .ub := by
  unfold atow
  rw [h]
  rfl

example : atow cLocale ['a', Char.ofNat 233] = .ub := C97_false _ _ (by decide)

example : atow cLocale "a b".toList = .ok "a b".toList ∧ wtoa cLocale "a b".toList = .ok "a b".toList :=
  C97_convert cLocale_inverse (by decide) (by decide)

end FText
end CCGL
