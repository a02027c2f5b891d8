import Verif.Props.MathFn
import Verif.Lemmas.MathPoly
import Mathlib.Analysis.Complex.ExponentialBounds
import Mathlib.Analysis.Calculus.MeanValue
import Mathlib.Analysis.SpecialFunctions.Log.Deriv
/-!
# C62, C63: accuracy of the fast exponential, logarithm and power (in real arithmetic)
-/
noncomputable section
namespace CCGL.MathFn
open Spec

theorem p_near (x : ℝ) (h0 : 0 ≤ x) (h1 : x ≤ 0.695) :
    |(1 + (-0.9998684) * x + 0.4982926 * x * x + (-0.1595332) * x * x * x + 0.0293641 * x * x * x * x) - Real.exp (-x)|
      ≤ 0.000004 := by
  have hb := Real.exp_bound (x := -x) (n := 9) (by rw [abs_neg, abs_of_nonneg h0]; norm_num at h1 ⊢; linarith) (by norm_num)
  rw [abs_neg, abs_of_nonneg h0] at hb
  have hr : x ^ 9 * ((Nat.succ 9 : ℕ) / ((Nat.factorial 9 : ℕ) * (9 : ℕ)) : ℝ) ≤ 0.0000002 := by
    have : x ^ 9 ≤ 0.695 ^ 9 := pow_le_pow_left₀ h0 h1 9
    have h2 : ((Nat.succ 9 : ℕ) / ((Nat.factorial 9 : ℕ) * (9 : ℕ)) : ℝ) = 10 / 3265920 := by
      norm_num [Nat.factorial]
    rw [h2]
    have : (0.695 : ℝ) ^ 9 ≤ 0.06 := by norm_num
    norm_num at *
    linarith
  have hs : ∑ m ∈ Finset.range 9, (-x) ^ m / (m.factorial : ℝ) =
      1 - x + x ^ 2 / 2 - x ^ 3 / 6 + x ^ 4 / 24 - x ^ 5 / 120 + x ^ 6 / 720 - x ^ 7 / 5040 + x ^ 8 / 40320 := by
    simp only [Finset.sum_range_succ, Finset.sum_range_zero, Nat.factorial]
    push_cast
    ring
  rw [hs] at hb
  have hu := expPoly_up x (by simpa using h0) (by norm_num at h1 ⊢; linarith)
  have hl := expPoly_lo x (by simpa using h0) (by norm_num at h1 ⊢; linarith)
  obtain ⟨b1, b2⟩ := abs_le.1 (hb.trans hr)
  rw [abs_le]
  norm_num at b1 b2 hu hl ⊢
  constructor <;> nlinarith

theorem pExpLn2_close (x : ℝ) (h0 : 0 ≤ x) (h1 : x ≤ Real.log 2) :
    0 < pExpLn2 x ∧ |pExpLn2 x - Real.exp x| ≤ 0.000009 * Real.exp x := by
  have hl2 := Real.log_two_lt_d9
  have hp := p_near x h0 (by linarith)
  unfold pExpLn2
  set P := 1 + (-0.9998684) * x + 0.4982926 * x * x + (-0.1595332) * x * x * x + 0.0293641 * x * x * x * x with hP
  have he : (1 / 2 : ℝ) ≤ Real.exp (-x) := by
    have : Real.exp (-Real.log 2) ≤ Real.exp (-x) := Real.exp_le_exp.2 (by linarith)
    rwa [Real.exp_neg, Real.exp_log (by norm_num), inv_eq_one_div] at this
  obtain ⟨a1, a2⟩ := abs_le.1 hp
  have hPp : 0.4999 ≤ P := by linarith
  have hP0 : 0 < P := by linarith
  refine ⟨by positivity, ?_⟩
  have hx : Real.exp x * Real.exp (-x) = 1 := by rw [← Real.exp_add]; simp
  have hxp : 0 < Real.exp x := Real.exp_pos x
  have e1 : 1 / P - Real.exp x = Real.exp x * ((Real.exp (-x) - P) / P) := by
    field_simp
    nlinarith
  rw [e1, abs_mul, abs_of_pos hxp, mul_comm]
  apply mul_le_mul_of_nonneg_right _ hxp.le
  rw [abs_div, abs_of_pos hP0, div_le_iff₀ hP0, abs_sub_comm]
  nlinarith

theorem pExpPos_close (x : ℝ) (h0 : 0 ≤ x) (h1 : x < 63 * Real.log 2) :
    ∃ v, pExpPos x = .ok v ∧ 0 < v ∧ |v - Real.exp x| ≤ 0.000009 * Real.exp x := by
  have hl : 0 < Real.log 2 := Real.log_pos (by norm_num)
  have hk0 : 0 ≤ ⌊x / Real.log 2⌋ := Int.floor_nonneg.2 (by positivity)
  have hk1 : ⌊x / Real.log 2⌋ < 63 := Int.floor_lt.2 (by rw [div_lt_iff₀ hl]; exact_mod_cast h1)
  obtain ⟨k, hk⟩ : ∃ k : ℕ, ⌊x / Real.log 2⌋ = k := ⟨_, (Int.toNat_of_nonneg hk0).symm⟩
  have hf1 := Int.floor_le (x / Real.log 2)
  have hf2 := Int.lt_floor_add_one (x / Real.log 2)
  rw [hk] at hf1 hf2 hk1
  rw [le_div_iff₀ hl] at hf1
  rw [div_lt_iff₀ hl] at hf2
  push_cast at hf1 hf2
  obtain ⟨hq, hc⟩ := pExpLn2_close (x - k * Real.log 2) (by linarith) (by linarith)
  have hexp : Real.exp x = (2 : ℝ) ^ k * Real.exp (x - k * Real.log 2) := by
    rw [Real.exp_sub, show (k : ℝ) * Real.log 2 = Real.log (2 ^ k) by rw [Real.log_pow],
      Real.exp_log (by positivity)]
    field_simp
  refine ⟨(2 : ℝ) ^ k * pExpLn2 (x - k * Real.log 2), ?_, by positivity, ?_⟩
  · unfold pExpPos
    dsimp only
    rw [if_pos h0, hk, if_neg (by omega), if_neg (by omega), Int.toNat_natCast]
    push_cast
    rfl
  · rw [hexp, ← mul_sub, abs_mul, abs_of_pos (by positivity : (0 : ℝ) < 2 ^ k), mul_left_comm]
    exact mul_le_mul_of_nonneg_left hc (by positivity)

/-- C62: for every argument of magnitude below `63 ln 2` the fast exponential is defined and within relative error 1e-5
of the exponential. -/
theorem C62_accuracy (x : ℝ) (h : |x| < 63 * Real.log 2) :
    ∃ v, apprExp x = .ok v ∧ 0 < v ∧ RelClose 0.00001 v (Real.exp x) := by
  obtain ⟨hl, hr⟩ := abs_lt.1 h
  unfold apprExp RelClose
  by_cases h0 : x ≥ 0
  · rw [if_pos h0]
    obtain ⟨v, h1, h2, h3⟩ := pExpPos_close x h0 hr
    exact ⟨v, h1, h2, h3.trans (mul_le_mul_of_nonneg_right (by norm_num) (Real.exp_pos x).le)⟩
  · rw [if_neg h0]
    obtain ⟨v, h1, h2, h3⟩ := pExpPos_close (-x) (by linarith) (by linarith)
    refine ⟨1 / v, by rw [h1]; rfl, by positivity, ?_⟩
    have hx : Real.exp x * Real.exp (-x) = 1 := by rw [← Real.exp_add]; simp
    have hxp : 0 < Real.exp x := Real.exp_pos x
    have hnp : 0 < Real.exp (-x) := Real.exp_pos (-x)
    obtain ⟨a1, a2⟩ := abs_le.1 h3
    have hv : 0.9999 * Real.exp (-x) ≤ v := by linarith
    have e1 : 1 / v - Real.exp x = Real.exp x * ((Real.exp (-x) - v) / v) := by
      field_simp
      nlinarith
    rw [e1, abs_mul, abs_of_pos hxp, mul_comm]
    apply mul_le_mul_of_nonneg_right _ hxp.le
    rw [abs_div, abs_of_pos h2, div_le_iff₀ h2, abs_sub_comm]
    nlinarith

/-- C62, the limit: from `64 ln 2` on (both signs) the shift count is out of range: undefined behaviour. -/
theorem C62_overflow (x : ℝ) (h : 64 * Real.log 2 ≤ |x|) : apprExp x = .ub := by
  have hl : 0 < Real.log 2 := Real.log_pos (by norm_num)
  have key (y : ℝ) (hy : 64 * Real.log 2 ≤ y) : pExpPos y = .ub := by
    unfold pExpPos
    dsimp only
    have h0 : 0 ≤ y := by nlinarith
    rw [if_pos h0, if_pos]
    right
    apply Int.le_floor.2
    rw [le_div_iff₀ hl]
    exact_mod_cast hy
  unfold apprExp
  by_cases h0 : x ≥ 0
  · rw [if_pos h0]; rw [abs_of_nonneg h0] at h; exact key x h
  · rw [if_neg h0]; rw [abs_of_neg (by linarith)] at h; rw [key (-x) h]; rfl

example : |(-3.5 : ℝ)| < 63 * Real.log 2 := by
  have := Real.log_two_gt_d9
  rw [abs_of_neg (by norm_num)]; norm_num at this ⊢; linarith

/-! ## The logarithm -/

theorem logQ_deriv (x : ℝ) : HasDerivAt logQ (logQ' x) x := by
  unfold logQ logQ'
  have h (c : ℝ) (n : ℕ) : HasDerivAt (fun y : ℝ => c * y ^ (n + 1)) (c * ((n + 1 : ℕ) * x ^ n)) x := by
    have := (hasDerivAt_pow (n + 1) x).const_mul c
    simpa using this
  refine HasDerivAt.congr_deriv (((((((((hasDerivAt_const x _).add (h _ 0)).add (h _ 1)).add (h _ 2)).add (h _ 3)).add
    (h _ 4)).add (h _ 5)).add (h _ 6)).add (h _ 7)) ?_
  push_cast
  ring

theorem logQ_one : logQ 1 = 0 := by unfold logQ; norm_num

theorem logQ_near (u : ℝ) (h1 : 1 ≤ u) (h2 : u ≤ 2) : |Real.log u - logQ u| ≤ logDl := by
  have hf : ∀ x ∈ Set.Icc (1 : ℝ) 2, HasDerivWithinAt (fun y => Real.log y - logQ y) (x⁻¹ - logQ' x) (Set.Icc 1 2) x := by
    intro x hx
    exact ((Real.hasDerivAt_log (by linarith [hx.1])).sub (logQ_deriv x)).hasDerivWithinAt
  have hb : ∀ x ∈ Set.Ico (1 : ℝ) 2, ‖x⁻¹ - logQ' x‖ ≤ logDl := by
    intro x hx
    have hx0 : 0 < x := by linarith [hx.1]
    have hu := logDer_up x (by simpa using hx.1) (by simpa using hx.2.le)
    have hl := logDer_lo x (by simpa using hx.1) (by simpa using hx.2.le)
    have e : |1 - x * logQ' x| ≤ logDl := by
      rw [abs_le]
      unfold logQ' logDl
      constructor <;> nlinarith
    have e2 : x⁻¹ - logQ' x = (1 - x * logQ' x) / x := by field_simp
    rw [Real.norm_eq_abs, e2, abs_div, abs_of_pos hx0, div_le_iff₀ hx0]
    have : 0 ≤ logDl := (abs_nonneg _).trans e
    nlinarith [hx.1]
  have := norm_image_sub_le_of_norm_deriv_le_segment' hf hb u ⟨h1, h2⟩
  simp only [Real.log_one, logQ_one, sub_zero, Real.norm_eq_abs] at this
  have h0 : 0 ≤ logDl := by unfold logDl; norm_num
  nlinarith

theorem lnPolyF_near (u : ℝ) (h1 : 1 ≤ u) (h2 : u ≤ 2) :
    |(lnPolyF u - 1) * Real.log 2 - Real.log u| ≤ 0.00046 := by
  obtain ⟨a1, a2⟩ := abs_le.1 (logQ_near u h1 h2)
  have l1 := Real.log_two_gt_d9
  have l2 := Real.log_two_lt_d9
  have hu := lnPolyF_up u (by simpa using h1) (by simpa using h2)
  have hl := lnPolyF_lo u (by simpa using h1) (by simpa using h2)
  have hp : |lnPolyF u - 1| ≤ 100 := by
    rw [abs_le]; unfold lnPolyF; norm_num; constructor <;> nlinarith [sq_nonneg u]
  obtain ⟨p1, p2⟩ := abs_le.1 hp
  have hd : |(lnPolyF u - 1) * (Real.log 2 - 0.69314718)| ≤ 0.0000002 := by
    rw [abs_mul]
    have : |Real.log 2 - 0.69314718| ≤ 0.000000001 := by rw [abs_le]; norm_num at *; constructor <;> linarith
    calc |lnPolyF u - 1| * |Real.log 2 - 0.69314718| ≤ 100 * 0.000000001 :=
          mul_le_mul hp this (abs_nonneg _) (by norm_num)
      _ ≤ 0.0000002 := by norm_num
  obtain ⟨d1, d2⟩ := abs_le.1 hd
  have e : (lnPolyF u - 1) * Real.log 2 - Real.log u =
      ((lnPolyF u - 1) * 0.69314718 - logQ u) + (lnPolyF u - 1) * (Real.log 2 - 0.69314718) - (Real.log u - logQ u) := by
    ring
  have m : |(lnPolyF u - 1) * 0.69314718 - logQ u| ≤ 0.000456 := by
    rw [abs_le]
    unfold lnPolyF logQ
    norm_num at hu hl ⊢
    constructor <;> nlinarith
  obtain ⟨m1, m2⟩ := abs_le.1 m
  rw [e, abs_le]
  unfold logDl at a1 a2
  norm_num at *
  constructor <;> linarith

theorem lnPolyD_near (u : ℝ) (h1 : 1 ≤ u) (h2 : u ≤ 2) :
    |(lnPolyD u - 1) * Real.log 2 - Real.log u| ≤ 0.00045 := by
  obtain ⟨a1, a2⟩ := abs_le.1 (logQ_near u h1 h2)
  have l1 := Real.log_two_gt_d9
  have l2 := Real.log_two_lt_d9
  have hu := lnPolyD_up u (by simpa using h1) (by simpa using h2)
  have hl := lnPolyD_lo u (by simpa using h1) (by simpa using h2)
  have hp : |lnPolyD u - 1| ≤ 100 := by
    rw [abs_le]; unfold lnPolyD; norm_num; constructor <;> nlinarith [sq_nonneg u]
  have hd : |(lnPolyD u - 1) * (Real.log 2 - 0.69314718)| ≤ 0.0000002 := by
    rw [abs_mul]
    have : |Real.log 2 - 0.69314718| ≤ 0.000000001 := by rw [abs_le]; norm_num at *; constructor <;> linarith
    calc |lnPolyD u - 1| * |Real.log 2 - 0.69314718| ≤ 100 * 0.000000001 :=
          mul_le_mul hp this (abs_nonneg _) (by norm_num)
      _ ≤ 0.0000002 := by norm_num
  obtain ⟨d1, d2⟩ := abs_le.1 hd
  have e : (lnPolyD u - 1) * Real.log 2 - Real.log u =
      ((lnPolyD u - 1) * 0.69314718 - logQ u) + (lnPolyD u - 1) * (Real.log 2 - 0.69314718) - (Real.log u - logQ u) := by
    ring
  have m : |(lnPolyD u - 1) * 0.69314718 - logQ u| ≤ 0.000445 := by
    rw [abs_le]
    unfold lnPolyD logQ
    norm_num at hu hl ⊢
    constructor <;> nlinarith
  obtain ⟨m1, m2⟩ := abs_le.1 m
  rw [e, abs_le]
  unfold logDl at a1 a2
  norm_num at *
  constructor <;> linarith

/-- C63, float: for every positive normal float the approximate logarithm is within 4.6e-4 of the logarithm. -/
theorem C63_lnFloat (i : ℕ) (z : ℝ) (h : PosNormal32 i z) : |apprLnF i - Real.log z| ≤ 0.00046 := by
  obtain ⟨e, m, h1, h2, h3, hi, hz⟩ := h
  have hexp : lnExponent i = (e : ℤ) - 128 := by
    unfold lnExponent
    have : i >>> 23 &&& 0xff = e := by
      have h4 := Nat.and_two_pow_sub_one_eq_mod (i >>> 23) 8
      rw [show (0xff : ℕ) = 2 ^ 8 - 1 by norm_num, h4, Nat.shiftRight_eq_div_pow]
      omega
    rw [this]
  have hman : lnMantissaBits i = 127 * 2 ^ 23 + m := by
    unfold lnMantissaBits
    rw [and_low]
    have : i % 2 ^ 23 = m := by omega
    omega
  have hdec : decode32 (lnMantissaBits i) = 1 + (m : ℝ) / 2 ^ 23 := by
    rw [hman]
    unfold decode32
    have q1 : (127 * 2 ^ 23 + m) / 2 ^ 23 = 127 := by omega
    have q2 : (127 * 2 ^ 23 + m) % 2 ^ 23 = m := by omega
    rw [q1, q2]; norm_num
  have hm0 : (0 : ℝ) ≤ (m : ℝ) / 2 ^ 23 := by positivity
  have hm1 : (m : ℝ) / 2 ^ 23 ≤ 1 := by
    rw [div_le_one (by positivity)]; exact_mod_cast h3.le
  have hn := lnPolyF_near (1 + (m : ℝ) / 2 ^ 23) (by linarith) (by linarith)
  have hlog : Real.log z = ((e : ℝ) - 127) * Real.log 2 + Real.log (1 + (m : ℝ) / 2 ^ 23) := by
    rw [hz, Real.log_mul (by positivity) (by positivity), Real.log_zpow]; push_cast; ring
  unfold apprLnF
  rw [hexp, hdec, hlog]
  have e2 : (((e : ℤ) - 128 : ℤ) + lnPolyF (1 + (m : ℝ) / 2 ^ 23)) * Real.log 2 -
      (((e : ℝ) - 127) * Real.log 2 + Real.log (1 + (m : ℝ) / 2 ^ 23)) =
      (lnPolyF (1 + (m : ℝ) / 2 ^ 23) - 1) * Real.log 2 - Real.log (1 + (m : ℝ) / 2 ^ 23) := by
    push_cast; ring
  rw [e2]; exact hn

/-- C63, double: for every positive normal double the approximate logarithm is within 4.5e-4 of the logarithm. -/
theorem C63_lnDouble (i : ℕ) (z : ℝ) (h : PosNormal64 i z) : |apprLnD i - Real.log z| ≤ 0.00045 := by
  obtain ⟨e, m, h1, h2, h3, hi, hz⟩ := h
  have hexp : lnExponentD i = (e : ℤ) - 1024 := by
    unfold lnExponentD
    have : i >>> 52 &&& 0x7ff = e := by
      have h4 := Nat.and_two_pow_sub_one_eq_mod (i >>> 52) 11
      rw [show (0x7ff : ℕ) = 2 ^ 11 - 1 by norm_num, h4, Nat.shiftRight_eq_div_pow]
      omega
    rw [this]
  have hman : lnMantissaBitsD i = 1023 * 2 ^ 52 + m := by
    unfold lnMantissaBitsD
    have h4 := Nat.and_two_pow_sub_one_eq_mod i 52
    rw [show (0xfffffffffffff : ℕ) = 2 ^ 52 - 1 by norm_num, h4]
    have : i % 2 ^ 52 = m := by omega
    omega
  have hdec : decode64 (lnMantissaBitsD i) = 1 + (m : ℝ) / 2 ^ 52 := by
    rw [hman]
    unfold decode64
    have q1 : (1023 * 2 ^ 52 + m) / 2 ^ 52 = 1023 := by omega
    have q2 : (1023 * 2 ^ 52 + m) % 2 ^ 52 = m := by omega
    rw [q1, q2]; norm_num
  have hm0 : (0 : ℝ) ≤ (m : ℝ) / 2 ^ 52 := by positivity
  have hm1 : (m : ℝ) / 2 ^ 52 ≤ 1 := by
    rw [div_le_one (by positivity)]; exact_mod_cast h3.le
  have hn := lnPolyD_near (1 + (m : ℝ) / 2 ^ 52) (by linarith) (by linarith)
  have hlog : Real.log z = ((e : ℝ) - 1023) * Real.log 2 + Real.log (1 + (m : ℝ) / 2 ^ 52) := by
    rw [hz, Real.log_mul (by positivity) (by positivity), Real.log_zpow]; push_cast; ring
  unfold apprLnD
  rw [hexp, hdec, hlog]
  have e2 : (((e : ℤ) - 1024 : ℤ) + lnPolyD (1 + (m : ℝ) / 2 ^ 52)) * Real.log 2 -
      (((e : ℝ) - 1023) * Real.log 2 + Real.log (1 + (m : ℝ) / 2 ^ 52)) =
      (lnPolyD (1 + (m : ℝ) / 2 ^ 52) - 1) * Real.log 2 - Real.log (1 + (m : ℝ) / 2 ^ 52) := by
    push_cast; ring
  rw [e2]; exact hn

/-- C63, power: for every positive normal base `a` and exponent `b` whose power lies safely inside the normal floats, the
fast power is defined and a positive normal float whose logarithm is within `0.00046·|b| + 0.00026` of `b · ln a`
(for `|b| ≤ 1`: relative error below 0.08 %). -/
theorem C63_pow (i : ℕ) (a b : ℝ) (h : PosNormal32 i a)
    (hlo : -126 * Real.log 2 + 0.00046 * |b| ≤ b * Real.log a)
    (hhi : b * Real.log a + 0.00046 * |b| < 128 * Real.log 2) :
    ∃ x v, apprPow i b = .ok x ∧ PosNormal32 x v ∧ 0 < v ∧
      |Real.log v - b * Real.log a| ≤ 0.00046 * |b| + 0.00026 := by
  have hl : 0 < Real.log 2 := Real.log_pos (by norm_num)
  have hln := C63_lnFloat i a h
  have hbl : |b * apprLnF i - b * Real.log a| ≤ 0.00046 * |b| := by
    rw [← mul_sub, abs_mul, mul_comm]
    exact mul_le_mul_of_nonneg_right hln (abs_nonneg b)
  obtain ⟨c1, c2⟩ := abs_le.1 hbl
  obtain ⟨x, v, hx, hv, hc⟩ := C51_accuracy b (apprLnF i) (by rw [le_div_iff₀ hl]; linarith)
    (by rw [div_lt_iff₀ hl]; linarith)
  have hv0 : 0 < v := by
    obtain ⟨e, m, _, _, _, _, hz⟩ := hv
    rw [hz]; positivity
  refine ⟨x, v, hx, hv, hv0, ?_⟩
  unfold RelClose at hc
  set y := b * apprLnF i with hy
  have hyp : 0 < Real.exp y := Real.exp_pos y
  obtain ⟨r1, r2⟩ := abs_le.1 hc
  set w := v / Real.exp y with hw
  have hw1 : w ≤ 1 + 1 / 4000 := by rw [hw, div_le_iff₀ hyp]; linarith
  have hw2 : 1 - 1 / 4000 ≤ w := by rw [hw, le_div_iff₀ hyp]; linarith
  have hw0 : 0 < w := by linarith
  have hlw : Real.log v = y + Real.log w := by
    rw [hw, Real.log_div hv0.ne' hyp.ne', Real.log_exp]; ring
  have hl1 : Real.log w ≤ w - 1 := Real.log_le_sub_one_of_pos hw0
  have hl2 : 1 - w⁻¹ ≤ Real.log w := Real.one_sub_inv_le_log_of_pos hw0
  have hl3 : w⁻¹ ≤ 1 + 0.00026 := by
    rw [inv_le_iff_one_le_mul₀ hw0]; nlinarith
  rw [hlw, abs_le]
  constructor <;> linarith

example : PosNormal32 0x40490fdb (decode32 0x40490fdb) :=
  ⟨128, 0x490fdb, by norm_num, by norm_num, by norm_num, by norm_num, by unfold decode32; norm_num⟩

end CCGL.MathFn
end
