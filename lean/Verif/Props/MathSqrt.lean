import Verif.Props.MathFn
import Verif.Lemmas.MathPoly
import Mathlib.Analysis.SpecialFunctions.Pow.NNReal
/-!
# C64: accuracy of the fast square root (in real arithmetic)
-/
noncomputable section
namespace CCGL.MathFn
open Spec

/-- Reading of a bit pattern with `w` fraction bits and bias `B`. -/
def decodeW (w B x : ℕ) : ℝ := (2 : ℝ) ^ (((x / 2 ^ w : ℕ) : ℤ) - B) * (1 + ((x % 2 ^ w : ℕ) : ℝ) / 2 ^ w)

theorem decodeW_eq (w B a b : ℕ) (hb : b < 2 ^ w) :
    decodeW w B (a * 2 ^ w + b) = (2 : ℝ) ^ ((a : ℤ) - B) * (1 + (b : ℝ) / 2 ^ w) := by
  unfold decodeW
  have h : 0 < 2 ^ w := by positivity
  have h1 : (a * 2 ^ w + b) / 2 ^ w = a := by
    rw [Nat.mul_comm, Nat.mul_add_div h, Nat.div_eq_of_lt hb, Nat.add_zero]
  have h2 : (a * 2 ^ w + b) % 2 ^ w = b := by
    rw [Nat.mul_comm, Nat.mul_add_mod, Nat.mod_eq_of_lt hb]
  rw [h1, h2]

theorem cubic_bounds (c K ρ g f η lo hi : ℝ) (hc : 0 ≤ c) (hρ1 : 0.4324 ≤ ρ) (hρ2 : ρ ≤ 0.4325) (hg : 0 ≤ g)
    (hK : g ≤ K + 0.4324) (hf1 : 2 * g ≤ f) (hf2 : f ≤ 2 * g + η) (hη0 : 0 ≤ η) (hη : η ≤ 0.000001)
    (h1 : lo ≤ c * (K + 0.4324 - g) ^ 2 * (1 + 2 * g)) (h2 : c * (K + 0.4325 - g) ^ 2 * (1 + 2 * g) ≤ hi) :
    lo ≤ c * (K + ρ - g) ^ 2 * (1 + f) ∧ c * (K + ρ - g) ^ 2 * (1 + f) ≤ hi * (1 + 0.000001) := by
  have s1 : (K + 0.4324 - g) ^ 2 ≤ (K + ρ - g) ^ 2 := pow_le_pow_left₀ (by linarith) (by linarith) 2
  have s2 : (K + ρ - g) ^ 2 ≤ (K + 0.4325 - g) ^ 2 := pow_le_pow_left₀ (by linarith) (by linarith) 2
  have p1 : 0 ≤ (K + ρ - g) ^ 2 := sq_nonneg _
  constructor
  · calc lo ≤ c * (K + 0.4324 - g) ^ 2 * (1 + 2 * g) := h1
      _ ≤ c * (K + ρ - g) ^ 2 * (1 + 2 * g) :=
        mul_le_mul_of_nonneg_right (mul_le_mul_of_nonneg_left s1 hc) (by linarith)
      _ ≤ c * (K + ρ - g) ^ 2 * (1 + f) := mul_le_mul_of_nonneg_left (by linarith) (mul_nonneg hc p1)
  · have h3 : c * (K + ρ - g) ^ 2 * (1 + 2 * g) ≤ hi :=
      le_trans (mul_le_mul_of_nonneg_right (mul_le_mul_of_nonneg_left s2 hc) (by linarith)) h2
    have h4 : 1 + f ≤ (1 + 2 * g) * (1 + 0.000001) := by nlinarith
    calc c * (K + ρ - g) ^ 2 * (1 + f) ≤ c * (K + ρ - g) ^ 2 * ((1 + 2 * g) * (1 + 0.000001)) :=
          mul_le_mul_of_nonneg_left h4 (mul_nonneg hc p1)
      _ = c * (K + ρ - g) ^ 2 * (1 + 2 * g) * (1 + 0.000001) := by ring
      _ ≤ hi * (1 + 0.000001) := mul_le_mul_of_nonneg_right h3 (by norm_num)

set_option maxHeartbeats 1000000 in
/-- The bit-trick guess `y` for `1/√z`: `0.93 ≤ y²z ≤ 1.071`. -/
theorem guess (w B X M0 e m : ℕ) (hw : 21 ≤ w) (hX : 2 * X + 1 = 3 * B)
    (hr1 : (0.4324 : ℝ) * 2 ^ w ≤ M0) (hr2 : (M0 : ℝ) ≤ 0.4325 * 2 ^ w) (he : e + 2 ≤ 2 * X) (hm : m < 2 ^ w) :
    ∃ y, decodeW w B (X * 2 ^ w + M0 - (e * 2 ^ w + m) / 2) = y ∧ 0 < y ∧
      0.93 ≤ y ^ 2 * ((2 : ℝ) ^ ((e : ℤ) - B) * (1 + (m : ℝ) / 2 ^ w)) ∧
      y ^ 2 * ((2 : ℝ) ^ ((e : ℤ) - B) * (1 + (m : ℝ) / 2 ^ w)) ≤ 1.071 := by
  refine ⟨_, rfl, ?_, ?_⟩
  · unfold decodeW; positivity
  obtain ⟨H, hH⟩ : ∃ H, 2 ^ w = 2 * H := ⟨2 ^ (w - 1), by rw [← pow_succ']; congr 1; omega⟩
  have hS : (0 : ℝ) < 2 ^ w := by positivity
  have hSH : (2 : ℝ) ^ w = 2 * H := by exact_mod_cast hH
  have hbig : (1000000 : ℝ) ≤ 2 ^ w := by
    calc (1000000 : ℝ) ≤ 2 ^ 21 := by norm_num
      _ ≤ 2 ^ w := pow_le_pow_right₀ (by norm_num) hw
  have hM0H : M0 < H := by
    have : (M0 : ℝ) < H := by linarith
    exact_mod_cast this
  set n := m / 2 with hn
  have hnH : n < H := by omega
  set ρ := (M0 : ℝ) / 2 ^ w with hρ
  set g := (n : ℝ) / 2 ^ w with hg
  set f := (m : ℝ) / 2 ^ w with hf
  have hρ1 : 0.4324 ≤ ρ := by rw [hρ, le_div_iff₀ hS]; exact hr1
  have hρ2 : ρ ≤ 0.4325 := by rw [hρ, div_le_iff₀ hS]; exact hr2
  have hg0 : 0 ≤ g := by positivity
  have hg1 : g ≤ 1 / 2 := by
    rw [hg, div_le_iff₀ hS, hSH]
    have : (n : ℝ) ≤ H := by exact_mod_cast hnH.le
    linarith
  have hf1 : 2 * g ≤ f := by
    rw [hg, hf, ← mul_div_assoc]
    apply div_le_div_of_nonneg_right _ hS.le
    have : 2 * n ≤ m := by omega
    exact_mod_cast this
  have hf2 : f ≤ 2 * g + 1 / 2 ^ w := by
    rw [hg, hf, ← mul_div_assoc, ← add_div]
    apply div_le_div_of_nonneg_right _ hS.le
    have : m ≤ 2 * n + 1 := by omega
    exact_mod_cast this
  have hη0 : (0 : ℝ) ≤ 1 / 2 ^ w := by positivity
  have hη : (1 : ℝ) / 2 ^ w ≤ 0.000001 := by
    rw [div_le_iff₀ hS]; linarith
  have comb (a : ℕ) (c d : ℝ) (k : ℤ) (hk : 2 * ((a : ℤ) - B) + ((e : ℤ) - B) = k) (hd : (2 : ℝ) ^ k = c) :
      ((2 : ℝ) ^ ((a : ℤ) - B) * d) ^ 2 * ((2 : ℝ) ^ ((e : ℤ) - B) * (1 + f)) = c * d ^ 2 * (1 + f) := by
    rw [← hd, ← hk, zpow_add₀ (by norm_num), two_mul, zpow_add₀ (by norm_num)]; ring
  rcases Nat.even_or_odd' e with ⟨q, hq | hq⟩
  · -- even exponent field
    have hhalf : (e * 2 ^ w + m) / 2 = q * 2 ^ w + n := by
      rw [hq, show 2 * q * 2 ^ w + m = m + q * 2 ^ w * 2 by ring, Nat.add_mul_div_right _ _ (by norm_num)]; omega
    rcases Nat.lt_or_ge M0 n with hlt | hge
    · have hx : X * 2 ^ w + M0 - (e * 2 ^ w + m) / 2 = (X - q - 1) * 2 ^ w + (2 ^ w + M0 - n) := by
        rw [hhalf]
        obtain ⟨a, ha⟩ : ∃ a, X = a + q + 1 := ⟨X - q - 1, by omega⟩
        have : X - q - 1 = a := by omega
        rw [this, ha, show (a + q + 1) * 2 ^ w = a * 2 ^ w + q * 2 ^ w + 2 ^ w by ring]
        omega
      rw [hx, decodeW_eq _ _ _ _ (by omega)]
      have hb : ((2 ^ w + M0 - n : ℕ) : ℝ) = 2 ^ w + M0 - n := by
        rw [Nat.cast_sub (by omega)]; push_cast; ring
      have hd : 1 + ((2 ^ w + M0 - n : ℕ) : ℝ) / 2 ^ w = 2 + ρ - g := by
        rw [hb, hρ, hg]; field_simp; ring
      rw [hd, comb (X - q - 1) (1 / 8) _ (-3) (by omega) (by norm_num)]
      have hgl : 0.4324 ≤ g := by
        have : ρ ≤ g := by
          rw [hρ, hg]; apply div_le_div_of_nonneg_right _ hS.le; exact_mod_cast hlt.le
        linarith
      have p1 := sqrtA2_lo g (by norm_num at hgl ⊢; linarith) hg1
      have p2 := sqrtA2_up g (by norm_num at hgl ⊢; linarith) hg1
      have := cubic_bounds (1 / 8) 2 ρ g f (1 / 2 ^ w) 0.93 1.0699 (by norm_num) hρ1 hρ2 hg0 (by linarith) hf1 hf2 hη0 hη
        (by norm_num at p1 ⊢; linarith) (by norm_num at p2 ⊢; linarith)
      exact ⟨this.1, this.2.trans (by norm_num)⟩
    · have hx : X * 2 ^ w + M0 - (e * 2 ^ w + m) / 2 = (X - q) * 2 ^ w + (M0 - n) := by
        rw [hhalf]
        obtain ⟨a, ha⟩ : ∃ a, X = a + q := ⟨X - q, by omega⟩
        have : X - q = a := by omega
        rw [this, ha, show (a + q) * 2 ^ w = a * 2 ^ w + q * 2 ^ w by ring]
        omega
      rw [hx, decodeW_eq _ _ _ _ (by omega)]
      have hb : ((M0 - n : ℕ) : ℝ) = M0 - n := by rw [Nat.cast_sub hge]
      have hd : 1 + ((M0 - n : ℕ) : ℝ) / 2 ^ w = 1 + ρ - g := by
        rw [hb, hρ, hg]; field_simp; ring
      rw [hd, comb (X - q) (1 / 2) _ (-1) (by omega) (by norm_num)]
      have hgl : g ≤ 0.4325 := by
        have : g ≤ ρ := by
          rw [hρ, hg]; apply div_le_div_of_nonneg_right _ hS.le; exact_mod_cast hge
        linarith
      have p1 := sqrtA1_lo g (by simpa using hg0) (by norm_num at hgl ⊢; linarith)
      have p2 := sqrtA1_up g (by simpa using hg0) (by norm_num at hgl ⊢; linarith)
      have := cubic_bounds (1 / 2) 1 ρ g f (1 / 2 ^ w) 0.93 1.0699 (by norm_num) hρ1 hρ2 hg0 (by linarith) hf1 hf2 hη0 hη
        (by norm_num at p1 ⊢; linarith) (by norm_num at p2 ⊢; linarith)
      exact ⟨this.1, this.2.trans (by norm_num)⟩
  · -- odd exponent field
    have hhalf : (e * 2 ^ w + m) / 2 = q * 2 ^ w + H + n := by
      rw [hq, hH, show (2 * q + 1) * (2 * H) + m = m + (q * (2 * H) + H) * 2 by ring,
        Nat.add_mul_div_right _ _ (by norm_num)]; omega
    have hx : X * 2 ^ w + M0 - (e * 2 ^ w + m) / 2 = (X - q - 1) * 2 ^ w + (H + M0 - n) := by
      rw [hhalf]
      obtain ⟨a, ha⟩ : ∃ a, X = a + q + 1 := ⟨X - q - 1, by omega⟩
      have : X - q - 1 = a := by omega
      rw [this, ha, show (a + q + 1) * 2 ^ w = a * 2 ^ w + q * 2 ^ w + 2 ^ w by ring]
      omega
    rw [hx, decodeW_eq _ _ _ _ (by omega)]
    have hb : ((H + M0 - n : ℕ) : ℝ) = H + M0 - n := by
      rw [Nat.cast_sub (by omega)]; push_cast; ring
    have hd : 1 + ((H + M0 - n : ℕ) : ℝ) / 2 ^ w = 3 / 2 + ρ - g := by
      rw [hb, hρ, hg, hSH]
      have : (H : ℝ) ≠ 0 := by
        intro h0; rw [h0] at hSH; linarith
      field_simp; ring
    rw [hd, comb (X - q - 1) (1 / 4) _ (-2) (by omega) (by norm_num)]
    have p1 := sqrtB_lo g (by simpa using hg0) hg1
    have p2 := sqrtB_up g (by simpa using hg0) hg1
    have := cubic_bounds (1 / 4) (3 / 2) ρ g f (1 / 2 ^ w) 0.93 1.0699 (by norm_num) hρ1 hρ2 hg0 (by linarith) hf1 hf2 hη0 hη
      (by norm_num at p1 ⊢; linarith) (by norm_num at p2 ⊢; linarith)
    exact ⟨this.1, this.2.trans (by norm_num)⟩

/-- One Newton step, in terms of `s = y√z`. -/
theorem newton_step (z y : ℝ) (hz : 0 < z) :
    newton (0.5 * z) y * Real.sqrt z = y * Real.sqrt z * (1.5 - 0.5 * (y * Real.sqrt z) ^ 2) := by
  unfold newton
  have h : (Real.sqrt z) ^ 2 = z := Real.sq_sqrt hz.le
  calc y * (1.5 - 0.5 * z * y * y) * Real.sqrt z
      = y * Real.sqrt z * (1.5 - 0.5 * (y ^ 2 * z)) := by ring
    _ = _ := by rw [mul_pow, h]

theorem newton_err (s d : ℝ) (h : |1 - s| ≤ d) (hd : d ≤ 1) :
    |1 - s * (1.5 - 0.5 * s ^ 2)| ≤ d ^ 2 * (3 + d) / 2 := by
  have e : 1 - s * (1.5 - 0.5 * s ^ 2) = (1 - s) ^ 2 * (2 + s) / 2 := by ring
  obtain ⟨h1, h2⟩ := abs_le.1 h
  have hs : 0 ≤ 2 + s := by linarith
  have h0 : 0 ≤ (1 - s) ^ 2 * (2 + s) / 2 := by positivity
  rw [e, abs_of_nonneg h0]
  have hsq : (1 - s) ^ 2 ≤ d ^ 2 := sq_le_sq' h1 h2
  have : (1 - s) ^ 2 * (2 + s) ≤ d ^ 2 * (3 + d) := mul_le_mul hsq (by linarith) hs (by positivity)
  linarith

theorem three_newton (z y : ℝ) (hz : 0 < z) (hy : 0 < y) (h1 : 0.93 ≤ y ^ 2 * z) (h2 : y ^ 2 * z ≤ 1.071) :
    RelClose 0.0000000001 (z * newton (0.5 * z) (newton (0.5 * z) (newton (0.5 * z) y))) (Real.sqrt z) := by
  have hsz : 0 < Real.sqrt z := Real.sqrt_pos.2 hz
  have hsq : (y * Real.sqrt z) ^ 2 = y ^ 2 * z := by rw [mul_pow, Real.sq_sqrt hz.le]
  set s := y * Real.sqrt z with hs
  have hs0 : 0 < s := by positivity
  have d0 : |1 - s| ≤ 0.036 := by
    rw [abs_le]
    constructor <;> nlinarith
  have d1 := newton_err s 0.036 d0 (by norm_num)
  have s1 := newton_step z y hz
  rw [← hs] at s1
  rw [← s1] at d1
  have d2 := newton_err _ 0.00197 (d1.trans (by norm_num)) (by norm_num)
  rw [← newton_step z _ hz] at d2
  have d3 := newton_err _ 0.00000583 (d2.trans (by norm_num)) (by norm_num)
  rw [← newton_step z _ hz] at d3
  set Y := newton (0.5 * z) (newton (0.5 * z) (newton (0.5 * z) y))
  unfold RelClose
  have e : z * Y - Real.sqrt z = Real.sqrt z * (-(1 - Y * Real.sqrt z)) := by
    have h : Real.sqrt z * Real.sqrt z = z := Real.mul_self_sqrt hz.le
    linear_combination (-Y) * h
  rw [e, abs_mul, abs_of_pos hsz, abs_neg, mul_comm]
  exact mul_le_mul_of_nonneg_right (d3.trans (by norm_num)) hsz.le

/-- C64, float: for every positive normal float the fast square root is within relative error 1e-10 of the square root
(before rounding of the intermediate results). -/
theorem C64_sqrtFloat (i : ℕ) (z : ℝ) (h : PosNormal32 i z) : RelClose 0.0000000001 (apprSqrtF i) (Real.sqrt z) := by
  obtain ⟨e, m, h1, h2, h3, hi, hz⟩ := h
  have hz0 : 0 < z := by rw [hz]; positivity
  have hdec : decode32 i = z := by
    have := decodeW_eq 23 127 e m h3
    rw [hz, hi]; exact this
  obtain ⟨y, hy, hy0, hy1, hy2⟩ := guess 23 127 190 0x375a86 e m (by norm_num) (by norm_num) (by norm_num) (by norm_num)
    (by omega) h3
  have hbits : (0x5f375a86 + 2 ^ 32 - (i >>> 1)) % 2 ^ 32 = 190 * 2 ^ 23 + 0x375a86 - (e * 2 ^ 23 + m) / 2 := by
    rw [Nat.shiftRight_eq_div_pow, hi]
    omega
  have hy' : decode32 (190 * 2 ^ 23 + 0x375a86 - (e * 2 ^ 23 + m) / 2) = y := hy
  have hz' : (2 : ℝ) ^ ((e : ℤ) - (127 : ℕ)) * (1 + (m : ℝ) / 2 ^ 23) = z := hz.symm
  rw [hz'] at hy1 hy2
  unfold apprSqrtF
  dsimp only
  rw [hbits, hdec, hy']
  exact three_newton z y hz0 hy0 hy1 hy2

/-- C64, double: the same for every positive normal double. -/
theorem C64_sqrtDouble (i : ℕ) (z : ℝ) (h : PosNormal64 i z) : RelClose 0.0000000001 (apprSqrtD i) (Real.sqrt z) := by
  obtain ⟨e, m, h1, h2, h3, hi, hz⟩ := h
  have hz0 : 0 < z := by rw [hz]; positivity
  have hdec : decode64 i = z := by
    have := decodeW_eq 52 1023 e m h3
    rw [hz, hi]; exact this
  obtain ⟨y, hy, hy0, hy1, hy2⟩ := guess 52 1023 1534 0x6eb50c7b537a9 e m (by norm_num) (by norm_num) (by norm_num)
    (by norm_num) (by omega) h3
  have hbits : (0x5fe6eb50c7b537a9 + 2 ^ 64 - (i >>> 1)) % 2 ^ 64 =
      1534 * 2 ^ 52 + 0x6eb50c7b537a9 - (e * 2 ^ 52 + m) / 2 := by
    rw [Nat.shiftRight_eq_div_pow, hi]
    omega
  have hy' : decode64 (1534 * 2 ^ 52 + 0x6eb50c7b537a9 - (e * 2 ^ 52 + m) / 2) = y := hy
  have hz' : (2 : ℝ) ^ ((e : ℤ) - (1023 : ℕ)) * (1 + (m : ℝ) / 2 ^ 52) = z := hz.symm
  rw [hz'] at hy1 hy2
  unfold apprSqrtD
  dsimp only
  rw [hbits, hdec, hy']
  exact three_newton z y hz0 hy0 hy1 hy2

example : PosNormal32 0x40000000 2 := ⟨128, 0, by norm_num, by norm_num, by norm_num, by norm_num, by norm_num⟩

end CCGL.MathFn
end
