import Verif.Lemmas.FloatCoord
/-! # Coordinates in doubles: the grid of doubles, and points outside -/
namespace CCGL.Flt
open CCGL.Flt.Spec

/-- Doubles at least `2 ^ (k + 52)` are multiples of `2 ^ k`. -/
theorem dbl_multiple_of {y : ℝ} (hy : IsDouble y) (k : ℤ) (h : (2 : ℝ) ^ (k + 52) ≤ y) : ∃ M : ℤ, y = M * (2 : ℝ) ^ k := by
  obtain ⟨m, e, h1, _, h3⟩ := hy
  have hke : k ≤ e := by
    by_contra hc
    have a1 : (m : ℝ) < 2 ^ 53 := by
      have : ((m : ℤ) : ℝ) < ((2 ^ 53 : ℤ) : ℝ) := Int.cast_lt.2 (abs_lt.1 h1).2
      norm_num at this ⊢; exact this
    have a2 : (2 : ℝ) ^ e ≤ (2 : ℝ) ^ (k - 1) := zpow_le_zpow_right₀ (by norm_num) (by omega)
    have a3 : (m : ℝ) * (2 : ℝ) ^ e < (2 : ℝ) ^ (53 : ℤ) * (2 : ℝ) ^ (k - 1) := by
      refine lt_of_lt_of_le (mul_lt_mul_of_pos_right a1 (pow_pos' e)) ?_
      rw [show (2 : ℝ) ^ (53 : ℤ) = 2 ^ 53 by norm_num]
      exact mul_le_mul_of_nonneg_left a2 (by norm_num)
    rw [← zpow_add₀ (by norm_num : (2 : ℝ) ≠ 0), show (53 : ℤ) + (k - 1) = k + 52 by ring] at a3
    rw [h3] at h
    exact absurd a3 (not_lt.2 h)
  refine ⟨m * 2 ^ (e - k).toNat, ?_⟩
  rw [h3]
  push_cast
  rw [mul_assoc, ← zpow_natCast, ← zpow_add₀ (by norm_num : (2 : ℝ) ≠ 0)]
  congr 2
  omega

variable (R : Rounding)

/-- Rounding close to 2⁵³. -/
theorem fl_big {x : ℝ} (h1 : (2 : ℝ) ^ 53 - 1 / 2 < x) (h2 : x < 2 ^ 53 + 1) : R.fl x = 2 ^ 53 := by
  have hd : IsDouble ((2 : ℝ) ^ 53) := by
    have := dbl_mul_pow 1 53 (by norm_num) (by norm_num)
    norm_num at this ⊢; exact this
  have hn := R.near x _ hd
  have hy := R.mem x
  generalize R.fl x = y at hn hy
  have b : (2 : ℝ) ^ 53 - 1 < y ∧ y < 2 ^ 53 + 2 := by
    have q := abs_le.1 hn
    rcases le_or_gt x (2 ^ 53) with c | c
    · rw [abs_of_nonneg (by linarith)] at q
      constructor <;> linarith [q.1, q.2]
    · rw [abs_of_neg (by linarith)] at q
      constructor <;> linarith [q.1, q.2]
  have y2 : (2 : ℝ) ^ 53 ≤ y := by
    obtain ⟨M, hM⟩ := dbl_multiple_of hy 0 (by rw [show (0 : ℤ) + 52 = 52 by norm_num]; norm_num at b ⊢; linarith [b.1])
    rw [zpow_zero, mul_one] at hM
    rw [hM] at b ⊢
    have : (2 : ℤ) ^ 53 - 1 < M := by have := b.1; exact_mod_cast this
    have : (2 : ℤ) ^ 53 ≤ M := by omega
    exact_mod_cast this
  obtain ⟨M, hM⟩ := dbl_multiple_of hy 1 (by rw [show (1 : ℤ) + 52 = 53 by norm_num]; norm_num at y2 ⊢; linarith)
  rw [zpow_one] at hM
  rw [hM] at b y2 ⊢
  have c1 : (2 : ℤ) ^ 53 ≤ M * 2 := by exact_mod_cast y2
  have c2 : M * 2 < (2 : ℤ) ^ 53 + 2 := by have := b.2; exact_mod_cast this
  have : M = 2 ^ 52 := by omega
  rw [this]; norm_num

/-- Rounding slightly above one half. -/
theorem fl_half {x : ℝ} (h1 : 1 / 2 ≤ x) (h2 : x < 1 / 2 + (2 : ℝ) ^ (-54 : ℤ)) : R.fl x = 1 / 2 := by
  have hd : IsDouble ((1 : ℝ) / 2) := by
    have := dbl_mul_pow 1 (-1) (by norm_num) (by norm_num)
    norm_num at this ⊢; exact this
  have hn := R.near x _ hd
  have hm := fl_mono R h1
  rw [fl_exact R hd] at hm
  have hy := R.mem x
  generalize R.fl x = y at hn hy hm
  have e54 : (2 : ℝ) ^ (-53 : ℤ) = 2 * (2 : ℝ) ^ (-54 : ℤ) := by
    rw [show (-53 : ℤ) = 1 + (-54) by norm_num, zpow_add₀ (by norm_num : (2 : ℝ) ≠ 0), zpow_one]
  have hlt : y < 1 / 2 + (2 : ℝ) ^ (-53 : ℤ) := by
    have q := abs_le.1 hn
    rw [abs_of_nonpos (by linarith)] at q
    linarith [q.1, q.2]
  have e1 : (1 : ℝ) / 2 = ((2 ^ 52 : ℤ) : ℝ) * (2 : ℝ) ^ (-53 : ℤ) := by norm_num
  obtain ⟨M, hM⟩ := dbl_multiple_of hy (-53) (by rw [show (-53 : ℤ) + 52 = -1 by norm_num]; norm_num at hm ⊢; linarith)
  rw [hM, e1] at hm hlt
  have hp := pow_pos' (-53)
  have c1 : (2 : ℤ) ^ 52 ≤ M := by
    have := le_of_mul_le_mul_right hm hp
    exact_mod_cast this
  have c2 : M < (2 : ℤ) ^ 52 + 1 := by
    have h : (M : ℝ) * (2 : ℝ) ^ (-53 : ℤ) < (((2 ^ 52 + 1 : ℤ)) : ℝ) * (2 : ℝ) ^ (-53 : ℤ) := by
      refine lt_of_lt_of_eq hlt ?_
      push_cast; ring
    have := lt_of_mul_lt_mul_right h hp.le
    exact_mod_cast this
  have : M = 2 ^ 52 := by omega
  rw [hM, this, e1]

/-- Points left of (below) an axis. -/
theorem below_axis {ll w B x : ℝ} {n : ℤ} (h : Axis ll w n B) (hn : 1 ≤ n) (hx : x < ll - w / 2 - 16 * u * B) : x < lowF R ll w := by
  have hw := h.wpos
  have hu := u_pos
  have hn' : (1 : ℝ) ≤ n := by exact_mod_cast hn
  have hB0 : 0 ≤ B := le_trans (by have := abs_nonneg ll; nlinarith) h.Bge
  have l := abs_le.1 (low_near R h hn)
  nlinarith [mul_nonneg hu.le hB0]

/-- Points right of (above) an axis. -/
theorem above_axis {ll w B x : ℝ} {n : ℤ} (h : Axis ll w n B) (hn : 1 ≤ n) (hx : ll - w / 2 + n * w + 16 * u * B < x) :
    highF R ll w n < x := by
  have hw := h.wpos
  have hu := u_pos
  have hn' : (1 : ℝ) ≤ n := by exact_mod_cast hn
  have hB0 : 0 ≤ B := le_trans (by have := abs_nonneg ll; nlinarith) h.Bge
  have l := abs_le.1 (high_near R h hn)
  nlinarith [mul_nonneg hu.le hB0]

end CCGL.Flt
