import Verif.Model.Float
import Mathlib.Data.Int.Log
import Mathlib.Algebra.Order.Round
import Mathlib.Tactic.Linarith
import Mathlib.Tactic.Positivity
import Mathlib.Tactic.Ring
import Mathlib.Tactic.FieldSimp
import Mathlib.Tactic.NormNum
/-! # Rounding to nearest double: exactness, monotonicity, error, existence -/
namespace CCGL.Flt

theorem dbl_zero : IsDouble 0 := ⟨0, 0, by norm_num, by norm_num, by simp⟩

theorem dbl_neg {x : ℝ} (h : IsDouble x) : IsDouble (-x) := by
  obtain ⟨m, e, h1, h2, h3⟩ := h
  exact ⟨-m, e, by rwa [abs_neg], h2, by rw [h3]; push_cast; ring⟩

theorem dbl_mul_pow (m e : ℤ) (hm : |m| ≤ 2 ^ 53) (he : -1074 ≤ e) : IsDouble (m * (2 : ℝ) ^ e) := by
  rcases lt_or_eq_of_le hm with h | h
  · exact ⟨m, e, h, he, rfl⟩
  · rcases abs_eq (by norm_num : (0 : ℤ) ≤ 2 ^ 53) |>.1 h with h | h
    · refine ⟨1, e + 53, by norm_num, by omega, ?_⟩
      rw [h, zpow_add₀ (by norm_num : (2 : ℝ) ≠ 0)]
      norm_num; ring
    · refine ⟨-1, e + 53, by norm_num, by omega, ?_⟩
      rw [h, zpow_add₀ (by norm_num : (2 : ℝ) ≠ 0)]
      norm_num; ring

theorem dbl_pow (e : ℤ) (he : -1074 ≤ e) : IsDouble ((2 : ℝ) ^ e) :=
  ⟨1, e, by norm_num, he, by simp⟩

theorem dbl_int (m : ℤ) (hm : |m| ≤ 2 ^ 53) : IsDouble (m : ℝ) := by
  have := dbl_mul_pow m 0 hm (by norm_num)
  simpa using this

theorem dbl_nat (n : ℕ) (hn : n ≤ 2 ^ 53) : IsDouble (n : ℝ) := by
  have := dbl_int (n : ℤ) (by rw [abs_of_nonneg (by positivity)]; exact_mod_cast hn)
  simpa using this

/-- The exponent of the grid of doubles around `x`. -/
noncomputable def expo (x : ℝ) : ℤ := max (Int.log 2 |x| - 52) (-1074)

/-- Rounding to the grid. -/
noncomputable def rnd (x : ℝ) : ℝ := (round (x / (2 : ℝ) ^ expo x) : ℤ) * (2 : ℝ) ^ expo x

theorem abs_lt_expo (x : ℝ) : |x| < (2 : ℝ) ^ (expo x + 53) := by
  have h1 : |x| < (2 : ℝ) ^ (Int.log 2 |x| + 1) := by
    have := Int.lt_zpow_succ_log_self (b := 2) (by norm_num) |x|
    exact_mod_cast this
  refine lt_of_lt_of_le h1 ?_
  refine zpow_le_zpow_right₀ (by norm_num) ?_
  unfold expo; omega

theorem pow_pos' (e : ℤ) : (0 : ℝ) < (2 : ℝ) ^ e := zpow_pos (by norm_num) e

theorem rnd_dbl (x : ℝ) : IsDouble (rnd x) := by
  unfold rnd
  refine dbl_mul_pow _ _ ?_ (by unfold expo; omega)
  have h := abs_lt_expo x
  have hp := pow_pos' (expo x)
  rw [zpow_add₀ (by norm_num : (2 : ℝ) ≠ 0)] at h
  have h2 : |x / (2 : ℝ) ^ expo x| < 2 ^ 53 := by
    rw [abs_div, abs_of_pos hp, div_lt_iff₀ hp]
    have e1 : ((2 : ℝ) ^ (53 : ℤ)) = 2 ^ 53 := by norm_num
    rw [e1] at h; linarith
  have h3 := abs_lt.1 h2
  have h4 := abs_le.1 (abs_sub_round (x / (2 : ℝ) ^ expo x))
  rw [abs_le]
  constructor
  · have : ((-2 ^ 53 : ℤ) : ℝ) - 1 < (round (x / (2 : ℝ) ^ expo x) : ℤ) := by push_cast; linarith
    have : ((-2 ^ 53 - 1 : ℤ) : ℝ) < (round (x / (2 : ℝ) ^ expo x) : ℤ) := by push_cast at *; linarith
    have := Int.cast_lt.1 this
    omega
  · have : (round (x / (2 : ℝ) ^ expo x) : ℝ) < ((2 ^ 53 + 1 : ℤ) : ℝ) := by push_cast; linarith
    have := Int.cast_lt.1 this
    omega

/-- Nearest on the grid. -/
theorem rnd_grid (x : ℝ) (k : ℤ) : |rnd x - x| ≤ |k * (2 : ℝ) ^ expo x - x| := by
  have hp := pow_pos' (expo x)
  have h := round_le (x / (2 : ℝ) ^ expo x) k
  have e : ∀ r : ℝ, |r * (2 : ℝ) ^ expo x - x| = |x / (2 : ℝ) ^ expo x - r| * (2 : ℝ) ^ expo x := by
    intro r
    rw [← abs_of_pos hp, ← abs_mul, abs_of_pos hp, abs_sub_comm]
    congr 1; field_simp
  unfold rnd
  rw [e, e]
  exact mul_le_mul_of_nonneg_right h hp.le

theorem rnd_half (x : ℝ) : |rnd x - x| ≤ (2 : ℝ) ^ expo x / 2 := by
  have hp := pow_pos' (expo x)
  have h := abs_sub_round (x / (2 : ℝ) ^ expo x)
  have e : ∀ r : ℝ, |r * (2 : ℝ) ^ expo x - x| = |x / (2 : ℝ) ^ expo x - r| * (2 : ℝ) ^ expo x := by
    intro r
    rw [← abs_of_pos hp, ← abs_mul, abs_of_pos hp, abs_sub_comm]
    congr 1; field_simp
  unfold rnd
  rw [e]
  nlinarith

theorem rnd_near (x y : ℝ) (hy : IsDouble y) : |rnd x - x| ≤ |y - x| := by
  by_cases hx00 : x = 0
  · have : rnd x = 0 := by rw [rnd, hx00]; simp
    rw [this, hx00]; simp
  obtain ⟨m, e, h1, h2, h3⟩ := hy
  by_cases he : expo x ≤ e
  · have e1 : y = ((m * 2 ^ (e - expo x).toNat : ℤ) : ℝ) * (2 : ℝ) ^ expo x := by
      rw [h3]; push_cast
      rw [mul_assoc, ← zpow_natCast, ← zpow_add₀ (by norm_num : (2 : ℝ) ≠ 0)]
      congr 2; omega
    rw [e1]; exact rnd_grid x _
  · have hx : expo x = Int.log 2 |x| - 52 := by
      unfold expo at he ⊢; omega
    have hx0 : 0 < |x| := abs_pos.2 hx00
    have hlow : (2 : ℝ) ^ (expo x + 52) ≤ |x| := by
      have := Int.zpow_log_le_self (b := 2) (r := |x|) (by norm_num) hx0
      rw [hx]; simpa using this
    have hy : |y| ≤ (2 : ℝ) ^ (expo x + 52) := by
      rw [h3, abs_mul, abs_of_pos (pow_pos' e)]
      have a1 : |(m : ℝ)| ≤ 2 ^ 53 := by
        have : ((|m| : ℤ) : ℝ) < ((2 ^ 53 : ℤ) : ℝ) := Int.cast_lt.2 h1
        push_cast at this; linarith
      have a2 : (2 : ℝ) ^ e ≤ (2 : ℝ) ^ (expo x - 1) := zpow_le_zpow_right₀ (by norm_num) (by omega)
      calc |(m : ℝ)| * (2 : ℝ) ^ e ≤ 2 ^ 53 * (2 : ℝ) ^ (expo x - 1) :=
            mul_le_mul a1 a2 (pow_pos' e).le (by positivity)
        _ = (2 : ℝ) ^ (expo x + 52) := by
            rw [← zpow_natCast, ← zpow_add₀ (by norm_num : (2 : ℝ) ≠ 0)]; congr 1; push_cast; ring
    have e52 : (2 : ℝ) ^ (expo x + 52) = ((2 ^ 52 : ℤ) : ℝ) * (2 : ℝ) ^ expo x := by
      rw [zpow_add₀ (by norm_num : (2 : ℝ) ≠ 0)]; push_cast
      rw [show ((2 : ℝ) ^ (52 : ℤ)) = 2 ^ 52 by norm_num]; ring
    rcases le_total 0 x with hs | hs
    · have g := rnd_grid x (2 ^ 52)
      rw [← e52] at g
      rw [abs_of_nonneg hs] at hlow
      rw [abs_of_nonpos (show (2 : ℝ) ^ (expo x + 52) - x ≤ 0 by linarith)] at g
      have := abs_le.1 hy
      refine le_trans g ?_
      rw [abs_sub_comm]
      exact le_trans (by linarith) (le_abs_self _)
    · have g := rnd_grid x (-2 ^ 52)
      rw [show ((-2 ^ 52 : ℤ) : ℝ) = -((2 ^ 52 : ℤ) : ℝ) by push_cast; ring, neg_mul, ← e52] at g
      rw [abs_of_nonpos hs] at hlow
      rw [abs_of_nonneg (show 0 ≤ -(2 : ℝ) ^ (expo x + 52) - x by linarith)] at g
      have := abs_le.1 hy
      refine le_trans g ?_
      exact le_trans (by linarith) (le_abs_self _)

/-- Such roundings exist. -/
noncomputable def someRounding : Rounding := ⟨rnd, rnd_dbl, rnd_near⟩

variable (R : Rounding)

theorem fl_exact {x : ℝ} (h : IsDouble x) : R.fl x = x := by
  have := R.near x x h
  rw [sub_self, abs_zero] at this
  exact sub_eq_zero.1 (abs_nonpos_iff.1 this)

theorem fl_zero : R.fl 0 = 0 := fl_exact R dbl_zero

theorem fl_mono {x y : ℝ} (h : x ≤ y) : R.fl x ≤ R.fl y := by
  by_contra hlt
  have hlt : R.fl y < R.fl x := not_le.1 hlt
  have h1 := R.near x _ (R.mem y)
  have h2 := R.near y _ (R.mem x)
  have h3 : (R.fl x + R.fl y) / 2 ≤ x := by
    by_contra hc
    have hc := not_le.1 hc
    rw [abs_of_pos (show 0 < R.fl x - x by linarith)] at h1
    have := abs_lt.2 (⟨by linarith, by linarith⟩ : -(R.fl x - x) < R.fl y - x ∧ R.fl y - x < R.fl x - x)
    linarith
  have h4 : y ≤ (R.fl x + R.fl y) / 2 := by
    by_contra hc
    have hc := not_le.1 hc
    rw [abs_of_neg (show R.fl y - y < 0 by linarith)] at h2
    have := abs_lt.2 (⟨by linarith, by linarith⟩ : -(-(R.fl y - y)) < R.fl x - y ∧ R.fl x - y < -(R.fl y - y))
    linarith
  have : x = y := le_antisymm h (by linarith)
  rw [this] at hlt
  exact lt_irrefl _ hlt

/-- Unit roundoff. -/
noncomputable def u : ℝ := (2 : ℝ) ^ (-53 : ℤ)
/-- Half the smallest positive double. -/
noncomputable def eta : ℝ := (2 : ℝ) ^ (-1075 : ℤ)

theorem u_pos : 0 < u := by unfold u; exact pow_pos' _
theorem eta_pos : 0 < eta := by unfold eta; exact pow_pos' _
theorem u_le : u ≤ 1 / 2 := by unfold u; norm_num

/-- Relative error outside of the subnormal range. -/
theorem fl_err_normal {x : ℝ} (h : (2 : ℝ) ^ (-1022 : ℤ) ≤ |x|) : |R.fl x - x| ≤ u * |x| := by
  refine le_trans (R.near x _ (rnd_dbl x)) (le_trans (rnd_half x) ?_)
  have hx0 : 0 < |x| := lt_of_lt_of_le (pow_pos' _) h
  have h1 := Int.zpow_log_le_self (b := 2) (r := |x|) (by norm_num) hx0
  have h2 : (-1022 : ℤ) ≤ Int.log 2 |x| := by
    by_contra hc
    have h3 : |x| < (2 : ℝ) ^ (Int.log 2 |x| + 1) := by
      have := Int.lt_zpow_succ_log_self (b := 2) (by norm_num) |x|
      exact_mod_cast this
    have h4 : (2 : ℝ) ^ (Int.log 2 |x| + 1) ≤ (2 : ℝ) ^ (-1022 : ℤ) :=
      zpow_le_zpow_right₀ (by norm_num) (by omega)
    linarith
  have he : expo x = Int.log 2 |x| - 52 := by unfold expo; omega
  rw [he]
  have h1 : (2 : ℝ) ^ Int.log 2 |x| ≤ |x| := by exact_mod_cast h1
  have e : (2 : ℝ) ^ (Int.log 2 |x| - 52) / 2 = u * (2 : ℝ) ^ Int.log 2 |x| := by
    unfold u
    rw [← zpow_add₀ (by norm_num : (2 : ℝ) ≠ 0), div_eq_iff (by norm_num), ← zpow_add_one₀ (by norm_num : (2 : ℝ) ≠ 0)]
    congr 1; ring
  rw [e]
  exact mul_le_mul_of_nonneg_left h1 u_pos.le

/-- Relative and absolute error for every number. -/
theorem fl_err (x : ℝ) : |R.fl x - x| ≤ u * |x| + eta := by
  by_cases h : (2 : ℝ) ^ (-1022 : ℤ) ≤ |x|
  · have := fl_err_normal R h
    have := eta_pos; linarith
  · have h := not_le.1 h
    by_cases hx : x = 0
    · rw [hx, fl_zero R, sub_zero, abs_zero, mul_zero, zero_add]
      exact eta_pos.le
    refine le_trans (R.near x _ (rnd_dbl x)) (le_trans (rnd_half x) ?_)
    have hx0 : 0 < |x| := abs_pos.2 hx
    have h1 := Int.zpow_log_le_self (b := 2) (r := |x|) (by norm_num) hx0
    have h1 : (2 : ℝ) ^ Int.log 2 |x| ≤ |x| := by exact_mod_cast h1
    have h2 : Int.log 2 |x| < (-1022 : ℤ) := (zpow_lt_zpow_iff_right₀ (by norm_num : (1 : ℝ) < 2)).1 (lt_of_le_of_lt h1 h)
    have he : expo x = -1074 := by unfold expo; omega
    rw [he]
    have e : (2 : ℝ) ^ (-1074 : ℤ) / 2 = eta := by
      unfold eta
      rw [div_eq_iff (by norm_num), ← zpow_add_one₀ (by norm_num : (2 : ℝ) ≠ 0)]
      norm_num
    rw [e]
    have := mul_nonneg u_pos.le hx0.le
    linarith

/-- Doubles are multiples of the smallest one. -/
theorem dbl_multiple {x : ℝ} (h : IsDouble x) : ∃ k : ℤ, x = k * (2 : ℝ) ^ (-1074 : ℤ) := by
  obtain ⟨m, e, _, h2, h3⟩ := h
  refine ⟨m * 2 ^ (e + 1074).toNat, ?_⟩
  rw [h3]; push_cast
  rw [mul_assoc, ← zpow_natCast, ← zpow_add₀ (by norm_num : (2 : ℝ) ≠ 0)]
  congr 2; omega

/-- Addition has no absolute error term. -/
theorem fl_err_add {a b : ℝ} (ha : IsDouble a) (hb : IsDouble b) : |R.fl (a + b) - (a + b)| ≤ u * |a + b| := by
  by_cases h : (2 : ℝ) ^ (-1022 : ℤ) ≤ |a + b|
  · exact fl_err_normal R h
  · have h := not_le.1 h
    obtain ⟨k, hk⟩ := dbl_multiple ha
    obtain ⟨l, hl⟩ := dbl_multiple hb
    have e : a + b = ((k + l : ℤ) : ℝ) * (2 : ℝ) ^ (-1074 : ℤ) := by rw [hk, hl]; push_cast; ring
    have hd : IsDouble (a + b) := by
      rw [e]
      refine dbl_mul_pow _ _ ?_ (le_refl _)
      rw [e, abs_mul, abs_of_pos (pow_pos' _), show (2 : ℝ) ^ (-1022 : ℤ) = ((2 ^ 52 : ℤ) : ℝ) * (2 : ℝ) ^ (-1074 : ℤ) by
        rw [show (-1022 : ℤ) = 52 + (-1074) by norm_num, zpow_add₀ (by norm_num : (2 : ℝ) ≠ 0)]
        congr 1; norm_num] at h
      have h := lt_of_mul_lt_mul_right h (pow_pos' _).le
      rw [← Int.cast_abs] at h
      have h := Int.cast_lt.1 h
      omega
    rw [fl_exact R hd, sub_self, abs_zero]
    exact mul_nonneg u_pos.le (abs_nonneg _)

theorem fl_err_sub {a b : ℝ} (ha : IsDouble a) (hb : IsDouble b) : |R.fl (a - b) - (a - b)| ≤ u * |a - b| := by
  have := fl_err_add R ha (dbl_neg hb)
  simpa [sub_eq_add_neg] using this

theorem fl_nonneg {x : ℝ} (h : 0 ≤ x) : 0 ≤ R.fl x := by
  have := fl_mono R h
  rwa [fl_zero] at this

end CCGL.Flt
