import Verif.Lemmas.Float
import Verif.Spec.FloatCoord
/-! # Coordinates in doubles: one axis -/
namespace CCGL.Flt
open CCGL.Flt.Spec

/-- Products of integers and doubles have a relative error only. -/
theorem fl_err_intmul (R : Rounding) (k : ℤ) {w : ℝ} (hw : IsDouble w) : |R.fl (k * w) - k * w| ≤ u * |k * w| := by
  by_cases h : (2 : ℝ) ^ (-1022 : ℤ) ≤ |k * w|
  · exact fl_err_normal R h
  · have h := not_le.1 h
    obtain ⟨l, hl⟩ := dbl_multiple hw
    have e : (k : ℝ) * w = ((k * l : ℤ) : ℝ) * (2 : ℝ) ^ (-1074 : ℤ) := by rw [hl]; push_cast; ring
    have hd : IsDouble (k * w) := by
      rw [e]
      refine dbl_mul_pow _ _ ?_ (le_refl _)
      rw [e, abs_mul, abs_of_pos (pow_pos' _), show (2 : ℝ) ^ (-1022 : ℤ) = ((2 ^ 52 : ℤ) : ℝ) * (2 : ℝ) ^ (-1074 : ℤ) by
        rw [show (-1022 : ℤ) = 52 + (-1074) by norm_num, zpow_add₀ (by norm_num : (2 : ℝ) ≠ 0)]
        congr 1; norm_num] at h
      have h := lt_of_mul_lt_mul_right h (pow_pos' _).le
      rw [← Int.cast_abs] at h
      have h := Int.cast_lt.1 h
      omega
    rw [fl_exact R hd, sub_self, abs_zero]
    exact mul_nonneg u_pos.le (abs_nonneg _)

/-- Halving is exact in the normal range. -/
theorem dbl_half {w : ℝ} (hw : IsDouble w) (h : (2 : ℝ) ^ (-1000 : ℤ) ≤ w) : IsDouble (w / 2) := by
  obtain ⟨m, e, h1, h2, h3⟩ := hw
  have he : -1073 ≤ e := by
    by_contra hc
    have a1 : (m : ℝ) ≤ 2 ^ 53 := by
      have : ((m : ℤ) : ℝ) < ((2 ^ 53 : ℤ) : ℝ) := Int.cast_lt.2 (abs_lt.1 h1).2
      push_cast at this; linarith
    have a2 : (2 : ℝ) ^ e ≤ (2 : ℝ) ^ (-1074 : ℤ) := zpow_le_zpow_right₀ (by norm_num) (by omega)
    have a3 : (m : ℝ) * (2 : ℝ) ^ e ≤ (2 : ℝ) ^ (53 : ℤ) * (2 : ℝ) ^ (-1074 : ℤ) :=
      mul_le_mul (by rw [show (2 : ℝ) ^ (53 : ℤ) = 2 ^ 53 by norm_num]; exact a1) a2 (pow_pos' e).le (pow_pos' _).le
    rw [← zpow_add₀ (by norm_num : (2 : ℝ) ≠ 0)] at a3
    have a4 : (2 : ℝ) ^ ((53 : ℤ) + -1074) < (2 : ℝ) ^ (-1000 : ℤ) :=
      (zpow_lt_zpow_iff_right₀ (by norm_num : (1 : ℝ) < 2)).2 (by norm_num)
    rw [h3] at h
    exact absurd (lt_of_le_of_lt a3 a4) (not_lt.2 h)
  refine ⟨m, e - 1, h1, by omega, ?_⟩
  rw [h3, zpow_sub_one₀ (by norm_num : (2 : ℝ) ≠ 0)]
  ring

variable (R : Rounding)

/-- The sizes along one axis. -/
structure Axis (ll w : ℝ) (n : ℤ) (B : ℝ) : Prop where
  lld : IsDouble ll
  wd : IsDouble w
  posw : (2 : ℝ) ^ (-1000 : ℤ) ≤ w
  nlt : n < 2 ^ 31
  Bge : |ll| + (n + 1) * w ≤ B

theorem Axis.wpos {ll w : ℝ} {n : ℤ} {B : ℝ} (h : Axis ll w n B) : 0 < w := lt_of_lt_of_le (pow_pos' _) h.posw

theorem u_small : u ≤ 1 / 2 ^ 20 := by unfold u; norm_num

theorem low_near {ll w : ℝ} {n : ℤ} {B : ℝ} (h : Axis ll w n B) (hn : 1 ≤ n) : |lowF R ll w - (ll - w / 2)| ≤ u * B := by
  have hw := h.wpos
  have e : R.div w 2 = w / 2 := fl_exact R (dbl_half h.wd h.posw)
  unfold lowF
  rw [e]
  have := fl_err_sub R h.lld (dbl_half h.wd h.posw)
  refine le_trans this (mul_le_mul_of_nonneg_left ?_ u_pos.le)
  have hb := h.Bge
  have hn' : (1 : ℝ) ≤ n := by exact_mod_cast hn
  have : |ll - w / 2| ≤ |ll| + w / 2 := by
    have := abs_sub ll (w / 2)
    rwa [abs_of_pos (by linarith : (0 : ℝ) < w / 2)] at this
  nlinarith

theorem high_near {ll w : ℝ} {n : ℤ} {B : ℝ} (h : Axis ll w n B) (hn : 1 ≤ n) :
    |highF R ll w n - (ll - w / 2 + n * w)| ≤ 4 * u * B := by
  have hw := h.wpos
  have hu := u_pos
  have hu2 := u_small
  have hn' : (1 : ℝ) ≤ n := by exact_mod_cast hn
  have hb := h.Bge
  have hl := low_near R h hn
  have hB0 : 0 ≤ B := le_trans (by positivity) hb
  have hm : |R.mul w n - n * w| ≤ u * B := by
    have := fl_err_intmul R n h.wd
    unfold Rounding.mul
    rw [mul_comm w]
    refine le_trans this (mul_le_mul_of_nonneg_left ?_ hu.le)
    rw [abs_of_nonneg (by positivity)]
    have := abs_nonneg ll
    nlinarith
  have hs := fl_err_add R (a := lowF R ll w) (b := R.mul w n) (R.mem _) (R.mem _)
  have e : highF R ll w n = R.fl (lowF R ll w + R.mul w n) := rfl
  rw [e]
  have h1 : |lowF R ll w + R.mul w n - (ll - w / 2 + n * w)| ≤ 2 * u * B := by
    have e1 : lowF R ll w + R.mul w n - (ll - w / 2 + n * w) = (lowF R ll w - (ll - w / 2)) + (R.mul w n - n * w) := by ring
    rw [e1]; exact le_trans (abs_add_le _ _) (by linarith)
  have h2 : |ll - w / 2 + n * w| ≤ B := by
    refine le_trans ?_ hb
    have : ll - w / 2 + n * w = ll + (n * w - w / 2) := by ring
    rw [this]
    refine le_trans (abs_add_le _ _) ?_
    rw [abs_of_nonneg (show 0 ≤ (n : ℝ) * w - w / 2 by nlinarith)]
    nlinarith
  have h3 : |lowF R ll w + R.mul w n| ≤ 2 * B := by
    have e1 : lowF R ll w + R.mul w n = (lowF R ll w + R.mul w n - (ll - w / 2 + n * w)) + (ll - w / 2 + n * w) := by ring
    rw [e1]
    refine le_trans (abs_add_le _ _) ?_
    nlinarith
  have e2 : R.fl (lowF R ll w + R.mul w n) - (ll - w / 2 + n * w) =
      (R.fl (lowF R ll w + R.mul w n) - (lowF R ll w + R.mul w n)) + (lowF R ll w + R.mul w n - (ll - w / 2 + n * w)) := by ring
  rw [e2]
  refine le_trans (abs_add_le _ _) ?_
  have := mul_le_mul_of_nonneg_left h3 hu.le
  linarith

/-- The cell number computed from a distance to a border. -/
theorem trunc_cell {w B z : ℝ} {n c : ℤ} (hw : 0 < w) (hc : 0 ≤ c) (hcn : c < n) (hn : n < 2 ^ 31) (hB : (n + 1) * w ≤ B)
    (h1 : c * w + 2 * u * B ≤ z) (h2 : z ≤ (c + 1) * w - 8 * u * B) (hz : |R.fl z - z| ≤ u * |z|) :
    truncR (R.div (R.fl z) w) = c := by
  have hu := u_pos
  have hu2 := u_small
  have hc' : (0 : ℝ) ≤ c := by exact_mod_cast hc
  have hcn' : (c : ℝ) + 1 ≤ n := by exact_mod_cast hcn
  have hB0 : 0 < B := lt_of_lt_of_le (by nlinarith) hB
  have hz0 : 0 ≤ z := le_trans (by positivity) h1
  have hzB : z ≤ B := by nlinarith
  rw [abs_of_nonneg hz0] at hz
  have hz := abs_le.1 hz
  have huz : u * z ≤ u * B := mul_le_mul_of_nonneg_left hzB hu.le
  have q1 : (c : ℝ) ≤ R.fl z / w := by
    rw [le_div_iff₀ hw]; nlinarith [hz.1, mul_pos hu hB0]
  have q2 : R.fl z / w ≤ c + 1 - 7 * u * (n + 1) := by
    rw [div_le_iff₀ hw]
    have : u * ((n + 1) * w) ≤ u * B := mul_le_mul_of_nonneg_left hB hu.le
    nlinarith [hz.2]
  have hcd : IsDouble (c : ℝ) := dbl_int c (by rw [abs_of_nonneg hc]; omega)
  have r1 : (c : ℝ) ≤ R.div (R.fl z) w := by
    have := fl_mono R q1
    rwa [fl_exact R hcd] at this
  have q0 : 0 ≤ R.fl z / w := le_trans hc' q1
  have r2 : R.div (R.fl z) w < c + 1 := by
    have h := fl_err R (R.fl z / w)
    rw [abs_of_nonneg q0] at h
    have h := (abs_le.1 h).2
    have he : eta ≤ u := by
      unfold eta u; exact zpow_le_zpow_right₀ (by norm_num) (by norm_num)
    have hq : u * (R.fl z / w) ≤ u * (n + 1) := by
      refine mul_le_mul_of_nonneg_left ?_ hu.le
      nlinarith
    have e : R.div (R.fl z) w = R.fl (R.fl z / w) := rfl
    rw [e]
    nlinarith
  unfold truncR
  rw [if_pos (le_trans hc' r1), Int.floor_eq_iff]
  exact ⟨r1, r2⟩

/-- Column from x. -/
theorem col_axis {ll w B x : ℝ} {n c : ℤ} (h : Axis ll w n B) (hx : IsDouble x) (hc : 0 ≤ c) (hcn : c < n)
    (h1 : ll - w / 2 + c * w + 16 * u * B ≤ x) (h2 : x ≤ ll - w / 2 + (c + 1) * w - 16 * u * B) :
    lowF R ll w ≤ x ∧ x ≤ highF R ll w n ∧ truncR (R.div (R.sub x (lowF R ll w)) w) = c := by
  have hw := h.wpos
  have hu := u_pos
  have hn : 1 ≤ n := by omega
  have hc' : (0 : ℝ) ≤ c := by exact_mod_cast hc
  have hcn' : (c : ℝ) + 1 ≤ n := by exact_mod_cast hcn
  have hb := h.Bge
  have hB1 : (n + 1) * w ≤ B := by have := abs_nonneg ll; linarith
  have hB0 : 0 < B := lt_of_lt_of_le (by nlinarith) hB1
  have huB := mul_pos hu hB0
  have l := abs_le.1 (low_near R h hn)
  have hi := abs_le.1 (high_near R h hn)
  refine ⟨by nlinarith, by nlinarith, ?_⟩
  exact trunc_cell R hw hc hcn h.nlt hB1 (by nlinarith) (by nlinarith) (fl_err_sub R hx (R.mem _))

/-- Row from y, counted from the top. -/
theorem row_axis {ll w B y : ℝ} {n r : ℤ} (h : Axis ll w n B) (hy : IsDouble y) (hr : 0 ≤ r) (hrn : r < n)
    (h1 : ll - w / 2 + n * w - (r + 1) * w + 16 * u * B ≤ y) (h2 : y ≤ ll - w / 2 + n * w - r * w - 16 * u * B) :
    lowF R ll w ≤ y ∧ y ≤ highF R ll w n ∧ truncR (R.div (R.sub (highF R ll w n) y) w) = r := by
  have hw := h.wpos
  have hu := u_pos
  have hn : 1 ≤ n := by omega
  have hc' : (0 : ℝ) ≤ r := by exact_mod_cast hr
  have hcn' : (r : ℝ) + 1 ≤ n := by exact_mod_cast hrn
  have hb := h.Bge
  have hB1 : (n + 1) * w ≤ B := by have := abs_nonneg ll; linarith
  have hB0 : 0 < B := lt_of_lt_of_le (by nlinarith) hB1
  have huB := mul_pos hu hB0
  have l := abs_le.1 (low_near R h hn)
  have hi := abs_le.1 (high_near R h hn)
  refine ⟨by nlinarith, by nlinarith, ?_⟩
  exact trunc_cell R hw hr hrn h.nlt hB1 (by nlinarith) (by nlinarith) (fl_err_sub R (R.mem _) hy)

/-- The computed centre along one axis. -/
theorem centre_near {ll w B : ℝ} {n c : ℤ} (h : Axis ll w n B) (hc : 0 ≤ c) (hcn : c < n) :
    IsDouble (R.add ll (R.mul c w)) ∧ ll ≤ R.add ll (R.mul c w) ∧ |R.add ll (R.mul c w) - (ll + c * w)| ≤ 3 * u * B := by
  have hw := h.wpos
  have hu := u_pos
  have hu2 := u_small
  have hc' : (0 : ℝ) ≤ c := by exact_mod_cast hc
  have hcn' : (c : ℝ) + 1 ≤ n := by exact_mod_cast hcn
  have hb := h.Bge
  have hB0 : 0 ≤ B := le_trans (by have := abs_nonneg ll; nlinarith) hb
  have hm : |R.mul c w - c * w| ≤ u * B := by
    refine le_trans (fl_err_intmul R c h.wd) (mul_le_mul_of_nonneg_left ?_ hu.le)
    rw [abs_of_nonneg (by positivity)]
    have := abs_nonneg ll
    nlinarith
  have hm0 : 0 ≤ R.mul c w := fl_nonneg R (by positivity)
  refine ⟨R.mem _, ?_, ?_⟩
  · have := fl_mono R (show ll ≤ ll + R.mul c w by linarith)
    rwa [fl_exact R h.lld] at this
  · have hs := fl_err_add R (b := R.mul c w) h.lld (R.mem _)
    have h3 : |ll + R.mul c w| ≤ 2 * B := by
      have e1 : ll + R.mul c w = (R.mul c w - c * w) + (ll + c * w) := by ring
      rw [e1]
      refine le_trans (abs_add_le _ _) ?_
      have : |ll + c * w| ≤ |ll| + c * w := by
        have := abs_add_le ll (c * w); rwa [abs_of_nonneg (by positivity : (0 : ℝ) ≤ c * w)] at this
      nlinarith
    have e2 : R.add ll (R.mul c w) - (ll + c * w) = (R.fl (ll + R.mul c w) - (ll + R.mul c w)) + (R.mul c w - c * w) := by
      unfold Rounding.add; ring
    rw [e2]
    refine le_trans (abs_add_le _ _) ?_
    have := mul_le_mul_of_nonneg_left h3 hu.le
    linarith

end CCGL.Flt
