import Verif.Lemmas.FloatStats2
/-! # Statistics: the deviation -/
namespace CCGL.Flt
open Spec

/-- One squared deviation. -/
noncomputable def sq (R : Rounding) (m v : ℝ) : ℝ := R.mul (R.sub v m) (R.sub v m)

theorem sq_bounds (R : Rounding) {m v : ℝ} (hm : IsDouble m) (hv : IsDouble v) :
    0 ≤ sq R m v ∧ (1 - u) ^ 3 * (v - m) ^ 2 - eta ≤ sq R m v ∧ sq R m v ≤ (1 + u) ^ 3 * (v - m) ^ 2 + eta := by
  have hu := u_pos
  have hu2 := u_le
  have h1 := fl_err_sub R hv hm
  set d := R.sub v m with hd
  have h1 : |d - (v - m)| ≤ u * |v - m| := h1
  have h2 := fl_err R (d * d)
  have hdd : |d * d| = d ^ 2 := by rw [abs_of_nonneg (mul_self_nonneg d)]; ring
  rw [hdd] at h2
  have h2 := abs_le.1 h2
  have up : |d| ≤ (1 + u) * |v - m| := by
    have : d = (d - (v - m)) + (v - m) := by ring
    rw [this]; exact le_trans (abs_add_le _ _) (by linarith)
  have lo : (1 - u) * |v - m| ≤ |d| := by
    have : |v - m| ≤ |d - (v - m)| + |d| := by
      have e : v - m = -(d - (v - m)) + d := by ring
      calc |v - m| = |-(d - (v - m)) + d| := by rw [← e]
        _ ≤ |-(d - (v - m))| + |d| := abs_add_le _ _
        _ = _ := by rw [abs_neg]
    linarith
  have up2 : d ^ 2 ≤ (1 + u) ^ 2 * (v - m) ^ 2 := by
    rw [← sq_abs d, ← sq_abs (v - m), ← mul_pow]
    exact pow_le_pow_left₀ (abs_nonneg _) up 2
  have lo2 : (1 - u) ^ 2 * (v - m) ^ 2 ≤ d ^ 2 := by
    rw [← sq_abs d, ← sq_abs (v - m), ← mul_pow]
    exact pow_le_pow_left₀ (mul_nonneg (by linarith) (abs_nonneg _)) lo 2
  refine ⟨fl_nonneg R (mul_self_nonneg d), ?_, ?_⟩
  · have : (1 - u) * ((1 - u) ^ 2 * (v - m) ^ 2) ≤ (1 - u) * d ^ 2 := mul_le_mul_of_nonneg_left lo2 (by linarith)
    have e : (1 - u) ^ 3 * (v - m) ^ 2 = (1 - u) * ((1 - u) ^ 2 * (v - m) ^ 2) := by ring
    have e2 : sq R m v = R.fl (d * d) := rfl
    rw [e, e2]; nlinarith [h2.1]
  · have : (1 + u) * d ^ 2 ≤ (1 + u) * ((1 + u) ^ 2 * (v - m) ^ 2) := mul_le_mul_of_nonneg_left up2 (by linarith)
    have e : (1 + u) ^ 3 * (v - m) ^ 2 = (1 + u) * ((1 + u) ^ 2 * (v - m) ^ 2) := by ring
    have e2 : sq R m v = R.fl (d * d) := rfl
    rw [e, e2]; nlinarith [h2.2]

theorem sq_sum_bounds (R : Rounding) {m : ℝ} (hm : IsDouble m) (l : List ℝ) (hl : ∀ v ∈ l, IsDouble v) :
    (1 - u) ^ 3 * (l.map (fun v => (v - m) ^ 2)).sum - l.length * eta ≤ (l.map (sq R m)).sum ∧
    (l.map (sq R m)).sum ≤ (1 + u) ^ 3 * (l.map (fun v => (v - m) ^ 2)).sum + l.length * eta := by
  induction l with
  | nil => simp
  | cons v l ih =>
    obtain ⟨h1, h2⟩ := ih (fun w hw => hl w (by simp [hw]))
    obtain ⟨_, q1, q2⟩ := sq_bounds R hm (hl v (by simp))
    simp only [List.map_cons, List.sum_cons, List.length_cons]
    push_cast
    constructor <;> nlinarith

/-- Deviations from a number that is not the mean. -/
theorem dev_shift (l : List ℝ) (hne : l ≠ []) (m : ℝ) :
    (l.map (fun v => (v - m) ^ 2)).sum / l.length = (l.map (fun v => (v - mean l) ^ 2)).sum / l.length + (m - mean l) ^ 2 := by
  have hn : (0 : ℝ) < l.length := by
    have := List.length_pos_iff.2 hne; exact_mod_cast this
  have gen : ∀ (l : List ℝ) (a : ℝ), (l.map (fun v => (v - a) ^ 2)).sum = (l.map (fun v => v ^ 2)).sum - 2 * a * l.sum + l.length * a ^ 2 := by
    intro l a
    induction l with
    | nil => simp
    | cons v l ih => simp only [List.map_cons, List.sum_cons, List.length_cons, ih]; push_cast; ring
  rw [gen l m, gen l (mean l)]
  have hs : l.sum = mean l * l.length := by unfold mean; field_simp
  rw [hs]
  field_simp
  ring

theorem sqrt_half : Real.sqrt (2 * eta) = (2 : ℝ) ^ (-537 : ℤ) := by
  have : 2 * eta = ((2 : ℝ) ^ (-537 : ℤ)) ^ 2 := by
    unfold eta
    rw [← zpow_natCast, ← zpow_mul, ← zpow_one_add₀ (by norm_num : (2 : ℝ) ≠ 0)]
    norm_num
  rw [this, Real.sqrt_sq (pow_pos' _).le]

theorem sqrt_le_self_of_one {x : ℝ} (h : 1 ≤ x) : Real.sqrt x ≤ x := by
  rw [Real.sqrt_le_left (by linarith)]; nlinarith
theorem self_le_sqrt_of_one {x : ℝ} (h0 : 0 ≤ x) (h : x ≤ 1) : x ≤ Real.sqrt x := by
  apply Real.le_sqrt_of_sq_le; nlinarith

/-- The square root of a double has a relative error only. -/
theorem sqrt_rel (R : Rounding) {D : ℝ} (hd : IsDouble D) (h0 : 0 ≤ D) :
    (1 - u) * Real.sqrt D ≤ R.sqrt D ∧ R.sqrt D ≤ (1 + u) * Real.sqrt D := by
  have key : |R.fl (Real.sqrt D) - Real.sqrt D| ≤ u * |Real.sqrt D| := by
    rcases h0.eq_or_lt with h | h
    · rw [← h, Real.sqrt_zero, fl_zero]; simp
    · apply fl_err_normal
      obtain ⟨k, hk⟩ := dbl_multiple hd
      have hk0 : (1 : ℝ) ≤ k := by
        have : 0 < (k : ℝ) := by
          rw [hk] at h
          exact pos_of_mul_pos_left h (pow_pos' _).le
        have : 0 < k := by exact_mod_cast this
        exact_mod_cast this
      have hD : (2 : ℝ) ^ (-1074 : ℤ) ≤ D := by
        rw [hk]; nlinarith [pow_pos' (-1074)]
      rw [abs_of_nonneg (Real.sqrt_nonneg _)]
      have : (2 : ℝ) ^ (-537 : ℤ) ≤ Real.sqrt D := by
        apply Real.le_sqrt_of_sq_le
        refine le_trans (le_of_eq ?_) hD
        rw [← zpow_natCast, ← zpow_mul]; norm_num
      exact le_trans (zpow_le_zpow_right₀ (by norm_num) (by norm_num)) this
  rw [abs_of_nonneg (Real.sqrt_nonneg _)] at key
  have := abs_le.1 key
  unfold Rounding.sqrt
  constructor <;> linarith

theorem sqrt_add_le' {a b : ℝ} (ha : 0 ≤ a) (hb : 0 ≤ b) : Real.sqrt (a + b) ≤ Real.sqrt a + Real.sqrt b := by
  rw [Real.sqrt_le_left (by positivity)]
  nlinarith [Real.sq_sqrt ha, Real.sq_sqrt hb, Real.sqrt_nonneg a, Real.sqrt_nonneg b, mul_nonneg (Real.sqrt_nonneg a) (Real.sqrt_nonneg b)]

set_option maxHeartbeats 1000000 in
theorem dev_near (R : Rounding) (l : List ℝ) (hl : ∀ v ∈ l, IsDouble v) (hne : l ≠ []) (m : ℝ) (hm : IsDouble m) (k : Nat) (S : ℝ)
    (hS0 : 0 ≤ S) (hS1 : (1 - u) ^ k * (l.map (sq R m)).sum ≤ S) (hS2 : S ≤ (1 + u) ^ k * (l.map (sq R m)).sum) :
    0 ≤ R.sqrt (R.div S l.length) ∧
    (1 - unit) ^ (k + 5) * deviation l - (2 : ℝ) ^ (-537 : ℤ) ≤ R.sqrt (R.div S l.length) ∧
    R.sqrt (R.div S l.length) ≤ (1 + unit) ^ (k + 5) * (deviation l + |m - mean l| + (2 : ℝ) ^ (-537 : ℤ)) := by
  rw [unit_eq]
  have hu := u_pos
  have hu2 := u_le
  have hn : (0 : ℝ) < l.length := by
    have := List.length_pos_iff.2 hne; exact_mod_cast this
  have he := eta_pos
  set V : ℝ := (l.map (fun v => (v - mean l) ^ 2)).sum / l.length with hV
  have hV0 : 0 ≤ V := div_nonneg (List.sum_nonneg (by
    intro x hx; obtain ⟨v, _, rfl⟩ := List.mem_map.1 hx; positivity)) hn.le
  have hsh := dev_shift l hne m
  rw [← hV] at hsh
  set W : ℝ := (l.map (fun v => (v - m) ^ 2)).sum / l.length with hW
  have hWV : W = V + (m - mean l) ^ 2 := hsh
  have hWs : (l.map (fun v => (v - m) ^ 2)).sum = W * l.length := by rw [hW]; field_simp
  obtain ⟨b1, b2⟩ := sq_sum_bounds R hm l hl
  rw [hWs] at b1 b2
  have pk0 : 0 < (1 - u) ^ k := pow_pos (by linarith) k
  have pk1 : (1 - u) ^ k ≤ 1 := pow_le_one₀ (by linarith) (by linarith)
  have qk1 : 1 ≤ (1 + u) ^ k := one_le_pow₀ (by linarith)
  -- bounds on S / n
  have s1 : (1 - u) ^ (k + 3) * W - eta ≤ S / l.length := by
    rw [le_div_iff₀ hn]
    have : (1 - u) ^ k * ((1 - u) ^ 3 * (W * l.length) - l.length * eta) ≤ S :=
      le_trans (mul_le_mul_of_nonneg_left b1 pk0.le) hS1
    have e : (1 - u) ^ (k + 3) = (1 - u) ^ k * (1 - u) ^ 3 := pow_add _ _ _
    rw [e]
    have : (1 - u) ^ k * (l.length * eta) ≤ l.length * eta := by
      have := mul_pos hn he; nlinarith
    nlinarith
  have s2 : S / l.length ≤ (1 + u) ^ (k + 3) * W + (1 + u) ^ k * eta := by
    rw [div_le_iff₀ hn]
    have : S ≤ (1 + u) ^ k * ((1 + u) ^ 3 * (W * l.length) + l.length * eta) :=
      le_trans hS2 (mul_le_mul_of_nonneg_left b2 (by linarith))
    have e : (1 + u) ^ (k + 3) = (1 + u) ^ k * (1 + u) ^ 3 := pow_add _ _ _
    rw [e]
    linarith
  -- bounds on D
  have hq0 : 0 ≤ S / l.length := div_nonneg hS0 hn.le
  have hD := fl_err R (S / l.length)
  rw [abs_of_nonneg hq0] at hD
  have hD := abs_le.1 hD
  set D := R.div S l.length with hDdef
  have hDfl : R.fl (S / l.length) = D := rfl
  rw [hDfl] at hD
  have hD0 : 0 ≤ D := fl_nonneg R hq0
  have d1 : (1 - u) ^ (k + 4) * W - 2 * eta ≤ D := by
    have : (1 - u) * ((1 - u) ^ (k + 3) * W - eta) ≤ (1 - u) * (S / l.length) := mul_le_mul_of_nonneg_left s1 (by linarith)
    have e : (1 - u) ^ (k + 4) * W = (1 - u) * ((1 - u) ^ (k + 3) * W) := by ring
    rw [e]
    nlinarith [hD.1]
  have d2 : D ≤ (1 + u) ^ (k + 4) * (W + 2 * eta) := by
    have : (1 + u) * (S / l.length) ≤ (1 + u) * ((1 + u) ^ (k + 3) * W + (1 + u) ^ k * eta) := mul_le_mul_of_nonneg_left s2 (by linarith)
    have e : (1 + u) ^ (k + 4) * (W + 2 * eta) = (1 + u) * ((1 + u) ^ (k + 3) * W) + 2 * ((1 + u) ^ (k + 4) * eta) := by ring
    have p1 : (1 + u) ^ (k + 1) * eta ≤ (1 + u) ^ (k + 4) * eta := mul_le_mul_of_nonneg_right (pow_inc (by omega)) he.le
    have p2 : eta ≤ (1 + u) ^ (k + 4) * eta := by
      have : (1 : ℝ) ≤ (1 + u) ^ (k + 4) := one_le_pow₀ (by linarith)
      nlinarith
    have p3 : (1 + u) * ((1 + u) ^ k * eta) = (1 + u) ^ (k + 1) * eta := by ring
    rw [e]
    nlinarith [hD.2]
  have hWn : 0 ≤ W := by rw [hWV]; positivity
  obtain ⟨r1, r2⟩ := sqrt_rel R (R.mem (S / l.length)) hD0
  have r1 : (1 - u) * Real.sqrt D ≤ R.sqrt D := r1
  have r2 : R.sqrt D ≤ (1 + u) * Real.sqrt D := r2
  have hdev : deviation l = Real.sqrt V := rfl
  have hroot := sqrt_half
  have htiny := pow_pos' (-537)
  generalize (2 : ℝ) ^ (-537 : ℤ) = t at hroot htiny ⊢
  clear_value V W D
  refine ⟨fl_nonneg R (Real.sqrt_nonneg _), ?_, ?_⟩
  · -- lower
    have pk4 : 0 ≤ (1 - u) ^ (k + 4) := pow_nonneg (by linarith) _
    have pk41 : (1 - u) ^ (k + 4) ≤ 1 := pow_le_one₀ (by linarith) (by linarith)
    have t1 : Real.sqrt ((1 - u) ^ (k + 4) * W) ≤ Real.sqrt D + t := by
      rw [← hroot]
      refine le_trans (Real.sqrt_le_sqrt (show (1 - u) ^ (k + 4) * W ≤ D + 2 * eta by linarith)) ?_
      exact sqrt_add_le' hD0 (by linarith)
    have t2 : (1 - u) ^ (k + 4) * Real.sqrt V ≤ Real.sqrt ((1 - u) ^ (k + 4) * W) := by
      rw [Real.sqrt_mul pk4]
      exact mul_le_mul (self_le_sqrt_of_one pk4 pk41) (Real.sqrt_le_sqrt (by rw [hWV]; nlinarith)) (Real.sqrt_nonneg _) (Real.sqrt_nonneg _)
    have t3 : (1 - u) * ((1 - u) ^ (k + 4) * Real.sqrt V - t) ≤ R.sqrt D :=
      le_trans (mul_le_mul_of_nonneg_left (sub_le_iff_le_add.2 (le_trans t2 t1)) (by linarith)) r1
    have e : (1 - u) ^ (k + 5) * deviation l = (1 - u) * ((1 - u) ^ (k + 4) * Real.sqrt V) := by rw [hdev]; ring
    rw [e]
    nlinarith
  · -- upper
    have qk4 : 1 ≤ (1 + u) ^ (k + 4) := one_le_pow₀ (by linarith)
    have t1 : Real.sqrt D ≤ (1 + u) ^ (k + 4) * (Real.sqrt V + |m - mean l| + t) := by
      refine le_trans (Real.sqrt_le_sqrt d2) ?_
      rw [Real.sqrt_mul (by linarith)]
      refine mul_le_mul (sqrt_le_self_of_one qk4) ?_ (Real.sqrt_nonneg _) (by linarith)
      rw [← hroot, ← Real.sqrt_sq_eq_abs]
      refine le_trans (sqrt_add_le' hWn (by linarith)) ?_
      have := sqrt_add_le' hV0 (sq_nonneg (m - mean l))
      rw [hWV]; linarith
    have e : (1 + u) ^ (k + 5) * (deviation l + |m - mean l| + t) =
        (1 + u) * ((1 + u) ^ (k + 4) * (Real.sqrt V + |m - mean l| + t)) := by rw [hdev]; ring
    rw [e]
    exact le_trans r2 (mul_le_mul_of_nonneg_left t1 (by linarith))

end CCGL.Flt
