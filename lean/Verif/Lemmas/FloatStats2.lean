import Verif.Lemmas.FloatStats
/-! # Statistics: the excluded value, the loops, mean and deviation -/
namespace CCGL.Flt
open Spec

/-! ## FloatEqual -/

theorem lit_lt (R : Rounding) : R.fl (1 / 10 ^ 32) < (2 : ℝ) ^ (-106 : ℤ) := by
  have h := fl_err_normal R (x := 1 / 10 ^ 32) (by
    rw [abs_of_pos (by norm_num)]
    have : (2 : ℝ) ^ (-1022 : ℤ) ≤ (2 : ℝ) ^ (-107 : ℤ) := zpow_le_zpow_right₀ (by norm_num) (by norm_num)
    refine le_trans this ?_
    norm_num)
  have h := (abs_le.1 h).2
  have hu : u ≤ 1 / 1000000 := by unfold u; norm_num
  rw [abs_of_pos (by norm_num : (0 : ℝ) < 1 / 10 ^ 32)] at h
  have h2 : u * (1 / 10 ^ 32) ≤ 1 / 1000000 * (1 / 10 ^ 32) := mul_le_mul_of_nonneg_right hu (by norm_num)
  have h3 : (1 / 10 ^ 32 : ℝ) + 1 / 1000000 * (1 / 10 ^ 32) < (2 : ℝ) ^ (-106 : ℤ) := by norm_num
  linarith

theorem lit_pos (R : Rounding) : 0 < R.fl (1 / 10 ^ 32) := by
  have h := fl_mono R (show (2 : ℝ) ^ (-107 : ℤ) ≤ 1 / 10 ^ 32 by norm_num)
  rw [fl_exact R (dbl_pow _ (by norm_num))] at h
  exact lt_of_lt_of_le (pow_pos' _) h

/-- Doubles of magnitude at least 2⁻⁵³ are multiples of 2⁻¹⁰⁵. -/
theorem dbl_grid {x : ℝ} (h : IsDouble x) (hx : (2 : ℝ) ^ (-53 : ℤ) ≤ |x|) : ∃ k : ℤ, x = k * (2 : ℝ) ^ (-105 : ℤ) := by
  obtain ⟨m, e, h1, h2, h3⟩ := h
  have he : -105 ≤ e := by
    by_contra hc
    have a1 : |(m : ℝ)| < 2 ^ 53 := by
      have : ((|m| : ℤ) : ℝ) < ((2 ^ 53 : ℤ) : ℝ) := Int.cast_lt.2 h1
      push_cast at this; linarith
    have a2 : (2 : ℝ) ^ e ≤ (2 : ℝ) ^ (-106 : ℤ) := zpow_le_zpow_right₀ (by norm_num) (by omega)
    have : |x| < 2 ^ 53 * (2 : ℝ) ^ (-106 : ℤ) := by
      rw [h3, abs_mul, abs_of_pos (pow_pos' e)]
      exact mul_lt_mul a1 a2 (pow_pos' e) (by norm_num)
    have e1 : 2 ^ 53 * (2 : ℝ) ^ (-106 : ℤ) = (2 : ℝ) ^ (-53 : ℤ) := by norm_num
    rw [e1] at this; linarith
  refine ⟨m * 2 ^ (e + 105).toNat, ?_⟩
  rw [h3]; push_cast
  rw [mul_assoc, ← zpow_natCast, ← zpow_add₀ (by norm_num : (2 : ℝ) ≠ 0)]
  congr 2; omega

/-- Two different doubles, one of them at least 2⁻⁵³, are at least 2⁻¹⁰⁶ apart. -/
theorem dbl_apart {a b : ℝ} (ha : IsDouble a) (hb : IsDouble b) (hab : a ≠ b) (h : (2 : ℝ) ^ (-53 : ℤ) ≤ |b|) :
    (2 : ℝ) ^ (-106 : ℤ) ≤ |a - b| := by
  by_cases hbig : (2 : ℝ) ^ (-54 : ℤ) ≤ |a|
  · have grid2 : ∀ x, IsDouble x → (2 : ℝ) ^ (-54 : ℤ) ≤ |x| → ∃ k : ℤ, x = k * (2 : ℝ) ^ (-106 : ℤ) := by
      intro x hd hx
      have hd2 : IsDouble (2 * x) := by
        obtain ⟨m, e, h1, h2, h3⟩ := hd
        refine ⟨m, e + 1, h1, by omega, ?_⟩
        rw [h3, zpow_add_one₀ (by norm_num : (2 : ℝ) ≠ 0)]; ring
      have hx2 : (2 : ℝ) ^ (-53 : ℤ) ≤ |2 * x| := by
        rw [abs_mul, abs_of_pos (by norm_num : (0 : ℝ) < 2)]
        have : (2 : ℝ) ^ (-53 : ℤ) = 2 * (2 : ℝ) ^ (-54 : ℤ) := by norm_num
        rw [this]; linarith
      obtain ⟨k, hk⟩ := dbl_grid hd2 hx2
      refine ⟨k, ?_⟩
      have : (2 : ℝ) ^ (-105 : ℤ) = 2 * (2 : ℝ) ^ (-106 : ℤ) := by norm_num
      rw [this] at hk; linarith
    have hb' : (2 : ℝ) ^ (-54 : ℤ) ≤ |b| := le_trans (zpow_le_zpow_right₀ (by norm_num) (by norm_num)) h
    obtain ⟨k, hk⟩ := grid2 a ha hbig
    obtain ⟨l, hl⟩ := grid2 b hb hb'
    have e : a - b = ((k - l : ℤ) : ℝ) * (2 : ℝ) ^ (-106 : ℤ) := by rw [hk, hl]; push_cast; ring
    have hne : k - l ≠ 0 := by
      intro hz; rw [hz] at e; apply hab
      have : a - b = 0 := by rw [e]; simp
      linarith
    have : (1 : ℝ) ≤ |((k - l : ℤ) : ℝ)| := by
      rw [← Int.cast_abs]
      exact_mod_cast Int.one_le_abs hne
    rw [e, abs_mul, abs_of_pos (pow_pos' _)]
    have := mul_le_mul_of_nonneg_right this (pow_pos' (-106)).le
    linarith
  · have hbig := not_le.1 hbig
    have : |b| - |a| ≤ |a - b| := by rw [abs_sub_comm]; exact abs_sub_abs_le_abs_sub b a
    have e : (2 : ℝ) ^ (-53 : ℤ) = 2 * (2 : ℝ) ^ (-54 : ℤ) := by norm_num
    have e2 : (2 : ℝ) ^ (-106 : ℤ) ≤ (2 : ℝ) ^ (-54 : ℤ) := zpow_le_zpow_right₀ (by norm_num) (by norm_num)
    linarith

theorem fl_neg_abs (R : Rounding) {x d : ℝ} (hd : IsDouble d) (h : d ≤ |x|) : d ≤ |R.fl x| := by
  rcases le_total 0 x with hx | hx
  · rw [abs_of_nonneg hx] at h
    have := fl_mono R h
    rw [fl_exact R hd] at this
    exact le_trans this (le_abs_self _)
  · rw [abs_of_nonpos hx] at h
    have := fl_mono R (show x ≤ -d by linarith)
    rw [fl_exact R (dbl_neg hd)] at this
    have := neg_le_abs (R.fl x)
    linarith

/-- The excluded value is recognised exactly. -/
theorem floatEqualF_iff (R : Rounding) {v ex : ℝ} (hv : IsDouble v) (he : IsDouble ex)
    (h : v ≠ ex → 1 / 2 ^ 53 ≤ |v| ∨ 1 / 2 ^ 53 ≤ |ex|) : floatEqualF R v ex = true ↔ v = ex := by
  unfold floatEqualF
  rw [decide_eq_true_iff]
  constructor
  · intro hlt
    by_contra hne
    have hmin : (2 : ℝ) ^ (-106 : ℤ) ≤ |v - ex| := by
      rcases h hne with h | h
      · rw [abs_sub_comm]
        exact dbl_apart he hv (fun e => hne e.symm) (by rw [show (2 : ℝ) ^ (-53 : ℤ) = 1 / 2 ^ 53 by norm_num]; exact h)
      · exact dbl_apart hv he hne (by rw [show (2 : ℝ) ^ (-53 : ℤ) = 1 / 2 ^ 53 by norm_num]; exact h)
    have h1 : (2 : ℝ) ^ (-106 : ℤ) ≤ |R.fl (v - ex)| := fl_neg_abs R (dbl_pow _ (by norm_num)) hmin
    have h2 := lit_lt R
    unfold Rounding.sub at hlt
    exact absurd hlt (not_lt.2 (le_trans h2.le h1))
  · intro e
    rw [e, Rounding.sub, sub_self, fl_zero, abs_zero]
    exact lit_pos R

/-! ## The first loop -/

theorem valid_cons_pos {ex v : ℝ} (l : List ℝ) (h : v ≠ ex) : valid ex (v :: l) = v :: valid ex l := by
  unfold valid; rw [List.filter_cons_of_pos]; simpa using h
theorem valid_cons_neg {ex v : ℝ} (l : List ℝ) (h : v = ex) : valid ex (v :: l) = valid ex l := by
  unfold valid; rw [List.filter_cons_of_neg]; simpa using h
theorem mem_valid {ex v : ℝ} {l : List ℝ} : v ∈ valid ex l ↔ v ∈ l ∧ v ≠ ex := by
  unfold valid; rw [List.mem_filter]; simp

theorem statLoopF_ok (R : Rounding) (inc : ℝ → ℝ) (l : List ℝ) (ex : ℝ) (is : List Nat) : ∀ (a : FAcc) (_ : ∀ i ∈ is, i < l.length),
    statLoopF R inc (some l) ex is a = .ok ((is.map (fun i => l.getD i 0)).foldl (FAcc.push R inc ex) a) := by
  induction is with
  | nil => intro a _; rfl
  | cons i is ih =>
    intro a h
    have hi := h i (by simp)
    have e : statLoopF R inc (some l) ex (i :: is) a = (do
      let v ← readAt (some l) i
      statLoopF R inc (some l) ex is (a.push R inc ex v)) := rfl
    rw [e, readAt_some_nat _ i hi, Out.ok_bind, ih _ (fun j hj => h j (by simp [hj])),
      ← List.getD_eq_getElem l (0 : ℝ) hi]
    rfl

/-- The conditions on an array and its excluded value. -/
structure Cond (ex : ℝ) (l : List ℝ) : Prop where
  exd : IsDouble ex
  dbl : ∀ v ∈ l, IsDouble v
  apart : Apart ex l

theorem Cond.tail {ex v : ℝ} {l : List ℝ} (h : Cond ex (v :: l)) : Cond ex l :=
  ⟨h.exd, fun w hw => h.dbl w (by simp [hw]), fun w hw => h.apart w (by simp [hw])⟩

theorem Cond.eq (R : Rounding) {ex v : ℝ} {l : List ℝ} (h : Cond ex l) (hv : v ∈ l) : floatEqualF R v ex = true ↔ v = ex :=
  floatEqualF_iff R (h.dbl v hv) h.exd (h.apart v hv)

theorem push_fold_valid (R : Rounding) (inc : ℝ → ℝ) (ex : ℝ) (l : List ℝ) (hc : Cond ex l) : ∀ a : FAcc,
    l.foldl (FAcc.push R inc ex) a = (valid ex l).foldl
      (fun a v => ⟨if a.mx < v then v else a.mx, if a.mn > v then v else a.mn, inc a.num, R.add a.sum v⟩) a := by
  induction l with
  | nil => intro a; rfl
  | cons v l ih =>
    intro a
    have hq := hc.eq R (v := v) (by simp)
    by_cases hv : v = ex
    · rw [valid_cons_neg _ hv, List.foldl_cons, FAcc.push, if_pos (hq.2 hv)]
      exact ih hc.tail a
    · rw [valid_cons_pos _ hv, List.foldl_cons, List.foldl_cons, FAcc.push, if_neg (fun h => hv (hq.1 h))]
      exact ih hc.tail _

theorem fold_parts (R : Rounding) (inc : ℝ → ℝ) (l : List ℝ) : ∀ a : FAcc,
    let r := l.foldl (fun (a : FAcc) v => (⟨if a.mx < v then v else a.mx, if a.mn > v then v else a.mn, inc a.num, R.add a.sum v⟩ : FAcc)) a
    r.num = inc^[l.length] a.num ∧ r.sum = accum R l a.sum ∧
    (a.mx ≤ r.mx ∧ (∀ v ∈ l, v ≤ r.mx) ∧ (r.mx = a.mx ∨ r.mx ∈ l)) ∧
    (r.mn ≤ a.mn ∧ (∀ v ∈ l, r.mn ≤ v) ∧ (r.mn = a.mn ∨ r.mn ∈ l)) := by
  induction l with
  | nil => intro a; simp [accum]
  | cons v l ih =>
    intro a
    have h := ih ⟨if a.mx < v then v else a.mx, if a.mn > v then v else a.mn, inc a.num, R.add a.sum v⟩
    simp only [List.foldl_cons] at h ⊢
    obtain ⟨h1, h2, ⟨h3, h4, h5⟩, ⟨h6, h7, h8⟩⟩ := h
    have m1 : a.mx ≤ (if a.mx < v then v else a.mx) ∧ v ≤ (if a.mx < v then v else a.mx) := by
      split <;> constructor <;> linarith
    have m2 : (if a.mn > v then v else a.mn) ≤ a.mn ∧ (if a.mn > v then v else a.mn) ≤ v := by
      split <;> constructor <;> linarith
    refine ⟨?_, h2, ⟨le_trans m1.1 h3, ?_, ?_⟩, ⟨le_trans h6 m2.1, ?_, ?_⟩⟩
    · rw [h1]; rfl
    · intro w hw
      rcases List.mem_cons.1 hw with rfl | hw
      · exact le_trans m1.2 h3
      · exact h4 w hw
    · rcases h5 with h5 | h5
      · rw [h5]
        split
        · right; simp
        · left; rfl
      · right; simp [h5]
    · intro w hw
      rcases List.mem_cons.1 hw with rfl | hw
      · exact le_trans h6 m2.2
      · exact h7 w hw
    · rcases h8 with h8 | h8
      · rw [h8]
        split
        · right; simp
        · left; rfl
      · right; simp [h8]

theorem inc_int (k : Nat) : ∀ x : ℝ, (fun x : ℝ => x + 1)^[k] x = x + k := by
  induction k with
  | zero => intro x; simp
  | succ k ih => intro x; rw [Function.iterate_succ_apply, ih]; push_cast; ring

/-- Counting in a double is exact up to 2^53. -/
theorem inc_dbl (R : Rounding) (k : Nat) : ∀ n : Nat, n + k ≤ 2 ^ 53 → (fun x : ℝ => R.add x 1)^[k] (n : ℝ) = ((n + k : Nat) : ℝ) := by
  induction k with
  | zero => intro n _; simp
  | succ k ih =>
    intro n hn
    rw [Function.iterate_succ_apply]
    have : R.add (n : ℝ) 1 = ((n + 1 : Nat) : ℝ) := by
      unfold Rounding.add
      have : (n : ℝ) + 1 = ((n + 1 : Nat) : ℝ) := by push_cast; ring
      rw [this]
      exact fl_exact R (dbl_nat _ (by omega))
    rw [this, ih _ (by omega)]
    congr 1; omega

/-! ## Mean -/

theorem mean_near (R : Rounding) (l : List ℝ) (hl : ∀ v ∈ l, IsDouble v) (hne : l ≠ []) :
    |R.div (accum R l 0) l.length - mean l| ≤ ((1 + unit) ^ (l.length + 1) - 1) * absMean l + (2 : ℝ) ^ (-1075 : ℤ) := by
  rw [unit_eq]
  have hn : (0 : ℝ) < l.length := by
    have := List.length_pos_iff.2 hne; exact_mod_cast this
  have h := accum_near R l 0 0 0 0 dbl_zero hl (by simp) (by simp)
  simp only [zero_add] at h
  set S := accum R l 0
  set g := (1 + u) ^ l.length - 1 with hg
  have hg0 : 0 ≤ g := growth_nonneg _
  have hu := u_pos
  have h1 : |S / l.length - mean l| ≤ g * absMean l := by
    unfold mean absMean
    rw [← sub_div, abs_div, abs_of_pos hn, ← mul_div_assoc]
    exact div_le_div_of_nonneg_right h hn.le
  have h2 : |mean l| ≤ absMean l := by
    unfold mean absMean
    rw [abs_div, abs_of_pos hn]
    exact div_le_div_of_nonneg_right (sum_le_absSum l) hn.le
  have h3 : |S / l.length| ≤ (1 + g) * absMean l := by
    have : S / l.length = (S / l.length - mean l) + mean l := by ring
    rw [this]
    refine le_trans (abs_add_le _ _) (by linarith)
  have h4 := fl_err R (S / l.length)
  unfold Rounding.div
  have e2 : R.fl (S / l.length) - mean l = (R.fl (S / l.length) - S / l.length) + (S / l.length - mean l) := by ring
  rw [e2]
  refine le_trans (abs_add_le _ _) ?_
  have h5 : u * |S / l.length| ≤ u * ((1 + g) * absMean l) := mul_le_mul_of_nonneg_left h3 hu.le
  have e3 : ((1 + u) ^ (l.length + 1) - 1) * absMean l = u * ((1 + g) * absMean l) + g * absMean l := by
    rw [hg]; ring
  rw [e3]
  have : eta = (2 : ℝ) ^ (-1075 : ℤ) := rfl
  linarith

end CCGL.Flt
