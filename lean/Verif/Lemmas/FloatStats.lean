import Verif.Lemmas.Float
import Verif.Spec.FloatStats
import Verif.Lemmas.Stats
/-! # Error analysis of sums and statistics -/
namespace CCGL.Flt
open Spec

theorem unit_eq : unit = u := by unfold unit u; norm_num

/-- One rounded addition applied to two approximations. -/
theorem add_near (R : Rounding) {x y X Y A B g : ℝ} (hx : IsDouble x) (hy : IsDouble y) (hg : 0 ≤ g)
    (hX : |X| ≤ A) (hY : |Y| ≤ B) (h1 : |x - X| ≤ g * A) (h2 : |y - Y| ≤ g * B) :
    |R.add x y - (X + Y)| ≤ ((1 + u) * (1 + g) - 1) * (A + B) := by
  have e := fl_err_add R hx hy
  have hu := u_pos
  have h3 : |x + y| ≤ (1 + g) * (A + B) := by
    have : |x + y| ≤ |x - X| + |y - Y| + |X| + |Y| := by
      have e1 : x + y = (x - X) + (y - Y) + (X + Y) := by ring
      rw [e1]
      refine le_trans (abs_add_le _ _) ?_
      have := abs_add_le (x - X) (y - Y)
      have := abs_add_le X Y
      linarith
    nlinarith
  have h4 : |x + y - (X + Y)| ≤ g * (A + B) := by
    have e1 : x + y - (X + Y) = (x - X) + (y - Y) := by ring
    rw [e1]
    refine le_trans (abs_add_le _ _) (by linarith)
  unfold Rounding.add
  have e2 : R.fl (x + y) - (X + Y) = (R.fl (x + y) - (x + y)) + (x + y - (X + Y)) := by ring
  rw [e2]
  refine le_trans (abs_add_le _ _) ?_
  have : u * |x + y| ≤ u * ((1 + g) * (A + B)) := mul_le_mul_of_nonneg_left h3 hu.le
  nlinarith

theorem growth_nonneg (k : Nat) : 0 ≤ (1 + u) ^ k - 1 := by
  have := one_le_pow₀ (show 1 ≤ 1 + u by have := u_pos; linarith) (n := k)
  linarith

theorem growth_mono {k l : Nat} (h : k ≤ l) : (1 + u) ^ k - 1 ≤ (1 + u) ^ l - 1 := by
  have := pow_le_pow_right₀ (show 1 ≤ 1 + u by have := u_pos; linarith) h
  linarith

theorem absSum_nonneg (l : List ℝ) : 0 ≤ absSum l := by
  unfold absSum
  exact List.sum_nonneg (by intro x hx; obtain ⟨v, _, rfl⟩ := List.mem_map.1 hx; exact abs_nonneg v)

theorem sum_le_absSum (l : List ℝ) : |l.sum| ≤ absSum l := by
  induction l with
  | nil => simp [absSum]
  | cons v l ih =>
    have : absSum (v :: l) = |v| + absSum l := by simp [absSum]
    rw [this, List.sum_cons]
    exact le_trans (abs_add_le _ _) (by linarith)

theorem absSum_append (a b : List ℝ) : absSum (a ++ b) = absSum a + absSum b := by simp [absSum]

/-- Sum of a list from the left, rounded: the accumulation in a loop. -/
noncomputable def accum (R : Rounding) (l : List ℝ) (a : ℝ) : ℝ := l.foldl R.add a

theorem accum_dbl (R : Rounding) (l : List ℝ) : ∀ a, IsDouble a → IsDouble (accum R l a) := by
  induction l with
  | nil => intro a h; exact h
  | cons v l ih => intro a _; exact ih _ (R.mem _)

theorem accum_near (R : Rounding) (l : List ℝ) : ∀ (a A B : ℝ) (k : Nat), IsDouble a → (∀ v ∈ l, IsDouble v) → |A| ≤ B →
    |a - A| ≤ ((1 + u) ^ k - 1) * B →
    |accum R l a - (A + l.sum)| ≤ ((1 + u) ^ (k + l.length) - 1) * (B + absSum l) := by
  induction l with
  | nil => intro a A B k _ _ _ h; simpa [accum, absSum] using h
  | cons v l ih =>
    intro a A B k ha hl hAB h
    have hB : 0 ≤ B := le_trans (abs_nonneg _) hAB
    have hv : |v - v| ≤ ((1 + u) ^ k - 1) * |v| := by
      rw [sub_self, abs_zero]; exact mul_nonneg (growth_nonneg k) (abs_nonneg v)
    have h1 := add_near R ha (hl v (by simp)) (growth_nonneg k) hAB (le_refl |v|) h hv
    have e : (1 + u) * (1 + ((1 + u) ^ k - 1)) - 1 = (1 + u) ^ (k + 1) - 1 := by ring
    rw [e] at h1
    have h2 := ih (R.add a v) (A + v) (B + |v|) (k + 1) (R.mem _) (fun w hw => hl w (by simp [hw]))
      (le_trans (abs_add_le _ _) (by linarith)) h1
    have e1 : absSum (v :: l) = |v| + absSum l := by simp [absSum]
    rw [e1, List.sum_cons, List.length_cons]
    have e2 : A + (v + l.sum) = A + v + l.sum := by ring
    have e3 : B + (|v| + absSum l) = B + |v| + absSum l := by ring
    have e4 : k + (l.length + 1) = k + 1 + l.length := by ring
    rw [e2, e3, e4]
    exact h2

/-- Nonnegative numbers keep relative bounds on both sides. -/
theorem add_rel (R : Rounding) {x y X Y a b : ℝ} (hx : IsDouble x) (hy : IsDouble y)
    (h1 : a * X ≤ x) (h2 : x ≤ b * X) (h3 : a * Y ≤ y) (h4 : y ≤ b * Y) (h5 : 0 ≤ x) (h6 : 0 ≤ y) :
    (1 - u) * (a * (X + Y)) ≤ R.add x y ∧ R.add x y ≤ (1 + u) * (b * (X + Y)) := by
  have e := fl_err_add R hx hy
  have hu := u_pos
  have hu2 := u_le
  rw [abs_of_nonneg (add_nonneg h5 h6)] at e
  have := abs_le.1 e
  unfold Rounding.add
  constructor
  · have : (1 - u) * (a * (X + Y)) ≤ (1 - u) * (x + y) := mul_le_mul_of_nonneg_left (by linarith) (by linarith)
    linarith
  · have : (1 + u) * (x + y) ≤ (1 + u) * (b * (X + Y)) := mul_le_mul_of_nonneg_left (by linarith) (by linarith)
    linarith

theorem pow_dec {k l : Nat} (h : k ≤ l) : (1 - u) ^ l ≤ (1 - u) ^ k :=
  pow_le_pow_of_le_one (by have := u_le; linarith) (by have := u_pos; linarith) h
theorem pow_inc {k l : Nat} (h : k ≤ l) : (1 + u) ^ k ≤ (1 + u) ^ l :=
  pow_le_pow_right₀ (by have := u_pos; linarith) h

theorem accum_rel (R : Rounding) (l : List ℝ) : ∀ (a A : ℝ) (k : Nat), IsDouble a → (∀ v ∈ l, IsDouble v ∧ 0 ≤ v) → 0 ≤ A → 0 ≤ a →
    (1 - u) ^ k * A ≤ a → a ≤ (1 + u) ^ k * A →
    0 ≤ accum R l a ∧ (1 - u) ^ (k + l.length) * (A + l.sum) ≤ accum R l a ∧
      accum R l a ≤ (1 + u) ^ (k + l.length) * (A + l.sum) := by
  induction l with
  | nil => intro a A k _ _ _ h0 h1 h2; simpa [accum] using ⟨h0, h1, h2⟩
  | cons v l ih =>
    intro a A k ha hl hA h0 h1 h2
    obtain ⟨hv, hv0⟩ := hl v (by simp)
    have hu := u_pos
    have hu2 := u_le
    have g1 : (1 - u) ^ k * v ≤ v := by
      have := pow_dec (Nat.zero_le k); rw [pow_zero] at this; nlinarith
    have g2 : v ≤ (1 + u) ^ k * v := by
      have := pow_inc (Nat.zero_le k); rw [pow_zero] at this; nlinarith
    obtain ⟨q1, q2⟩ := add_rel R ha hv h1 h2 g1 g2 h0 hv0
    have q0 : 0 ≤ R.add a v := fl_nonneg R (by linarith)
    obtain ⟨r0, r1, r2⟩ := ih (R.add a v) (A + v) (k + 1) (R.mem _) (fun w hw => hl w (by simp [hw])) (by linarith) q0
      (by rw [pow_succ']; linarith) (by rw [pow_succ']; linarith)
    rw [List.sum_cons, List.length_cons]
    have e2 : A + (v + l.sum) = A + v + l.sum := by ring
    have e4 : k + (l.length + 1) = k + 1 + l.length := by ring
    rw [e2, e4]
    exact ⟨r0, r1, r2⟩

/-- The values a plan adds up, in the order of its iterations. -/
theorem threadSumF_ok (R : Rounding) (f : Nat → Out (Option ℝ)) (g : Nat → Option ℝ) (is : List Nat) : ∀ a,
    (∀ i ∈ is, f i = .ok (g i)) → threadSumF R f is a = .ok (accum R (is.filterMap g) a) := by
  induction is with
  | nil => intro a _; rfl
  | cons i is ih =>
    intro a h
    have e : threadSumF R f (i :: is) a = (do
      let v ← f i
      match v with
      | some x => threadSumF R f is (R.add a x)
      | none => threadSumF R f is a) := rfl
    rw [e, h i (by simp), Out.ok_bind]
    cases hg : g i with
    | none => simp only [List.filterMap_cons, hg]; exact ih a (fun j hj => h j (by simp [hj]))
    | some x => simp only [List.filterMap_cons, hg]; exact ih _ (fun j hj => h j (by simp [hj]))

/-- The result of a plan on known contributions. -/
noncomputable def planVal (R : Rounding) (g : Nat → Option ℝ) : Plan → ℝ
  | .thread is => accum R (is.filterMap g) 0
  | .join a b => R.add (planVal R g a) (planVal R g b)

theorem ompSumF_ok (R : Rounding) (f : Nat → Out (Option ℝ)) (g : Nat → Option ℝ) (p : Plan)
    (h : ∀ i ∈ p.iters, f i = .ok (g i)) : ompSumF R f p = .ok (planVal R g p) := by
  induction p with
  | thread is => exact threadSumF_ok R f g is 0 h
  | join a b iha ihb =>
    have e : ompSumF R f (.join a b) = (do
      let x ← ompSumF R f a
      let y ← ompSumF R f b
      return R.add x y) := rfl
    rw [e, iha (fun i hi => h i (by simp [Plan.iters, hi])), Out.ok_bind,
      ihb (fun i hi => h i (by simp [Plan.iters, hi])), Out.ok_bind]
    rfl

theorem planVal_dbl (R : Rounding) (g : Nat → Option ℝ) (p : Plan) : IsDouble (planVal R g p) := by
  cases p with
  | thread is => exact accum_dbl R _ 0 dbl_zero
  | join a b => exact R.mem _

theorem planVal_near (R : Rounding) (g : Nat → Option ℝ) (p : Plan) (h : ∀ v ∈ p.iters.filterMap g, IsDouble v) :
    |planVal R g p - (p.iters.filterMap g).sum| ≤ ((1 + u) ^ depth p - 1) * absSum (p.iters.filterMap g) := by
  induction p with
  | thread is =>
    have := accum_near R (is.filterMap g) 0 0 0 0 dbl_zero h (by simp) (by simp)
    simp only [zero_add] at this
    refine le_trans this ?_
    refine mul_le_mul_of_nonneg_right ?_ (absSum_nonneg _)
    exact growth_mono (List.length_filterMap_le g is)
  | join a b iha ihb =>
    simp only [Plan.iters, List.filterMap_append] at h ⊢
    have h1 := iha (fun v hv => h v (by simp [hv]))
    have h2 := ihb (fun v hv => h v (by simp [hv]))
    have m1 : depth a ≤ max (depth a) (depth b) := le_max_left _ _
    have m2 : depth b ≤ max (depth a) (depth b) := le_max_right _ _
    have h1' := le_trans h1 (mul_le_mul_of_nonneg_right (growth_mono m1) (absSum_nonneg _))
    have h2' := le_trans h2 (mul_le_mul_of_nonneg_right (growth_mono m2) (absSum_nonneg _))
    have := add_near R (planVal_dbl R g a) (planVal_dbl R g b) (growth_nonneg _) (sum_le_absSum _) (sum_le_absSum _) h1' h2'
    rw [List.sum_append, absSum_append]
    refine le_trans this (le_of_eq ?_)
    simp only [depth]
    ring

theorem planVal_rel (R : Rounding) (g : Nat → Option ℝ) (p : Plan) (h : ∀ v ∈ p.iters.filterMap g, IsDouble v ∧ 0 ≤ v) :
    0 ≤ planVal R g p ∧ (1 - u) ^ depth p * (p.iters.filterMap g).sum ≤ planVal R g p ∧
      planVal R g p ≤ (1 + u) ^ depth p * (p.iters.filterMap g).sum := by
  have hnn : ∀ l : List ℝ, (∀ v ∈ l, IsDouble v ∧ 0 ≤ v) → 0 ≤ l.sum := fun l hl => List.sum_nonneg (fun v hv => (hl v hv).2)
  induction p with
  | thread is =>
    obtain ⟨r0, r1, r2⟩ := accum_rel R (is.filterMap g) 0 0 0 dbl_zero h (le_refl _) (le_refl _) (by simp) (by simp)
    simp only [zero_add] at r1 r2
    have hl := List.length_filterMap_le g is
    have := hnn _ h
    exact ⟨r0, le_trans (mul_le_mul_of_nonneg_right (pow_dec hl) this) r1, le_trans r2 (mul_le_mul_of_nonneg_right (pow_inc hl) this)⟩
  | join a b iha ihb =>
    simp only [Plan.iters, List.filterMap_append] at h ⊢
    obtain ⟨a0, a1, a2⟩ := iha (fun v hv => h v (by simp [hv]))
    obtain ⟨b0, b1, b2⟩ := ihb (fun v hv => h v (by simp [hv]))
    have n1 := hnn (a.iters.filterMap g) (fun v hv => h v (by simp [hv]))
    have n2 := hnn (b.iters.filterMap g) (fun v hv => h v (by simp [hv]))
    have m1 : depth a ≤ max (depth a) (depth b) := le_max_left _ _
    have m2 : depth b ≤ max (depth a) (depth b) := le_max_right _ _
    have := add_rel R (planVal_dbl R g a) (planVal_dbl R g b)
      (le_trans (mul_le_mul_of_nonneg_right (pow_dec m1) n1) a1) (le_trans a2 (mul_le_mul_of_nonneg_right (pow_inc m1) n1))
      (le_trans (mul_le_mul_of_nonneg_right (pow_dec m2) n2) b1) (le_trans b2 (mul_le_mul_of_nonneg_right (pow_inc m2) n2)) a0 b0
    rw [List.sum_append]
    simp only [depth, pow_succ', planVal]
    refine ⟨fl_nonneg R (by linarith), ?_, ?_⟩
    · rw [mul_assoc]; exact this.1
    · rw [mul_assoc]; exact this.2

end CCGL.Flt
