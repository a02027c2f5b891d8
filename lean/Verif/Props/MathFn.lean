import Verif.Model.MathFn
import Verif.Spec.MathFn
import Mathlib.Analysis.SpecialFunctions.Pow.Real
import Mathlib.Analysis.SpecialFunctions.Log.Base
import Mathlib.Tactic.Linarith
import Mathlib.Tactic.NormNum
import Mathlib.Tactic.Positivity
import Mathlib.Tactic.FieldSimp
/-!
# C50, C51: Expo, Power and the fast power function
-/
noncomputable section
namespace CCGL.MathFn
open Spec

/-! ## C50 -/

/-- C50, `Expo`: with ordered bounds the result is the exponential of the argument replaced by the nearest number
inside the bounds. -/
theorem C50_expo (x upper lower : ℝ) (h : lower ≤ upper) :
    ∃ y, expo x upper lower = Real.exp y ∧ lower ≤ y ∧ y ≤ upper ∧
      (lower ≤ x ∧ x ≤ upper → y = x) ∧ (x < lower → y = lower) ∧ (upper < x → y = upper) ∧
      ∀ z, lower ≤ z → z ≤ upper → |x - y| ≤ |x - z| := by
  unfold expo
  by_cases h1 : x < lower
  · refine ⟨lower, ?_, le_refl _, h, ?_, fun _ => rfl, ?_, ?_⟩
    · rw [if_pos h1]; dsimp only; rw [if_neg (by linarith)]
    · intro h2; linarith [h2.1]
    · intro h2; linarith
    · intro z h2 _
      rw [abs_of_nonpos (by linarith), abs_of_nonpos (by linarith)]; linarith
  · rw [if_neg h1]; dsimp only
    by_cases h2 : x > upper
    · refine ⟨upper, ?_, h, le_refl _, ?_, ?_, fun _ => rfl, ?_⟩
      · rw [if_pos h2]
      · intro h3; linarith [h3.2]
      · intro h3; linarith
      · intro z _ h3
        rw [abs_of_nonneg (by linarith), abs_of_nonneg (by linarith)]; linarith
    · refine ⟨x, ?_, by linarith, by linarith, fun _ => rfl, fun h3 => absurd h3 h1, fun h3 => absurd h3 h2, ?_⟩
      · rw [if_neg h2]
      · intro z _ _; simp

/-- C50, `Expo` is monotone, and stays within the exponentials of its bounds. -/
theorem C50_expo_mono (x y upper lower : ℝ) (h : lower ≤ upper) (hxy : x ≤ y) :
    Real.exp lower ≤ expo x upper lower ∧ expo x upper lower ≤ expo y upper lower ∧
      expo y upper lower ≤ Real.exp upper := by
  unfold expo
  simp only [Real.exp_le_exp]
  refine ⟨?_, ?_, ?_⟩ <;> split_ifs <;> linarith

/-- C50, `Expo`, what happens with reversed bounds: the result is the exponential of the upper one
(for every argument). -/
theorem C50_expo_reversed (x upper lower : ℝ) (h : upper < lower) : expo x upper lower = Real.exp upper := by
  unfold expo
  by_cases h1 : x < lower
  · rw [if_pos h1]; dsimp only; rw [if_pos h]
  · rw [if_neg h1]; dsimp only; rw [if_pos (by linarith)]

/-- C50, `Expo` with the default bounds lies in `[e^-20, e^20]` and is the exponential inside `[-20, 20]`. -/
theorem C50_expo_default (x : ℝ) :
    Real.exp (-20) ≤ expoDefault x ∧ expoDefault x ≤ Real.exp 20 ∧ (|x| ≤ 20 → expoDefault x = Real.exp x) := by
  refine ⟨(C50_expo_mono x x 20 (-20) (by norm_num) le_rfl).1, (C50_expo_mono x x 20 (-20) (by norm_num) le_rfl).2.2, ?_⟩
  intro h
  obtain ⟨y, h1, _, _, h2, _⟩ := C50_expo x 20 (-20) (by norm_num)
  have := abs_le.1 h
  rw [expoDefault, h1, h2 ⟨this.1, this.2⟩]

/-- C50, `Power`: sign and magnitude. The result has the base's sign and the magnitude is `|a|^n`. -/
theorem C50_power (a n : ℝ) (ha : a ≠ 0) :
    |power a n| = |a| ^ n ∧ (0 < a → 0 < power a n) ∧ (a < 0 → power a n < 0) ∧ power (-a) n = -power a n := by
  unfold power
  rcases lt_or_gt_of_ne ha with h | h
  · have h1 : ¬ (a ≥ 0) := by linarith
    have h2 : -a ≥ 0 := by linarith
    have h3 : 0 < (-a) ^ n := Real.rpow_pos_of_pos (by linarith) n
    rw [if_neg h1, if_pos h2, abs_neg, abs_of_pos h3, abs_of_neg h]
    exact ⟨rfl, fun h4 => by linarith, fun _ => by linarith, by ring⟩
  · have h1 : a ≥ 0 := by linarith
    have h2 : ¬ (-a ≥ 0) := by linarith
    have h3 : 0 < a ^ n := Real.rpow_pos_of_pos h n
    rw [if_pos h1, if_neg h2, abs_of_pos h3, abs_of_pos h, neg_neg]
    exact ⟨rfl, fun _ => h3, fun h4 => by linarith, rfl⟩

/-- C50, `Power` with a positive exponent is strictly increasing in the base, over all reals. -/
theorem C50_power_mono (a b n : ℝ) (hn : 0 < n) (hab : a < b) : power a n < power b n := by
  unfold power
  by_cases ha : a ≥ 0
  · have hb : b ≥ 0 := by linarith
    rw [if_pos ha, if_pos hb]
    exact Real.rpow_lt_rpow ha hab hn
  · rw [if_neg ha]
    have h1 : 0 < (-a) ^ n := Real.rpow_pos_of_pos (by linarith) n
    by_cases hb : b ≥ 0
    · rw [if_pos hb]
      have : 0 ≤ b ^ n := Real.rpow_nonneg hb n
      linarith
    · rw [if_neg hb]
      have := Real.rpow_lt_rpow (show 0 ≤ -b by linarith) (show -b < -a by linarith) hn
      linarith

/-- C50, `Power` with an odd natural exponent is the ordinary power; with an even one it is not
(its sign follows the base). -/
theorem C50_power_odd (a : ℝ) (k : ℕ) : power a ((2 * k + 1 : ℕ) : ℝ) = a ^ (2 * k + 1) := by
  unfold power
  split_ifs with h
  · rw [Real.rpow_natCast]
  · rw [Real.rpow_natCast, Odd.neg_pow ⟨k, rfl⟩, neg_neg]

example : power (-2) 2 = -4 := by
  unfold power
  rw [if_neg (by norm_num)]
  have : (-(-2 : ℝ)) ^ (2 : ℝ) = 4 := by
    rw [show (2 : ℝ) = ((2 : ℕ) : ℝ) by norm_num, Real.rpow_natCast]; norm_num
  rw [this]
example : expo 30 20 (-20) = Real.exp 20 := by unfold expo; norm_num

/-! ## C51 -/

set_option maxRecDepth 100000 in
theorem powTable_length : powTable.length = 2048 := by decide +kernel

/-- One entry of the table is right: between 0 and `2^23`, and `1 + t/2^23` is within `2^-23` of `2^((2k+1)/4096)`
(written with integers; `N = 4096`). -/
def entryOkN (N k t : Nat) : Bool :=
  decide (0 < t ∧ t < 2 ^ 23 ∧ (2 ^ 23 + t - 1) ^ N ≤ 2 ^ (23 * N + 2 * k + 1) ∧
    2 ^ (23 * N + 2 * k + 1) ≤ (2 ^ 23 + t + 1) ^ N)

theorem entryOkN_iff {N k t : Nat} (h : entryOkN N k t = true) :
    0 < t ∧ t < 2 ^ 23 ∧ (2 ^ 23 + t - 1) ^ N ≤ 2 ^ (23 * N + 2 * k + 1) ∧
    2 ^ (23 * N + 2 * k + 1) ≤ (2 ^ 23 + t + 1) ^ N := of_decide_eq_true h

def tableOk (N : Nat) : Nat → List Nat → Bool
  | _, [] => true
  | k, t :: ts => entryOkN N k t && tableOk N (k + 1) ts

theorem tableOk_get (N : Nat) : ∀ (ts : List Nat) (k : Nat), tableOk N k ts = true →
    ∀ (i t : Nat), ts[i]? = some t → entryOkN N (k + i) t = true
  | [], _, _, i, t, h => by simp at h
  | t :: ts, k, h, 0, t', h' => by
    simp only [List.getElem?_cons_zero, Option.some.injEq] at h'
    subst h'
    rw [tableOk, Bool.and_eq_true] at h
    exact h.1
  | t :: ts, k, h, i + 1, t', h' => by
    rw [tableOk, Bool.and_eq_true] at h
    rw [List.getElem?_cons_succ] at h'
    have := tableOk_get N ts (k + 1) h.2 i t' h'
    rwa [show k + (i + 1) = k + 1 + i by omega]

set_option maxRecDepth 100000 in
theorem powTable_ok : tableOk 4096 0 powTable = true := by decide +kernel

theorem and_low (i : Nat) : i &&& 0x7FFFFF = i % 2 ^ 23 := by
  have := Nat.and_two_pow_sub_one_eq_mod i 23
  simpa using this

theorem or_high (e t : Nat) (ht : t < 2 ^ 23) : (e * 2 ^ 23) ||| t = e * 2 ^ 23 + t := by
  have := Nat.two_pow_add_eq_or_of_lt ht e
  rw [Nat.mul_comm] at this
  exact this.symm

theorem and_high (i : Nat) (hi : i < 2 ^ 32) : i &&& 0xFF800000 = i / 2 ^ 23 * 2 ^ 23 := by
  have h : i / 2 ^ 23 < 2 ^ 9 := by
    rw [Nat.div_lt_iff_lt_mul (by norm_num)]; norm_num; norm_num at hi; omega
  have e1 : (0xFF800000 : Nat) = (2 ^ 9 - 1) <<< 23 := by decide
  have e2 : i / 2 ^ 23 * 2 ^ 23 = (i >>> 23 &&& (2 ^ 9 - 1)) <<< 23 := by
    rw [Nat.and_two_pow_sub_one_eq_mod, Nat.shiftLeft_eq, Nat.shiftRight_eq_div_pow, Nat.mod_eq_of_lt h]
  rw [e2, e1]
  apply Nat.eq_of_testBit_eq
  intro j
  simp only [Nat.testBit_and, Nat.testBit_shiftLeft, Nat.testBit_shiftRight]
  by_cases hj : 23 ≤ j
  · simp [hj, Nat.add_sub_cancel' hj]
  · simp [hj]

/-- C51, part 1: for every 32-bit pattern the table access is in bounds, and the result keeps sign and exponent bits of
the pattern and replaces the fraction by a 23-bit number. -/
theorem C51_inBounds (i : Nat) (hi : i < 2 ^ 32) :
    ∃ t, t < 2 ^ 23 ∧ powBits i = .ok (i / 2 ^ 23 * 2 ^ 23 + t) := by
  have hk : (i &&& 0x7FFFFF) >>> (23 - 11) < powTable.length := by
    rw [powTable_length, and_low, Nat.shiftRight_eq_div_pow]
    have := Nat.mod_lt i (show 0 < 2 ^ 23 by norm_num)
    omega
  have h := List.getElem?_eq_getElem hk
  have h2 := tableOk_get 4096 powTable 0 powTable_ok _ _ h
  have h3 := (entryOkN_iff h2).2.1
  refine ⟨_, h3, ?_⟩
  unfold powBits
  rw [h]
  dsimp only
  rw [and_high i hi, or_high _ _ h3]

theorem rootN (N : ℕ) (hN : 0 < N) (s : ℝ) (h : s ≤ 1 / N) : (2 : ℝ) ^ s ≤ 1 + 1 / N := by
  have hN' : (0 : ℝ) < N := by exact_mod_cast hN
  have hB : (2 : ℝ) ≤ (1 + 1 / N) ^ N := by
    have h0 : (0 : ℝ) ≤ 1 / N := by positivity
    have := one_add_mul_le_pow (show (-2 : ℝ) ≤ 1 / N by linarith) N
    have h : (1 : ℝ) + N * (1 / N) = 2 := by field_simp; norm_num
    linarith
  have h1 : (2 : ℝ) ^ s ≤ (2 : ℝ) ^ (1 / N : ℝ) := Real.rpow_le_rpow_of_exponent_le (by norm_num) h
  have h2 : (2 : ℝ) ^ (1 / N : ℝ) ≤ ((1 + 1 / N : ℝ) ^ N) ^ (1 / N : ℝ) :=
    Real.rpow_le_rpow (by norm_num) hB (by positivity)
  have h3 : ((1 + 1 / N : ℝ) ^ N) ^ (1 / N : ℝ) = 1 + 1 / N := by
    rw [← Real.rpow_natCast, ← Real.rpow_mul (by positivity), mul_one_div_cancel hN'.ne', Real.rpow_one]
  linarith

/-- What `entryOkN` says about real numbers. -/
theorem entry_real (N k t : Nat) (hN : 0 < N) (h : entryOkN N k t = true) :
    |(1 + (t : ℝ) / 2 ^ 23) - (2 : ℝ) ^ ((2 * k + 1 : ℝ) / N)| ≤ 1 / 2 ^ 23 := by
  obtain ⟨h1, _, h2, h3⟩ := entryOkN_iff h
  have hN' : (0 : ℝ) < N := by exact_mod_cast hN
  have key : (2 : ℝ) ^ ((2 * k + 1 : ℝ) / N) = (((2 : ℝ) ^ (23 * N + 2 * k + 1)) ^ (1 / N : ℝ)) / 2 ^ 23 := by
    rw [← Real.rpow_natCast, ← Real.rpow_mul (by norm_num), eq_div_iff (by norm_num),
      show (2 : ℝ) ^ 23 = (2 : ℝ) ^ (23 : ℝ) by rw [← Real.rpow_natCast]; norm_num, ← Real.rpow_add (by norm_num)]
    congr 1
    push_cast
    field_simp
    ring
  have root (x : ℝ) (hx : 0 ≤ x) : (x ^ N) ^ (1 / N : ℝ) = x := by
    rw [← Real.rpow_natCast, ← Real.rpow_mul hx, mul_one_div_cancel hN'.ne', Real.rpow_one]
  have c2 : ((2 : ℝ) ^ 23 + t - 1) ^ N ≤ 2 ^ (23 * N + 2 * k + 1) := by
    have h4 : (((2 ^ 23 + t - 1 : Nat) : ℝ)) ^ N ≤ 2 ^ (23 * N + 2 * k + 1) := by exact_mod_cast h2
    rwa [Nat.cast_sub (by omega), Nat.cast_add, Nat.cast_pow, Nat.cast_ofNat, Nat.cast_one] at h4
  have c3 : (2 : ℝ) ^ (23 * N + 2 * k + 1) ≤ ((2 : ℝ) ^ 23 + t + 1) ^ N := by exact_mod_cast h3
  have nn : (0 : ℝ) ≤ (2 : ℝ) ^ 23 + t - 1 := by
    have : (0 : ℝ) ≤ t := Nat.cast_nonneg t
    norm_num; linarith
  have d2 := Real.rpow_le_rpow (by positivity) c2 (show (0 : ℝ) ≤ 1 / N by positivity)
  have d3 := Real.rpow_le_rpow (by positivity) c3 (show (0 : ℝ) ≤ 1 / N by positivity)
  rw [root _ nn] at d2
  rw [root _ (by linarith)] at d3
  rw [key, abs_le]
  set R := ((2 : ℝ) ^ (23 * N + 2 * k + 1)) ^ (1 / N : ℝ)
  have e1 : 1 + (t : ℝ) / 2 ^ 23 - R / 2 ^ 23 = (2 ^ 23 + t - R) / 2 ^ 23 := by field_simp
  rw [e1, ← neg_div]
  constructor
  · apply div_le_div_of_nonneg_right _ (by positivity); linarith
  · apply div_le_div_of_nonneg_right _ (by positivity); linarith

/-- C51, part 2: for every exponent and log-base whose exact power is a normal float, the conversion is defined and the
returned bit pattern is a positive normal float within relative error 1/4000 of `e^(exp · log_base)`. -/
theorem C51_accuracy (b L : ℝ) (h1 : -126 ≤ b * L / Real.log 2) (h2 : b * L / Real.log 2 < 128) :
    ∃ x v, powLookup b L = .ok x ∧ PosNormal32 x v ∧ RelClose (1 / 4000) v (Real.exp (b * L)) := by
  have hl : 0 < Real.log 2 := Real.log_pos (by norm_num)
  set y := b * L / Real.log 2 with hy
  have hv : b * 8388608 * L * (1 / Real.log 2) + 127 * 8388608 = (y + 127) * 8388608 := by
    rw [hy]; field_simp
  have hexp : Real.exp (b * L) = (2 : ℝ) ^ y := by
    rw [Real.rpow_def_of_pos (by norm_num), hy]; congr 1; field_simp
  set v := (y + 127) * 8388608 with hvd
  have hv1 : (8388608 : ℝ) ≤ v := by rw [hvd]; nlinarith
  have hv2 : v < 255 * 8388608 := by rw [hvd]; nlinarith
  have hf0 : (8388608 : ℤ) ≤ ⌊v⌋ := Int.le_floor.2 (by exact_mod_cast hv1)
  have hf1 : ⌊v⌋ < (255 * 8388608 : ℤ) := Int.floor_lt.2 (by exact_mod_cast hv2)
  obtain ⟨i, hi⟩ : ∃ i : ℕ, ⌊v⌋ = i := ⟨⌊v⌋.toNat, (Int.toNat_of_nonneg (by linarith)).symm⟩
  have hi1 : (i : ℝ) ≤ v := by have := Int.floor_le v; rw [hi] at this; exact_mod_cast this
  have hi2 : v < i + 1 := by have := Int.lt_floor_add_one v; rw [hi] at this; exact_mod_cast this
  rw [hi] at hf0 hf1
  have hib : i < 2 ^ 32 := by norm_num; omega
  -- decompose i
  set e := i / 2 ^ 23 with he
  set k := i % 2 ^ 23 / 2 ^ 12 with hk
  have hk2 : k < 2048 := by
    have := Nat.mod_lt i (show 0 < 2 ^ 23 by norm_num)
    omega
  have hlen := powTable_length
  have hkl : k < powTable.length := by omega
  obtain ⟨t, hget⟩ : ∃ t, powTable[k]? = some t := ⟨_, List.getElem?_eq_getElem hkl⟩
  have hok := tableOk_get 4096 powTable 0 powTable_ok _ _ hget
  rw [Nat.zero_add] at hok
  have hent := entry_real 4096 k t (by norm_num) hok
  have htl : t < 2 ^ 23 := (entryOkN_iff hok).2.1
  have hbits : powBits i = .ok (e * 2 ^ 23 + t) := by
    unfold powBits
    have : (i &&& 0x7FFFFF) >>> (23 - 11) = k := by
      rw [and_low, Nat.shiftRight_eq_div_pow]
    rw [this, hget]
    dsimp only
    rw [and_high i hib, or_high _ _ htl]
  refine ⟨e * 2 ^ 23 + t, (2 : ℝ) ^ ((e : ℤ) - 127) * (1 + (t : ℝ) / 2 ^ 23), ?_, ?_, ?_⟩
  · unfold powLookup
    rw [hv]
    unfold toU32
    rw [if_pos ⟨by linarith, by linarith⟩, hi]
    simpa using hbits
  · refine ⟨e, t, ?_, ?_, htl, rfl, rfl⟩
    · omega
    · omega
  · -- accuracy
    have hi3 : (i : ℝ) = e * 8388608 + ((i % 2 ^ 23 : ℕ) : ℝ) := by
      have := Nat.div_add_mod i (2 ^ 23)
      have h4 : i = e * 8388608 + i % 2 ^ 23 := by omega
      exact_mod_cast h4
    have hm1 : (k : ℝ) * 4096 ≤ ((i % 2 ^ 23 : ℕ) : ℝ) := by
      have : k * 4096 ≤ i % 2 ^ 23 := by omega
      exact_mod_cast this
    have hm2 : ((i % 2 ^ 23 : ℕ) : ℝ) + 1 ≤ (k + 1) * 4096 := by
      have : i % 2 ^ 23 + 1 ≤ (k + 1) * 4096 := by omega
      exact_mod_cast this
    have hs1 : (e : ℝ) + k / 2048 ≤ y + 127 := by
      have : (e * 8388608 + k * 4096 : ℝ) ≤ (y + 127) * 8388608 := by rw [← hvd]; linarith
      linarith
    have hs2 : y + 127 ≤ (e : ℝ) + (k + 1) / 2048 := by
      have : (y + 127) * 8388608 ≤ (e * 8388608 + (k + 1) * 4096 : ℝ) := by rw [← hvd]; linarith
      linarith
    clear hbits hget hok hkl hlen
    set s := y + 127 - e with hs
    set c := (2 * k + 1 : ℝ) / 4096 with hc
    have hsc1 : c - s ≤ 1 / 4096 := by rw [hc]; linarith
    have hsc2 : s - c ≤ 1 / 4096 := by rw [hc]; linarith
    have hs0 : 0 ≤ s := by
      have : (0 : ℝ) ≤ (k : ℝ) / 2048 := by positivity
      linarith
    have hy2 : (2 : ℝ) ^ y = (2 : ℝ) ^ ((e : ℤ) - 127) * (2 : ℝ) ^ s := by
      rw [← Real.rpow_intCast, ← Real.rpow_add (by norm_num)]
      congr 1
      push_cast
      rw [hs]; ring
    have hP : 0 < (2 : ℝ) ^ ((e : ℤ) - 127) := by positivity
    have hS : (1 : ℝ) ≤ (2 : ℝ) ^ s := Real.one_le_rpow (by norm_num) hs0
    have hC : 0 < (2 : ℝ) ^ c := Real.rpow_pos_of_pos (by norm_num) c
    have r4096 (s : ℝ) (h : s ≤ 1 / 4096) : (2 : ℝ) ^ s ≤ 1 + 1 / 4096 := by
      have := rootN 4096 (by norm_num) s (by rw [Nat.cast_ofNat]; exact h)
      rwa [Nat.cast_ofNat] at this
    rw [Nat.cast_ofNat, ← hc] at hent
    have hup : (2 : ℝ) ^ c ≤ (2 : ℝ) ^ s * (1 + 1 / 4096) := by
      rcases le_total c s with h5 | h5
      · have := Real.rpow_le_rpow_of_exponent_le (show (1 : ℝ) ≤ 2 by norm_num) h5
        nlinarith
      · have h6 := r4096 (c - s) hsc1
        have h7 : (2 : ℝ) ^ c = (2 : ℝ) ^ s * (2 : ℝ) ^ (c - s) := by
          rw [← Real.rpow_add (by norm_num)]; congr 1; ring
        rw [h7]
        exact mul_le_mul_of_nonneg_left h6 (by linarith)
    have hlo : (2 : ℝ) ^ s ≤ (2 : ℝ) ^ c * (1 + 1 / 4096) := by
      rcases le_total s c with h5 | h5
      · have := Real.rpow_le_rpow_of_exponent_le (show (1 : ℝ) ≤ 2 by norm_num) h5
        nlinarith
      · have h6 := r4096 (s - c) hsc2
        have h7 : (2 : ℝ) ^ s = (2 : ℝ) ^ c * (2 : ℝ) ^ (s - c) := by
          rw [← Real.rpow_add (by norm_num)]; congr 1; ring
        rw [h7]
        exact mul_le_mul_of_nonneg_left h6 hC.le
    unfold RelClose
    rw [hexp, hy2, ← mul_sub, abs_mul, abs_of_pos hP, ← mul_assoc, mul_comm (1 / 4000 : ℝ), mul_assoc]
    apply mul_le_mul_of_nonneg_left _ hP.le
    obtain ⟨ha, hb⟩ := abs_le.1 hent
    rw [abs_le]
    norm_num at ha hb hup hlo ⊢
    constructor <;> nlinarith

end CCGL.MathFn
end
