import Verif.Lemmas.Dec
import Mathlib.Tactic.Linarith
import Mathlib.Tactic.Positivity
/-! Printed numbers are number texts. -/
namespace CCGL
open Spec

theorem decNum_append (a b : Str) : decNum (a ++ b) = decNum a * 10 ^ b.length + decNum b := by
  have key : ∀ (b : Str) (x : Nat), b.foldl (fun a c => 10 * a + (c.toNat - 48)) x =
      x * 10 ^ b.length + b.foldl (fun a c => 10 * a + (c.toNat - 48)) 0 := by
    intro b
    induction b with
    | nil => intro x; simp
    | cons c b ih =>
      intro x
      rw [List.foldl_cons, ih, List.foldl_cons, ih (10 * 0 + _), List.length_cons, Nat.pow_succ]
      ring
  unfold decNum
  rw [List.foldl_append, key]

theorem decNum_natToDec (n : Nat) : decNum (natToDec n) = n := natToDec_val n

theorem padDec_length (k n : Nat) : (padDec k n).length = k := by
  induction k generalizing n with
  | zero => rfl
  | succ k ih => simp [padDec, ih]

theorem padDec_digits (k n : Nat) : Digits (padDec k n) := by
  induction k generalizing n with
  | zero => intro c hc; simp [padDec] at hc
  | succ k ih =>
    intro c hc
    simp only [padDec, List.mem_append, List.mem_singleton] at hc
    rcases hc with hc | rfl
    · exact ih _ c hc
    · rw [digitChar_toNat _ (Nat.mod_lt _ (by omega))]; omega

theorem decNum_padDec (k n : Nat) (h : n < 10 ^ k) : decNum (padDec k n) = n := by
  induction k generalizing n with
  | zero => simp at h; subst h; rfl
  | succ k ih =>
    have h1 : n / 10 < 10 ^ k := by rw [Nat.div_lt_iff_lt_mul (by omega)]; rw [Nat.pow_succ] at h; exact h
    have e : decNum [digitChar (n % 10)] = n % 10 := by
      have := digitChar_toNat (n % 10) (Nat.mod_lt _ (by omega))
      simp [decNum, this]
    simp only [padDec]
    rw [decNum_append, ih _ h1, e]
    simp; omega

theorem stripZeros_spec (s : Str) : ∃ k, s = stripZeros s ++ List.replicate k '0' := by
  have h : s.reverse = s.reverse.takeWhile (fun c => c = '0') ++ s.reverse.dropWhile (fun c => c = '0') :=
    List.takeWhile_append_dropWhile.symm
  refine ⟨(s.reverse.takeWhile (fun c => c = '0')).length, ?_⟩
  have hr : s.reverse.takeWhile (fun c => c = '0') = List.replicate (s.reverse.takeWhile (fun c => c = '0')).length '0' := by
    rw [List.eq_replicate_iff]
    refine ⟨rfl, fun c hc => ?_⟩
    have := takeWhile_mem _ _ _ hc
    simpa using this
  have := congrArg List.reverse h
  rw [List.reverse_reverse, List.reverse_append, hr, List.reverse_replicate] at this
  unfold stripZeros
  exact this

theorem decNum_zeros (k : Nat) : decNum (List.replicate k '0') = 0 := by
  induction k with
  | zero => rfl
  | succ k ih =>
    rw [List.replicate_succ, ← List.singleton_append, decNum_append, ih]
    simp [decNum]

theorem fixedText_dec (m k : Nat) (ex : Str) (e : Int) (he : ExpText 'e' 'E' ex e) :
    DecText (fixedText m k ++ ex) ((m : ℚ) / 10 ^ k * (10 : ℚ) ^ e) := by
  unfold fixedText
  dsimp only
  obtain ⟨z, hz⟩ := stripZeros_spec (padDec k (m % 10 ^ k))
  have hpos : 0 < 10 ^ k := by positivity
  have hval := decNum_padDec k (m % 10 ^ k) (Nat.mod_lt _ hpos)
  have hlen := padDec_length k (m % 10 ^ k)
  have hdig := padDec_digits k (m % 10 ^ k)
  generalize stripZeros (padDec k (m % 10 ^ k)) = fr at *
  rw [hz] at hval hlen hdig
  rw [decNum_append, decNum_zeros, List.length_replicate] at hval
  rw [List.length_append, List.length_replicate] at hlen
  have hfr : Digits fr := fun c hc => hdig c (List.mem_append_left _ hc)
  have hm : m = (m / 10 ^ k) * 10 ^ k + m % 10 ^ k := by rw [Nat.mul_comm]; exact (Nat.div_add_mod m _).symm
  by_cases h0 : fr = []
  · subst h0
    rw [if_pos rfl, List.append_nil]
    have := DecText.whole (natToDec (m / 10 ^ k)) ex e (natToDec_ne_nil _) (natToDec_digits _) he
    rw [decNum_natToDec] at this
    have e2 : (m : ℚ) / 10 ^ k = ((m / 10 ^ k : Nat) : ℚ) := by
      rw [div_eq_iff (by positivity)]
      have : m = (m / 10 ^ k) * 10 ^ k := by
        have h00 : decNum ([] : Str) = 0 := rfl
        rw [h00] at hval; omega
      exact_mod_cast this
    rw [e2]; exact this
  · rw [if_neg h0, List.append_assoc, List.cons_append]
    have := DecText.point (natToDec (m / 10 ^ k)) fr ex e (by simp [h0]) (natToDec_digits _) hfr he
    rw [decNum_append, decNum_natToDec] at this
    have e2 : (m : ℚ) / 10 ^ k = ((m / 10 ^ k * 10 ^ fr.length + decNum fr : Nat) : ℚ) / 10 ^ fr.length := by
      rw [div_eq_div_iff (by positivity) (by positivity)]
      have : m * 10 ^ fr.length = (m / 10 ^ k * 10 ^ fr.length + decNum fr) * 10 ^ k := by
        have hk : 10 ^ k = 10 ^ fr.length * 10 ^ z := by rw [← pow_add, hlen]
        conv_lhs => rw [hm]
        rw [← hval]
        rw [hk]; ring
      exact_mod_cast this
    rw [e2]; exact this

theorem expText_exp (e : Int) : ExpText 'e' 'E' ('e' :: expText e) e := by
  unfold expText
  dsimp only
  generalize ha : (if (natToDec e.natAbs).length < 2 then '0' :: natToDec e.natAbs else natToDec e.natAbs) = a
  have h1 : a ≠ [] ∧ Digits a ∧ decNum a = e.natAbs := by
    rw [← ha]
    split_ifs
    · refine ⟨by simp, ?_, ?_⟩
      · intro c hc
        rcases List.mem_cons.1 hc with rfl | hc
        · decide
        · exact natToDec_digits _ c hc
      · rw [← List.singleton_append, decNum_append, decNum_natToDec]
        simp [decNum]
    · exact ⟨natToDec_ne_nil _, natToDec_digits _, decNum_natToDec _⟩
  obtain ⟨h1, h2, h3⟩ := h1
  by_cases he : e < 0
  · rw [if_pos he]
    have := ExpText.minus (m := 'e') (M := 'E') 'e' a (Or.inl rfl) h1 h2
    rw [h3] at this
    have e2 : -((e.natAbs : Nat) : Int) = e := by omega
    rwa [e2] at this
  · rw [if_neg he]
    have := ExpText.plus (m := 'e') (M := 'E') 'e' a (Or.inl rfl) h1 h2
    rw [h3] at this
    have e2 : ((e.natAbs : Nat) : Int) = e := by omega
    rwa [e2] at this

theorem roundEven_near (q : ℚ) : |(roundEven q : ℚ) - q| ≤ 1 / 2 := by
  unfold roundEven
  have h1 := Int.floor_le q
  have h2 := Int.lt_floor_add_one q
  dsimp only
  rw [abs_le]
  split_ifs <;> push_cast <;> constructor <;> linarith

theorem roundEven_int (z : Int) : roundEven (z : ℚ) = z := by
  unfold roundEven
  rw [Int.floor_intCast]
  simp

/-- The scaled number lies in `[10^5, 10^6)`. -/
theorem log_scale (q : ℚ) (hq : 0 < q) :
    (10 : ℚ) ^ 5 ≤ q * (10 : ℚ) ^ (5 - Int.log 10 q) ∧ q * (10 : ℚ) ^ (5 - Int.log 10 q) < 10 ^ 6 := by
  have h1 := Int.zpow_log_le_self (b := 10) (by norm_num) hq
  have h2 := Int.lt_zpow_succ_log_self (b := 10) (by norm_num) q
  push_cast at h1 h2
  generalize Int.log 10 q = e at *
  have hp : (0 : ℚ) < (10 : ℚ) ^ (5 - e) := zpow_pos (by norm_num) _
  constructor
  · have := mul_le_mul_of_nonneg_right h1 hp.le
    rw [← zpow_add₀ (by norm_num)] at this
    have e2 : e + (5 - e) = (5 : Nat) := by push_cast; ring
    rw [e2, zpow_natCast] at this
    exact this
  · have := mul_lt_mul_of_pos_right h2 hp
    rw [← zpow_add₀ (by norm_num)] at this
    have e2 : e + 1 + (5 - e) = (6 : Nat) := by push_cast; ring
    rw [e2, zpow_natCast] at this
    exact this

theorem sixDigits_spec (q : ℚ) (hq : 0 < q) :
    ((sixDigits q).1 : ℚ) * (10 : ℚ) ^ ((sixDigits q).2 - 5) =
      (roundEven (q * (10 : ℚ) ^ (5 - Int.log 10 q)) : ℚ) * (10 : ℚ) ^ (Int.log 10 q - 5) := by
  have hs := log_scale q hq
  have hn := roundEven_near (q * (10 : ℚ) ^ (5 - Int.log 10 q))
  unfold sixDigits
  dsimp only
  generalize Int.log 10 q = e at *
  generalize q * (10 : ℚ) ^ (5 - e) = x at *
  generalize roundEven x = z at *
  have hz0 : 0 ≤ z := by
    rw [abs_le] at hn
    have : (-1 : ℚ) < z := by linarith [hn.1, hs.1]
    have : (-1 : Int) < z := by exact_mod_cast this
    omega
  obtain ⟨n, rfl⟩ := Int.eq_ofNat_of_zero_le hz0
  rw [Int.toNat_natCast]
  split_ifs with h
  · dsimp only
    rw [h]
    have e1 : e + 1 - 5 = (e - 5) + 1 := by ring
    rw [e1, zpow_add₀ (by norm_num)]
    push_cast; ring
  · dsimp only
    push_cast; ring

theorem fmtPos_dec (q : ℚ) (_hq : 0 < q) :
    DecText (fmtPos q) (((sixDigits q).1 : ℚ) * (10 : ℚ) ^ ((sixDigits q).2 - 5)) := by
  unfold fmtPos
  dsimp only
  generalize (sixDigits q).1 = m
  generalize (sixDigits q).2 = e
  split_ifs with h
  · have := fixedText_dec m (5 - e).toNat [] 0 .absent
    rw [List.append_nil, zpow_zero, mul_one] at this
    have e2 : (10 : ℚ) ^ (e - 5) = 1 / 10 ^ (5 - e).toNat := by
      have : e - 5 = -(((5 - e).toNat : Nat) : Int) := by omega
      rw [this, zpow_neg, zpow_natCast, one_div]
    rw [e2, mul_one_div]; exact this
  · have := fixedText_dec m 5 _ e (expText_exp e)
    have e2 : (m : ℚ) * (10 : ℚ) ^ (e - 5) = m / 10 ^ 5 * (10 : ℚ) ^ e := by
      rw [zpow_sub₀ (by norm_num)]
      have : ((10 : ℚ) ^ (5 : Int)) = 10 ^ 5 := by norm_cast
      rw [this]; ring
    rw [e2]; exact this

/-- The number a positive `%.6g` text denotes. -/
def sixRound (q : ℚ) : ℚ := (roundEven (q * (10 : ℚ) ^ (5 - Int.log 10 q)) : ℚ) * (10 : ℚ) ^ (Int.log 10 q - 5)

theorem fmtPos_text (q : ℚ) (hq : 0 < q) : DecText (fmtPos q) (sixRound q) := by
  have := fmtPos_dec q hq
  rw [sixDigits_spec q hq] at this
  exact this

theorem sixRound_near (q : ℚ) (hq : 0 < q) : |sixRound q - q| ≤ q / 200000 := by
  have hs := log_scale q hq
  have hn := roundEven_near (q * (10 : ℚ) ^ (5 - Int.log 10 q))
  unfold sixRound
  generalize Int.log 10 q = e at *
  have hq2 : q = q * (10 : ℚ) ^ (5 - e) * (10 : ℚ) ^ (e - 5) := by
    rw [mul_assoc, ← zpow_add₀ (by norm_num)]
    have : 5 - e + (e - 5) = 0 := by ring
    rw [this, zpow_zero, mul_one]
  generalize q * (10 : ℚ) ^ (5 - e) = x at *
  have hp : (0 : ℚ) < (10 : ℚ) ^ (e - 5) := zpow_pos (by norm_num) _
  generalize (10 : ℚ) ^ (e - 5) = p at *
  rw [hq2, ← sub_mul, abs_mul, abs_of_pos hp]
  have : x * p / 200000 = x / 200000 * p := by ring
  rw [this]
  apply mul_le_mul_of_nonneg_right _ hp.le
  have := hs.1
  linarith

theorem sixRound_exact (n : Nat) (k : Int) (hn : 0 < n) (h : n < 10 ^ 6) :
    sixRound ((n : ℚ) * (10 : ℚ) ^ k) = (n : ℚ) * (10 : ℚ) ^ k := by
  have hq : (0 : ℚ) < (n : ℚ) * (10 : ℚ) ^ k := mul_pos (by exact_mod_cast hn) (zpow_pos (by norm_num) _)
  have hs := log_scale _ hq
  unfold sixRound
  generalize Int.log 10 ((n : ℚ) * (10 : ℚ) ^ k) = e at *
  rw [mul_assoc, ← zpow_add₀ (by norm_num)] at hs ⊢
  have hk : 0 ≤ k + (5 - e) := by
    by_contra hneg
    have h1 : (10 : ℚ) ^ (k + (5 - e)) ≤ (10 : ℚ) ^ (-1 : Int) := zpow_le_zpow_right₀ (by norm_num) (by omega)
    have h2 : (n : ℚ) < 10 ^ 6 := by exact_mod_cast h
    have h3 : (0 : ℚ) < (10 : ℚ) ^ (k + (5 - e)) := zpow_pos (by norm_num) _
    have h4 : (10 : ℚ) ^ (-1 : Int) = 1 / 10 := by norm_num
    rw [h4] at h1
    have h0 : (0 : ℚ) < n := by exact_mod_cast hn
    nlinarith [hs.1]
  obtain ⟨j, hj⟩ := Int.eq_ofNat_of_zero_le hk
  rw [hj, zpow_natCast]
  have e1 : (n : ℚ) * 10 ^ j = (((n * 10 ^ j : Nat) : Int) : ℚ) := by push_cast; ring
  rw [e1, roundEven_int]
  push_cast
  rw [mul_assoc, ← zpow_natCast, ← hj, ← zpow_add₀ (by norm_num)]
  congr 2; ring

/-- Numbers with at most six significant decimal digits. -/
def Spec.SixSig (x : ℚ) : Prop := ∃ (n : Int) (k : Int), n.natAbs < 10 ^ 6 ∧ x = (n : ℚ) * (10 : ℚ) ^ k

/-- What `%.6g` prints, as a number. -/
def gRound (x : ℚ) : ℚ := if x = 0 then 0 else if x < 0 then -(sixRound (-x)) else sixRound x

theorem fmtG_text (x : ℚ) : NumText (fmtG x) (.fin (gRound x)) := by
  unfold fmtG gRound
  split_ifs with h0 h1
  · have := NumText.plain [] ['0'] _ (by simp) (.dec _ _ (DecText.whole ['0'] [] 0 (by simp) (by
      intro c hc; simp at hc; subst hc; decide) .absent))
    have e : ((decNum ['0'] : ℚ) * (10 : ℚ) ^ (0 : Int)) = 0 := by simp [decNum]
    rw [e] at this
    simpa using this
  · have := NumText.minus [] _ _ (by simp) (.dec _ _ (fmtPos_text (-x) (by linarith)))
    simpa [DVal.negate] using this
  · have hx : 0 < x := lt_of_le_of_ne (not_lt.1 h1) (Ne.symm h0)
    have := NumText.plain [] _ _ (by simp) (.dec _ _ (fmtPos_text x hx))
    simpa using this

theorem gRound_near (x : ℚ) : |gRound x - x| ≤ |x| / 200000 := by
  unfold gRound
  split_ifs with h0 h1
  · subst h0; simp
  · have := sixRound_near (-x) (by linarith)
    rw [abs_of_neg h1]
    have e : -sixRound (-x) - x = -(sixRound (-x) - -x) := by ring
    rw [e, abs_neg]; exact this
  · have hx : 0 < x := lt_of_le_of_ne (not_lt.1 h1) (Ne.symm h0)
    rw [abs_of_pos hx]; exact sixRound_near x hx

theorem gRound_exact {x : ℚ} (h : SixSig x) : gRound x = x := by
  obtain ⟨n, k, hn, rfl⟩ := h
  have hp : (0 : ℚ) < (10 : ℚ) ^ k := zpow_pos (by norm_num) _
  unfold gRound
  split_ifs with h0 h1
  · exact h0.symm
  · have hneg : n < 0 := by
      by_contra hc
      have : (0 : ℚ) ≤ n := by exact_mod_cast (not_lt.1 hc)
      have := mul_nonneg this hp.le
      linarith
    have e : (n : ℚ) = -((n.natAbs : Nat) : ℚ) := by
      have : n = -((n.natAbs : Nat) : Int) := by omega
      conv_lhs => rw [this]
      rw [Int.cast_neg]; rfl
    rw [e, neg_mul, neg_neg, sixRound_exact _ _ (by omega) hn]
  · have hne : n ≠ 0 := by rintro rfl; simp at h0
    have hpos : 0 < n := by
      by_contra hc
      have hlt : n < 0 := by omega
      have : (n : ℚ) < 0 := by exact_mod_cast hlt
      exact h1 (mul_neg_of_neg_of_pos this hp)
    have e : (n : ℚ) = ((n.natAbs : Nat) : ℚ) := by
      have : n = ((n.natAbs : Nat) : Int) := by omega
      conv_lhs => rw [this]
      rfl
    rw [e, sixRound_exact _ _ (by omega) hn]

theorem intToDec_text (v : Int) : NumText (intToDec v) (.fin v) := by
  cases v with
  | ofNat n =>
    have := NumText.plain [] _ _ (by simp) (.dec _ _ (DecText.whole (natToDec n) [] 0 (natToDec_ne_nil n)
      (natToDec_digits n) .absent))
    simpa [decNum_natToDec, intToDec] using this
  | negSucc n =>
    have := NumText.minus [] _ _ (by simp) (.dec _ _ (DecText.whole (natToDec (n + 1)) [] 0 (natToDec_ne_nil _)
      (natToDec_digits _) .absent))
    have e : ((Int.negSucc n : Int) : ℚ) = -((n + 1 : Nat) : ℚ) := by rw [Int.cast_negSucc]
    rw [e]
    simpa [decNum_natToDec, intToDec, DVal.negate] using this

end CCGL
