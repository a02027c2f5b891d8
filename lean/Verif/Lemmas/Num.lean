import Verif.Lemmas.Str
import Verif.Model.Num
import Verif.Spec.Num
namespace CCGL
open Spec

theorem digitChar_toNat (n : Nat) (h : n < 10) : (digitChar n).toNat = 48 + n := by
  unfold digitChar
  have e : '0'.toNat = 48 := rfl
  rw [e, toNat_ofNat]; omega

theorem isDigitC_iff (c : Char) : isDigitC c = true ↔ 48 ≤ c.toNat ∧ c.toNat ≤ 57 := by
  have e : '0'.toNat = 48 := rfl
  have e' : '9'.toNat = 57 := rfl
  simp [isDigitC, e, e']

theorem natToDec_lt (n : Nat) (h : n < 10) : natToDec n = [digitChar n] := by
  rw [natToDec]; simp [h]

theorem natToDec_ge (n : Nat) (h : ¬ n < 10) :
    natToDec n = natToDec (n / 10) ++ [digitChar (n % 10)] := by
  rw [natToDec]; simp [h]

theorem natToDec_ne_nil (n : Nat) : natToDec n ≠ [] := by
  by_cases h : n < 10
  · simp [natToDec_lt n h]
  · simp [natToDec_ge n h]

theorem natToDec_digits (n : Nat) : ∀ c ∈ natToDec n, 48 ≤ c.toNat ∧ c.toNat ≤ 57 := by
  induction n using Nat.strongRecOn with
  | _ n ih =>
    by_cases h : n < 10
    · intro c hc; rw [natToDec_lt n h] at hc; simp at hc; subst hc
      rw [digitChar_toNat n h]; omega
    · intro c hc; rw [natToDec_ge n h] at hc; simp at hc
      rcases hc with hc | rfl
      · exact ih _ (by omega) c hc
      · rw [digitChar_toNat _ (by omega)]; omega

theorem natToDec_head (n : Nat) (h : (natToDec n).head? = some '0') : n = 0 := by
  induction n using Nat.strongRecOn with
  | _ n ih =>
    by_cases hn : n < 10
    · rw [natToDec_lt n hn] at h; simp at h
      have := congrArg Char.toNat h
      rw [digitChar_toNat n hn] at this
      have e : '0'.toNat = 48 := rfl
      omega
    · rw [natToDec_ge n hn, List.head?_append_of_ne_nil _ (natToDec_ne_nil _)] at h
      have := ih (n/10) (by omega) h
      omega

theorem natToDec_val (n : Nat) : (natToDec n).foldl (fun a c => 10 * a + (c.toNat - 48)) 0 = n := by
  induction n using Nat.strongRecOn with
  | _ n ih =>
    by_cases h : n < 10
    · rw [natToDec_lt n h]; simp [digitChar_toNat n h]
    · rw [natToDec_ge n h, List.foldl_append, ih _ (by omega)]
      simp only [List.foldl_cons, List.foldl_nil]
      rw [digitChar_toNat _ (by omega)]; omega

theorem natToDec_isDec (n : Nat) : IsDecNat (natToDec n) n := by
  refine ⟨natToDec_ne_nil n, natToDec_digits n, ?_, natToDec_val n⟩
  intro h
  have := natToDec_head n h
  subst this; rw [natToDec_lt 0 (by omega)]; rfl

theorem isDecNat_unique {s : Str} {n : Nat} (h : IsDecNat s n) : s = natToDec n := by
  induction hl : s.length using Nat.strongRecOn generalizing s n with
  | _ k ih =>
    obtain ⟨hne, hd, hz, hv⟩ := h
    obtain ⟨t, c, rfl⟩ : ∃ t c, s = t ++ [c] := ⟨s.dropLast, s.getLast hne, (List.dropLast_append_getLast hne).symm⟩
    have hc := hd c (by simp)
    rw [List.foldl_append] at hv
    simp only [List.foldl_cons, List.foldl_nil] at hv
    by_cases ht : t = []
    · subst ht
      simp at hv
      rw [natToDec_lt n (by omega)]
      simp only [List.nil_append, List.cons.injEq, and_true]
      apply char_ext_toNat
      rw [digitChar_toNat n (by omega)]; omega
    · have hlen : 0 < t.length := List.length_pos_of_ne_nil ht
      have hz' : t.head? ≠ some '0' := by
        intro hh
        have := hz (by rw [List.head?_append_of_ne_nil _ ht]; exact hh)
        simp at this; simp [this] at ht
      have hdec : IsDecNat t (t.foldl (fun a c => 10 * a + (c.toNat - 48)) 0) :=
        ⟨ht, fun x hx => hd x (by simp [hx]), fun hh => absurd hh hz', rfl⟩
      have heq := ih t.length (by rw [← hl]; simp) hdec rfl
      generalize hm : t.foldl (fun a c => 10 * a + (c.toNat - 48)) 0 = m at *
      have hmpos : 0 < m := by
        rcases Nat.eq_zero_or_pos m with h0 | h0
        · exfalso; subst h0
          rw [natToDec_lt 0 (by omega)] at heq
          apply hz'; rw [heq]; rfl
        · exact h0
      rw [natToDec_ge n (by omega)]
      have h1 : n / 10 = m := by omega
      have h2 : n % 10 = c.toNat - 48 := by omega
      rw [h1, h2, ← heq]
      congr 2
      apply char_ext_toNat
      rw [digitChar_toNat _ (by omega)]; omega

theorem isDecInt_iff (s : Str) (i : Int) : IsDecInt s i ↔ s = intToDec i := by
  constructor
  · rintro (⟨h1, h2⟩ | ⟨h1, t, rfl, h2⟩)
    · obtain ⟨n, rfl⟩ := Int.eq_ofNat_of_zero_le h1
      exact isDecNat_unique h2
    · obtain ⟨n, rfl⟩ := Int.eq_negSucc_of_lt_zero h1
      have : (-(Int.negSucc n)).toNat = n + 1 := by omega
      rw [this] at h2
      show _ = '-' :: natToDec (n+1)
      rw [isDecNat_unique h2]
  · rintro rfl
    cases i with
    | ofNat n => left; exact ⟨by simp, natToDec_isDec n⟩
    | negSucc n => right; exact ⟨by omega, natToDec (n+1), rfl, natToDec_isDec _⟩

theorem intToDec_inj {i j : Int} (h : intToDec i = intToDec j) : i = j := by
  have hi := (isDecInt_iff (intToDec i) i).2 rfl
  have hj := (isDecInt_iff (intToDec i) j).2 h
  have key : ∀ {s n m}, IsDecNat s n → IsDecNat s m → n = m := by
    intro s n m h1 h2; rw [← h1.2.2.2, ← h2.2.2.2]
  have nomin : ∀ {t n}, ¬ IsDecNat ('-' :: t) n := by
    intro t n h
    have := h.2.1 '-' (by simp)
    revert this; decide
  rcases hi with ⟨a1, a2⟩ | ⟨a1, t, a2, a3⟩ <;> rcases hj with ⟨b1, b2⟩ | ⟨b1, u, b2, b3⟩
  · have := key a2 b2; omega
  · rw [b2] at a2; exact absurd a2 nomin
  · rw [a2] at b2; exact absurd b2 nomin
  · rw [a2] at b2; simp at b2; subst b2; have := key a3 b3; omega

theorem digitsVal_eq (acc : Nat) (s : Str) (h : ∀ c ∈ s, 48 ≤ c.toNat ∧ c.toNat ≤ 57) :
    digitsVal acc s = s.foldl (fun a c => 10 * a + (c.toNat - 48)) acc := by
  induction s generalizing acc with
  | nil => rfl
  | cons c s ih =>
    have e : acc * 10 + digitVal c = 10 * acc + (c.toNat - 48) := by
      have e0 : '0'.toNat = 48 := rfl
      unfold digitVal; rw [e0]; omega
    have h1 : ∀ x ∈ s, 48 ≤ x.toNat ∧ x.toNat ≤ 57 := fun x hx => h x (List.mem_cons_of_mem _ hx)
    have h2 := ih (10 * acc + (c.toNat - 48)) h1
    have h3 : digitsVal acc (c :: s) = digitsVal (acc * 10 + digitVal c) s := rfl
    rw [h3, e, h2, List.foldl_cons]

theorem takeWhile_digits (s : Str) (h : ∀ c ∈ s, 48 ≤ c.toNat ∧ c.toNat ≤ 57) :
    s.takeWhile isDigitC = s := by
  induction s with
  | nil => rfl
  | cons c s ih =>
    have hc := (isDigitC_iff c).2 (h c (by simp))
    rw [List.takeWhile_cons, hc, if_pos rfl, ih (fun x hx => h x (by simp [hx]))]

theorem not_space_of_range {c : Char} (h : 33 ≤ c.toNat) : isSpaceC c = false := by
  rw [isSpaceC_false_iff]; unfold White; omega

theorem strtoScan_nat (n : Nat) : strtoScan (natToDec n) = ⟨false, n, (natToDec n).length⟩ := by
  obtain ⟨c, t, hct⟩ := List.exists_cons_of_ne_nil (natToDec_ne_nil n)
  have hd := natToDec_digits n
  have hc := hd c (by simp [hct])
  have hsp : isSpaceC c = false := not_space_of_range (by omega)
  have h1 : (natToDec n).takeWhile isSpaceC = [] := by rw [hct]; simp [hsp]
  have h2 : (natToDec n).dropWhile isSpaceC = natToDec n := by rw [hct]; simp [hsp]
  have hm : c ≠ '-' := by rintro rfl; revert hc; decide
  have hp : c ≠ '+' := by rintro rfl; revert hc; decide
  have hv := natToDec_val n
  unfold strtoScan
  simp only [h1, h2]
  have hmatch : signPart (natToDec n) = (false, 0, natToDec n) := by
    rw [hct]; simp [signPart, hm, hp]
  rw [hmatch]
  simp only [takeWhile_digits _ hd, natToDec_ne_nil, if_false, List.length_nil, Nat.zero_add]
  rw [digitsVal_eq 0 _ hd, hv]

theorem strtoScan_neg (n : Nat) :
    strtoScan ('-' :: natToDec n) = ⟨true, n, (natToDec n).length + 1⟩ := by
  have hd := natToDec_digits n
  have hsp : isSpaceC '-' = false := by decide
  unfold strtoScan
  have hs : signPart ('-' :: natToDec n) = (true, 1, natToDec n) := rfl
  simp only [List.takeWhile_cons, List.dropWhile_cons, hsp, Bool.false_eq_true, if_false, hs,
    takeWhile_digits _ hd, natToDec_ne_nil, List.length_nil]
  rw [digitsVal_eq 0 _ hd, natToDec_val]
  congr 1; omega

theorem strtol_intToDec (i : Int) (h : longMin ≤ i) (h' : i ≤ longMax) :
    strtol (intToDec i) = (i, (intToDec i).length) := by
  cases i with
  | ofNat n =>
    simp only [intToDec, strtol, strtoScan_nat]
    simp only [Bool.false_eq_true, if_false]
    rw [if_neg, if_neg]
    · rfl
    · simp only [Int.ofNat_eq_natCast] at *; omega
    · simp only [Int.ofNat_eq_natCast] at *; omega
  | negSucc n =>
    simp only [intToDec, strtol, strtoScan_neg]
    simp only [if_true]
    have : -((n + 1 : Nat) : Int) = Int.negSucc n := by omega
    rw [this, if_neg (by omega), if_neg (by omega)]
    simp

theorem strtol_range (s : Str) : longMin ≤ (strtol s).1 ∧ (strtol s).1 ≤ longMax := by
  have : longMin ≤ longMax := by decide
  simp only [strtol]
  split_ifs <;> omega

theorem wrapInt32_range (i : Int) : -(2^31) ≤ wrapInt32 i ∧ wrapInt32 i < 2^31 := by
  unfold wrapInt32; omega

theorem wrapInt32_id (i : Int) (h : -(2^31) ≤ i) (h' : i < 2^31) : wrapInt32 i = i := by
  unfold wrapInt32; omega

theorem isInt_iff (s : Str) (v : Int) :
    isInt s = (v, true) ↔ IsDecInt s v ∧ -(2^31) ≤ v ∧ v < 2^31 := by
  rw [isDecInt_iff]
  constructor
  · intro h
    simp only [isInt, Prod.mk.injEq, Bool.and_eq_true, decide_eq_true_eq] at h
    obtain ⟨h1, h2, h3⟩ := h
    have := wrapInt32_range (strtol s).1
    rw [h1] at this h3
    exact ⟨h3.symm, this⟩
  · rintro ⟨rfl, h1, h2⟩
    have h3 := strtol_intToDec v (by unfold longMin; omega) (by unfold longMax; omega)
    simp [isInt, h3, wrapInt32_id v h1 h2]

theorem isInt64_iff (s : Str) (v : Int) :
    isInt64 s = (v, true) ↔ IsDecInt s v ∧ -(2^63) ≤ v ∧ v ≤ 2^63 - 1 := by
  rw [isDecInt_iff]
  constructor
  · intro h
    simp only [isInt64, Prod.mk.injEq, Bool.and_eq_true, decide_eq_true_eq] at h
    obtain ⟨h1, h2, h3⟩ := h
    have := strtol_range s
    rw [h1] at this h3
    exact ⟨h3.symm, this⟩
  · rintro ⟨rfl, h1, h2⟩
    have h3 := strtol_intToDec v (by unfold longMin; omega) (by unfold longMax; omega)
    simp [isInt64, h3]

theorem strtoul_range (s : Str) : (strtoul s).1 ≤ ulongMax := by
  have : ulongMax = 2^64 - 1 := rfl
  simp only [strtoul]
  split_ifs <;> omega

theorem isUInt64_iff (s : Str) (v : Nat) :
    isUInt64 s = (v, true) ↔ IsDecNat s v ∧ v ≤ 2^64 - 1 := by
  constructor
  · intro h
    simp only [isUInt64, Prod.mk.injEq, Bool.and_eq_true, decide_eq_true_eq] at h
    obtain ⟨h1, h2, h3⟩ := h
    have := strtoul_range s
    rw [h1] at this h3
    exact ⟨h3 ▸ natToDec_isDec v, this⟩
  · rintro ⟨h, h2⟩
    obtain rfl := isDecNat_unique h
    have : ulongMax = 2^64 - 1 := rfl
    simp only [isUInt64, strtoul, strtoScan_nat]
    rw [if_neg (by omega)]
    simp
end CCGL
