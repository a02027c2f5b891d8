import Verif.Spec.Dec
import Verif.Lemmas.Num
import Verif.Lemmas.Str
/-! Lemmas for number texts. -/
namespace CCGL
open Spec

theorem takeWhile_stop (p : Char → Bool) (ds rest : Str) (h : ∀ c ∈ ds, p c = true)
    (hr : ∀ c, rest.head? = some c → p c = false) : (ds ++ rest).takeWhile p = ds := by
  induction ds with
  | nil =>
    cases rest with
    | nil => rfl
    | cons c r => rw [List.nil_append, List.takeWhile_cons_of_neg]; simp [hr c rfl]
  | cons d ds ih =>
    rw [List.cons_append, List.takeWhile_cons_of_pos (h d (by simp)), ih (fun c hc => h c (by simp [hc]))]

theorem takeWhile_drop_head (p : Char → Bool) (s : Str) (c : Char)
    (h : (s.drop (s.takeWhile p).length).head? = some c) : p c = false := by
  induction s with
  | nil => simp at h
  | cons a s ih =>
    cases hp : p a
    · rw [List.takeWhile_cons_of_neg (by simp [hp])] at h
      simp at h; rw [← h]; exact hp
    · rw [List.takeWhile_cons_of_pos hp] at h
      exact ih (by simpa using h)

theorem takeWhile_append_drop (p : Char → Bool) (s : Str) :
    s = s.takeWhile p ++ s.drop (s.takeWhile p).length := by
  conv_lhs => rw [← List.take_append_drop (s.takeWhile p).length s]
  congr 1
  exact (List.prefix_iff_eq_take.1 (List.takeWhile_prefix p)).symm

theorem digitsVal_decNum (s : Str) (h : Digits s) : digitsVal 0 s = decNum s := digitsVal_eq 0 s h

theorem digits_isDigit {s : Str} : Digits s ↔ ∀ c ∈ s, isDigitC c = true := by
  unfold Digits
  simp only [isDigitC_iff]

theorem isHexC_iff (c : Char) : isHexC c = true ↔ (48 ≤ c.toNat ∧ c.toNat ≤ 57) ∨
    (97 ≤ c.toNat ∧ c.toNat ≤ 102) ∨ (65 ≤ c.toNat ∧ c.toNat ≤ 70) := by
  unfold isHexC
  simp only [Bool.or_eq_true, Bool.and_eq_true, decide_eq_true_eq, isDigitC_iff]
  have e1 : 'a'.toNat = 97 := rfl
  have e2 : 'f'.toNat = 102 := rfl
  have e3 : 'A'.toNat = 65 := rfl
  have e4 : 'F'.toNat = 70 := rfl
  rw [e1, e2, e3, e4]
  tauto

theorem hexDigits_isHex {s : Str} : HexDigits s ↔ ∀ c ∈ s, isHexC c = true := by
  unfold HexDigits
  simp only [isHexC_iff]

theorem hexsVal_eq (s : Str) (h : HexDigits s) : ∀ acc, hexsVal acc s = s.foldl (fun a c => 16 * a +
  (if c.toNat ≤ 57 then c.toNat - 48 else if 97 ≤ c.toNat then c.toNat - 87 else c.toNat - 55)) acc := by
  induction s with
  | nil => intro acc; rfl
  | cons c s ih =>
    intro acc
    have hc := h c (by simp)
    have e : hexsVal acc (c :: s) = hexsVal (acc * 16 + hexVal c) s := rfl
    have e2 : hexVal c = if c.toNat ≤ 57 then c.toNat - 48 else if 97 ≤ c.toNat then c.toNat - 87 else c.toNat - 55 := by
      unfold hexVal digitVal
      have e1 : 'a'.toNat = 97 := rfl
      have e3 : 'A'.toNat = 65 := rfl
      have e4 : '0'.toNat = 48 := rfl
      rw [e1, e3, e4]
      have := isDigitC_iff c
      split_ifs <;> simp_all <;> omega
    rw [e, ih (fun x hx => h x (by simp [hx])), List.foldl_cons, e2, Nat.mul_comm acc 16]

theorem hexsVal_hexNum (s : Str) (h : HexDigits s) : hexsVal 0 s = hexNum s := hexsVal_eq s h 0

/-! ### Exponents -/

theorem lower_eq_iff (c m M : Char) (hm : 97 ≤ m.toNat ∧ m.toNat ≤ 122) (hM : M.toNat + 32 = m.toNat) :
    toLowerC c = m ↔ c = m ∨ c = M := by
  have h1 := toLowerC_toNat c
  constructor
  · intro h
    have h2 : (toLowerC c).toNat = m.toNat := by rw [h]
    rw [h1] at h2
    split_ifs at h2 with hc
    · right; exact char_ext_toNat (by omega)
    · left; exact char_ext_toNat h2
  · rintro (rfl | rfl)
    · apply char_ext_toNat; rw [h1]; split_ifs <;> omega
    · apply char_ext_toNat; rw [h1]; split_ifs <;> omega

theorem takeWhile_all {p : Char → Bool} {s : Str} (h : ∀ c ∈ s, p c = true) : s.takeWhile p = s := by
  have := takeWhile_stop p s [] h (by simp)
  simpa using this

theorem signPart_of_digits {ds : Str} (h : ds ≠ []) (hd : Digits ds) : signPart ds = (false, 0, ds) := by
  cases ds with
  | nil => exact absurd rfl h
  | cons c t =>
    have := hd c (by simp)
    have h1 : c ≠ '-' := by rintro rfl; revert this; decide
    have h2 : c ≠ '+' := by rintro rfl; revert this; decide
    simp [signPart, h1, h2]

theorem expPart_text {m M : Char} (hm : 97 ≤ m.toNat ∧ m.toNat ≤ 122) (hM : M.toNat + 32 = m.toNat)
    {s : Str} {e : Int} (h : ExpText m M s e) : expPart m s = (e, s.length) := by
  cases h with
  | absent => rfl
  | plain c ds hc hne hd =>
    simp only [expPart, if_pos ((lower_eq_iff c m M hm hM).2 hc), signPart_of_digits hne hd,
      takeWhile_all (digits_isDigit.1 hd), if_neg hne, digitsVal_decNum _ hd]
    simp; omega
  | plus c ds hc hne hd =>
    have : signPart ('+' :: ds) = (false, 1, ds) := rfl
    simp only [expPart, if_pos ((lower_eq_iff c m M hm hM).2 hc), this,
      takeWhile_all (digits_isDigit.1 hd), if_neg hne, digitsVal_decNum _ hd]
    simp; omega
  | minus c ds hc hne hd =>
    have : signPart ('-' :: ds) = (true, 1, ds) := rfl
    simp only [expPart, if_pos ((lower_eq_iff c m M hm hM).2 hc), this,
      takeWhile_all (digits_isDigit.1 hd), if_neg hne, digitsVal_decNum _ hd]
    simp; omega

theorem takeWhile_len_all {p : Char → Bool} {s : Str} (h : (s.takeWhile p).length = s.length) :
    s.takeWhile p = s := by
  exact (List.takeWhile_prefix p).eq_of_length h

theorem expPart_full {m M : Char} (hm : 97 ≤ m.toNat ∧ m.toNat ≤ 122) (hM : M.toNat + 32 = m.toNat)
    {s : Str} (h : (expPart m s).2 = s.length) : ExpText m M s (expPart m s).1 := by
  cases s with
  | nil => exact .absent
  | cons c t =>
    by_cases hc : toLowerC c = m
    swap
    · simp [expPart, hc] at h
    have hc' := (lower_eq_iff c m M hm hM).1 hc
    simp only [expPart, if_pos hc] at h ⊢
    by_cases hds : (signPart t).2.2.takeWhile isDigitC = []
    · simp [hds] at h
    simp only [if_neg hds] at h ⊢
    cases t with
    | nil => simp [signPart] at hds
    | cons d t =>
      by_cases h1 : d = '-'
      · subst h1
        have e : signPart ('-' :: t) = (true, 1, t) := rfl
        rw [e] at h hds ⊢
        simp only [List.length_cons] at h hds ⊢
        have ht := takeWhile_len_all (p := isDigitC) (s := t) (by omega)
        rw [ht] at hds ⊢
        have hD : Digits t := digits_isDigit.2 (fun c hc => by rw [← ht] at hc; exact takeWhile_mem _ _ _ hc)
        rw [digitsVal_decNum _ hD]
        exact .minus c t hc' hds hD
      · by_cases h2 : d = '+'
        · subst h2
          have e : signPart ('+' :: t) = (false, 1, t) := rfl
          rw [e] at h hds ⊢
          simp only [List.length_cons] at h hds ⊢
          have ht := takeWhile_len_all (p := isDigitC) (s := t) (by omega)
          rw [ht] at hds ⊢
          have hD : Digits t := digits_isDigit.2 (fun c hc => by rw [← ht] at hc; exact takeWhile_mem _ _ _ hc)
          rw [digitsVal_decNum _ hD]
          exact .plus c t hc' hds hD
        · have e : signPart (d :: t) = (false, 0, d :: t) := by simp [signPart, h1, h2]
          rw [e] at h hds ⊢
          simp only [List.length_cons] at h hds ⊢
          have ht := takeWhile_len_all (p := isDigitC) (s := d :: t) (by simp only [List.length_cons]; omega)
          rw [ht] at hds ⊢
          have hD : Digits (d :: t) := digits_isDigit.2 (fun c hc => by rw [← ht] at hc; exact takeWhile_mem _ _ _ hc)
          rw [digitsVal_decNum _ hD]
          exact .plain c (d :: t) hc' hds hD

/-- The first character of an exponent text. -/
theorem expText_head {m M : Char} {s : Str} {e : Int} (h : ExpText m M s e) (c : Char) (hc : s.head? = some c) :
    c = m ∨ c = M := by
  cases h with
  | absent => simp at hc
  | plain c' ds h1 _ _ => simp at hc; rw [← hc]; exact h1
  | plus c' ds h1 _ _ => simp at hc; rw [← hc]; exact h1
  | minus c' ds h1 _ _ => simp at hc; rw [← hc]; exact h1

/-! ### Digits with a fraction, generically in the digit class -/

theorem frac_whole (p : Char → Bool) (ip ex : Str) (hi : ∀ c ∈ ip, p c = true)
    (he : ∀ c, ex.head? = some c → p c = false ∧ c ≠ '.') :
    (ip ++ ex).takeWhile p = ip ∧ (ip ++ ex).drop ip.length = ex ∧ fracPart p ex = ([], 0) := by
  refine ⟨takeWhile_stop p ip ex hi (fun c hc => (he c hc).1), by simp, ?_⟩
  cases ex with
  | nil => rfl
  | cons c t => simp [fracPart, (he c rfl).2]

theorem frac_point (p : Char → Bool) (hp : p '.' = false) (ip fp ex : Str) (hi : ∀ c ∈ ip, p c = true)
    (hf : ∀ c ∈ fp, p c = true) (he : ∀ c, ex.head? = some c → p c = false) :
    (ip ++ '.' :: (fp ++ ex)).takeWhile p = ip ∧ (ip ++ '.' :: (fp ++ ex)).drop ip.length = '.' :: (fp ++ ex) ∧
    fracPart p ('.' :: (fp ++ ex)) = (fp, 1 + fp.length) ∧ ('.' :: (fp ++ ex)).drop (1 + fp.length) = ex := by
  refine ⟨takeWhile_stop p ip _ hi (by simp [hp]), by simp, ?_, ?_⟩
  · simp [fracPart, takeWhile_stop p fp ex hf he]
  · rw [Nat.add_comm]; simp

/-- Decomposition of any text by the scanners. -/
theorem frac_cases (p : Char → Bool) (s : Str) :
    let ip := s.takeWhile p
    let r1 := s.drop ip.length
    let fp := fracPart p r1
    (∀ c ∈ ip, p c = true) ∧ (∀ c ∈ fp.1, p c = true) ∧
    ((fp = ([], 0) ∧ s = ip ++ r1.drop fp.2) ∨
     (fp.2 = 1 + fp.1.length ∧ s = ip ++ '.' :: (fp.1 ++ r1.drop fp.2))) := by
  dsimp only
  refine ⟨fun c hc => takeWhile_mem _ _ _ hc, ?_, ?_⟩
  · intro c hc
    unfold fracPart at hc
    split at hc
    · simp at hc
    · split_ifs at hc
      · exact takeWhile_mem _ _ _ hc
      · simp at hc
  · have hs := takeWhile_append_drop p s
    generalize s.drop (s.takeWhile p).length = r1 at *
    generalize s.takeWhile p = ip at *
    cases r1 with
    | nil => left; exact ⟨rfl, by simpa [fracPart] using hs⟩
    | cons c t =>
      by_cases hc : c = '.'
      · right
        subst hc
        have e : fracPart p ('.' :: t) = (t.takeWhile p, 1 + (t.takeWhile p).length) := by simp [fracPart]
        rw [e]
        refine ⟨rfl, ?_⟩
        have h2 : ('.' :: t).drop (1 + (t.takeWhile p).length) = t.drop (t.takeWhile p).length := by
          rw [Nat.add_comm]; simp
        simp only [h2, ← takeWhile_append_drop]
        exact hs
      · left
        have e : fracPart p (c :: t) = ([], 0) := by simp [fracPart, hc]
        rw [e]; exact ⟨rfl, by simpa using hs⟩

theorem eE : (97 : Nat) ≤ 'e'.toNat ∧ 'e'.toNat ≤ 122 := by decide
theorem eE' : 'E'.toNat + 32 = 'e'.toNat := by decide
theorem pP : (97 : Nat) ≤ 'p'.toNat ∧ 'p'.toNat ≤ 122 := by decide
theorem pP' : 'P'.toNat + 32 = 'p'.toNat := by decide

theorem decScan_text {s : Str} {q : ℚ} (h : DecText s q) : decScan s = some (q, s.length) := by
  cases h with
  | whole ip ex e hne hi he =>
    obtain ⟨h1, h2, h3⟩ := frac_whole isDigitC ip ex (digits_isDigit.1 hi) (by
      intro c hc
      rcases expText_head he c hc with rfl | rfl <;> decide)
    simp only [decScan, h1, h2, h3, hne, false_and, if_false, List.drop_zero, expPart_text eE eE' he,
      List.append_nil, digitsVal_decNum _ hi, List.length_nil, pow_zero, div_one, List.length_append, Nat.add_zero]
  | point ip fp ex e hne hi hf he =>
    obtain ⟨h1, h2, h3, h4⟩ := frac_point isDigitC (by decide) ip fp ex (digits_isDigit.1 hi) (digits_isDigit.1 hf) (by
      intro c hc
      rcases expText_head he c hc with rfl | rfl <;> decide)
    have hne' : ¬ (ip = [] ∧ fp = []) := by rintro ⟨rfl, rfl⟩; exact hne rfl
    have hD : Digits (ip ++ fp) := by
      intro c hc; rcases List.mem_append.1 hc with hc | hc
      · exact hi c hc
      · exact hf c hc
    simp only [decScan, h1, h2, h3, h4, hne', if_false, expPart_text eE eE' he, digitsVal_decNum _ hD]
    congr 2
    simp only [List.length_append, List.length_cons]; omega

theorem decScan_full {s : Str} {q : ℚ} (h : decScan s = some (q, s.length)) : DecText s q := by
  obtain ⟨h1, h2, h3⟩ := frac_cases isDigitC s
  unfold decScan at h
  dsimp only at h h1 h2 h3
  generalize hip : s.takeWhile isDigitC = ip at *
  generalize s.drop ip.length = r1 at *
  generalize hfp : fracPart isDigitC r1 = fp at *
  split_ifs at h with hne
  simp only [Option.some.injEq, Prod.mk.injEq] at h
  obtain ⟨rfl, hl⟩ := h
  have hi : Digits ip := digits_isDigit.2 h1
  have hf : Digits fp.1 := digits_isDigit.2 h2
  have hD : Digits (ip ++ fp.1) := by
    intro c hc; rcases List.mem_append.1 hc with hc | hc
    · exact hi c hc
    · exact hf c hc
  rw [digitsVal_decNum _ hD]
  rcases h3 with ⟨he, hs⟩ | ⟨he, hs⟩
  · rw [he] at hl hs hne ⊢
    simp only at hl hs hne ⊢
    generalize r1.drop 0 = r2 at *
    have hlen : s.length = ip.length + r2.length := by rw [hs]; simp
    have hx := expPart_full eE eE' (s := r2) (by omega)
    have := DecText.whole ip r2 _ (by simpa using hne) hi hx
    rw [hs]
    simpa using this
  · generalize r1.drop fp.2 = r2 at *
    have hlen : s.length = ip.length + (1 + fp.1.length + r2.length) := by rw [hs]; simp; omega
    have hx := expPart_full eE eE' (s := r2) (by omega)
    rw [hs]
    exact DecText.point ip fp.1 r2 _ (by
      intro h0; rw [List.append_eq_nil_iff] at h0; exact hne h0) hi hf hx

theorem hexScan_whole (ip ex : Str) (e : Int) (hne : ip ≠ []) (hi : HexDigits ip) (he : ExpText 'p' 'P' ex e) :
    hexScan (ip ++ ex) = some ((hexNum ip : ℚ) * (2 : ℚ) ^ e, (ip ++ ex).length) := by
  obtain ⟨h1, h2, h3⟩ := frac_whole isHexC ip ex (hexDigits_isHex.1 hi) (by
    intro c hc
    rcases expText_head he c hc with rfl | rfl <;> decide)
  simp only [hexScan, h1, h2, h3, hne, false_and, if_false, List.drop_zero, expPart_text pP pP' he,
    List.append_nil, hexsVal_hexNum _ hi, List.length_nil, pow_zero, div_one, List.length_append, Nat.add_zero]

theorem hexScan_point (ip fp ex : Str) (e : Int) (hne : ip ++ fp ≠ []) (hi : HexDigits ip) (hf : HexDigits fp)
    (he : ExpText 'p' 'P' ex e) :
    hexScan (ip ++ '.' :: (fp ++ ex)) =
      some ((hexNum (ip ++ fp) : ℚ) / 16 ^ fp.length * (2 : ℚ) ^ e, (ip ++ '.' :: (fp ++ ex)).length) := by
  obtain ⟨h1, h2, h3, h4⟩ := frac_point isHexC (by decide) ip fp ex (hexDigits_isHex.1 hi) (hexDigits_isHex.1 hf) (by
    intro c hc
    rcases expText_head he c hc with rfl | rfl <;> decide)
  have hne' : ¬ (ip = [] ∧ fp = []) := by rintro ⟨rfl, rfl⟩; exact hne rfl
  have hD : HexDigits (ip ++ fp) := by
    intro c hc; rcases List.mem_append.1 hc with hc | hc
    · exact hi c hc
    · exact hf c hc
  simp only [hexScan, h1, h2, h3, h4, hne', if_false, expPart_text pP pP' he, hexsVal_hexNum _ hD]
  congr 2
  simp only [List.length_append, List.length_cons]; omega

theorem hexScan_full {s : Str} {q : ℚ} (x : Char) (hx : x = 'x' ∨ x = 'X')
    (h : hexScan s = some (q, s.length)) : HexText ('0' :: x :: s) q := by
  obtain ⟨h1, h2, h3⟩ := frac_cases isHexC s
  unfold hexScan at h
  dsimp only at h h1 h2 h3
  generalize hip : s.takeWhile isHexC = ip at *
  generalize s.drop ip.length = r1 at *
  generalize hfp : fracPart isHexC r1 = fp at *
  split_ifs at h with hne
  simp only [Option.some.injEq, Prod.mk.injEq] at h
  obtain ⟨rfl, hl⟩ := h
  have hi : HexDigits ip := hexDigits_isHex.2 h1
  have hf : HexDigits fp.1 := hexDigits_isHex.2 h2
  have hD : HexDigits (ip ++ fp.1) := by
    intro c hc; rcases List.mem_append.1 hc with hc | hc
    · exact hi c hc
    · exact hf c hc
  rw [hexsVal_hexNum _ hD]
  rcases h3 with ⟨he, hs⟩ | ⟨he, hs⟩
  · rw [he] at hl hs hne ⊢
    simp only at hl hs hne ⊢
    generalize r1.drop 0 = r2 at *
    have hlen : s.length = ip.length + r2.length := by rw [hs]; simp
    have hx' := expPart_full pP pP' (s := r2) (by omega)
    have := HexText.whole x ip r2 _ hx (by simpa using hne) hi hx'
    rw [hs]
    simpa using this
  · generalize r1.drop fp.2 = r2 at *
    have hlen : s.length = ip.length + (1 + fp.1.length + r2.length) := by rw [hs]; simp; omega
    have hx' := expPart_full pP pP' (s := r2) (by omega)
    rw [hs]
    exact HexText.point x ip fp.1 r2 _ hx (by
      intro h0; rw [List.append_eq_nil_iff] at h0; exact hne h0) hi hf hx'


/-! ### The whole unsigned number -/

theorem expText_chars {m M : Char} {s : Str} {e : Int} (h : ExpText m M s e) (c : Char) (hc : c ∈ s) :
    c = m ∨ c = M ∨ c = '+' ∨ c = '-' ∨ (48 ≤ c.toNat ∧ c.toNat ≤ 57) := by
  cases h with
  | absent => simp at hc
  | plain c' ds h1 _ hd =>
    rcases List.mem_cons.1 hc with rfl | hc
    · tauto
    · exact Or.inr (Or.inr (Or.inr (Or.inr (hd c hc))))
  | plus c' ds h1 _ hd =>
    rcases List.mem_cons.1 hc with rfl | hc
    · tauto
    rcases List.mem_cons.1 hc with rfl | hc
    · tauto
    · exact Or.inr (Or.inr (Or.inr (Or.inr (hd c hc))))
  | minus c' ds h1 _ hd =>
    rcases List.mem_cons.1 hc with rfl | hc
    · tauto
    rcases List.mem_cons.1 hc with rfl | hc
    · tauto
    · exact Or.inr (Or.inr (Or.inr (Or.inr (hd c hc))))

theorem decText_chars {s : Str} {q : ℚ} (h : DecText s q) (c : Char) (hc : c ∈ s) :
    c = '.' ∨ c = 'e' ∨ c = 'E' ∨ c = '+' ∨ c = '-' ∨ (48 ≤ c.toNat ∧ c.toNat ≤ 57) := by
  cases h with
  | whole ip ex e hne hi he =>
    rcases List.mem_append.1 hc with hc | hc
    · have := hi c hc; tauto
    · have := expText_chars he c hc; tauto
  | point ip fp ex e hne hi hf he =>
    rcases List.mem_append.1 hc with hc | hc
    · have := hi c hc; tauto
    rcases List.mem_cons.1 hc with rfl | hc
    · tauto
    rcases List.mem_append.1 hc with hc | hc
    · have := hf c hc; tauto
    · have := expText_chars he c hc; tauto

theorem decText_head {s : Str} {q : ℚ} (h : DecText s q) :
    ∃ c t, s = c :: t ∧ (c = '.' ∨ (48 ≤ c.toNat ∧ c.toNat ≤ 57)) := by
  cases h with
  | whole ip ex e hne hi he =>
    cases ip with
    | nil => exact absurd rfl hne
    | cons c t => exact ⟨c, t ++ ex, rfl, Or.inr (hi c (by simp))⟩
  | point ip fp ex e hne hi hf he =>
    cases ip with
    | nil => exact ⟨'.', fp ++ ex, rfl, Or.inl rfl⟩
    | cons c t => exact ⟨c, _, rfl, Or.inr (hi c (by simp))⟩

theorem decText_noLetter {s : Str} {q : ℚ} (h : DecText s q) (m : Char) (hm : m = 'x' ∨ m = 'i' ∨ m = 'n') :
    m ∉ s.map toLowerC := by
  intro hc
  obtain ⟨c, hc, e⟩ := List.mem_map.1 hc
  have := decText_chars h c hc
  have h1 := toLowerC_toNat c
  rw [e] at h1
  rcases this with rfl | rfl | rfl | rfl | rfl | h2
  · revert h1; rcases hm with rfl | rfl | rfl <;> decide
  · revert h1; rcases hm with rfl | rfl | rfl <;> decide
  · revert h1; rcases hm with rfl | rfl | rfl <;> decide
  · revert h1; rcases hm with rfl | rfl | rfl <;> decide
  · revert h1; rcases hm with rfl | rfl | rfl <;> decide
  · rw [if_neg (by omega)] at h1
    have e1 : 'x'.toNat = 120 := rfl
    have e2 : 'i'.toNat = 105 := rfl
    have e3 : 'n'.toNat = 110 := rfl
    rcases hm with rfl | rfl | rfl <;> omega

theorem not_prefix_of_not_mem {p l : Str} (m : Char) (hm : m ∈ p) (h : m ∉ l) : ¬ p <+: l :=
  fun hp => h (hp.subset hm)

theorem nanClass_iff (c : Char) : (isDigitC c || c = '_' || ('a'.toNat ≤ c.toNat && c.toNat ≤ 'z'.toNat) ||
        ('A'.toNat ≤ c.toNat && c.toNat ≤ 'Z'.toNat)) = true ↔ (48 ≤ c.toNat ∧ c.toNat ≤ 57) ∨ c = '_' ∨
  (97 ≤ c.toNat ∧ c.toNat ≤ 122) ∨ (65 ≤ c.toNat ∧ c.toNat ≤ 90) := by
  simp only [Bool.or_eq_true, Bool.and_eq_true, decide_eq_true_eq, isDigitC_iff]
  have e1 : 'a'.toNat = 97 := rfl
  have e2 : 'z'.toNat = 122 := rfl
  have e3 : 'A'.toNat = 65 := rfl
  have e4 : 'Z'.toNat = 90 := rfl
  rw [e1, e2, e3, e4]
  tauto

theorem nanTail_seq (w : Str) (h : NanChars w) : nanTail ('(' :: (w ++ [')'])) = w.length + 2 := by
  have hw : (w ++ [')']).takeWhile (fun c => isDigitC c || c = '_' || ('a'.toNat ≤ c.toNat && c.toNat ≤ 'z'.toNat) ||
        ('A'.toNat ≤ c.toNat && c.toNat ≤ 'Z'.toNat)) = w :=
    takeWhile_stop _ w [')'] (fun c hc => (nanClass_iff c).2 (h c hc)) (by
      intro c hc; simp at hc; subst hc; decide)
  unfold nanTail
  simp only [if_true, hw]
  simp

theorem nanTail_full {s : Str} (h : nanTail s = s.length) : s = [] ∨ ∃ w, s = '(' :: (w ++ [')']) ∧ NanChars w := by
  cases s with
  | nil => left; rfl
  | cons c t =>
    right
    unfold nanTail at h
    dsimp only at h
    by_cases hc : c = '('
    swap
    · rw [if_neg hc] at h; simp at h
    rw [if_pos hc] at h
    generalize hw : t.takeWhile (fun c => isDigitC c || c = '_' || ('a'.toNat ≤ c.toNat && c.toNat ≤ 'z'.toNat) ||
        ('A'.toNat ≤ c.toNat && c.toNat ≤ 'Z'.toNat)) = w at h
    split_ifs at h with hp
    · refine ⟨w, ?_, ?_⟩
      · rw [hc]
        have ht := takeWhile_append_drop (fun c => isDigitC c || c = '_' || ('a'.toNat ≤ c.toNat && c.toNat ≤ 'z'.toNat) ||
          ('A'.toNat ≤ c.toNat && c.toNat ≤ 'Z'.toNat)) t
        rw [hw] at ht
        have hl : (t.drop w.length).length = 1 := by
          have : t.length = w.length + (t.drop w.length).length := by
            conv_lhs => rw [ht]
            simp
          simp only [List.length_cons] at h
          omega
        obtain ⟨a, ha⟩ := List.length_eq_one_iff.1 hl
        rw [ha] at hp ht
        simp at hp
        rw [ht, hp]
      · intro c hc
        rw [← hw] at hc
        exact (nanClass_iff c).1 (takeWhile_mem _ _ _ hc)

theorem sameText_lower (s t : Str) (ht : t.map toLowerC = t) : SameText s t ↔ s.map toLowerC = t := by
  rw [← map_eq_iff_sameText _ toLowerC_eq_iff, ht]

theorem udblScan_text {s : Str} {v : DVal} (h : NumBody s v) : udblScan s = some (v, s.length) := by
  cases h with
  | dec s q h =>
    unfold udblScan
    dsimp only
    rw [if_neg (not_prefix_of_not_mem 'i' (by decide) (decText_noLetter h 'i' (by decide))),
      if_neg (not_prefix_of_not_mem 'i' (by decide) (decText_noLetter h 'i' (by decide))),
      if_neg (not_prefix_of_not_mem 'n' (by decide) (decText_noLetter h 'n' (by decide))),
      if_neg (not_prefix_of_not_mem 'x' (by decide) (decText_noLetter h 'x' (by decide))), decScan_text h]
    rfl
  | hex s q h =>
    have key : ∀ (x : Char) (t : Str), (x = 'x' ∨ x = 'X') → hexScan t = some (q, t.length) →
        udblScan ('0' :: x :: t) = some (.fin q, ('0' :: x :: t).length) := by
      intro x t hx ht
      have hlow : ('0' :: x :: t).map toLowerC = '0' :: 'x' :: t.map toLowerC := by
        rcases hx with rfl | rfl <;> rfl
      unfold udblScan
      dsimp only
      rw [hlow]
      rw [if_neg (by simp), if_neg (by simp), if_neg (by simp), if_pos (by simp)]
      simp only [List.drop_succ_cons, List.drop_zero, ht]
      simp; omega
    cases h with
    | whole x ip ex e hx hne hi he => exact key x _ hx (hexScan_whole ip ex e hne hi he)
    | point x ip fp ex e hx hne hi hf he => exact key x _ hx (hexScan_point ip fp ex e hne hi hf he)
  | inf s h =>
    rcases h with h | h
    · rw [sameText_lower _ _ (by decide)] at h
      have hl : s.length = 3 := by rw [← List.length_map (f := toLowerC), h]; decide
      unfold udblScan
      dsimp only
      rw [h, if_neg (by decide), if_pos (by decide), hl]
    · rw [sameText_lower _ _ (by decide)] at h
      have hl : s.length = 8 := by rw [← List.length_map (f := toLowerC), h]; decide
      unfold udblScan
      dsimp only
      rw [h, if_pos (by decide), hl]
  | nan s h =>
    rw [sameText_lower _ _ (by decide)] at h
    have hl : s.length = 3 := by rw [← List.length_map (f := toLowerC), h]; decide
    unfold udblScan
    dsimp only
    rw [h, if_neg (by decide), if_neg (by decide), if_pos (by decide), List.drop_eq_nil_of_le (by omega), hl]
    rfl
  | nanSeq s w h hw =>
    rw [sameText_lower _ _ (by decide)] at h
    have hl : s.length = 3 := by rw [← List.length_map (f := toLowerC), h]; decide
    unfold udblScan
    dsimp only
    rw [List.map_append, h]
    have hd : (s ++ '(' :: (w ++ [')'])).drop 3 = '(' :: (w ++ [')']) := by
      rw [← hl]; simp
    rw [if_neg (by simp), if_neg (by simp), if_pos (by simp), hd, nanTail_seq w hw]
    simp [hl]

theorem prefix_len_eq {p l : Str} (h : p <+: l) (hl : p.length = l.length) : l = p := (h.eq_of_length hl).symm

theorem udblScan_full {s : Str} {v : DVal} (h : udblScan s = some (v, s.length)) : NumBody s v := by
  have hlen : (s.map toLowerC).length = s.length := List.length_map _
  have hdec : ∀ w, (decScan s).map (fun r => (DVal.fin r.1, r.2)) = some (w, s.length) → NumBody s w := by
    intro w hw
    cases hd : decScan s with
    | none => rw [hd] at hw; simp at hw
    | some r =>
      rw [hd] at hw
      simp only [Option.map_some, Option.some.injEq, Prod.mk.injEq] at hw
      rw [← hw.1]
      exact .dec s _ (decScan_full (by rw [hd, ← hw.2]))
  unfold udblScan at h
  dsimp only at h
  split_ifs at h with h1 h2 h3 h4
  · simp only [Option.some.injEq, Prod.mk.injEq] at h
    rw [← h.1]
    exact .inf s (Or.inr ((sameText_lower _ _ (by decide)).2 (prefix_len_eq h1 (by rw [hlen, ← h.2]; decide))))
  · simp only [Option.some.injEq, Prod.mk.injEq] at h
    rw [← h.1]
    exact .inf s (Or.inl ((sameText_lower _ _ (by decide)).2 (prefix_len_eq h2 (by rw [hlen, ← h.2]; decide))))
  · simp only [Option.some.injEq, Prod.mk.injEq] at h
    rw [← h.1]
    have hl3 : 3 ≤ s.length := by rw [← hlen]; exact h3.length_le
    have hd : nanTail (s.drop 3) = (s.drop 3).length := by rw [List.length_drop]; omega
    have hs : s = s.take 3 ++ s.drop 3 := (List.take_append_drop 3 s).symm
    have htk : SameText (s.take 3) "nan".toList := by
      rw [sameText_lower _ _ (by decide), List.map_take]
      exact (List.prefix_iff_eq_take.1 h3).symm
    rcases nanTail_full hd with h0 | ⟨w, hw, hc⟩
    · rw [h0, List.append_nil] at hs
      rw [← hs] at htk
      exact .nan s htk
    · rw [hw] at hs
      rw [hs]
      exact .nanSeq _ w htk hc
  · cases hx : hexScan (s.drop 2) with
    | none => rw [hx] at h; exact hdec v h
    | some r =>
      rw [hx] at h
      simp only [Option.some.injEq, Prod.mk.injEq] at h
      rw [← h.1]
      have hl2 : 2 ≤ s.length := by rw [← hlen]; exact h4.length_le
      obtain ⟨a, b, t, rfl⟩ : ∃ a b t, s = a :: b :: t := by
        cases s with
        | nil => simp at hl2
        | cons a s => cases s with
          | nil => simp at hl2
          | cons b t => exact ⟨a, b, t, rfl⟩
      have h4' : '0' = toLowerC a ∧ 'x' = toLowerC b := by
        obtain ⟨u, hu⟩ := h4
        have hu' : '0' :: 'x' :: u = toLowerC a :: toLowerC b :: t.map toLowerC := hu
        injection hu' with e1 e2
        injection e2 with e2 e3
        exact ⟨e1, e2⟩
      have ha : a = '0' := by
        have e := congrArg Char.toNat h4'.1
        rw [toLowerC_toNat] at e
        apply char_ext_toNat
        have e0 : '0'.toNat = 48 := rfl
        split_ifs at e <;> omega
      have hb := (lower_eq_iff b 'x' 'X' (by decide) (by decide)).1 h4'.2.symm
      subst ha
      have hl : r.2 = t.length := by have := h.2; simp only [List.length_cons] at this; omega
      exact .hex _ _ (hexScan_full b hb (by
        simp only [List.drop_succ_cons, List.drop_zero] at hx; rw [hx, ← hl]))
  · exact hdec v h

theorem numBody_head {s : Str} {v : DVal} (h : NumBody s v) :
    ∃ c t, s = c :: t ∧ isSpaceC c = false ∧ c ≠ '-' ∧ c ≠ '+' := by
  have hlet : ∀ (t p : Str) (a : Char), t.map toLowerC = a :: p → (a = 'i' ∨ a = 'n') →
      ∃ c u, t = c :: u ∧ isSpaceC c = false ∧ c ≠ '-' ∧ c ≠ '+' := by
    intro t p a ht ha
    cases t with
    | nil => simp at ht
    | cons c u =>
      refine ⟨c, u, rfl, ?_⟩
      simp only [List.map_cons, List.cons.injEq] at ht
      have hc : c = 'i' ∨ c = 'I' ∨ c = 'n' ∨ c = 'N' := by
        rcases ha with rfl | rfl
        · have := (lower_eq_iff c 'i' 'I' (by decide) (by decide)).1 ht.1; tauto
        · have := (lower_eq_iff c 'n' 'N' (by decide) (by decide)).1 ht.1; tauto
      rcases hc with rfl | rfl | rfl | rfl <;> decide
  cases h with
  | dec s q h =>
    obtain ⟨c, t, rfl, hc⟩ := decText_head h
    refine ⟨c, t, rfl, ?_⟩
    rcases hc with rfl | hc
    · decide
    · refine ⟨?_, ?_, ?_⟩
      · rw [isSpaceC_false_iff]
        unfold White
        intro hw
        omega
      · rintro rfl; revert hc; decide
      · rintro rfl; revert hc; decide
  | hex s q h => cases h <;> exact ⟨_, _, rfl, by decide⟩
  | inf s h =>
    rcases h with h | h
    · rw [sameText_lower _ _ (by decide)] at h
      exact hlet _ _ _ h (by decide)
    · rw [sameText_lower _ _ (by decide)] at h
      exact hlet _ _ _ h (by decide)
  | nan s h =>
    rw [sameText_lower _ _ (by decide)] at h
    exact hlet _ _ _ h (by decide)
  | nanSeq s w h hw =>
    rw [sameText_lower _ _ (by decide)] at h
    obtain ⟨c, u, rfl, hc⟩ := hlet _ _ _ h (by decide)
    exact ⟨c, _, rfl, hc⟩

/-! ### `strtod` on whole texts -/

theorem strtod_text {s : Str} {v : DVal} (h : NumText s v) : strtod s = (v, s.length) := by
  have key : ∀ (ws sg body : Str) (v : DVal) (neg : Bool), (∀ c ∈ ws, White c) →
      (∀ c, (sg ++ body).head? = some c → isSpaceC c = false) →
      signPart (sg ++ body) = (neg, sg.length, body) → udblScan body = some (v, body.length) →
      strtod (ws ++ (sg ++ body)) = (if neg then v.negate else v, (ws ++ (sg ++ body)).length) := by
    intro ws sg body v neg hw hh hs hu
    have h1 : (ws ++ (sg ++ body)).takeWhile isSpaceC = ws :=
      takeWhile_stop _ _ _ (fun c hc => (isSpaceC_iff c).2 (hw c hc)) hh
    have h2 : (ws ++ (sg ++ body)).dropWhile isSpaceC = sg ++ body := by
      rw [dropWhile_append_of_all _ _ _ (fun c hc => (isSpaceC_iff c).2 (hw c hc))]
      exact dropWhile_eq_self_of_head _ _ hh
    unfold strtod
    simp only [h1, h2, hs, hu]
    simp [Nat.add_assoc]
  cases h with
  | plain ws body v hw h =>
    obtain ⟨c, t, rfl, h1, h2, h3⟩ := numBody_head h
    have := key ws [] (c :: t) v false hw (by intro a ha; simp at ha; rw [← ha]; exact h1)
      (by simp [signPart, h2, h3]) (udblScan_text h)
    simpa using this
  | plus ws body v hw h =>
    have := key ws ['+'] body v false hw (by intro a ha; simp at ha; rw [← ha]; decide) rfl (udblScan_text h)
    simpa using this
  | minus ws body v hw h =>
    have := key ws ['-'] body v true hw (by intro a ha; simp at ha; rw [← ha]; decide) rfl (udblScan_text h)
    simpa using this

theorem strtod_full {s : Str} (h : (strtod s).2 = s.length) : s = [] ∨ NumText s (strtod s).1 := by
  have hs : s = s.takeWhile isSpaceC ++ s.dropWhile isSpaceC := List.takeWhile_append_dropWhile.symm
  have hw : ∀ c ∈ s.takeWhile isSpaceC, White c := fun c hc => (isSpaceC_iff c).1 (takeWhile_mem _ _ _ hc)
  unfold strtod at h ⊢
  dsimp only at h ⊢
  generalize s.takeWhile isSpaceC = ws at *
  generalize s.dropWhile isSpaceC = rest at *
  cases hu : udblScan (signPart rest).2.2 with
  | none => rw [hu] at h; left; exact List.eq_nil_of_length_eq_zero h.symm
  | some r =>
    right
    rw [hu] at h
    dsimp only at h ⊢
    have hl : s.length = ws.length + rest.length := by rw [hs]; simp
    cases rest with
    | nil =>
      have : udblScan (signPart []).2.2 = none := by decide +kernel
      rw [this] at hu; simp at hu
    | cons d t =>
      simp only [List.length_cons] at hl
      by_cases h1 : d = '-'
      · subst h1
        have e : signPart ('-' :: t) = (true, 1, t) := rfl
        rw [e] at h hu ⊢
        dsimp only at h hu ⊢
        have := NumText.minus ws t r.1 hw (udblScan_full (by rw [hu]; congr 1; ext <;> simp; omega))
        rw [hs]
        exact this
      · by_cases h2 : d = '+'
        · subst h2
          have e : signPart ('+' :: t) = (false, 1, t) := rfl
          rw [e] at h hu ⊢
          dsimp only at h hu ⊢
          have := NumText.plus ws t r.1 hw (udblScan_full (by rw [hu]; congr 1; ext <;> simp; omega))
          rw [hs]
          exact this
        · have e : signPart (d :: t) = (false, 0, d :: t) := by simp [signPart, h1, h2]
          rw [e] at h hu ⊢
          dsimp only at h hu ⊢
          have := NumText.plain ws (d :: t) r.1 hw (udblScan_full (by rw [hu]; congr 1; ext <;> simp; omega))
          rw [hs]
          exact this

end CCGL
