import Verif.Lemmas.Time
import Verif.Lemmas.Num
/-! Texts of dates: reading back what `strftime` prints; order of fixed-width digit strings. -/
namespace CCGL
open Spec

def AllDigits (s : Str) : Prop := ∀ c ∈ s, isDigitC c = true

/-- `rest` does not continue a number. -/
def NoDigitStart (s : Str) : Prop := ∀ c, s.head? = some c → isDigitC c = false

theorem takeWhile_append_stop (ds rest : Str) (h : AllDigits ds) (hr : NoDigitStart rest) :
    (ds ++ rest).takeWhile isDigitC = ds := by
  induction ds with
  | nil =>
    cases rest with
    | nil => rfl
    | cons c r => simp [hr c rfl]
  | cons c ds ih =>
    have hc := h c List.mem_cons_self
    simp [hc, ih (fun x hx => h x (List.mem_cons_of_mem _ hx))]

theorem digit_not_space {c : Char} (h : isDigitC c = true) : isSpaceC c = false :=
  not_space_of_range (by have := ((isDigitC_iff c).1 h).1; omega)

theorem signPart_digit {c : Char} (s : Str) (h : isDigitC c = true) : signPart (c :: s) = (false, 0, c :: s) := by
  have h' := (isDigitC_iff c).1 h
  have h1 : c ≠ '-' := by rintro rfl; revert h'; decide
  have h2 : c ≠ '+' := by rintro rfl; revert h'; decide
  simp [signPart, h1, h2]

/-- Reading a number of digits: unlimited with a stop behind, or with a width equal to the number of digits. -/
theorem scanInt_digits (w : Nat) (ds rest : Str) (hne : ds ≠ []) (h : AllDigits ds)
    (hw : (w = 0 ∧ NoDigitStart rest) ∨ w = ds.length) :
    scanInt w (ds ++ rest) = some ((digitsVal 0 ds : Int), rest) := by
  cases ds with
  | nil => exact absurd rfl hne
  | cons c ds =>
    have hc := h c List.mem_cons_self
    have h1 : ((c :: ds) ++ rest).dropWhile isSpaceC = (c :: ds) ++ rest := by simp [digit_not_space hc]
    have h2 : signPart ((c :: ds) ++ rest) = (false, 0, (c :: ds) ++ rest) := signPart_digit _ hc
    have h3 : (((c :: ds) ++ rest).take (if w = 0 then ((c :: ds) ++ rest).length else w - 0)).takeWhile isDigitC
        = c :: ds := by
      rcases hw with ⟨rfl, hr⟩ | hw
      · rw [if_pos rfl, List.take_length]; exact takeWhile_append_stop _ _ h hr
      · rw [if_neg (by rw [hw]; simp)]
        have : ((c :: ds) ++ rest).take (w - 0) = c :: ds := by rw [hw, Nat.sub_zero, List.take_left']; rfl
        rw [this]
        have := takeWhile_append_stop (c :: ds) [] h (by intro c hc; simp at hc)
        simpa using this
    unfold scanInt
    simp only [h1, h2, h3]
    simp

theorem digitChar_digit (n : Nat) (h : n < 10) : isDigitC (digitChar n) = true := by
  rw [isDigitC_iff, digitChar_toNat n h]; omega

theorem digitVal_digitChar (n : Nat) (h : n < 10) : digitVal (digitChar n) = n := by
  unfold digitVal; rw [digitChar_toNat n h]
  have : '0'.toNat = 48 := rfl
  omega

theorem twoDigits_all (n : Int) : AllDigits (twoDigits n) := by
  intro c hc
  simp only [twoDigits, List.mem_cons, List.not_mem_nil, or_false] at hc
  rcases hc with rfl | rfl <;> exact digitChar_digit _ (by omega)

theorem twoDigits_val (n : Int) (h0 : 0 ≤ n) (h1 : n < 100) : (digitsVal 0 (twoDigits n) : Int) = n := by
  have e : digitsVal 0 (twoDigits n) = (0 * 10 + digitVal (digitChar (n.toNat / 10 % 10))) * 10 +
      digitVal (digitChar (n.toNat % 10)) := rfl
  rw [e, digitVal_digitChar _ (by omega), digitVal_digitChar _ (by omega)]
  omega

/-- A four-digit year. -/
def fourDigits (n : Int) : Str :=
  [digitChar (n.toNat / 1000 % 10), digitChar (n.toNat / 100 % 10), digitChar (n.toNat / 10 % 10), digitChar (n.toNat % 10)]

theorem intToDec_four (n : Int) (h0 : 1000 ≤ n) (h1 : n ≤ 9999) : intToDec n = fourDigits n := by
  obtain ⟨k, rfl⟩ : ∃ k : Nat, n = k := ⟨n.toNat, by omega⟩
  have e : intToDec (k : Int) = natToDec k := rfl
  rw [e, natToDec_ge _ (by omega), natToDec_ge _ (by omega), natToDec_ge _ (by omega), natToDec_lt _ (by omega)]
  unfold fourDigits
  simp only [Int.toNat_natCast, List.cons_append, List.nil_append]
  have e1 : k / 10 / 10 / 10 = k / 1000 % 10 := by omega
  have e2 : k / 10 / 10 % 10 = k / 100 % 10 := by omega
  rw [e1, e2]

theorem fourDigits_all (n : Int) : AllDigits (fourDigits n) := by
  intro c hc
  simp only [fourDigits, List.mem_cons, List.not_mem_nil, or_false] at hc
  rcases hc with rfl | rfl | rfl | rfl <;> exact digitChar_digit _ (by omega)

theorem fourDigits_val (n : Int) (h0 : 0 ≤ n) (h1 : n ≤ 9999) : (digitsVal 0 (fourDigits n) : Int) = n := by
  have e : digitsVal 0 (fourDigits n) = (((0 * 10 + digitVal (digitChar (n.toNat / 1000 % 10))) * 10 +
      digitVal (digitChar (n.toNat / 100 % 10))) * 10 + digitVal (digitChar (n.toNat / 10 % 10))) * 10 +
      digitVal (digitChar (n.toNat % 10)) := rfl
  rw [e, digitVal_digitChar _ (by omega), digitVal_digitChar _ (by omega), digitVal_digitChar _ (by omega),
    digitVal_digitChar _ (by omega)]
  omega

theorem scanInt_two (w : Nat) (n : Int) (rest : Str) (h0 : 0 ≤ n) (h1 : n < 100)
    (hw : (w = 0 ∧ NoDigitStart rest) ∨ w = 2) : scanInt w (twoDigits n ++ rest) = some (n, rest) := by
  rw [scanInt_digits w _ _ (by simp [twoDigits]) (twoDigits_all n) hw, twoDigits_val n h0 h1]

theorem scanInt_four (w : Nat) (n : Int) (rest : Str) (h0 : 0 ≤ n) (h1 : n ≤ 9999)
    (hw : (w = 0 ∧ NoDigitStart rest) ∨ w = 4) : scanInt w (fourDigits n ++ rest) = some (n, rest) := by
  rw [scanInt_digits w _ _ (by simp [fourDigits]) (fourDigits_all n) hw, fourDigits_val n h0 h1]

theorem noDigit_nil : NoDigitStart [] := by intro c hc; simp at hc
theorem noDigit_cons {c : Char} (s : Str) (h : isDigitC c = false) : NoDigitStart (c :: s) := by
  intro d hd; simp at hd; rw [← hd]; exact h

/-! #### Order -/

theorem lt_append_iff : ∀ (a a' x x' : Str), a.length = a'.length →
    (a ++ x < a' ++ x' ↔ a < a' ∨ (a = a' ∧ x < x'))
  | [], [], x, x', _ => by simp
  | c :: a, c' :: a', x, x', h => by
    have ih := lt_append_iff a a' x x' (by simpa using h)
    simp only [List.cons_append, List.cons_lt_cons_iff, ih, List.cons.injEq]
    constructor
    · rintro (h1 | ⟨rfl, h1 | ⟨rfl, h1⟩⟩)
      · exact .inl (.inl h1)
      · exact .inl (.inr ⟨rfl, h1⟩)
      · exact .inr ⟨⟨rfl, rfl⟩, h1⟩
    · rintro ((h1 | ⟨rfl, h1⟩) | ⟨⟨rfl, rfl⟩, h1⟩)
      · exact .inl h1
      · exact .inr ⟨rfl, .inl h1⟩
      · exact .inr ⟨rfl, .inr ⟨rfl, h1⟩⟩

theorem digitChar_lt (a b : Nat) (ha : a < 10) (hb : b < 10) : digitChar a < digitChar b ↔ a < b := by
  have h1 : digitChar a < digitChar b ↔ (digitChar a).toNat < (digitChar b).toNat := Iff.rfl
  rw [h1, digitChar_toNat a ha, digitChar_toNat b hb]; omega

theorem digitChar_inj (a b : Nat) (ha : a < 10) (hb : b < 10) : digitChar a = digitChar b ↔ a = b := by
  constructor
  · intro h
    have := congrArg Char.toNat h
    rw [digitChar_toNat a ha, digitChar_toNat b hb] at this; omega
  · rintro rfl; rfl

theorem twoDigits_lt (a b : Int) (ha : 0 ≤ a) (ha' : a < 100) (hb : 0 ≤ b) (hb' : b < 100) :
    twoDigits a < twoDigits b ↔ a < b := by
  simp only [twoDigits, List.cons_lt_cons_iff, List.not_lt_nil, and_false, or_false]
  rw [digitChar_lt _ _ (by omega) (by omega), digitChar_lt _ _ (by omega) (by omega),
    digitChar_inj _ _ (by omega) (by omega)]
  omega

theorem twoDigits_inj (a b : Int) (ha : 0 ≤ a) (ha' : a < 100) (hb : 0 ≤ b) (hb' : b < 100) :
    twoDigits a = twoDigits b ↔ a = b := by
  constructor
  · intro h
    have := twoDigits_val a ha ha'
    rw [h, twoDigits_val b hb hb'] at this; exact this.symm
  · rintro rfl; rfl

theorem fourDigits_lt (a b : Int) (ha : 0 ≤ a) (ha' : a ≤ 9999) (hb : 0 ≤ b) (hb' : b ≤ 9999) :
    fourDigits a < fourDigits b ↔ a < b := by
  simp only [fourDigits, List.cons_lt_cons_iff, List.not_lt_nil, and_false, or_false]
  rw [digitChar_lt _ _ (by omega) (by omega), digitChar_lt _ _ (by omega) (by omega),
    digitChar_lt _ _ (by omega) (by omega), digitChar_lt _ _ (by omega) (by omega),
    digitChar_inj _ _ (by omega) (by omega), digitChar_inj _ _ (by omega) (by omega),
    digitChar_inj _ _ (by omega) (by omega)]
  have dec : ∀ n : Int, 0 ≤ n → n ≤ 9999 → n = 1000 * ((n.toNat / 1000 % 10 : Nat) : Int) +
      100 * ((n.toNat / 100 % 10 : Nat) : Int) + 10 * ((n.toNat / 10 % 10 : Nat) : Int) + ((n.toNat % 10 : Nat) : Int) := by
    intro n h h'; omega
  have ea := dec a ha ha'
  have eb := dec b hb hb'
  have r : ∀ k : Nat, k % 10 < 10 := fun k => by omega
  have a3 := r (a.toNat / 1000); have a2 := r (a.toNat / 100); have a1 := r (a.toNat / 10); have a0 := r a.toNat
  have b3 := r (b.toNat / 1000); have b2 := r (b.toNat / 100); have b1 := r (b.toNat / 10); have b0 := r b.toNat
  generalize a.toNat / 1000 % 10 = a3' at *
  generalize a.toNat / 100 % 10 = a2' at *
  generalize a.toNat / 10 % 10 = a1' at *
  generalize a.toNat % 10 = a0' at *
  generalize b.toNat / 1000 % 10 = b3' at *
  generalize b.toNat / 100 % 10 = b2' at *
  generalize b.toNat / 10 % 10 = b1' at *
  generalize b.toNat % 10 = b0' at *
  omega

theorem fourDigits_inj (a b : Int) (ha : 0 ≤ a) (ha' : a ≤ 9999) (hb : 0 ≤ b) (hb' : b ≤ 9999) :
    fourDigits a = fourDigits b ↔ a = b := by
  constructor
  · intro h
    have := fourDigits_val a ha ha'
    rw [h, fourDigits_val b hb hb'] at this; exact this.symm
  · rintro rfl; rfl

/-! #### The three texts -/

theorem gm_fields (t : Int) : 1 ≤ getMonth t ∧ getMonth t ≤ 12 ∧ 1 ≤ getDay t ∧ getDay t ≤ 31 := by
  obtain ⟨h1, h2, h3, h4⟩ := gmtime_valid t
  refine ⟨h1, h2, h3, h4.trans ?_⟩
  unfold monthLen; split_ifs <;> omega

theorem gmtime_time (t : Int) : (gmtime t).hour = t % 86400 / 3600 ∧ (gmtime t).min = t % 86400 % 3600 / 60 ∧
    (gmtime t).sec = t % 86400 % 60 := ⟨rfl, rfl, rfl⟩

theorem convertToString_eq (t : Int) (h0 : 1000 ≤ getYear t) (h1 : getYear t ≤ 9999) :
    convertToString t = .ok (fourDigits (getYear t) ++ ('-' :: (twoDigits (getMonth t) ++ ('-' ::
      (twoDigits (getDay t) ++ []))))) := by
  unfold convertToString strftime
  have e : [TFmt.Y, .lit '-', .m, .lit '-', .d].flatMap (strftime1 (gmtime t)) =
      intToDec (getYear t) ++ ('-' :: (twoDigits (getMonth t) ++ ('-' :: (twoDigits (getDay t) ++ [])))) := rfl
  rw [e, intToDec_four _ h0 h1]
  rw [if_pos (by simp [fourDigits, twoDigits])]

theorem convertToString2_eq (t : Int) (h0 : 1000 ≤ getYear t) (h1 : getYear t ≤ 9999) :
    convertToString2 t = .ok (fourDigits (getYear t) ++ ('-' :: (twoDigits (getMonth t) ++ ('-' ::
      (twoDigits (getDay t) ++ (' ' :: (twoDigits (gmtime t).hour ++ (':' :: (twoDigits (gmtime t).min ++ (':' ::
        (twoDigits (gmtime t).sec ++ []))))))))))) := by
  unfold convertToString2 strftime
  have e : [TFmt.Y, .lit '-', .m, .lit '-', .d, .lit ' ', .H, .lit ':', .M, .lit ':', .S].flatMap
      (strftime1 (gmtime t)) =
      intToDec (getYear t) ++ ('-' :: (twoDigits (getMonth t) ++ ('-' ::
      (twoDigits (getDay t) ++ (' ' :: (twoDigits (gmtime t).hour ++ (':' :: (twoDigits (gmtime t).min ++ (':' ::
        (twoDigits (gmtime t).sec ++ [])))))))))) := rfl
  rw [e, intToDec_four _ h0 h1]
  rw [if_pos (by simp [fourDigits, twoDigits])]

theorem convertToString3_eq (t : Int) (h0 : 1000 ≤ getYear t) (h1 : getYear t ≤ 9999) :
    convertToString3 t = .ok (fourDigits (getYear t) ++ ('_' :: (twoDigits (getMonth t) ++ ('_' ::
      (twoDigits (getDay t) ++ ('_' :: (twoDigits (gmtime t).hour ++ (twoDigits (gmtime t).min ++
        (twoDigits (gmtime t).sec ++ []))))))))) := by
  unfold convertToString3 strftime
  have e : [TFmt.Y, .lit '_', .m, .lit '_', .d, .lit '_', .H, .M, .S].flatMap (strftime1 (gmtime t)) =
      intToDec (getYear t) ++ ('_' :: (twoDigits (getMonth t) ++ ('_' ::
      (twoDigits (getDay t) ++ ('_' :: (twoDigits (gmtime t).hour ++ (twoDigits (gmtime t).min ++
        (twoDigits (gmtime t).sec ++ [])))))))) := rfl
  rw [e, intToDec_four _ h0 h1]
  rw [if_pos (by simp [fourDigits, twoDigits])]

theorem sscanf_int (w : Nat) (fs : List Fmt) (s rest : Str) (v : Int) (h : scanInt w s = some (v, rest)) :
    sscanf (.int w :: fs) s = v :: sscanf fs rest := by
  have e : sscanf (.int w :: fs) s = match scanInt w s with
    | some (v, rest) => v :: sscanf fs rest
    | none => [] := rfl
  rw [e, h]

theorem sscanf_lit (c : Char) (fs : List Fmt) (s : Str) : sscanf (.lit c :: fs) (c :: s) = sscanf fs s := by
  have e : sscanf (.lit c :: fs) (c :: s) = if c = c then sscanf fs s else [] := rfl
  rw [e, if_pos rfl]

theorem sscanf_ws (fs : List Fmt) (n : Int) (s : Str) :
    sscanf (.ws :: fs) (' ' :: (twoDigits n ++ s)) = sscanf fs (twoDigits n ++ s) := by
  have e : sscanf (.ws :: fs) (' ' :: (twoDigits n ++ s)) = sscanf fs ((' ' :: (twoDigits n ++ s)).dropWhile isSpaceC) := rfl
  rw [e]
  have h1 : isSpaceC ' ' = true := by decide
  have h2 : isSpaceC (digitChar (n.toNat / 10 % 10)) = false := digit_not_space (digitChar_digit _ (by omega))
  simp [twoDigits, h1, h2]

/-- Formats that the library accepts for `yyyy-mm-dd` texts: with or without widths. -/
theorem sscanf_date (w4 w2 : Nat) (hw4 : w4 = 0 ∨ w4 = 4) (hw2 : w2 = 0 ∨ w2 = 2) (c : Char) (hc : isDigitC c = false)
    (y m d : Int) (hy0 : 0 ≤ y) (hy1 : y ≤ 9999) (hm0 : 0 ≤ m) (hm1 : m < 100) (hd0 : 0 ≤ d) (hd1 : d < 100)
    (rest : Str) (hr : NoDigitStart rest) (fs : List Fmt) :
    sscanf (.int w4 :: .lit c :: .int w2 :: .lit c :: .int w2 :: fs)
      (fourDigits y ++ (c :: (twoDigits m ++ (c :: (twoDigits d ++ rest))))) = y :: m :: d :: sscanf fs rest := by
  rw [sscanf_int _ _ _ _ y (scanInt_four w4 y _ hy0 hy1 ?_), sscanf_lit,
    sscanf_int _ _ _ _ m (scanInt_two w2 m _ hm0 hm1 ?_), sscanf_lit,
    sscanf_int _ _ _ _ d (scanInt_two w2 d _ hd0 hd1 ?_)]
  · rcases hw2 with rfl | rfl
    · exact .inl ⟨rfl, hr⟩
    · exact .inr rfl
  · rcases hw2 with rfl | rfl
    · exact .inl ⟨rfl, noDigit_cons _ hc⟩
    · exact .inr rfl
  · rcases hw4 with rfl | rfl
    · exact .inl ⟨rfl, noDigit_cons _ hc⟩
    · exact .inr rfl

end CCGL
