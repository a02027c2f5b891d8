import Verif.Spec.App
import Verif.Props.Str
import Verif.Props.Num
import Verif.Props.Dec
import Verif.Lemmas.TimeText
/-!
# C57-C59: key:value options, mode and format names, addresses
-/
namespace CCGL
open Spec

/-! ## C58 -/

theorem upper_eq_iff (s n : Str) (hn : getUpper n = n) : getUpper s = n ↔ SameText s n := by
  rw [← C34_match, stringMatch, beq_iff_eq, hn]

/-- C58: a mode is recognised exactly by its names, in any letter case. -/
theorem C58_mode (s : Str) (m : IOMode) (hm : m ≠ .unknown) :
    stringToIOMode s = m ↔ ∃ n ∈ modeNames m, SameText s n := by
  constructor
  · intro h
    unfold stringToIOMode at h
    dsimp only at h
    split_ifs at h with h1 h2 h3 h4
    · subst h
      rcases h1 with h1 | h1
      · exact ⟨_, List.mem_cons_self, (upper_eq_iff _ _ (by decide)).1 h1⟩
      · exact ⟨_, List.mem_cons_of_mem _ List.mem_cons_self, (upper_eq_iff _ _ (by decide)).1 h1⟩
    · subst h
      rcases h2 with h1 | h1
      · exact ⟨_, List.mem_cons_self, (upper_eq_iff _ _ (by decide)).1 h1⟩
      · exact ⟨_, List.mem_cons_of_mem _ List.mem_cons_self, (upper_eq_iff _ _ (by decide)).1 h1⟩
    · subst h
      rcases h3 with h1 | h1
      · exact ⟨_, List.mem_cons_self, (upper_eq_iff _ _ (by decide)).1 h1⟩
      · exact ⟨_, List.mem_cons_of_mem _ List.mem_cons_self, (upper_eq_iff _ _ (by decide)).1 h1⟩
    · subst h
      exact ⟨_, List.mem_cons_self, (upper_eq_iff _ _ (by decide)).1 h4⟩
    · exact absurd h.symm hm
  · rintro ⟨n, hn, hs⟩
    have e : getUpper s = getUpper n := by rw [← C34_match, stringMatch, beq_iff_eq] at hs; exact hs
    unfold stringToIOMode
    rw [e]
    cases m <;> simp only [modeNames, List.mem_cons, List.not_mem_nil, or_false] at hn <;>
      first | (rcases hn with rfl | rfl <;> decide) | (subst hn; decide)

/-- C58: any other text is Unknown. -/
theorem C58_mode_unknown (s : Str) :
    stringToIOMode s = .unknown ↔ ∀ m, ∀ n ∈ modeNames m, ¬ SameText s n := by
  constructor
  · intro h m n hn hs
    by_cases hm : m = .unknown
    · subst hm; simp [modeNames] at hn
    · rw [(C58_mode s m hm).2 ⟨n, hn, hs⟩] at h; exact hm h
  · intro h
    by_contra hne
    obtain ⟨n, hn, hs⟩ := (C58_mode s _ hne).1 rfl
    exact h _ n hn hs

/-- C58: a format is recognised exactly by its names, in any letter case. -/
theorem C58_format (s : Str) (m : DataFmt) (hm : m ≠ .unknown) :
    stringToDataFormat s = m ↔ ∃ n ∈ fmtNames m, SameText s n := by
  constructor
  · intro h
    unfold stringToDataFormat at h
    dsimp only at h
    split_ifs at h with h1 h2
    · subst h
      rcases h1 with h1 | h1
      · exact ⟨_, List.mem_cons_of_mem _ List.mem_cons_self, (upper_eq_iff _ _ (by decide)).1 h1⟩
      · exact ⟨_, List.mem_cons_self, (upper_eq_iff _ _ (by decide)).1 h1⟩
    · subst h
      rcases h2 with h1 | h1
      · exact ⟨_, List.mem_cons_self, (upper_eq_iff _ _ (by decide)).1 h1⟩
      · exact ⟨_, List.mem_cons_of_mem _ List.mem_cons_self, (upper_eq_iff _ _ (by decide)).1 h1⟩
    · exact absurd h.symm hm
  · rintro ⟨n, hn, hs⟩
    have e : getUpper s = getUpper n := by rw [← C34_match, stringMatch, beq_iff_eq] at hs; exact hs
    unfold stringToDataFormat
    rw [e]
    cases m <;> simp only [fmtNames, List.mem_cons, List.not_mem_nil, or_false] at hn <;>
      first | (rcases hn with rfl | rfl <;> decide) | (subst hn; decide)

theorem C58_format_unknown (s : Str) :
    stringToDataFormat s = .unknown ↔ ∀ m, ∀ n ∈ fmtNames m, ¬ SameText s n := by
  constructor
  · intro h m n hn hs
    by_cases hm : m = .unknown
    · subst hm; simp [fmtNames] at hn
    · rw [(C58_format s m hm).2 ⟨n, hn, hs⟩] at h; exact hm h
  · intro h
    by_contra hne
    obtain ⟨n, hn, hs⟩ := (C58_format s _ hne).1 rfl
    exact h _ n hn hs

example : stringToIOMode "mask&Dec".toList = .maskdec ∧ stringToIOMode "masks".toList = .unknown ∧
    stringToDataFormat "gridFS".toList = .gfs := by decide

/-! ## C59 -/

/-- Digits and dots. -/
def IpChars (s : Str) : Prop := ∀ c ∈ s, c = '.' ∨ (48 ≤ c.toNat ∧ c.toNat ≤ 57)

theorem ipchars_all (s : Str) : s.all (fun c => c = '.' || !(decide (c.toNat < '0'.toNat) || decide (c.toNat > '9'.toNat)))
    = true ↔ IpChars s := by
  have h0 : '0'.toNat = 48 := rfl
  have h9 : '9'.toNat = 57 := rfl
  rw [List.all_eq_true]
  unfold IpChars
  refine forall_congr' fun c => forall_congr' fun _ => ?_
  simp only [h0, h9, Bool.or_eq_true, decide_eq_true_eq, Bool.not_eq_true', Bool.or_eq_false_iff,
    decide_eq_false_iff_not, not_lt]

/-- `%d` on digits and dots: the leading digits. -/
theorem scanInt_ip (s : Str) (h : IpChars s) : scanInt 0 s =
    if s.takeWhile isDigitC = [] then none
    else some ((digitsVal 0 (s.takeWhile isDigitC) : Int), s.dropWhile isDigitC) := by
  have hsp : s.dropWhile isSpaceC = s := by
    cases s with
    | nil => rfl
    | cons c s =>
      have hc : isSpaceC c = false := by
        rcases h c List.mem_cons_self with rfl | hc
        · decide
        · exact not_space_of_range (by omega)
      rw [List.dropWhile_cons, if_neg (by simp [hc])]
  have hsg : signPart s = (false, 0, s) := by
    cases s with
    | nil => rfl
    | cons c s =>
      rcases h c List.mem_cons_self with rfl | hc
      · rfl
      · exact signPart_digit s ((isDigitC_iff c).2 hc)
  unfold scanInt
  simp only [hsp, hsg, if_true, List.take_length, Bool.false_eq_true, if_false]
  split_ifs with h1
  · rfl
  · congr 2
    clear hsp hsg h1 h
    induction s with
    | nil => rfl
    | cons c s ih =>
      cases hc : isDigitC c <;> simp [List.takeWhile_cons, List.dropWhile_cons, hc, ih]

theorem IpChars.drop {s : Str} (h : IpChars s) : IpChars (s.dropWhile isDigitC) :=
  fun c hc => h c (List.dropWhile_suffix _ |>.subset hc)

theorem digits_of_takeWhile (s : Str) : Digits (s.takeWhile isDigitC) := by
  intro c hc
  have := List.all_takeWhile (l := s) (p := isDigitC)
  exact (isDigitC_iff c).1 (List.all_eq_true.1 this c hc)

theorem scanStore_small (n : Nat) (h : n < 2 ^ 31) : scanStore (n : Int) = n := by
  unfold scanStore wrapInt32 longMin longMax
  rw [if_neg (by omega), if_neg (by omega)]
  omega

/-- The octet value `%d` stores for a digit text. -/
def octet (x : Str) : Int := scanStore (decNum x)

/-- C59: exactly what is accepted, for texts without NUL: four digit runs separated by dots, each stored (after
truncation to 32 bits) as a number from 0 to 255, followed by nothing or by a dot and any digits and dots. -/
theorem C59_exact (s : Str) (hnul : Char.ofNat 0 ∉ s) : isIpAddress s = true ↔
    ∃ a b c d rest : Str, s = a ++ '.' :: (b ++ '.' :: (c ++ '.' :: (d ++ rest))) ∧
      (∀ x ∈ [a, b, c, d], x ≠ [] ∧ Digits x ∧ 0 ≤ octet x ∧ octet x ≤ 255) ∧
      IpChars rest ∧ (rest = [] ∨ ∃ t, rest = '.' :: t) := by
  unfold isIpAddress
  rw [cstr_of_no_nul s hnul]
  dsimp only
  constructor
  · intro h
    by_cases hip : IpChars s
    · -- run the scanner
      have run : ∀ (u : Str) (hu : IpChars u) (fs : List Fmt) , sscanf (.int 0 :: fs) u =
          if u.takeWhile isDigitC = [] then [] else
            (digitsVal 0 (u.takeWhile isDigitC) : Int) :: sscanf fs (u.dropWhile isDigitC) := by
        intro u hu fs
        rw [sscanf, scanInt_ip u hu]
        split_ifs <;> rfl
      have lit : ∀ (u : Str) (fs : List Fmt), sscanf (.lit '.' :: fs) u ≠ [] →
          ∃ t, u = '.' :: t ∧ sscanf (.lit '.' :: fs) u = sscanf fs t := by
        intro u fs hu
        cases u with
        | nil => simp [sscanf] at hu
        | cons c t =>
          by_cases hc : '.' = c
          · subst hc; exact ⟨t, rfl, by simp [sscanf]⟩
          · simp [sscanf, hc] at hu
      rw [run s hip] at h
      by_cases h1 : s.takeWhile isDigitC = []
      · simp [h1] at h
      rw [if_neg h1] at h
      by_cases g1 : sscanf [.lit '.', .int 0, .lit '.', .int 0, .lit '.', .int 0] (s.dropWhile isDigitC) = []
      · simp [g1] at h
      obtain ⟨t1, e1, f1⟩ := lit _ _ g1
      have hip1 : IpChars t1 := fun c hc => hip.drop c (by rw [e1]; exact List.mem_cons_of_mem _ hc)
      rw [f1, run t1 hip1] at h
      by_cases h2 : t1.takeWhile isDigitC = []
      · simp [h2] at h
      rw [if_neg h2] at h
      by_cases g2 : sscanf [.lit '.', .int 0, .lit '.', .int 0] (t1.dropWhile isDigitC) = []
      · simp [g2] at h
      obtain ⟨t2, e2, f2⟩ := lit _ _ g2
      have hip2 : IpChars t2 := fun c hc => hip1.drop c (by rw [e2]; exact List.mem_cons_of_mem _ hc)
      rw [f2, run t2 hip2] at h
      by_cases h3 : t2.takeWhile isDigitC = []
      · simp [h3] at h
      rw [if_neg h3] at h
      by_cases g3 : sscanf [.lit '.', .int 0] (t2.dropWhile isDigitC) = []
      · simp [g3] at h
      obtain ⟨t3, e3, f3⟩ := lit _ _ g3
      have hip3 : IpChars t3 := fun c hc => hip2.drop c (by rw [e3]; exact List.mem_cons_of_mem _ hc)
      rw [f3, run t3 hip3] at h
      by_cases h4 : t3.takeWhile isDigitC = []
      · simp [h4] at h
      rw [if_neg h4] at h
      simp only [sscanf, List.map_cons, List.map_nil] at h
      rw [digitsVal_decNum _ (digits_of_takeWhile _), digitsVal_decNum _ (digits_of_takeWhile _),
        digitsVal_decNum _ (digits_of_takeWhile _), digitsVal_decNum _ (digits_of_takeWhile _)] at h
      split_ifs at h with hr
      simp only [not_or, not_lt, gt_iff_lt] at hr
      refine ⟨s.takeWhile isDigitC, t1.takeWhile isDigitC, t2.takeWhile isDigitC, t3.takeWhile isDigitC,
        t3.dropWhile isDigitC, ?_, ?_, hip3.drop, ?_⟩
      · rw [List.takeWhile_append_dropWhile, ← e3, List.takeWhile_append_dropWhile, ← e2,
          List.takeWhile_append_dropWhile, ← e1, List.takeWhile_append_dropWhile]
      · intro x hx
        simp only [List.mem_cons, List.not_mem_nil, or_false] at hx
        unfold octet
        rcases hx with rfl | rfl | rfl | rfl
        · exact ⟨h1, digits_of_takeWhile _, hr.2.2.2.2.1, hr.1⟩
        · exact ⟨h2, digits_of_takeWhile _, hr.2.2.2.2.2.1, hr.2.1⟩
        · exact ⟨h3, digits_of_takeWhile _, hr.2.2.2.2.2.2.1, hr.2.2.1⟩
        · exact ⟨h4, digits_of_takeWhile _, hr.2.2.2.2.2.2.2, hr.2.2.2.1⟩
      · cases hd : t3.dropWhile isDigitC with
        | nil => exact .inl rfl
        | cons c t =>
          right
          have hc := hip3.drop c (by rw [hd]; exact List.mem_cons_self)
          have hnd : isDigitC c = false := by
            have := List.head_dropWhile_not isDigitC (l := t3) (by rw [hd]; simp)
            simpa [hd] using this
          rcases hc with rfl | hc
          · exact ⟨t, rfl⟩
          · rw [(isDigitC_iff c).2 hc] at hnd; simp at hnd
    · exfalso
      revert h
      split
      · split_ifs
        · simp
        · intro h; exact hip ((ipchars_all s).1 h)
      · simp
  · rintro ⟨a, b, c, d, rest, rfl, hx, hrest, hhead⟩
    have ha := hx a (by simp)
    have hb := hx b (by simp)
    have hc := hx c (by simp)
    have hd := hx d (by simp)
    have hdig : ∀ x : Str, Digits x → AllDigits x := fun x hx c hc => (isDigitC_iff c).2 (hx c hc)
    have hdot : isDigitC '.' = false := by decide
    have hnr : NoDigitStart rest := by
      rcases hhead with rfl | ⟨t, rfl⟩
      · exact noDigit_nil
      · exact noDigit_cons t hdot
    have hsc : sscanf [.int 0, .lit '.', .int 0, .lit '.', .int 0, .lit '.', .int 0]
        (a ++ '.' :: (b ++ '.' :: (c ++ '.' :: (d ++ rest)))) =
        [(decNum a : Int), (decNum b : Int), (decNum c : Int), (decNum d : Int)] := by
      rw [sscanf, scanInt_digits 0 a _ ha.1 (hdig a ha.2.1) (.inl ⟨rfl, noDigit_cons _ hdot⟩)]
      simp only [sscanf, if_true]
      rw [scanInt_digits 0 b _ hb.1 (hdig b hb.2.1) (.inl ⟨rfl, noDigit_cons _ hdot⟩)]
      simp only [if_true]
      rw [scanInt_digits 0 c _ hc.1 (hdig c hc.2.1) (.inl ⟨rfl, noDigit_cons _ hdot⟩)]
      simp only [if_true]
      rw [scanInt_digits 0 d _ hd.1 (hdig d hd.2.1) (.inl ⟨rfl, hnr⟩)]
      simp only [digitsVal_decNum _ ha.2.1, digitsVal_decNum _ hb.2.1, digitsVal_decNum _ hc.2.1,
        digitsVal_decNum _ hd.2.1]
    rw [hsc]
    simp only [List.map_cons, List.map_nil]
    have oa := ha.2.2; have ob := hb.2.2; have oc := hc.2.2; have od := hd.2.2
    unfold octet at oa ob oc od
    rw [if_neg (by omega), ipchars_all]
    intro x hxm
    simp only [List.mem_append, List.mem_cons] at hxm
    rcases hxm with h | rfl | h | rfl | h | rfl | h | h
    · exact .inr (ha.2.1 x h)
    · exact .inl rfl
    · exact .inr (hb.2.1 x h)
    · exact .inl rfl
    · exact .inr (hc.2.1 x h)
    · exact .inl rfl
    · exact .inr (hd.2.1 x h)
    · exact hrest x h

/-- C59: every dotted quad is accepted. -/
theorem C59_accepts (s : Str) (h : IsDottedQuad s) : isIpAddress s = true := by
  obtain ⟨a, b, c, d, rfl, hx⟩ := h
  have hnd : ∀ x ∈ [a, b, c, d], Char.ofNat 0 ∉ x := by
    intro x hxm h0
    have := (hx x hxm).2.1 _ h0
    revert this; decide
  rw [C59_exact]
  · refine ⟨a, b, c, d, [], by simp, ?_, by intro c hc; simp at hc, .inl rfl⟩
    intro x hxm
    have := hx x hxm
    unfold octet
    rw [scanStore_small _ (by omega)]
    exact ⟨this.1, this.2.1, by omega, by omega⟩
  · intro h0
    simp only [List.mem_append, List.mem_cons] at h0
    have e : Char.ofNat 0 ≠ '.' := by decide
    rcases h0 with h | h | h | h | h | h | h
    · exact hnd a (by simp) h
    · exact e h
    · exact hnd b (by simp) h
    · exact e h
    · exact hnd c (by simp) h
    · exact e h
    · exact hnd d (by simp) h

theorem digits_lt (x : Str) (h : Digits x) : decNum x < 10 ^ x.length := by
  have key : ∀ (x : Str) (a : Nat), Digits x →
      x.foldl (fun a c => 10 * a + (c.toNat - 48)) a < (a + 1) * 10 ^ x.length := by
    intro x
    induction x with
    | nil => intro a _; simp
    | cons c x ih =>
      intro a hx
      have hc := hx c List.mem_cons_self
      have := ih (10 * a + (c.toNat - 48)) (fun y hy => hx y (List.mem_cons_of_mem _ hy))
      rw [List.foldl_cons, List.length_cons, pow_succ]
      calc _ < (10 * a + (c.toNat - 48) + 1) * 10 ^ x.length := this
        _ ≤ (10 * (a + 1)) * 10 ^ x.length := Nat.mul_le_mul_right _ (by omega)
        _ = (a + 1) * (10 ^ x.length * 10) := by ring
  simpa [decNum] using key x 0 h

/-- C59 restricted to texts with exactly three dots and no run of more than nine digits: accepted iff it is a
dotted quad. -/
theorem C59_partial (s : Str) (hdots : s.count '.' = 3) (hnul : Char.ofNat 0 ∉ s)
    (hshort : ∀ x : Str, x.IsInfix s → Digits x → x.length ≤ 9) :
    isIpAddress s = true ↔ IsDottedQuad s := by
  refine ⟨fun h => ?_, C59_accepts s⟩
  rw [C59_exact s hnul] at h
  obtain ⟨a, b, c, d, rest, e, hx, hrest, hhead⟩ := h
  have cz : ∀ x ∈ [a, b, c, d], x.count '.' = 0 := by
    intro x hxm
    rw [List.count_eq_zero]
    intro h0
    have := (hx x hxm).2.1 _ h0
    revert this; decide
  have hr : rest = [] := by
    rcases hhead with h | ⟨t, rfl⟩
    · exact h
    · exfalso
      rw [e] at hdots
      simp only [List.count_append, List.count_cons, cz a (by simp), cz b (by simp), cz c (by simp),
        cz d (by simp), beq_self_eq_true, if_true] at hdots
      omega
  subst hr
  rw [List.append_nil] at e
  have hlt : ∀ x ∈ [a, b, c, d], x.IsInfix s := by
    intro x hxm
    simp only [List.mem_cons, List.not_mem_nil, or_false] at hxm
    rw [e]
    rcases hxm with rfl | rfl | rfl | rfl
    · exact ⟨[], '.' :: (b ++ '.' :: (c ++ '.' :: d)), by simp⟩
    · exact ⟨a ++ ['.'], '.' :: (c ++ '.' :: d), by simp⟩
    · exact ⟨a ++ '.' :: (b ++ ['.']), '.' :: d, by simp⟩
    · exact ⟨a ++ '.' :: (b ++ '.' :: (c ++ ['.'])), [], by simp⟩
  refine ⟨a, b, c, d, e, ?_⟩
  intro x hxm
  obtain ⟨h1, h2, h3, h4⟩ := hx x hxm
  refine ⟨h1, h2, ?_⟩
  have h5 := hshort x (hlt x hxm) h2
  have h6 := digits_lt x h2
  have h7 : (10 : Nat) ^ x.length ≤ 10 ^ 9 := Nat.pow_le_pow_right (by norm_num) h5
  unfold octet at h4
  rw [scanStore_small _ (by omega)] at h4
  omega

/-- C59 is false of texts that continue after the fourth number. -/
theorem C59_false_trailing : isIpAddress "1.2.3.4.5".toList = true ∧ ¬ IsDottedQuad "1.2.3.4.5".toList := by
  refine ⟨by decide +kernel, ?_⟩
  rintro ⟨a, b, c, d, e, hx⟩
  have cz : ∀ x ∈ [a, b, c, d], x.count '.' = 0 := by
    intro x hxm
    rw [List.count_eq_zero]
    intro h0
    have := (hx x hxm).2.1 _ h0
    revert this; decide
  have := congrArg (List.count '.') e
  simp only [List.count_append, List.count_cons, cz a (by simp), cz b (by simp), cz c (by simp),
        cz d (by simp), beq_self_eq_true, if_true] at this
  revert this; decide

/-- C59 is false of numbers beyond 32 bits: 4294967297 is stored as 1. -/
theorem C59_false_wrap : isIpAddress "4294967297.0.0.1".toList = true := by decide +kernel

example : IsDottedQuad "192.168.0.255".toList := ⟨"192".toList, "168".toList, "0".toList, "255".toList, rfl, by
  intro x hx
  simp only [List.mem_cons, List.not_mem_nil, or_false] at hx
  rcases hx with rfl | rfl | rfl | rfl <;> exact ⟨by decide, by unfold Digits; decide, by decide⟩⟩
example : isIpAddress "192.168.0.256".toList = false := by decide +kernel
example : isIpAddress "192.168.0".toList = false := by decide +kernel

end CCGL
