import Verif.Lemmas.TimeText
/-!
# Calendar, time texts and `DateTime` (C44–C49)
-/
namespace CCGL
open Spec

/-! ## C44 Julian day numbers count days -/

/-- `IsLeapYear` is the Gregorian rule. -/
theorem C44_leap (y : Int) : isLeapYear y = true ↔ Leap y := by
  have h4 := Int.emod_emod_of_dvd y (show (4 : Int) ∣ 4 from ⟨1, rfl⟩)
  have e : ∀ k : Int, 0 < k → (Int.tmod y k = 0 ↔ k ∣ y) := fun k _ => by
    rw [Int.dvd_iff_tmod_eq_zero]
  unfold isLeapYear Leap
  simp only [ne_eq, e 4 (by omega), e 100 (by omega), e 400 (by omega), Bool.and_eq_true, Bool.or_eq_true,
    Bool.not_eq_true', decide_eq_false_iff_not, decide_eq_true_eq, not_not]

/-- One more per calendar day, across month ends, leap days and year ends. -/
theorem C44_next (t : Date) (hv : t.Valid) (hy : -4800 < t.y) :
    julianDay t.next.y t.next.m t.next.d = julianDay t.y t.m t.d + 1 := by
  have hv' := Date.next_valid t hv
  have hy' : -4800 < t.next.y := by
    unfold Date.next; split_ifs <;> simp only <;> omega
  rw [julianDay_eq _ _ _ hv.1 hv.2.1 (by omega), julianDay_eq _ _ _ hv'.1 hv'.2.1 (by omega), dayNumber_next t hv]
  omega

/-- `n` calendar days later the Julian day is `n` larger. -/
theorem C44_count (n : Nat) (t : Date) (hv : t.Valid) (hy : -4800 < t.y) :
    julianDay (Date.next^[n] t).y (Date.next^[n] t).m (Date.next^[n] t).d = julianDay t.y t.m t.d + n := by
  induction n generalizing t with
  | zero => simp
  | succ n ih =>
    have hy' : -4800 < t.next.y := by
      unfold Date.next; split_ifs <;> simp only <;> omega
    rw [Function.iterate_succ_apply, ih t.next (Date.next_valid t hv) hy', C44_next t hv hy]
    push_cast; omega

/-- Julian days order dates as the calendar does. -/
theorem C44_monotone (s t : Date) (hs : s.Valid) (ht : t.Valid) (hys : -4800 < s.y) (hyt : -4800 < t.y) :
    julianDay s.y s.m s.d < julianDay t.y t.m t.d ↔ s.Before t := by
  rw [julianDay_eq _ _ _ hs.1 hs.2.1 (by omega), julianDay_eq _ _ _ ht.1 ht.2.1 (by omega), ← dayNumber_lt_iff hs ht]
  omega

/-- Distinct dates have distinct Julian days. -/
theorem C44_injective (s t : Date) (hs : s.Valid) (ht : t.Valid) (hys : -4800 < s.y) (hyt : -4800 < t.y)
    (h : julianDay s.y s.m s.d = julianDay t.y t.m t.d) : s = t := by
  rw [julianDay_eq _ _ _ hs.1 hs.2.1 (by omega), julianDay_eq _ _ _ ht.1 ht.2.1 (by omega)] at h
  exact dayNumber_inj hs ht (by omega)

/-- The count is anchored at the known number of 1 January 2000, so with `C44_count` it is the Julian day number. -/
theorem C44_anchor : julianDay 2000 1 1 = 2451545 ∧ julianDay (-4713) 11 24 = 0 := by decide +kernel

example : (Date.mk 2000 2 29).Valid ∧ -4800 < (2000 : Int) ∧ (Date.mk 2000 2 29).next = ⟨2000, 3, 1⟩ ∧
    (Date.mk 1900 2 28).next = ⟨1900, 3, 1⟩ ∧ (Date.mk 1999 12 31).next = ⟨2000, 1, 1⟩ := by decide +kernel

/-! ## C45 dates round-trip through `time_t` -/

theorem C45_roundtrip (t : Date) (hv : t.Valid) :
    getYear (convertYMDToTime t.y t.m t.d) = t.y ∧ getMonth (convertYMDToTime t.y t.m t.d) = t.m ∧
    getDay (convertYMDToTime t.y t.m t.d) = t.d := by
  have h := gmtime_day (convertYMDToTime t.y t.m t.d)
  have v := gmtime_valid (convertYMDToTime t.y t.m t.d)
  rw [convertYMD_eq _ _ _ hv.1 hv.2.1] at h v ⊢
  rw [show 86400 * dayNumber t.y t.m t.d / 86400 = dayNumber t.y t.m t.d by omega] at h
  generalize 86400 * dayNumber t.y t.m t.d = x at *
  obtain ⟨y, m, d⟩ := t
  have e := dayNumber_inj (s := ⟨getYear x, getMonth x, getDay x⟩) v hv h
  injection e with e1 e2 e3
  exact ⟨e1, e2, e3⟩

/-- Later dates give later times, and days are 86400 seconds apart. -/
theorem C45_later (s t : Date) (hs : s.Valid) (ht : t.Valid) :
    convertYMDToTime s.y s.m s.d < convertYMDToTime t.y t.m t.d ↔ s.Before t := by
  rw [convertYMD_eq _ _ _ hs.1 hs.2.1, convertYMD_eq _ _ _ ht.1 ht.2.1, ← dayNumber_lt_iff hs ht]
  omega

theorem C45_next (t : Date) (hv : t.Valid) :
    convertYMDToTime t.next.y t.next.m t.next.d = convertYMDToTime t.y t.m t.d + 86400 := by
  have hv' := Date.next_valid t hv
  rw [convertYMD_eq _ _ _ hv.1 hv.2.1, convertYMD_eq _ _ _ hv'.1 hv'.2.1, dayNumber_next t hv]; omega

/-- Conversely the date of any time (negative ones included) is a calendar date whose start is the last midnight. -/
theorem C45_date_of_time (t : Int) : (Date.mk (getYear t) (getMonth t) (getDay t)).Valid ∧
    convertYMDToTime (getYear t) (getMonth t) (getDay t) ≤ t ∧
    t < convertYMDToTime (getYear t) (getMonth t) (getDay t) + 86400 := by
  have v := gmtime_valid t
  refine ⟨v, ?_⟩
  rw [convertYMD_eq _ _ _ v.1 v.2.1, gmtime_day]; omega

theorem C45_epoch : convertYMDToTime 1970 1 1 = 0 := by decide +kernel

example : (Date.mk 2024 2 29).Valid ∧ convertYMDToTime 2024 2 29 = 1709164800 ∧
    getYear (-1) = 1969 ∧ getMonth (-1) = 12 ∧ getDay (-1) = 31 := by decide +kernel

/-! ## C46 day of year -/

theorem C46_first (y : Int) : dayOfYear y 1 1 = 1 := by unfold dayOfYear; omega

theorem C46_next (t : Date) (hv : t.Valid) (hy : -4800 < t.y) (hsame : t.next.y = t.y) :
    dayOfYear t.next.y t.next.m t.next.d = dayOfYear t.y t.m t.d + 1 := by
  have := C44_next t hv hy
  unfold dayOfYear
  rw [this, hsame]; omega

theorem C46_last (y : Int) (hy : -4800 < y) :
    dayOfYear y 12 31 = if isLeapYear y then 366 else 365 := by
  unfold dayOfYear
  rw [julianDay_eq _ _ _ (by omega) (by omega) (by omega), julianDay_eq _ _ _ (by omega) (by omega) (by omega)]
  obtain ⟨v1, -, -, -, -, -, -, -, -, -, -, v12, -⟩ := daysBeforeMonth_vals y
  unfold dayNumber
  rcases leapN_cases y with ⟨hl, hn⟩ | ⟨hl, hn⟩
  · rw [if_pos ((C44_leap y).2 hl)]; omega
  · rw [if_neg (fun h => hl ((C44_leap y).1 h))]; omega

/-- The ordinal date is the difference of Julian days from the last day of the previous year. -/
theorem C46_julian (y m d : Int) (_hv : (Date.mk y m d).Valid) (hy : -4799 < y) :
    dayOfYear y m d = julianDay y m d - julianDay (y - 1) 12 31 := by
  have h := C44_next ⟨y - 1, 12, 31⟩ ⟨by simp, by simp, by simp, by simp [monthLen]⟩ (by simp only; omega)
  have e : (Date.mk (y - 1) 12 31).next = ⟨y, 1, 1⟩ := by
    unfold Date.next; simp [monthLen]
  rw [e] at h
  simp only at h
  unfold dayOfYear
  omega

/-- The overload for times agrees with the one for dates. -/
theorem C46_of_time (t : Int) (hy : -4800 < getYear t) :
    dayOfYearT t = dayOfYear (getYear t) (getMonth t) (getDay t) := by
  have v := gmtime_valid t
  obtain ⟨v1, v2, -, -⟩ := v
  simp only at v1 v2
  rw [yday_eq]
  unfold dayOfYear
  rw [julianDay_eq _ _ _ v1 v2 (by omega), julianDay_eq _ _ _ (by omega) (by omega) (by omega)]
  omega

/-- Julian day of a time: one more per 86400 seconds. -/
theorem C46_julian_of_time (t : Int) (hy : -4800 < getYear t) :
    julianDayT t = julianDay (getYear t) (getMonth t) (getDay t) ∧ julianDayT t = t / 86400 + 2440588 := by
  obtain ⟨v1, v2, -, -⟩ := gmtime_valid t
  simp only at v1 v2
  refine ⟨rfl, ?_⟩
  have e : julianDayT t = julianDay (getYear t) (getMonth t) (getDay t) := rfl
  rw [e, julianDay_eq _ _ _ v1 v2 (by omega), gmtime_day]

example : dayOfYear 2000 12 31 = 366 ∧ dayOfYear 1900 12 31 = 365 ∧ dayOfYear 2001 3 1 = 60 ∧
    (Date.mk 2001 2 28).Valid ∧ (Date.mk 2001 2 28).next.y = 2001 ∧ -4800 < getYear 0 := by decide +kernel

/-! ## C47 texts -/

/-- `ConvertToTime(ConvertToString(t))` is the start of `t`'s day; four-digit years, with or without field widths. -/
theorem C47_roundtrip (t : Int) (h0 : 1000 ≤ getYear t) (h1 : getYear t ≤ 9999) (w4 w2 : Nat)
    (hw4 : w4 = 0 ∨ w4 = 4) (hw2 : w2 = 0 ∨ w2 = 2) :
    (convertToString t >>= fun s => convertToTime s [.int w4, .lit '-', .int w2, .lit '-', .int w2] false) =
      .ok (86400 * (t / 86400)) := by
  obtain ⟨m1, m2, d1, d2⟩ := gm_fields t
  rw [convertToString_eq t h0 h1, Out.ok_bind]
  have hs := sscanf_date w4 w2 hw4 hw2 '-' rfl (getYear t) (getMonth t) (getDay t) (by omega) h1 (by omega) (by omega)
    (by omega) (by omega) [] noDigit_nil []
  unfold convertToTime
  rw [if_neg (by simp [fourDigits]), hs]
  simp only [Bool.false_eq_true, if_false]
  rw [timegm_date _ _ _ _ _ _ _ _ m1 m2, gmtime_day]
  simp

/-- `ConvertToString2` keeps the time of the day: reading it back gives the very same second. -/
theorem C47_roundtrip2 (t : Int) (h0 : 1000 ≤ getYear t) (h1 : getYear t ≤ 9999) (w4 w2 : Nat)
    (hw4 : w4 = 0 ∨ w4 = 4) (hw2 : w2 = 0 ∨ w2 = 2) :
    (convertToString2 t >>= fun s => convertToTime s
      [.int w4, .lit '-', .int w2, .lit '-', .int w2, .ws, .int w2, .lit ':', .int w2, .lit ':', .int w2] true) =
      .ok t := by
  obtain ⟨m1, m2, d1, d2⟩ := gm_fields t
  obtain ⟨e1, e2, e3⟩ := gmtime_time t
  rw [convertToString2_eq t h0 h1, Out.ok_bind]
  have hs := sscanf_date w4 w2 hw4 hw2 '-' rfl (getYear t) (getMonth t) (getDay t) (by omega) h1 (by omega) (by omega)
    (by omega) (by omega) (' ' :: (twoDigits (gmtime t).hour ++ (':' :: (twoDigits (gmtime t).min ++ (':' ::
        (twoDigits (gmtime t).sec ++ [])))))) (noDigit_cons _ rfl)
    [.ws, .int w2, .lit ':', .int w2, .lit ':', .int w2]
  have hw : ∀ rest, NoDigitStart rest → (w2 = 0 ∧ NoDigitStart rest) ∨ w2 = 2 := by
    intro rest h; rcases hw2 with h' | h'
    · exact .inl ⟨h', h⟩
    · exact .inr h'
  have ht : sscanf [.ws, .int w2, .lit ':', .int w2, .lit ':', .int w2]
      (' ' :: (twoDigits (gmtime t).hour ++ (':' :: (twoDigits (gmtime t).min ++ (':' ::
        (twoDigits (gmtime t).sec ++ [])))))) = [(gmtime t).hour, (gmtime t).min, (gmtime t).sec] := by
    rw [sscanf_ws, sscanf_int _ _ _ _ _ (scanInt_two w2 _ _ (by omega) (by omega) (hw _ (noDigit_cons _ rfl))), sscanf_lit,
      sscanf_int _ _ _ _ _ (scanInt_two w2 _ _ (by omega) (by omega) (hw _ (noDigit_cons _ rfl))), sscanf_lit,
      sscanf_int _ _ _ _ _ (scanInt_two w2 _ _ (by omega) (by omega) (hw _ noDigit_nil))]
    rfl
  rw [ht] at hs
  unfold convertToTime
  rw [if_neg (by simp [fourDigits]), hs]
  simp only [if_true, List.getD_cons_zero, List.getD_cons_succ]
  rw [timegm_date _ _ _ _ _ _ _ _ m1 m2, gmtime_day]
  simp only [e1, e2, e3]
  congr 1; omega

/-- `ConvertToString3` (`yyyy_mm_dd_HHMMSS`), read with field widths. -/
theorem C47_roundtrip3 (t : Int) (h0 : 1000 ≤ getYear t) (h1 : getYear t ≤ 9999) :
    (convertToString3 t >>= fun s => convertToTime s
      [.int 4, .lit '_', .int 2, .lit '_', .int 2, .lit '_', .int 2, .int 2, .int 2] true) = .ok t := by
  obtain ⟨m1, m2, d1, d2⟩ := gm_fields t
  obtain ⟨e1, e2, e3⟩ := gmtime_time t
  rw [convertToString3_eq t h0 h1, Out.ok_bind]
  have hs := sscanf_date 4 2 (.inr rfl) (.inr rfl) '_' rfl (getYear t) (getMonth t) (getDay t) (by omega) h1 (by omega)
    (by omega) (by omega) (by omega) ('_' :: (twoDigits (gmtime t).hour ++ (twoDigits (gmtime t).min ++
        (twoDigits (gmtime t).sec ++ [])))) (noDigit_cons _ rfl)
    [.lit '_', .int 2, .int 2, .int 2]
  have ht : sscanf [.lit '_', .int 2, .int 2, .int 2]
      ('_' :: (twoDigits (gmtime t).hour ++ (twoDigits (gmtime t).min ++
        (twoDigits (gmtime t).sec ++ [])))) = [(gmtime t).hour, (gmtime t).min, (gmtime t).sec] := by
    rw [sscanf_lit, sscanf_int _ _ _ _ _ (scanInt_two 2 _ _ (by omega) (by omega) (.inr rfl)),
      sscanf_int _ _ _ _ _ (scanInt_two 2 _ _ (by omega) (by omega) (.inr rfl)),
      sscanf_int _ _ _ _ _ (scanInt_two 2 _ _ (by omega) (by omega) (.inr rfl))]
    rfl
  rw [ht] at hs
  unfold convertToTime
  rw [if_neg (by simp [fourDigits]), hs]
  simp only [if_true, List.getD_cons_zero, List.getD_cons_succ]
  rw [timegm_date _ _ _ _ _ _ _ _ m1 m2, gmtime_day]
  simp only [e1, e2, e3]
  congr 1; omega

/-- `GetDateInfoFromTimet` returns the date. -/
theorem C47_dateInfo (t : Int) (h0 : 1000 ≤ getYear t) (h1 : getYear t ≤ 9999) :
    getDateInfo t = .ok (getYear t, getMonth t, getDay t) := by
  obtain ⟨m1, m2, d1, d2⟩ := gm_fields t
  unfold getDateInfo
  rw [convertToString2_eq t h0 h1, Out.ok_bind]
  rw [sscanf_date 4 2 (.inr rfl) (.inr rfl) '-' rfl (getYear t) (getMonth t) (getDay t) (by omega) h1 (by omega)
    (by omega) (by omega) (by omega) _ (noDigit_cons _ rfl)]

/-- The texts of two times compare (lexicographically, as `std::string` does) like their days. -/
theorem C47_order (s t : Int) (hs0 : 1000 ≤ getYear s) (hs1 : getYear s ≤ 9999) (ht0 : 1000 ≤ getYear t)
    (ht1 : getYear t ≤ 9999) : ∃ a b, convertToString s = .ok a ∧ convertToString t = .ok b ∧
      (a < b ↔ s / 86400 < t / 86400) ∧ (a = b ↔ s / 86400 = t / 86400) := by
  obtain ⟨ms1, ms2, ds1, ds2⟩ := gm_fields s
  obtain ⟨mt1, mt2, dt1, dt2⟩ := gm_fields t
  refine ⟨_, _, convertToString_eq s hs0 hs1, convertToString_eq t ht0 ht1, ?_, ?_⟩
  · rw [← gmtime_day, ← gmtime_day t, dayNumber_lt_iff (s := ⟨_, _, _⟩) (t := ⟨_, _, _⟩) (gmtime_valid s) (gmtime_valid t)]
    have l4 : (fourDigits (getYear s)).length = (fourDigits (getYear t)).length := rfl
    have l2 : ∀ a b : Int, (twoDigits a).length = (twoDigits b).length := fun _ _ => rfl
    rw [lt_append_iff _ _ _ _ l4, fourDigits_lt _ _ (by omega) hs1 (by omega) ht1,
      fourDigits_inj _ _ (by omega) hs1 (by omega) ht1, List.cons_lt_cons_iff, lt_append_iff _ _ _ _ (l2 _ _),
      twoDigits_lt _ _ (by omega) (by omega) (by omega) (by omega),
      twoDigits_inj _ _ (by omega) (by omega) (by omega) (by omega), List.cons_lt_cons_iff,
      lt_append_iff _ _ _ _ (l2 _ _), twoDigits_lt _ _ (by omega) (by omega) (by omega) (by omega)]
    simp [Date.Before]
  · constructor
    · intro h
      have hl := List.append_inj h rfl
      have hl2 := List.append_inj (List.cons.inj hl.2).2 rfl
      have hl3 := List.append_inj (List.cons.inj hl2.2).2 rfl
      have e1 := (fourDigits_inj _ _ (by omega) hs1 (by omega) ht1).1 hl.1
      have e2 := (twoDigits_inj _ _ (by omega) (by omega) (by omega) (by omega)).1 hl2.1
      have e3 := (twoDigits_inj _ _ (by omega) (by omega) (by omega) (by omega)).1 hl3.1
      rw [← gmtime_day, ← gmtime_day t, e1, e2, e3]
    · intro h
      rw [← gmtime_day, ← gmtime_day t] at h
      have := dayNumber_inj (s := ⟨_, _, _⟩) (t := ⟨_, _, _⟩) (gmtime_valid s) (gmtime_valid t) h
      injection this with e1 e2 e3
      rw [e1, e2, e3]

/-- `ConvertToTime` of the empty text is 0. -/
theorem C47_empty (f : List Fmt) (b : Bool) : convertToTime [] f b = .ok 0 := rfl

/-- Not covered by the round-trip: the year 10000 does not fit into the buffer of `ConvertToString`; a text that does
not match the format leaves variables uninitialised. -/
theorem C47_false : convertToString 253402300800 = .ub ∧
    convertToTime "2000/01/01".toList [.int 0, .lit '-', .int 0, .lit '-', .int 0] false = .ub := by decide +kernel

example : 1000 ≤ getYear 951782400 ∧ getYear 951782400 ≤ 9999 ∧
    convertToString 951782400 = .ok "2000-02-29".toList ∧
    convertToString2 951786061 = .ok "2000-02-29 01:01:01".toList := by decide +kernel

/-! ## C48, C49 `DateTime` -/

/-- A file time below `2^63` survives `FromFileTime`: both of the instant fields are the given number of
milliseconds. -/
theorem fromFileTime_ok (z : Zone) (f : Nat) (hf : f < 2 ^ 63) :
    ∃ d, fromFileTime z f = .ok d ∧ d.filetime = f ∧ d.totalMs = f ∧ d.milliseconds = ((f % 1000 : Nat) : Int) ∧
      d.year = (z.localtime ((f / 1000 : Nat) : Int)).year + 1900 ∧ d.month = (z.localtime ((f / 1000 : Nat) : Int)).mon + 1 ∧
      d.day = (z.localtime ((f / 1000 : Nat) : Int)).mday ∧ d.hour = (z.localtime ((f / 1000 : Nat) : Int)).hour ∧
      d.minute = (z.localtime ((f / 1000 : Nat) : Int)).min ∧ d.second = (z.localtime ((f / 1000 : Nat) : Int)).sec := by
  unfold fromFileTime ofTM
  simp only [z.roundtrip]
  have e : ((f / 1000 : Nat) : Int) * 1000 + ((f % 1000 : Nat) : Int) = f := by omega
  rw [if_neg (by omega), e]
  have e2 : ((f : Int) % 2 ^ 64).toNat = f := by
    rw [Int.emod_eq_of_lt (by omega) (by omega)]; omega
  rw [e2]
  exact ⟨_, rfl, rfl, rfl, rfl, rfl, rfl, rfl, rfl, rfl, rfl⟩

/-- `FromFileTime(f)` denotes the instant `f`, and its calendar fields are those of the local time of this instant. -/
theorem C49_instant (z : Zone) (f : Nat) (hf : f < 2 ^ 63) :
    ∃ d, fromFileTime z f = .ok d ∧ d.filetime = f ∧ d.totalMs = f ∧
      (⟨d.year - 1900, d.month - 1, d.day, d.hour, d.minute, d.second⟩ : Int × Int × Int × Int × Int × Int) =
        ((z.localtime ((f / 1000 : Nat) : Int)).year, (z.localtime ((f / 1000 : Nat) : Int)).mon,
          (z.localtime ((f / 1000 : Nat) : Int)).mday, (z.localtime ((f / 1000 : Nat) : Int)).hour,
          (z.localtime ((f / 1000 : Nat) : Int)).min, (z.localtime ((f / 1000 : Nat) : Int)).sec) ∧
      0 ≤ d.milliseconds ∧ d.milliseconds < 1000 := by
  obtain ⟨d, h1, h2, h3, h4, h5, h6, h7, h8, h9, h10⟩ := fromFileTime_ok z f hf
  refine ⟨d, h1, h2, h3, ?_, by omega, by omega⟩
  rw [h5, h6, h7, h8, h9, h10]
  simp

/-- `FromDateTime` keeps the instant too, provided it is not before 1970: the file time is the C library's time of the
broken-down local time in milliseconds. -/
theorem C49_fromDateTime (z : Zone) (y m d h mi s ms : Int)
    (h0 : 0 ≤ z.mktime ⟨y - 1900, m - 1, d, h, mi, s, 0, -1⟩ * 1000 + ms)
    (h1 : z.mktime ⟨y - 1900, m - 1, d, h, mi, s, 0, -1⟩ * 1000 + ms < 2 ^ 63) :
    ∃ r, fromDateTime z y m d h mi s ms = .ok r ∧
      (r.filetime : Int) = z.mktime ⟨y - 1900, m - 1, d, h, mi, s, 0, -1⟩ * 1000 + ms ∧ r.totalMs = r.filetime := by
  unfold fromDateTime ofTM
  simp only
  rw [if_neg (by omega)]
  refine ⟨_, rfl, ?_, rfl⟩
  simp only
  rw [Int.emod_eq_of_lt h0 (by omega)]; omega

/-- utils_time.h:200-205 the comparison operators of `DateTime`. -/
def DateTime.eqOp (a b : DateTime) : Bool := a.filetime == b.filetime
def DateTime.neOp (a b : DateTime) : Bool := a.filetime != b.filetime
def DateTime.ltOp (a b : DateTime) : Bool := decide (a.filetime < b.filetime)
def DateTime.leOp (a b : DateTime) : Bool := decide (a.filetime ≤ b.filetime)
def DateTime.gtOp (a b : DateTime) : Bool := decide (a.filetime > b.filetime)
def DateTime.geOp (a b : DateTime) : Bool := decide (a.filetime ≥ b.filetime)

/-- The operators order `DateTime`s made from instants by instant. -/
theorem C49_order (z : Zone) (f g : Nat) (hf : f < 2 ^ 63) (hg : g < 2 ^ 63) :
    ∃ a b, fromFileTime z f = .ok a ∧ fromFileTime z g = .ok b ∧
      (a.ltOp b = true ↔ f < g) ∧ (a.leOp b = true ↔ f ≤ g) ∧ (a.eqOp b = true ↔ f = g) ∧
      (a.neOp b = true ↔ f ≠ g) ∧ (a.gtOp b = true ↔ g < f) ∧ (a.geOp b = true ↔ g ≤ f) := by
  obtain ⟨a, ha, ha', -⟩ := fromFileTime_ok z f hf
  obtain ⟨b, hb, hb', -⟩ := fromFileTime_ok z g hg
  refine ⟨a, b, ha, hb, ?_⟩
  simp [DateTime.ltOp, DateTime.leOp, DateTime.eqOp, DateTime.neOp, DateTime.gtOp, DateTime.geOp, ha', hb']

/-- A total order on all `DateTime`s: exactly one of `<`, `==`, `>` holds, `<` is transitive, and the other operators
are derived from it. -/
theorem C49_total (a b c : DateTime) :
    (a.ltOp b = true ∧ a.eqOp b = false ∧ a.gtOp b = false ∨ a.ltOp b = false ∧ a.eqOp b = true ∧ a.gtOp b = false ∨
      a.ltOp b = false ∧ a.eqOp b = false ∧ a.gtOp b = true) ∧
    (a.ltOp b = true → b.ltOp c = true → a.ltOp c = true) ∧
    a.leOp b = (a.ltOp b || a.eqOp b) ∧ a.geOp b = (a.gtOp b || a.eqOp b) ∧ a.neOp b = !(a.eqOp b) ∧
    a.gtOp b = b.ltOp a := by
  simp only [DateTime.ltOp, DateTime.leOp, DateTime.eqOp, DateTime.neOp, DateTime.gtOp, DateTime.geOp]
  refine ⟨?_, ?_, ?_, ?_, ?_, trivial⟩
  · rcases Nat.lt_trichotomy a.filetime b.filetime with h | h | h <;> simp <;> omega
  · simp only [decide_eq_true_eq]; omega
  · rw [Bool.eq_iff_iff]; simp; omega
  · rw [Bool.eq_iff_iff]; simp; omega
  · simp [bne]

/-- UTC as a zone, and the zone of UTC+8 hours: the contract `Zone` has instances. -/
def utcZone : Zone := fixedZone 0 timegm_gmtime
def chinaZone : Zone := fixedZone 28800 timegm_gmtime

example : ((fromFileTime chinaZone 1700000000123) >>= fun d =>
    .ok [d.year, d.month, d.day, d.hour, d.minute, d.second, d.milliseconds, d.filetime]) =
    .ok [2023, 11, 15, 6, 13, 20, 123, 1700000000123] := by decide +kernel

/-- The property asked of `Forward`/`Backward`: the instant moves by the given number of milliseconds. -/
def ForwardMoves (z : Zone) (d : DateTime) (ms : Int) : Prop :=
  ∃ d', d.forward z ms = .ok d' ∧ (d'.filetime : Int) = d.filetime + ms

def BackwardMoves (z : Zone) (d : DateTime) (ms : Int) : Prop :=
  ∃ d', d.backward z ms = .ok d' ∧ (d'.filetime : Int) = d.filetime - ms

/-- Exactly when `Forward(ms)` moves a `DateTime` by `ms`: its own milliseconds field happens to be `ms` (the
parameter is ignored). -/
theorem C48_forward_partial (z : Zone) (f : Nat) (hf : f < 2 ^ 62) (ms : Int) :
    ∃ d, fromFileTime z f = .ok d ∧ (ForwardMoves z d ms ↔ ms = ((f % 1000 : Nat) : Int)) ∧
      (BackwardMoves z d ms ↔ ms = ((f % 1000 : Nat) : Int)) := by
  obtain ⟨d, h, h1, h2, h3, -⟩ := fromFileTime_ok z f (by omega)
  refine ⟨d, h, ?_, ?_⟩
  · obtain ⟨d', g, g1, -⟩ := fromFileTime_ok z (f + f % 1000) (by omega)
    have e : d.forward z ms = .ok d' := by
      unfold DateTime.forward
      rw [h1, h3, Int.emod_eq_of_lt (by omega) (by omega)]
      rw [show ((f : Int) + ((f % 1000 : Nat) : Int)).toNat = f + f % 1000 by omega, g]
    unfold ForwardMoves
    rw [e]
    constructor
    · rintro ⟨d'', hd, hm⟩
      injection hd with hd; subst hd
      rw [g1, h1] at hm; push_cast at hm ⊢; omega
    · rintro rfl
      exact ⟨d', rfl, by rw [g1, h1]; push_cast; omega⟩
  · obtain ⟨d', g, g1, -⟩ := fromFileTime_ok z (f - f % 1000) (by omega)
    have e : d.backward z ms = .ok d' := by
      unfold DateTime.backward
      rw [h1, h3, Int.emod_eq_of_lt (by omega) (by omega)]
      rw [show ((f : Int) - ((f % 1000 : Nat) : Int)).toNat = f - f % 1000 by omega, g]
    unfold BackwardMoves
    rw [e]
    constructor
    · rintro ⟨d'', hd, hm⟩
      injection hd with hd; subst hd
      rw [g1, h1] at hm; omega
    · rintro rfl
      exact ⟨d', rfl, by rw [g1, h1]; omega⟩

/-- So the property is false: moving 00:00:00.000 forward by one millisecond stays there. -/
theorem C48_false : ¬ ∀ (z : Zone) (d : DateTime) (f : Nat) (ms : Int), fromFileTime z f = .ok d → ForwardMoves z d ms := by
  intro h
  obtain ⟨d, hd, hi, -⟩ := C48_forward_partial utcZone 0 (by norm_num) 1
  have := hi.1 (h utcZone d 0 1 hd)
  norm_num at this

/-- `ToUTCTime` does not keep the instant either: in a zone with a fixed offset it is moved by the offset. -/
theorem C49_toUTC_shifts (off : Int) (f : Nat) (h0 : 0 ≤ (f : Int) - 1000 * off) (h1 : (f : Int) - 1000 * off < 2 ^ 63)
    (hf : f < 2 ^ 63) :
    ∃ d d', fromFileTime (fixedZone off timegm_gmtime) f = .ok d ∧ d.toUTCTime (fixedZone off timegm_gmtime) = .ok d' ∧
      (d'.filetime : Int) = d.filetime - 1000 * off := by
  obtain ⟨d, h, e1, e2, e3, -⟩ := fromFileTime_ok (fixedZone off timegm_gmtime) f hf
  refine ⟨d, ?_⟩
  have ht : (fixedZone off timegm_gmtime).mktime (gmtime ((f / 1000 : Nat) : Int)) = ((f / 1000 : Nat) : Int) - off := by
    show timegm (gmtime ((f / 1000 : Nat) : Int)) - off = _
    rw [timegm_gmtime]
  unfold DateTime.toUTCTime ofTM
  rw [e1, e3]
  simp only [ht]
  rw [if_neg (by omega)]
  refine ⟨_, h, rfl, ?_⟩
  simp only
  have hb : 0 ≤ (((f / 1000 : Nat) : Int) - off) * 1000 + ((f % 1000 : Nat) : Int) := by omega
  have hb' : (((f / 1000 : Nat) : Int) - off) * 1000 + ((f % 1000 : Nat) : Int) < 2 ^ 64 := by omega
  rw [Int.emod_eq_of_lt hb hb']
  omega

end CCGL
