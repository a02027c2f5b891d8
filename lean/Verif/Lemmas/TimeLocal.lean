import Verif.Spec.TimeLocal
import Verif.Lemmas.TimeText
import Verif.Props.Time
/-! Local time: the broken-down time one hour earlier, and the texts of arbitrary fields. -/
namespace CCGL
open Spec

def dateOf (u : Int) : Date := ⟨getYear u, getMonth u, getDay u⟩

theorem dateOf_valid (u : Int) : (dateOf u).Valid := gmtime_valid u

theorem dateOf_eq {u : Int} {D : Date} (hv : D.Valid) (h : dayNumber D.y D.m D.d = u / 86400) : dateOf u = D :=
  dayNumber_inj (dateOf_valid u) hv (by rw [h]; exact gmtime_day u)

theorem dateOf_congr {u v : Int} (h : u / 86400 = v / 86400) : dateOf u = dateOf v :=
  dateOf_eq (dateOf_valid v) (by rw [h]; exact gmtime_day v)

theorem dateOf_next {u v : Int} (h : v / 86400 = u / 86400 + 1) : (dateOf u).next = dateOf v := by
  symm
  refine dateOf_eq (Date.next_valid _ (dateOf_valid u)) ?_
  rw [dayNumber_next _ (dateOf_valid u), h, show dayNumber (dateOf u).y (dateOf u).m (dateOf u).d = u / 86400 from gmtime_day u]

/-- The date one hour before the wall clock `u`, when this is the previous day. -/
theorem dateOf_prev {u : Int} (h : u % 86400 < 3600) :
    (getDay u ≠ 1 → dateOf (u - 3600) = ⟨getYear u, getMonth u, getDay u - 1⟩) ∧
    (getDay u = 1 → getMonth u ≠ 1 →
      dateOf (u - 3600) = ⟨getYear u, getMonth u - 1, monthLen (getYear u) (getMonth u - 1)⟩) ∧
    (getDay u = 1 → getMonth u = 1 → dateOf (u - 3600) = ⟨getYear u - 1, 12, 31⟩) := by
  have hn : (dateOf (u - 3600)).next = dateOf u := dateOf_next (by omega)
  obtain ⟨v1, v2, v3, v4⟩ := dateOf_valid (u - 3600)
  generalize dateOf (u - 3600) = D at *
  obtain ⟨y, m, d⟩ := D
  simp only [Date.next] at hn v1 v2 v3 v4
  split_ifs at hn with ha hb
  · unfold dateOf at hn; injection hn with e1 e2 e3
    refine ⟨fun _ => ?_, fun h => ?_, fun h => ?_⟩
    · rw [← e1, ← e2, ← e3]; simp
    · exfalso; omega
    · exfalso; omega
  · unfold dateOf at hn; injection hn with e1 e2 e3
    refine ⟨fun h => absurd e3.symm h, fun _ _ => ?_, fun _ h => ?_⟩
    · rw [← e1, ← e2]
      have : d = monthLen y m := by omega
      simp [this]
    · exfalso; omega
  · unfold dateOf at hn; injection hn with e1 e2 e3
    refine ⟨fun h => absurd e3.symm h, fun _ h => absurd e2.symm h, fun _ _ => ?_⟩
    have hm : m = 12 := by omega
    subst hm
    have : monthLen y 12 = 31 := by unfold monthLen; simp
    rw [← e1]; simp; omega

theorem dateOf_same {u : Int} (h : ¬ u % 86400 < 3600) : dateOf (u - 3600) = dateOf u := dateOf_congr (by omega)

/-- The texts of arbitrary fields. -/
def text2 (y m d h mi s : Int) : Str := fourDigits y ++ ('-' :: (twoDigits m ++ ('-' ::
      (twoDigits d ++ (' ' :: (twoDigits h ++ (':' :: (twoDigits mi ++ (':' :: (twoDigits s ++ []))))))))))
def text3 (y m d h mi s : Int) : Str := fourDigits y ++ ('_' :: (twoDigits m ++ ('_' ::
      (twoDigits d ++ ('_' :: (twoDigits h ++ (twoDigits mi ++ (twoDigits s ++ []))))))))

theorem strftime_text2 (tm : TM) (h0 : 1000 ≤ tm.year + 1900) (h1 : tm.year + 1900 ≤ 9999) :
    strftime 30 [.Y, .lit '-', .m, .lit '-', .d, .lit ' ', .H, .lit ':', .M, .lit ':', .S] tm =
      .ok (text2 (tm.year + 1900) (tm.mon + 1) tm.mday tm.hour tm.min tm.sec) := by
  unfold strftime
  have e : [TFmt.Y, .lit '-', .m, .lit '-', .d, .lit ' ', .H, .lit ':', .M, .lit ':', .S].flatMap
      (strftime1 tm) =
      intToDec (tm.year + 1900) ++ ('-' :: (twoDigits (tm.mon + 1) ++ ('-' ::
      (twoDigits tm.mday ++ (' ' :: (twoDigits tm.hour ++ (':' :: (twoDigits tm.min ++ (':' ::
        (twoDigits tm.sec ++ [])))))))))) := rfl
  rw [e, intToDec_four _ h0 h1]
  rw [if_pos (by simp [fourDigits, twoDigits])]; rfl

theorem strftime_text3 (tm : TM) (h0 : 1000 ≤ tm.year + 1900) (h1 : tm.year + 1900 ≤ 9999) :
    strftime 30 [.Y, .lit '_', .m, .lit '_', .d, .lit '_', .H, .M, .S] tm =
      .ok (text3 (tm.year + 1900) (tm.mon + 1) tm.mday tm.hour tm.min tm.sec) := by
  unfold strftime
  have e : [TFmt.Y, .lit '_', .m, .lit '_', .d, .lit '_', .H, .M, .S].flatMap
      (strftime1 tm) =
      intToDec (tm.year + 1900) ++ ('_' :: (twoDigits (tm.mon + 1) ++ ('_' ::
      (twoDigits tm.mday ++ ('_' :: (twoDigits tm.hour ++ (twoDigits tm.min ++
        (twoDigits tm.sec ++ [])))))))) := rfl
  rw [e, intToDec_four _ h0 h1]
  rw [if_pos (by simp [fourDigits, twoDigits])]; rfl

/-- The texts determine the month and the day. -/
theorem text2_inj {y m d h mi s y' m' d' h' mi' s' : Int} (hm0 : 0 ≤ m) (hm1 : m < 100) (hm0' : 0 ≤ m') (hm1' : m' < 100)
    (hd0 : 0 ≤ d) (hd1 : d < 100) (hd0' : 0 ≤ d') (hd1' : d' < 100) (e : text2 y m d h mi s = text2 y' m' d' h' mi' s') :
    m = m' ∧ d = d' := by
  unfold text2 at e
  have hl := List.append_inj e rfl
  have hl2 := List.append_inj (List.cons.inj hl.2).2 rfl
  have hl3 := List.append_inj (List.cons.inj hl2.2).2 rfl
  exact ⟨(twoDigits_inj _ _ hm0 hm1 hm0' hm1').1 hl2.1, (twoDigits_inj _ _ hd0 hd1 hd0' hd1').1 hl3.1⟩

theorem text3_inj {y m d h mi s y' m' d' h' mi' s' : Int} (hm0 : 0 ≤ m) (hm1 : m < 100) (hm0' : 0 ≤ m') (hm1' : m' < 100)
    (hd0 : 0 ≤ d) (hd1 : d < 100) (hd0' : 0 ≤ d') (hd1' : d' < 100) (e : text3 y m d h mi s = text3 y' m' d' h' mi' s') :
    m = m' ∧ d = d' := by
  unfold text3 at e
  have hl := List.append_inj e rfl
  have hl2 := List.append_inj (List.cons.inj hl.2).2 rfl
  have hl3 := List.append_inj (List.cons.inj hl2.2).2 rfl
  exact ⟨(twoDigits_inj _ _ hm0 hm1 hm0' hm1').1 hl2.1, (twoDigits_inj _ _ hd0 hd1 hd0' hd1').1 hl3.1⟩

/-- Reading the texts with `ConvertToTime(…, include_hour = true, utc_time)`. -/
theorem read_text2 (z : TZ) (utc : Bool) {y m d h mi s : Int} (hy0 : 0 ≤ y) (hy1 : y ≤ 9999) (hm0 : 0 ≤ m) (hm1 : m < 100)
    (hd0 : 0 ≤ d) (hd1 : d < 100) (hh0 : 0 ≤ h) (hh1 : h < 100) (hi0 : 0 ≤ mi) (hi1 : mi < 100) (hs0 : 0 ≤ s)
    (hs1 : s < 100) (w4 w2 : Nat) (hw4 : w4 = 0 ∨ w4 = 4) (hw2 : w2 = 0 ∨ w2 = 2) :
    convertToTimeZ z utc (text2 y m d h mi s)
      [.int w4, .lit '-', .int w2, .lit '-', .int w2, .ws, .int w2, .lit ':', .int w2, .lit ':', .int w2] true =
      .ok (timegm ⟨y - 1900, m - 1, d, h, mi, s, 0, 0⟩ - if utc then 0 else z.std) := by
  have hs := sscanf_date w4 w2 hw4 hw2 '-' rfl y m d hy0 hy1 hm0 hm1 hd0 hd1
    (' ' :: (twoDigits h ++ (':' :: (twoDigits mi ++ (':' ::
        (twoDigits s ++ [])))))) (noDigit_cons _ rfl)
    [.ws, .int w2, .lit ':', .int w2, .lit ':', .int w2]
  have hw : ∀ rest, NoDigitStart rest → (w2 = 0 ∧ NoDigitStart rest) ∨ w2 = 2 := by
    intro rest h; rcases hw2 with h' | h'
    · exact .inl ⟨h', h⟩
    · exact .inr h'
  have ht : sscanf [.ws, .int w2, .lit ':', .int w2, .lit ':', .int w2]
      (' ' :: (twoDigits h ++ (':' :: (twoDigits mi ++ (':' ::
        (twoDigits s ++ [])))))) = [h, mi, s] := by
    rw [sscanf_ws, sscanf_int _ _ _ _ _ (scanInt_two w2 _ _ hh0 hh1 (hw _ (noDigit_cons _ rfl))), sscanf_lit,
      sscanf_int _ _ _ _ _ (scanInt_two w2 _ _ hi0 hi1 (hw _ (noDigit_cons _ rfl))), sscanf_lit,
      sscanf_int _ _ _ _ _ (scanInt_two w2 _ _ hs0 hs1 (hw _ noDigit_nil))]
    rfl
  rw [ht] at hs
  unfold convertToTimeZ
  rw [if_neg (by simp [text2, fourDigits])]
  unfold text2
  rw [hs]
  cases utc
  · rfl
  · simp only [if_true, List.getD_cons_zero, List.getD_cons_succ]; congr 1; omega

theorem read_text3 (z : TZ) (utc : Bool) {y m d h mi s : Int} (hy0 : 0 ≤ y) (hy1 : y ≤ 9999) (hm0 : 0 ≤ m) (hm1 : m < 100)
    (hd0 : 0 ≤ d) (hd1 : d < 100) (hh0 : 0 ≤ h) (hh1 : h < 100) (hi0 : 0 ≤ mi) (hi1 : mi < 100) (hs0 : 0 ≤ s)
    (hs1 : s < 100) :
    convertToTimeZ z utc (text3 y m d h mi s)
      [.int 4, .lit '_', .int 2, .lit '_', .int 2, .lit '_', .int 2, .int 2, .int 2] true =
      .ok (timegm ⟨y - 1900, m - 1, d, h, mi, s, 0, 0⟩ - if utc then 0 else z.std) := by
  have hs := sscanf_date 4 2 (.inr rfl) (.inr rfl) '_' rfl y m d hy0 hy1 hm0 hm1 hd0 hd1
    ('_' :: (twoDigits h ++ (twoDigits mi ++ (twoDigits s ++ [])))) (noDigit_cons _ rfl)
    [.lit '_', .int 2, .int 2, .int 2]
  have ht : sscanf [.lit '_', .int 2, .int 2, .int 2]
      ('_' :: (twoDigits h ++ (twoDigits mi ++ (twoDigits s ++ [])))) = [h, mi, s] := by
    rw [sscanf_lit, sscanf_int _ _ _ _ _ (scanInt_two 2 _ _ hh0 hh1 (.inr rfl)),
      sscanf_int _ _ _ _ _ (scanInt_two 2 _ _ hi0 hi1 (.inr rfl)),
      sscanf_int _ _ _ _ _ (scanInt_two 2 _ _ hs0 hs1 (.inr rfl))]
    rfl
  rw [ht] at hs
  unfold convertToTimeZ
  rw [if_neg (by simp [text3, fourDigits])]
  unfold text3
  rw [hs]
  cases utc
  · rfl
  · simp only [if_true, List.getD_cons_zero, List.getD_cons_succ]; congr 1; omega

/-- The entries of `month_days` that are read, and when they give the last day of the previous month. -/
theorem tab_read (y m : Int) (h1 : 3 ≤ m) (h2 : m ≤ 12) : ∃ n, readAt (some monthDaysTab) (m - 2) = .ok n ∧ 28 ≤ n ∧ n ≤ 31 ∧
    ((if isLeapYear (y - 1900) then n + 1 else n) = monthLen y (m - 1) ↔ RightMonth y m) := by
  have hl : ∀ n : Int, (if isLeapYear (y - 1900) = true then n + 1 else n) = if Leap (y - 1900) then n + 1 else n := by
    intro n
    by_cases h : Leap (y - 1900)
    · rw [if_pos h, if_pos ((C44_leap _).2 h)]
    · rw [if_neg h, if_neg (fun h' => h ((C44_leap _).1 h'))]
  simp only [hl]
  unfold RightMonth
  have hm : m = 3 ∨ m = 4 ∨ m = 5 ∨ m = 6 ∨ m = 7 ∨ m = 8 ∨ m = 9 ∨ m = 10 ∨ m = 11 ∨ m = 12 := by omega
  have hc : ∀ n : Int, (Leap (y - 1900) → (if Leap (y - 1900) then n + 1 else n) = n + 1) := fun n h => if_pos h
  rcases hm with rfl | rfl | rfl | rfl | rfl | rfl | rfl | rfl | rfl | rfl
  · refine ⟨31, by decide, by omega, by omega, ?_⟩
    unfold monthLen; by_cases h : Leap (y - 1900) <;> by_cases h' : Leap y <;> simp [h, h']
  · refine ⟨28, by decide, by omega, by omega, ?_⟩
    unfold monthLen; by_cases h : Leap (y - 1900) <;> simp [h]
  · refine ⟨31, by decide, by omega, by omega, ?_⟩
    unfold monthLen; by_cases h : Leap (y - 1900) <;> simp [h]
  · refine ⟨30, by decide, by omega, by omega, ?_⟩
    unfold monthLen; by_cases h : Leap (y - 1900) <;> simp [h]
  · refine ⟨31, by decide, by omega, by omega, ?_⟩
    unfold monthLen; by_cases h : Leap (y - 1900) <;> simp [h]
  · refine ⟨30, by decide, by omega, by omega, ?_⟩
    unfold monthLen; by_cases h : Leap (y - 1900) <;> simp [h]
  · refine ⟨31, by decide, by omega, by omega, ?_⟩
    unfold monthLen; by_cases h : Leap (y - 1900) <;> simp [h]
  · refine ⟨31, by decide, by omega, by omega, ?_⟩
    unfold monthLen; by_cases h : Leap (y - 1900) <;> simp [h]
  · refine ⟨30, by decide, by omega, by omega, ?_⟩
    unfold monthLen; by_cases h : Leap (y - 1900) <;> simp [h]
  · refine ⟨31, by decide, by omega, by omega, ?_⟩
    unfold monthLen; by_cases h : Leap (y - 1900) <;> simp [h]

end CCGL
