import Verif.Model.Time
import Verif.Spec.Time
namespace CCGL
open Spec

theorem leap_iff (y : Int) : Leap y ↔ (y % 4 = 0 ∧ (y % 100 ≠ 0 ∨ y % 400 = 0)) := by
  unfold Leap; omega

theorem leapN_cases (y : Int) : (Leap y ∧ leapN y = 1) ∨ (¬ Leap y ∧ leapN y = 0) := by
  unfold leapN
  split
  · next h => left; exact ⟨(leap_iff y).2 h, rfl⟩
  · next h => right; exact ⟨fun h' => h ((leap_iff y).1 h'), rfl⟩

theorem daysBeforeYear_succ (y : Int) : daysBeforeYear (y + 1) = daysBeforeYear y + 365 + leapN y := by
  unfold daysBeforeYear leapN
  split <;> omega

theorem daysBeforeYear_mono {a b : Int} (h : a ≤ b) : daysBeforeYear a ≤ daysBeforeYear b := by
  unfold daysBeforeYear; omega

theorem month_cases {m : Int} (h1 : 1 ≤ m) (h2 : m ≤ 12) : m = 1 ∨ m = 2 ∨ m = 3 ∨ m = 4 ∨ m = 5 ∨ m = 6 ∨
    m = 7 ∨ m = 8 ∨ m = 9 ∨ m = 10 ∨ m = 11 ∨ m = 12 := by omega

theorem daysBeforeMonth_succ (y m : Int) (h1 : 1 ≤ m) (h2 : m ≤ 12) :
    daysBeforeMonth y (m + 1) = daysBeforeMonth y m + monthLen y m := by
  rcases leapN_cases y with ⟨hl, hn⟩ | ⟨hl, hn⟩ <;>
  rcases month_cases h1 h2 with rfl | rfl | rfl | rfl | rfl | rfl | rfl | rfl | rfl | rfl | rfl | rfl <;>
    norm_num [daysBeforeMonth, monthLen, hl, hn]

theorem monthLen_pos (y m : Int) : 1 ≤ monthLen y m := by unfold monthLen; split_ifs <;> omega

theorem daysBeforeMonth_mono (y m : Int) (h1 : 1 ≤ m) : ∀ k : Nat, m + k ≤ 12 →
    daysBeforeMonth y m ≤ daysBeforeMonth y (m + k)
  | 0, _ => by simp
  | k + 1, h => by
    have e := daysBeforeMonth_succ y (m + k) (by omega) (by push_cast at h; omega)
    have i := daysBeforeMonth_mono y m h1 k (by push_cast at h; omega)
    have p := monthLen_pos y (m + k)
    have : m + ((k + 1 : Nat) : Int) = m + k + 1 := by push_cast; ring
    rw [this]; omega

/-- `dayNumber` counts days. -/
theorem dayNumber_next (t : Date) (hv : t.Valid) :
    dayNumber t.next.y t.next.m t.next.d = dayNumber t.y t.m t.d + 1 := by
  obtain ⟨y, m, d⟩ := t
  obtain ⟨h1, h2, h3, h4⟩ := hv
  simp only at h1 h2 h3 h4
  have hs := daysBeforeYear_succ y
  have key := daysBeforeMonth_succ y m h1 h2
  have hdec : daysBeforeMonth y 12 = 334 + leapN y := by
    unfold daysBeforeMonth; rw [if_neg (by omega)]; omega
  have hjan : ∀ y, daysBeforeMonth y 1 = 0 := by intro y; unfold daysBeforeMonth; simp
  unfold Date.next
  simp only
  split_ifs with ha hb
  · simp only [dayNumber]; omega
  · simp only [dayNumber]; omega
  · have hm : m = 12 := by omega
    subst hm
    have : monthLen y 12 = 31 := by unfold monthLen; simp
    simp only [dayNumber, hjan, hdec]; omega

theorem Date.next_valid (t : Date) (hv : t.Valid) : t.next.Valid := by
  obtain ⟨y, m, d⟩ := t
  obtain ⟨h1, h2, h3, h4⟩ := hv
  have hpos : ∀ y m, 1 ≤ monthLen y m := by intro y m; unfold monthLen; split_ifs <;> omega
  unfold Date.next
  simp only at h1 h2 h3 h4 ⊢
  split_ifs
  · exact ⟨h1, h2, by simp only; omega, by simp only; omega⟩
  · exact ⟨by simp only; omega, by simp only; omega, by simp only; omega, hpos _ _⟩
  · exact ⟨by simp, by simp, by simp, hpos _ _⟩

theorem monthDays_bounds (y m d : Int) (hv : (Date.mk y m d).Valid) :
    0 ≤ daysBeforeMonth y m + (d - 1) ∧ daysBeforeMonth y m + (d - 1) < 365 + leapN y := by
  obtain ⟨h1, h2, h3, h4⟩ := hv
  simp only at h1 h2 h3 h4
  unfold daysBeforeMonth
  unfold monthLen at h4
  rcases leapN_cases y with ⟨hl, hn⟩ | ⟨hl, hn⟩ <;> simp only [hl, hn, if_true, if_false] at h4 ⊢ <;>
    split_ifs at h4 ⊢ <;> omega

/-- Within a year. -/
theorem monthDays_mono (y m d m' d' : Int) (hv : (Date.mk y m d).Valid) (hv' : (Date.mk y m' d').Valid)
    (h : m < m') : daysBeforeMonth y m + (d - 1) < daysBeforeMonth y m' + (d' - 1) := by
  obtain ⟨h1, h2, h3, h4⟩ := hv
  obtain ⟨h1', h2', h3', h4'⟩ := hv'
  simp only at h1 h2 h3 h4 h1' h2' h3' h4'
  have e := daysBeforeMonth_succ y m h1 h2
  have i := daysBeforeMonth_mono y (m + 1) (by omega) (m' - (m + 1)).toNat (by omega)
  have : m + 1 + ((m' - (m + 1)).toNat : Int) = m' := by omega
  rw [this] at i
  omega

theorem dayNumber_before {s t : Date} (hs : s.Valid) (ht : t.Valid) (h : s.Before t) :
    dayNumber s.y s.m s.d < dayNumber t.y t.m t.d := by
  obtain ⟨y, m, d⟩ := s
  obtain ⟨y', m', d'⟩ := t
  unfold Date.Before at h
  simp only at h ⊢
  have b1 := monthDays_bounds y m d hs
  have b2 := monthDays_bounds y' m' d' ht
  unfold dayNumber
  rcases h with h | ⟨rfl, h | ⟨rfl, h⟩⟩
  · have e1 := daysBeforeYear_succ y
    have e2 := daysBeforeYear_mono (show y + 1 ≤ y' by omega)
    omega
  · have := monthDays_mono y m d m' d' hs ht h
    omega
  · omega

theorem before_trichotomy (s t : Date) : s.Before t ∨ s = t ∨ t.Before s := by
  obtain ⟨y, m, d⟩ := s
  obtain ⟨y', m', d'⟩ := t
  simp only [Date.Before, Date.mk.injEq]
  omega

theorem dayNumber_lt_iff {s t : Date} (hs : s.Valid) (ht : t.Valid) :
    dayNumber s.y s.m s.d < dayNumber t.y t.m t.d ↔ s.Before t := by
  constructor
  · intro h
    rcases before_trichotomy s t with h1 | rfl | h1
    · exact h1
    · omega
    · have := dayNumber_before ht hs h1; omega
  · exact dayNumber_before hs ht

theorem dayNumber_inj {s t : Date} (hs : s.Valid) (ht : t.Valid)
    (h : dayNumber s.y s.m s.d = dayNumber t.y t.m t.d) : s = t := by
  rcases before_trichotomy s t with h1 | h1 | h1
  · have := dayNumber_before hs ht h1; omega
  · exact h1
  · have := dayNumber_before ht hs h1; omega

/-- The code's formula is the day count (for the years where its divisions are not of negative numbers). -/
theorem julianDay_eq (y m d : Int) (h1 : 1 ≤ m) (h2 : m ≤ 12) (hy : -4799 ≤ y) :
    julianDay y m d = dayNumber y m d + 2440588 := by
  have hc : m = 1 ∨ m = 2 ∨ m = 3 ∨ m = 4 ∨ m = 5 ∨ m = 6 ∨ m = 7 ∨ m = 8 ∨ m = 9 ∨ m = 10 ∨ m = 11 ∨ m = 12 := by
    omega
  have ha : Int.tdiv (14 - m) 12 = if m ≤ 2 then 1 else 0 := by
    rw [Int.tdiv_eq_ediv_of_nonneg (by omega)]; split <;> omega
  unfold julianDay
  simp only [ha]
  have hm0 : 0 ≤ 153 * (m + 12 * (if m ≤ 2 then 1 else 0) - 3) + 2 := by split <;> omega
  have hy0 : 0 ≤ y + 4800 - (if m ≤ 2 then 1 else 0) := by split <;> omega
  rw [Int.tdiv_eq_ediv_of_nonneg hm0, Int.tdiv_eq_ediv_of_nonneg hy0, Int.tdiv_eq_ediv_of_nonneg hy0,
    Int.tdiv_eq_ediv_of_nonneg hy0]
  unfold dayNumber daysBeforeYear daysBeforeMonth leapN
  rcases hc with rfl | rfl | rfl | rfl | rfl | rfl | rfl | rfl | rfl | rfl | rfl | rfl <;> norm_num <;>
    (try split) <;> omega

/-! #### `gmtime` inverts `timegm` -/

theorem yearOfDays_spec (z : Int) : daysBeforeYear (yearOfDays z).1 + (yearOfDays z).2 = z ∧
    0 ≤ (yearOfDays z).2 ∧ (yearOfDays z).2 < 365 + leapN (yearOfDays z).1 := by
  unfold yearOfDays
  simp only
  have h0 := Int.emod_nonneg z (show (146097 : Int) ≠ 0 by omega)
  have h1 := Int.emod_lt_of_pos z (show (0 : Int) < 146097 by omega)
  have h2 := Int.mul_ediv_add_emod z 146097
  generalize z / 146097 = q at h2
  generalize z % 146097 = r at *
  obtain ⟨c, hc, hc0, hc3, hcl, hcu, hcv⟩ : ∃ c, min (r / 36524) 3 = c ∧ 0 ≤ c ∧ c ≤ 3 ∧ 0 ≤ r - c * 36524 ∧
      (c < 3 → r - c * 36524 < 36524) ∧ (c = 3 → r - c * 36524 ≤ 36524) :=
    ⟨min (r / 36524) 3, rfl, by omega, by omega, by omega, by omega, by omega⟩
  rw [hc]
  generalize hr1 : r - c * 36524 = r1 at *
  obtain ⟨k, hk, hk0, hk1, hkl, hku⟩ : ∃ k, r1 / 1461 = k ∧ 0 ≤ k ∧ k ≤ 24 ∧
      (0 ≤ r1 - k * 1461 ∧ r1 - k * 1461 < 1461) ∧ (k = 24 → c < 3 → r1 - k * 1461 < 1460) :=
    ⟨r1 / 1461, rfl, by omega, by omega, by omega, by omega⟩
  rw [hk]
  generalize hr2 : r1 - k * 1461 = r2 at *
  obtain ⟨n, hn, hn0, hn3, hnl, hnu, hnv⟩ : ∃ n, min (r2 / 365) 3 = n ∧ 0 ≤ n ∧ n ≤ 3 ∧ 0 ≤ r2 - n * 365 ∧
      (n < 3 → r2 - n * 365 < 365) ∧ (n = 3 → r2 - n * 365 ≤ 365) :=
    ⟨min (r2 / 365) 3, rfl, by omega, by omega, by omega, by omega, by omega⟩
  rw [hn]
  clear hc hk hn
  have e4 : (400 * q + 100 * c + 4 * k + n + 1 - 1) / 4 = 100 * q + 25 * c + k := by omega
  have e100 : (400 * q + 100 * c + 4 * k + n + 1 - 1) / 100 = 4 * q + c := by omega
  have e400 : (400 * q + 100 * c + 4 * k + n + 1 - 1) / 400 = q := by omega
  refine ⟨?_, hnl, ?_⟩
  · unfold daysBeforeYear
    rw [e4, e100, e400]; omega
  · unfold leapN
    split
    · omega
    · next h =>
      by_cases hn4 : n < 3
      · omega
      · have : n = 3 := by omega
        subst this
        have d4 : (400 * q + 100 * c + 4 * k + 3 + 1) % 4 = 0 := by omega
        have d100 : (400 * q + 100 * c + 4 * k + 3 + 1) % 100 = 0 := by
          by_contra h0; exact h ⟨d4, .inl h0⟩
        have d400 : ¬ (400 * q + 100 * c + 4 * k + 3 + 1) % 400 = 0 := fun h0 => h ⟨d4, .inr h0⟩
        have hk24 : k = 24 := by omega
        have hc' : c < 3 := by omega
        have := hkl
        have := hku hk24 hc'
        omega

theorem daysBeforeMonth_vals (y : Int) : daysBeforeMonth y 1 = 0 ∧ daysBeforeMonth y 2 = 31 ∧
    daysBeforeMonth y 3 = 59 + leapN y ∧ daysBeforeMonth y 4 = 90 + leapN y ∧ daysBeforeMonth y 5 = 120 + leapN y ∧
    daysBeforeMonth y 6 = 151 + leapN y ∧ daysBeforeMonth y 7 = 181 + leapN y ∧ daysBeforeMonth y 8 = 212 + leapN y ∧
    daysBeforeMonth y 9 = 243 + leapN y ∧ daysBeforeMonth y 10 = 273 + leapN y ∧
    daysBeforeMonth y 11 = 304 + leapN y ∧ daysBeforeMonth y 12 = 334 + leapN y ∧
    daysBeforeMonth y 13 = 365 + leapN y := by
  unfold daysBeforeMonth
  norm_num
  omega

theorem monthOfYday_range (y yd : Int) (h0 : 0 ≤ yd) (h1 : yd < 365 + leapN y) :
    1 ≤ monthOfYday y yd ∧ monthOfYday y yd ≤ 12 ∧ daysBeforeMonth y (monthOfYday y yd) ≤ yd ∧
      yd < daysBeforeMonth y (monthOfYday y yd + 1) := by
  obtain ⟨v1, v2, v3, v4, v5, v6, v7, v8, v9, v10, v11, v12, v13⟩ := daysBeforeMonth_vals y
  have hc : ∀ k : Int, monthOfYday y yd = k → 1 ≤ k → k ≤ 12 → daysBeforeMonth y k ≤ yd →
      yd < daysBeforeMonth y (k + 1) → 1 ≤ monthOfYday y yd ∧ monthOfYday y yd ≤ 12 ∧
      daysBeforeMonth y (monthOfYday y yd) ≤ yd ∧ yd < daysBeforeMonth y (monthOfYday y yd + 1) := by
    intro k hk a b c d; rw [hk]; exact ⟨a, b, c, d⟩
  unfold monthOfYday at hc ⊢
  simp only at hc ⊢
  by_cases c1 : yd < 31
  · exact hc 1 (by rw [if_pos c1]) (by decide) (by decide) (v1.le.trans (h0)) (c1.trans_eq v2.symm)
  by_cases c2 : yd < 59 + leapN y
  · exact hc 2 (by rw [if_neg c1, if_pos c2]) (by decide) (by decide) (v2.le.trans (not_lt.1 c1)) (c2.trans_eq v3.symm)
  by_cases c3 : yd < 90 + leapN y
  · exact hc 3 (by rw [if_neg c1, if_neg c2, if_pos c3]) (by decide) (by decide) (v3.le.trans (not_lt.1 c2)) (c3.trans_eq v4.symm)
  by_cases c4 : yd < 120 + leapN y
  · exact hc 4 (by rw [if_neg c1, if_neg c2, if_neg c3, if_pos c4]) (by decide) (by decide) (v4.le.trans (not_lt.1 c3)) (c4.trans_eq v5.symm)
  by_cases c5 : yd < 151 + leapN y
  · exact hc 5 (by rw [if_neg c1, if_neg c2, if_neg c3, if_neg c4, if_pos c5]) (by decide) (by decide) (v5.le.trans (not_lt.1 c4)) (c5.trans_eq v6.symm)
  by_cases c6 : yd < 181 + leapN y
  · exact hc 6 (by rw [if_neg c1, if_neg c2, if_neg c3, if_neg c4, if_neg c5, if_pos c6]) (by decide) (by decide) (v6.le.trans (not_lt.1 c5)) (c6.trans_eq v7.symm)
  by_cases c7 : yd < 212 + leapN y
  · exact hc 7 (by rw [if_neg c1, if_neg c2, if_neg c3, if_neg c4, if_neg c5, if_neg c6, if_pos c7]) (by decide) (by decide) (v7.le.trans (not_lt.1 c6)) (c7.trans_eq v8.symm)
  by_cases c8 : yd < 243 + leapN y
  · exact hc 8 (by rw [if_neg c1, if_neg c2, if_neg c3, if_neg c4, if_neg c5, if_neg c6, if_neg c7, if_pos c8]) (by decide) (by decide) (v8.le.trans (not_lt.1 c7)) (c8.trans_eq v9.symm)
  by_cases c9 : yd < 273 + leapN y
  · exact hc 9 (by rw [if_neg c1, if_neg c2, if_neg c3, if_neg c4, if_neg c5, if_neg c6, if_neg c7, if_neg c8, if_pos c9]) (by decide) (by decide) (v9.le.trans (not_lt.1 c8)) (c9.trans_eq v10.symm)
  by_cases c10 : yd < 304 + leapN y
  · exact hc 10 (by rw [if_neg c1, if_neg c2, if_neg c3, if_neg c4, if_neg c5, if_neg c6, if_neg c7, if_neg c8, if_neg c9, if_pos c10]) (by decide) (by decide) (v10.le.trans (not_lt.1 c9)) (c10.trans_eq v11.symm)
  by_cases c11 : yd < 334 + leapN y
  · exact hc 11 (by rw [if_neg c1, if_neg c2, if_neg c3, if_neg c4, if_neg c5, if_neg c6, if_neg c7, if_neg c8, if_neg c9, if_neg c10, if_pos c11]) (by decide) (by decide) (v11.le.trans (not_lt.1 c10)) (c11.trans_eq v12.symm)
  · exact hc 12 (by rw [if_neg c1, if_neg c2, if_neg c3, if_neg c4, if_neg c5, if_neg c6, if_neg c7, if_neg c8, if_neg c9, if_neg c10, if_neg c11]) (by decide) (by decide) (v12.le.trans (not_lt.1 c11)) (h1.trans_eq v13.symm)

theorem monthOfYday_spec (y yd : Int) (h0 : 0 ≤ yd) (h1 : yd < 365 + leapN y) :
    (Date.mk y (monthOfYday y yd) (yd - daysBeforeMonth y (monthOfYday y yd) + 1)).Valid := by
  obtain ⟨a, b, c, d⟩ := monthOfYday_range y yd h0 h1
  have := daysBeforeMonth_succ y _ a b
  exact ⟨a, b, by simp only; omega, by simp only; omega⟩

/-- The date of a UTC time is a calendar date. -/
theorem gmtime_valid (t : Int) : (Date.mk (getYear t) (getMonth t) (getDay t)).Valid := by
  have h := yearOfDays_spec (t / 86400 + 719162)
  have v := monthOfYday_spec _ _ h.2.1 h.2.2
  have e1 : getYear t = (yearOfDays (t / 86400 + 719162)).1 := by simp [getYear, gmtime]
  have e2 : getMonth t = monthOfYday (yearOfDays (t / 86400 + 719162)).1 (yearOfDays (t / 86400 + 719162)).2 := by
    simp [getMonth, gmtime]
  rw [e1, e2]; exact v

theorem gmtime_day (t : Int) : dayNumber (getYear t) (getMonth t) (getDay t) = t / 86400 := by
  have h := (yearOfDays_spec (t / 86400 + 719162)).1
  have e1 : getYear t = (yearOfDays (t / 86400 + 719162)).1 := by simp [getYear, gmtime]
  have e2 : getMonth t = monthOfYday (yearOfDays (t / 86400 + 719162)).1 (yearOfDays (t / 86400 + 719162)).2 := by
    simp [getMonth, gmtime]
  have e3 : getDay t = (yearOfDays (t / 86400 + 719162)).2 - daysBeforeMonth (getYear t) (getMonth t) + 1 := by
    rw [e1, e2]; simp [getDay, gmtime]
  rw [← e1] at h
  unfold dayNumber
  omega

theorem timegm_date (y m d hh mi s : Int) (a b : Int) (h1 : 1 ≤ m) (h2 : m ≤ 12) :
    timegm ⟨y - 1900, m - 1, d, hh, mi, s, a, b⟩ = 86400 * dayNumber y m d + 3600 * hh + 60 * mi + s := by
  unfold timegm
  have e1 : (m - 1) / 12 = 0 := by omega
  have e2 : (m - 1) % 12 + 1 = m := by omega
  simp only [e1, e2]
  unfold dayNumber
  have : y - 1900 + 1900 + 0 = y := by omega
  rw [this]; omega

theorem timegm_gmtime (t : Int) : timegm (gmtime t) = t := by
  have v := gmtime_valid t
  have h := gmtime_day t
  have e : gmtime t = ⟨getYear t - 1900, getMonth t - 1, getDay t, t % 86400 / 3600, t % 86400 % 3600 / 60,
      t % 86400 % 60, (gmtime t).yday, 0⟩ := by simp [getYear, getMonth, getDay, gmtime]
  rw [e, timegm_date _ _ _ _ _ _ _ _ v.1 v.2.1, h]
  omega

theorem convertYMD_eq (y m d : Int) (h1 : 1 ≤ m) (h2 : m ≤ 12) :
    convertYMDToTime y m d = 86400 * dayNumber y m d := by
  unfold convertYMDToTime
  rw [timegm_date _ _ _ _ _ _ _ _ h1 h2]; omega

theorem yday_eq (t : Int) : dayOfYearT t = dayNumber (getYear t) (getMonth t) (getDay t) -
    dayNumber (getYear t) 1 1 + 1 := by
  have h := (yearOfDays_spec (t / 86400 + 719162)).1
  rw [gmtime_day]
  have e1 : getYear t = (yearOfDays (t / 86400 + 719162)).1 := by simp [getYear, gmtime]
  have e2 : dayOfYearT t = (yearOfDays (t / 86400 + 719162)).2 + 1 := by simp [dayOfYearT, gmtime]
  have e3 : daysBeforeMonth (getYear t) 1 = 0 := by unfold daysBeforeMonth; simp
  rw [e2]
  rw [← e1] at h
  unfold dayNumber
  rw [e3]
  omega

end CCGL
