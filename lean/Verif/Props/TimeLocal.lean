import Verif.Lemmas.TimeLocal
/-!
# C99 local time
-/
namespace CCGL
open Spec

/-- With `utc_time = true` the zone plays no part: all the functions are those of C44–C47. -/
theorem C99_utc (z : TZ) (t y m d : Int) (s : Str) (f : List Fmt) (b : Bool) :
    getYearZ z true t = getYear t ∧ getMonthZ z true t = getMonth t ∧ getDayZ z true t = getDay t ∧
    dayOfYearZ z true t = dayOfYearT t ∧ julianDayZ z true t = julianDayT t ∧
    convertYMDToTimeZ z true y m d = convertYMDToTime y m d ∧ convertToTimeZ z true s f b = convertToTime s f b ∧
    convertToStringZ z true t = convertToString t ∧ convertToString2Z z true t = convertToString2 t ∧
    convertToString3Z z true t = convertToString3 t ∧ (∀ neg, getDateInfoZ neg z true t = getDateInfo t) := by
  have hd : dstBack (gmtime t) = .ok (gmtime t) := rfl
  refine ⟨rfl, rfl, rfl, rfl, rfl, rfl, rfl, rfl, ?_, ?_, fun neg => ?_⟩
  · unfold convertToString2Z getDateTime; rw [if_pos rfl, hd]; rfl
  · unfold convertToString3Z getDateTime; rw [if_pos rfl, hd]; rfl
  · have h0 : ¬ (gmtime t).hour < 0 := by have := (gmtime_time t).1; omega
    have e : strftimeNeg neg 30 [.Y, .lit '-', .m, .lit '-', .d, .lit ' ', .H, .lit ':', .M, .lit ':', .S] (gmtime t) =
        convertToString2 t := by
      unfold strftimeNeg convertToString2 strftime
      have : (fun x => if x = TFmt.H ∧ (gmtime t).hour < 0 then neg else strftime1 (gmtime t) x) = strftime1 (gmtime t) := by
        funext x; rw [if_neg (fun h => h0 h.2)]
      rw [this]
    have hz : getDateInfoZ neg z true t = match strftimeNeg neg 30 [.Y, .lit '-', .m, .lit '-', .d, .lit ' ', .H,
        .lit ':', .M, .lit ':', .S] (gmtime t) with
      | .ok s =>
        match sscanf [.int 4, .lit '-', .int 2, .lit '-', .int 2, .ws, .int 2, .lit ':', .int 2, .lit ':', .int 2] s with
        | y :: m :: d :: _ => .ok (y, m, d)
        | _ => .ub
      | .ub => .ub
      | .exn => .exn := rfl
    rw [hz, e]
    unfold getDateInfo
    cases convertToString2 t <;> rfl

/-- The local date of `t` is the day on whose 24 hours, read on the wall clock, `t` falls. -/
theorem C99_local_date (z : TZ) (t : Int) :
    (Date.mk (getYearZ z false t) (getMonthZ z false t) (getDayZ z false t)).Valid ∧
    ∀ D : Date, D.Valid → (D = ⟨getYearZ z false t, getMonthZ z false t, getDayZ z false t⟩ ↔
      convertYMDToTime D.y D.m D.d ≤ t + z.offset t ∧ t + z.offset t < convertYMDToTime D.next.y D.next.m D.next.d) := by
  have e : (⟨getYearZ z false t, getMonthZ z false t, getDayZ z false t⟩ : Date) = dateOf (t + z.offset t) := rfl
  rw [e]
  refine ⟨dateOf_valid _, fun D hv => ?_⟩
  have hn := Date.next_valid D hv
  rw [convertYMD_eq _ _ _ hv.1 hv.2.1, convertYMD_eq _ _ _ hn.1 hn.2.1, dayNumber_next D hv]
  constructor
  · rintro rfl
    have := gmtime_day (t + z.offset t)
    unfold dateOf
    simp only
    rw [this]; omega
  · intro h
    exact (dateOf_eq hv (by omega)).symm

/-- Day of the year and Julian day of a local time are those of the local date. -/
theorem C99_local_days (z : TZ) (t : Int) (hy : -4800 < getYearZ z false t) :
    dayOfYearZ z false t = dayOfYear (getYearZ z false t) (getMonthZ z false t) (getDayZ z false t) ∧
    julianDayZ z false t = julianDay (getYearZ z false t) (getMonthZ z false t) (getDayZ z false t) :=
  ⟨C46_of_time (t + z.offset t) hy, rfl⟩

/-- A date converted to a local time has that local date, in every zone and at every time of the year. -/
theorem C99_ymd_roundtrip (z : TZ) (h0 : 0 ≤ z.save) (h1 : z.save < 86400) (D : Date) (hv : D.Valid) :
    getYearZ z false (convertYMDToTimeZ z false D.y D.m D.d) = D.y ∧
    getMonthZ z false (convertYMDToTimeZ z false D.y D.m D.d) = D.m ∧
    getDayZ z false (convertYMDToTimeZ z false D.y D.m D.d) = D.d := by
  have e : convertYMDToTimeZ z false D.y D.m D.d = 86400 * dayNumber D.y D.m D.d - z.std := by
    rw [← convertYMD_eq _ _ _ hv.1 hv.2.1]; rfl
  rw [e]
  generalize ht : 86400 * dayNumber D.y D.m D.d - z.std = t
  have ho : t + z.offset t = 86400 * dayNumber D.y D.m D.d + (if z.dst t then z.save else 0) := by
    unfold TZ.offset; omega
  have hd : dateOf (t + z.offset t) = D := by
    refine dateOf_eq hv ?_
    rw [ho]; split_ifs <;> omega
  exact ⟨congrArg Date.y hd, congrArg Date.m hd, congrArg Date.d hd⟩

/-- In that order: later dates are later times. -/
theorem C99_ymd_order (z : TZ) (s t : Date) (hs : s.Valid) (ht : t.Valid) :
    convertYMDToTimeZ z false s.y s.m s.d < convertYMDToTimeZ z false t.y t.m t.d ↔ s.Before t := by
  have e : ∀ D : Date, D.Valid → convertYMDToTimeZ z false D.y D.m D.d = 86400 * dayNumber D.y D.m D.d - z.std := by
    intro D hv; rw [← convertYMD_eq _ _ _ hv.1 hv.2.1]; rfl
  rw [e s hs, e t ht, ← dayNumber_lt_iff hs ht]
  omega

/-- `ConvertToString` of a local time is the local date, and reading it back gives the start of this day in standard
time: which is after `t` exactly in the hour after midnight under daylight saving. -/
theorem C99_string (z : TZ) (hs : z.save = 3600) (t : Int) (h0 : 1000 ≤ getYearZ z false t) (h1 : getYearZ z false t ≤ 9999)
    (w4 w2 : Nat) (hw4 : w4 = 0 ∨ w4 = 4) (hw2 : w2 = 0 ∨ w2 = 2) :
    convertToStringZ z false t = convertToString (t + z.offset t) ∧
    ∃ r, (convertToStringZ z false t >>= fun s =>
        convertToTimeZ z false s [.int w4, .lit '-', .int w2, .lit '-', .int w2] false) = .ok r ∧
      r = convertYMDToTimeZ z false (getYearZ z false t) (getMonthZ z false t) (getDayZ z false t) ∧
      (t < r ↔ HourAfterMidnight z t) ∧ t < r + 86400 + 3600 := by
  have e : convertToStringZ z false t = convertToString (t + z.offset t) := by
    unfold convertToStringZ getDateTime
    simp only [Bool.false_eq_true, if_false]
    unfold TZ.localtime convertToString strftime
    cases z.dst t <;> rfl
  have hy0 : 1000 ≤ getYear (t + z.offset t) := h0
  have hy1 : getYear (t + z.offset t) ≤ 9999 := h1
  have hr := C47_roundtrip (t + z.offset t) hy0 hy1 w4 w2 hw4 hw2
  obtain ⟨m1, m2, d1, d2⟩ := gm_fields (t + z.offset t)
  refine ⟨e, _, ?_, rfl, ?_, ?_⟩
  · rw [e, convertToString_eq _ hy0 hy1, Out.ok_bind]
    have hs' := sscanf_date w4 w2 hw4 hw2 '-' rfl (getYear (t + z.offset t)) (getMonth (t + z.offset t)) (getDay (t + z.offset t))
      (by omega) hy1 (by omega) (by omega) (by omega) (by omega) [] noDigit_nil []
    unfold convertToTimeZ
    rw [if_neg (by simp [fourDigits]), hs']
    rfl
  · have ey : convertYMDToTimeZ z false (getYearZ z false t) (getMonthZ z false t) (getDayZ z false t) =
        86400 * ((t + z.offset t) / 86400) - z.std := by
      rw [← gmtime_day, ← convertYMD_eq _ _ _ m1 m2]; rfl
    rw [ey]
    unfold HourAfterMidnight
    cases hd : z.dst t
    · have ho : t + z.offset t = t + z.std := by unfold TZ.offset; rw [hd]; simp
      rw [ho]; simp; omega
    · have ho : t + z.offset t = t + z.std + 3600 := by unfold TZ.offset; rw [hd, hs]; simp; omega
      rw [ho]; simp only [true_and]; omega
  · have ey : convertYMDToTimeZ z false (getYearZ z false t) (getMonthZ z false t) (getDayZ z false t) =
        86400 * ((t + z.offset t) / 86400) - z.std := by
      rw [← gmtime_day, ← convertYMD_eq _ _ _ m1 m2]; rfl
    rw [ey]
    have ho : t + z.std ≤ t + z.offset t := by unfold TZ.offset; split_ifs <;> omega
    omega

/-! ## The texts with the time of the day -/

theorem localtime_wall (z : TZ) (t : Int) : z.localtime t = ⟨getYear (t + z.offset t) - 1900, getMonth (t + z.offset t) - 1,
    getDay (t + z.offset t), (t + z.offset t) % 86400 / 3600, (t + z.offset t) % 86400 % 3600 / 60,
    (t + z.offset t) % 86400 % 60, (gmtime (t + z.offset t)).yday, if z.dst t then 1 else 0⟩ := by
  simp [TZ.localtime, getYear, getMonth, getDay, gmtime]

/-- What the correction gives outside of the first hour of a month: the fields of the standard time. -/
theorem dstBack_std (z : TZ) (hs : z.save = 3600) (t : Int)
    (hf : ¬ FirstHour z t ⟨getYearZ z false t, getMonthZ z false t, getDayZ z false t⟩) :
    ∃ tm, dstBack (z.localtime t) = .ok tm ∧ tm.year + 1900 = getYear (t + z.std) ∧ tm.mon + 1 = getMonth (t + z.std) ∧
      tm.mday = getDay (t + z.std) ∧ tm.hour = (gmtime (t + z.std)).hour ∧ tm.min = (gmtime (t + z.std)).min ∧
      tm.sec = (gmtime (t + z.std)).sec := by
  obtain ⟨e1, e2, e3⟩ := gmtime_time (t + z.std)
  rw [e1, e2, e3]
  cases hd : z.dst t
  · have ho : z.offset t = z.std := by unfold TZ.offset; rw [hd]; simp
    have hb : dstBack (z.localtime t) = .ok (z.localtime t) := by
      unfold dstBack; rw [if_neg]; rw [localtime_wall, hd]; simp
    refine ⟨_, hb, ?_⟩
    rw [localtime_wall, ho]
    simp
  · have hf' : ¬ ((t + z.offset t) % 86400 < 3600 ∧ getDay (t + z.offset t) = 1) := fun h => hf ⟨⟨hd, h.1⟩, h.2⟩
    have ho : t + z.std = t + z.offset t - 3600 := by unfold TZ.offset; rw [hd, hs]; simp; omega
    rw [ho]
    have hL := localtime_wall z t
    rw [hd] at hL
    generalize t + z.offset t = u at *
    rw [hL]
    unfold dstBack
    simp only [if_true]
    rw [if_pos (by decide)]
    by_cases hh : u % 86400 < 3600
    · rw [if_neg (by simp only [ne_eq, not_not]; omega)]
      have hday : getDay u ≠ 1 := fun h => hf' ⟨hh, h⟩
      rw [if_neg (by omega)]
      have hp := (dateOf_prev hh).1 hday
      refine ⟨_, rfl, ?_, ?_, ?_, ?_, ?_, ?_⟩
      · have := congrArg Date.y hp; simp only [dateOf] at this ⊢; omega
      · have := congrArg Date.m hp; simp only [dateOf] at this ⊢; omega
      · have := congrArg Date.d hp; simp only [dateOf] at this ⊢; omega
      · simp only; omega
      · simp only; omega
      · simp only; omega
    · rw [if_pos (by simp only [ne_eq]; omega)]
      have hp := dateOf_same hh
      refine ⟨_, rfl, ?_, ?_, ?_, ?_, ?_, ?_⟩
      · have := congrArg Date.y hp; simp only [dateOf] at this ⊢; omega
      · have := congrArg Date.m hp; simp only [dateOf] at this ⊢; omega
      · have := congrArg Date.d hp; simp only [dateOf] at this ⊢; omega
      · simp only; omega
      · simp only; omega
      · simp only; omega

/-- `ConvertToString2` and `ConvertToString3` of a local time show the standard time of the zone (the wall clock without
the saving), and `ConvertToTime` reads `t` back, except in the first hour of a month under daylight saving. -/
theorem C99_texts_partial (z : TZ) (hs : z.save = 3600) (t : Int) (h0 : 1000 ≤ getYear (t + z.std))
    (h1 : getYear (t + z.std) ≤ 9999)
    (hf : ¬ FirstHour z t ⟨getYearZ z false t, getMonthZ z false t, getDayZ z false t⟩)
    (w4 w2 : Nat) (hw4 : w4 = 0 ∨ w4 = 4) (hw2 : w2 = 0 ∨ w2 = 2) :
    convertToString2Z z false t = convertToString2 (t + z.std) ∧
    convertToString3Z z false t = convertToString3 (t + z.std) ∧
    (convertToString2Z z false t >>= fun s => convertToTimeZ z false s
      [.int w4, .lit '-', .int w2, .lit '-', .int w2, .ws, .int w2, .lit ':', .int w2, .lit ':', .int w2] true) = .ok t ∧
    (convertToString3Z z false t >>= fun s => convertToTimeZ z false s
      [.int 4, .lit '_', .int 2, .lit '_', .int 2, .lit '_', .int 2, .int 2, .int 2] true) = .ok t := by
  obtain ⟨tm, hb, f1, f2, f3, f4, f5, f6⟩ := dstBack_std z hs t hf
  obtain ⟨e1, e2, e3⟩ := gmtime_time (t + z.std)
  obtain ⟨m1, m2, d1, d2⟩ := gm_fields (t + z.std)
  have g2 : convertToString2Z z false t = .ok (text2 (getYear (t + z.std)) (getMonth (t + z.std)) (getDay (t + z.std))
      (gmtime (t + z.std)).hour (gmtime (t + z.std)).min (gmtime (t + z.std)).sec) := by
    have : convertToString2Z z false t = strftime 30 [.Y, .lit '-', .m, .lit '-', .d, .lit ' ', .H, .lit ':', .M,
        .lit ':', .S] tm := by
      unfold convertToString2Z getDateTime; simp only [Bool.false_eq_true, if_false]; rw [hb]
    rw [this, strftime_text2 tm (by omega) (by omega), f1, f2, f3, f4, f5, f6]
  have g3 : convertToString3Z z false t = .ok (text3 (getYear (t + z.std)) (getMonth (t + z.std)) (getDay (t + z.std))
      (gmtime (t + z.std)).hour (gmtime (t + z.std)).min (gmtime (t + z.std)).sec) := by
    have : convertToString3Z z false t = strftime 30 [.Y, .lit '_', .m, .lit '_', .d, .lit '_', .H, .M, .S] tm := by
      unfold convertToString3Z getDateTime; simp only [Bool.false_eq_true, if_false]; rw [hb]
    rw [this, strftime_text3 tm (by omega) (by omega), f1, f2, f3, f4, f5, f6]
  have ht : timegm ⟨getYear (t + z.std) - 1900, getMonth (t + z.std) - 1, getDay (t + z.std), (gmtime (t + z.std)).hour,
      (gmtime (t + z.std)).min, (gmtime (t + z.std)).sec, 0, 0⟩ - (if false = true then 0 else z.std) = t := by
    rw [timegm_date _ _ _ _ _ _ _ _ m1 m2, gmtime_day, e1, e2, e3]
    simp only [Bool.false_eq_true, if_false]; omega
  refine ⟨?_, ?_, ?_, ?_⟩
  · rw [g2, convertToString2_eq _ h0 h1]; rfl
  · rw [g3, convertToString3_eq _ h0 h1]; rfl
  · rw [g2, Out.ok_bind, read_text2 z false (by omega) (by omega) (by omega) (by omega) (by omega) (by omega) (by omega)
      (by omega) (by omega) (by omega) (by omega) (by omega) w4 w2 hw4 hw2, ht]
  · rw [g3, Out.ok_bind, read_text3 z false (by omega) (by omega) (by omega) (by omega) (by omega) (by omega) (by omega)
      (by omega) (by omega) (by omega) (by omega) (by omega), ht]

/-- The first hour of a month under daylight saving: in January the table of month lengths is read before its start; in
February the text has the month 13 of the previous year (which `ConvertToTime` happens to read back correctly); in the
other months text and time read back are right only in the months of `RightMonth`. -/
theorem C99_first_hour (z : TZ) (hs : z.save = 3600) (t : Int) (h0 : 1001 ≤ getYearZ z false t)
    (h1 : getYearZ z false t ≤ 9999)
    (hf : FirstHour z t ⟨getYearZ z false t, getMonthZ z false t, getDayZ z false t⟩)
    (w4 w2 : Nat) (hw4 : w4 = 0 ∨ w4 = 4) (hw2 : w2 = 0 ∨ w2 = 2) :
    (getMonthZ z false t = 1 → convertToString2Z z false t = .ub ∧ convertToString3Z z false t = .ub) ∧
    (convertToString2Z z false t = convertToString2 (t + z.std) ↔ RightMonth (getYearZ z false t) (getMonthZ z false t)) ∧
    (convertToString3Z z false t = convertToString3 (t + z.std) ↔ RightMonth (getYearZ z false t) (getMonthZ z false t)) ∧
    ((convertToString2Z z false t >>= fun s => convertToTimeZ z false s
      [.int w4, .lit '-', .int w2, .lit '-', .int w2, .ws, .int w2, .lit ':', .int w2, .lit ':', .int w2] true) = .ok t ↔
      getMonthZ z false t = 2 ∨ RightMonth (getYearZ z false t) (getMonthZ z false t)) ∧
    ((convertToString3Z z false t >>= fun s => convertToTimeZ z false s
      [.int 4, .lit '_', .int 2, .lit '_', .int 2, .lit '_', .int 2, .int 2, .int 2] true) = .ok t ↔
      getMonthZ z false t = 2 ∨ RightMonth (getYearZ z false t) (getMonthZ z false t)) := by
  obtain ⟨⟨hd, hh⟩, hday⟩ := hf
  have ho : t + z.std = t + z.offset t - 3600 := by unfold TZ.offset; rw [hd, hs]; simp; omega
  have hst : z.std = (t + z.offset t) - 3600 - t := by omega
  have hL := localtime_wall z t
  rw [hd] at hL
  have ey : getYearZ z false t = getYear (t + z.offset t) := rfl
  have em : getMonthZ z false t = getMonth (t + z.offset t) := rfl
  have ed : getDayZ z false t = getDay (t + z.offset t) := rfl
  rw [ey] at h0 h1 ⊢
  rw [em, ho]
  simp only [ed] at hday
  have d2 : convertToString2Z z false t = match dstBack (z.localtime t) with
    | .ok tm => strftime 30 [.Y, .lit '-', .m, .lit '-', .d, .lit ' ', .H, .lit ':', .M, .lit ':', .S] tm
    | .ub => .ub
    | .exn => .exn := rfl
  have d3 : convertToString3Z z false t = match dstBack (z.localtime t) with
    | .ok tm => strftime 30 [.Y, .lit '_', .m, .lit '_', .d, .lit '_', .H, .M, .S] tm
    | .ub => .ub
    | .exn => .exn := rfl
  generalize t + z.offset t = u at *
  obtain ⟨m1, m2, -, -⟩ := gm_fields u
  obtain ⟨-, hp2, hp1⟩ := dateOf_prev hh
  have hp2 := hp2 hday
  have hp1 := hp1 hday
  by_cases hm1 : getMonth u = 1
  · have hb : dstBack (z.localtime t) = .ub := by
      rw [hL]; unfold dstBack
      simp only [if_true]
      rw [if_pos (by decide), if_neg (by simp only [ne_eq, not_not]; omega), if_pos (by omega), if_neg (by omega), hm1]
      rfl
    rw [hb] at d2 d3
    have hnr : ¬ RightMonth (getYear u) (getMonth u) := by unfold RightMonth; omega
    have hp1 := hp1 hm1
    rw [d2, d3]
    have k0 : ∀ x : Str, (Out.ub : Out Str) = .ok x → False := fun x h => by cases h
    by_cases hy : getYear u - 1 < 1000
    · exfalso; omega
    have y1 : getYear (u - 3600) = getYear u - 1 := congrArg Date.y hp1
    refine ⟨fun _ => ⟨rfl, rfl⟩, ?_, ?_, ?_, ?_⟩
    · rw [convertToString2_eq _ (by omega) (by omega)]
      exact ⟨fun h => (k0 _ h).elim, fun h => absurd h hnr⟩
    · rw [convertToString3_eq _ (by omega) (by omega)]
      exact ⟨fun h => (k0 _ h).elim, fun h => absurd h hnr⟩
    · exact ⟨fun h => (by cases h), fun h => by rcases h with h | h; (· omega); exact absurd h hnr⟩
    · exact ⟨fun h => (by cases h), fun h => by rcases h with h | h; (· omega); exact absurd h hnr⟩
  · have hp2 := hp2 hm1
    have y1 : getYear (u - 3600) = getYear u := congrArg Date.y hp2
    have mo1 : getMonth (u - 3600) = getMonth u - 1 := congrArg Date.m hp2
    have da1 : getDay (u - 3600) = monthLen (getYear u) (getMonth u - 1) := congrArg Date.d hp2
    obtain ⟨e1, e2, e3⟩ := gmtime_time (u - 3600)
    have hday' : getDay (u - 3600) ≤ 31 ∧ 1 ≤ getDay (u - 3600) := by have := gm_fields (u - 3600); omega
    have c2 := convertToString2_eq (u - 3600) (by omega) (by omega)
    have c3 := convertToString3_eq (u - 3600) (by omega) (by omega)
    by_cases hm2 : getMonth u = 2
    · have hb : dstBack (z.localtime t) = .ok ⟨getYear u - 1900 - 1, 12, 31, 23, u % 86400 % 3600 / 60, u % 86400 % 60,
          (gmtime u).yday, 1⟩ := by
        rw [hL]; unfold dstBack
        simp only [if_true]
        rw [if_pos (by decide), if_neg (by simp only [ne_eq, not_not]; omega), if_pos (by omega), if_pos (by omega)]
      rw [hb] at d2 d3
      simp only at d2 d3
      rw [strftime_text2 _ (by simp only; omega) (by simp only; omega)] at d2
      rw [strftime_text3 _ (by simp only; omega) (by simp only; omega)] at d3
      simp only at d2 d3
      have hnr : ¬ RightMonth (getYear u) (getMonth u) := by unfold RightMonth; omega
      have ht : timegm ⟨getYear u - 1900 - 1 + 1900 - 1900, 12 + 1 - 1, 31, 23, u % 86400 % 3600 / 60, u % 86400 % 60, 0, 0⟩ -
          (if false = true then 0 else z.std) = t := by
        have hn := gmtime_day (u - 3600)
        rw [y1, mo1, da1, hm2] at hn
        unfold timegm
        simp only [Bool.false_eq_true, if_false]
        rw [show getYear u - 1900 - 1 + 1900 - 1900 + 1900 + (12 + 1 - 1) / 12 = getYear u by omega,
          show ((12 : Int) + 1 - 1) % 12 + 1 = 1 by norm_num]
        have hl : monthLen (getYear u) (2 - 1) = 31 := by unfold monthLen; simp
        rw [hl] at hn
        norm_num at hn ⊢
        unfold dayNumber at hn ⊢
        omega
      refine ⟨fun h => absurd h hm1, ?_, ?_, ?_, ?_⟩
      · refine ⟨fun h => ?_, fun h => absurd h hnr⟩
        rw [d2, c2] at h
        injection h with h
        have := (text2_inj (by omega) (by omega) (by omega) (by omega) (by omega) (by omega) (by omega) (by omega) h).1
        omega
      · refine ⟨fun h => ?_, fun h => absurd h hnr⟩
        rw [d3, c3] at h
        injection h with h
        have := (text3_inj (by omega) (by omega) (by omega) (by omega) (by omega) (by omega) (by omega) (by omega) h).1
        omega
      · refine ⟨fun _ => .inl hm2, fun _ => ?_⟩
        rw [d2, Out.ok_bind, read_text2 z false (by omega) (by omega) (by omega) (by omega) (by omega) (by omega) (by omega)
          (by omega) (by omega) (by omega) (by omega) (by omega) w4 w2 hw4 hw2, ht]
      · refine ⟨fun _ => .inl hm2, fun _ => ?_⟩
        rw [d3, Out.ok_bind, read_text3 z false (by omega) (by omega) (by omega) (by omega) (by omega) (by omega) (by omega)
          (by omega) (by omega) (by omega) (by omega) (by omega), ht]
    · obtain ⟨n, hn, n1, n2, hr⟩ := tab_read (getYear u) (getMonth u) (by omega) m2
      generalize hk : (if isLeapYear (getYear u - 1900) = true then n + 1 else n) = k at hr
      have k1 : 28 ≤ k ∧ k ≤ 32 := by split_ifs at hk <;> omega
      have hb : dstBack (z.localtime t) = .ok ⟨getYear u - 1900, getMonth u - 2, k, 23, u % 86400 % 3600 / 60,
          u % 86400 % 60, (gmtime u).yday, 1⟩ := by
        rw [hL]; unfold dstBack
        simp only [if_true]
        rw [if_pos (by decide), if_neg (by simp only [ne_eq, not_not]; omega), if_pos (by omega), if_neg (by omega),
          show getMonth u - 1 - 1 = getMonth u - 2 by omega, hn]
        simp only [hk]
      rw [hb] at d2 d3
      simp only at d2 d3
      rw [strftime_text2 _ (by simp only; omega) (by simp only; omega)] at d2
      rw [strftime_text3 _ (by simp only; omega) (by simp only; omega)] at d3
      simp only [show getYear u - 1900 + 1900 = getYear u by omega, show getMonth u - 2 + 1 = getMonth u - 1 by omega] at d2 d3
      have f4 : (gmtime (u - 3600)).hour = 23 := by rw [e1]; omega
      have f5 : (gmtime (u - 3600)).min = u % 86400 % 3600 / 60 := by rw [e2]; omega
      have f6 : (gmtime (u - 3600)).sec = u % 86400 % 60 := by rw [e3]; omega
      rw [y1, mo1, da1, f4, f5, f6] at c2 c3
      have hM := da1 ▸ hday'
      have ht : timegm ⟨getYear u - 1900, getMonth u - 1 - 1, k, 23, u % 86400 % 3600 / 60, u % 86400 % 60, 0, 0⟩ -
          (if false = true then 0 else z.std) = t + 86400 * (k - monthLen (getYear u) (getMonth u - 1)) := by
        have hn := gmtime_day (u - 3600)
        rw [y1, mo1, da1] at hn
        rw [timegm_date _ _ _ _ _ _ _ _ (by omega) (by omega)]
        simp only [Bool.false_eq_true, if_false]
        unfold dayNumber at hn ⊢
        omega
      refine ⟨fun h => absurd h hm1, ?_, ?_, ?_, ?_⟩
      · rw [← hr]
        constructor
        · intro h
          rw [d2, c2] at h
          injection h with h
          exact (text2_inj (by omega) (by omega) (by omega) (by omega) (by omega) (by omega) (by omega) (by omega) h).2
        · intro h; rw [d2, c2, h]; rfl
      · rw [← hr]
        constructor
        · intro h
          rw [d3, c3] at h
          injection h with h
          exact (text3_inj (by omega) (by omega) (by omega) (by omega) (by omega) (by omega) (by omega) (by omega) h).2
        · intro h; rw [d3, c3, h]; rfl
      · rw [d2, Out.ok_bind, read_text2 z false (by omega) (by omega) (by omega) (by omega) (by omega) (by omega) (by omega)
          (by omega) (by omega) (by omega) (by omega) (by omega) w4 w2 hw4 hw2, ht, ← hr]
        constructor
        · intro h; injection h with h; right; omega
        · rintro (h | h)
          · exact absurd h hm2
          · rw [h]; simp
      · rw [d3, Out.ok_bind, read_text3 z false (by omega) (by omega) (by omega) (by omega) (by omega) (by omega) (by omega)
          (by omega) (by omega) (by omega) (by omega) (by omega), ht, ← hr]
        constructor
        · intro h; injection h with h; right; omega
        · rintro (h | h)
          · exact absurd h hm2
          · rw [h]; simp

/-- `GetDateInfoFromTimet` of a local time: the local date, whatever is printed for the hour -1. -/
theorem C99_dateInfo (z : TZ) (t : Int) (h0 : 1000 ≤ getYearZ z false t) (h1 : getYearZ z false t ≤ 9999) (neg : Str)
    (hneg : neg.length ≤ 12) :
    getDateInfoZ neg z false t = .ok (getYearZ z false t, getMonthZ z false t, getDayZ z false t) := by
  have hL := localtime_wall z t
  have ey : getYearZ z false t = getYear (t + z.offset t) := rfl
  have em : getMonthZ z false t = getMonth (t + z.offset t) := rfl
  have ed : getDayZ z false t = getDay (t + z.offset t) := rfl
  rw [ey] at h0 h1 ⊢
  rw [em, ed]
  have key : ∀ tm : TM, tm.year + 1900 = getYear (t + z.offset t) → tm.mon + 1 = getMonth (t + z.offset t) →
      tm.mday = getDay (t + z.offset t) →
      (match strftimeNeg neg 30 [.Y, .lit '-', .m, .lit '-', .d, .lit ' ', .H, .lit ':', .M, .lit ':', .S] tm with
      | .ok s =>
        match sscanf [.int 4, .lit '-', .int 2, .lit '-', .int 2, .ws, .int 2, .lit ':', .int 2, .lit ':', .int 2] s with
        | y :: m :: d :: _ => (.ok (y, m, d) : Out (Int × Int × Int))
        | _ => .ub
      | .ub => .ub
      | .exn => .exn) = .ok (getYear (t + z.offset t), getMonth (t + z.offset t), getDay (t + z.offset t)) := by
    intro tm k1 k2 k3
    obtain ⟨m1, m2, d1, d2⟩ := gm_fields (t + z.offset t)
    have e : ∃ rest, strftimeNeg neg 30 [.Y, .lit '-', .m, .lit '-', .d, .lit ' ', .H, .lit ':', .M, .lit ':', .S] tm =
        .ok (fourDigits (getYear (t + z.offset t)) ++ ('-' :: (twoDigits (getMonth (t + z.offset t)) ++ ('-' ::
        (twoDigits (getDay (t + z.offset t)) ++ (' ' :: rest)))))) := by
      let hr := if tm.hour < 0 then neg else twoDigits tm.hour
      refine ⟨hr ++ (':' :: (twoDigits tm.min ++ (':' :: (twoDigits tm.sec ++ [])))), ?_⟩
      unfold strftimeNeg
      have e : [TFmt.Y, .lit '-', .m, .lit '-', .d, .lit ' ', .H, .lit ':', .M, .lit ':', .S].flatMap
          (fun x => if x = TFmt.H ∧ tm.hour < 0 then neg else strftime1 tm x) =
          intToDec (tm.year + 1900) ++ ('-' :: (twoDigits (tm.mon + 1) ++ ('-' ::
          (twoDigits tm.mday ++ (' ' :: (hr ++ (':' :: (twoDigits tm.min ++ (':' ::
          (twoDigits tm.sec ++ [])))))))))) := by
        simp [strftime1, hr]
      rw [e, k1, k2, k3, intToDec_four _ h0 h1]
      have hl : hr.length ≤ 12 := by
        simp only [hr]; split_ifs
        · exact hneg
        · simp [twoDigits]
      rw [if_pos (by simp only [List.length_append, List.length_cons, List.length_nil, fourDigits, twoDigits]; omega)]
    obtain ⟨rest, e⟩ := e
    rw [e]
    simp only
    rw [sscanf_date 4 2 (.inr rfl) (.inr rfl) '-' rfl (getYear (t + z.offset t)) (getMonth (t + z.offset t))
      (getDay (t + z.offset t)) (by omega) h1 (by omega) (by omega) (by omega) (by omega) _ (noDigit_cons _ rfl)]
  have hz : ∀ tm1, (if 0 < (z.localtime t).isdst then { z.localtime t with hour := (z.localtime t).hour - 1 }
      else z.localtime t) = tm1 → getDateInfoZ neg z false t =
      (match strftimeNeg neg 30 [.Y, .lit '-', .m, .lit '-', .d, .lit ' ', .H, .lit ':', .M, .lit ':', .S] tm1 with
      | .ok s =>
        match sscanf [.int 4, .lit '-', .int 2, .lit '-', .int 2, .ws, .int 2, .lit ':', .int 2, .lit ':', .int 2] s with
        | y :: m :: d :: _ => (.ok (y, m, d) : Out (Int × Int × Int))
        | _ => .ub
      | .ub => .ub
      | .exn => .exn) := by rintro _ rfl; rfl
  rw [hz _ rfl]
  refine key _ ?_ ?_ ?_
  · split_ifs <;> simp [TZ.localtime, getYear]
  · split_ifs <;> simp [TZ.localtime, getMonth]
  · split_ifs <;> simp [TZ.localtime, getDay]

/-! ## Zones: east Australia (saving from October to March), central Europe (April to September), and Lord Howe Island,
where the saving is half an hour -/

def exSydney : TZ := ⟨36000, 3600, fun t => decide ((gmtime (t + 36000)).mon < 3 ∨ 9 ≤ (gmtime (t + 36000)).mon)⟩
def exBerlin : TZ := ⟨3600, 3600, fun t => decide (3 ≤ (gmtime (t + 3600)).mon ∧ (gmtime (t + 3600)).mon < 9)⟩
def exHowe : TZ := ⟨37800, 1800, fun t => decide ((gmtime (t + 37800)).mon < 3 ∨ 9 ≤ (gmtime (t + 37800)).mon)⟩

/-- The hypotheses of the theorems above are met, in and outside of daylight saving, and in a first hour. -/
example : exSydney.save = 3600 ∧ exSydney.dst 1672489800 = true ∧ exSydney.dst 1690000000 = false ∧
    1001 ≤ getYearZ exSydney false 1672489800 ∧ getYearZ exSydney false 1672489800 ≤ 9999 ∧
    (getYearZ exSydney false 1672493400, getMonthZ exSydney false 1672493400, getDayZ exSydney false 1672493400) = (2023, 1, 1) ∧
    convertToString2Z exSydney false 1672489800 = .ok "2022-12-31 22:30:00".toList ∧
    convertToStringZ exSydney false 1690000000 = .ok "2023-07-22".toList ∧
    (Date.mk 2024 2 29).Valid ∧ convertYMDToTimeZ exSydney false 2024 2 29 = 1709128800 := by decide +kernel

example : FirstHour exSydney 1672493400 ⟨getYearZ exSydney false 1672493400, getMonthZ exSydney false 1672493400,
      getDayZ exSydney false 1672493400⟩ ∧
    FirstHour exBerlin 1685570400 ⟨getYearZ exBerlin false 1685570400, getMonthZ exBerlin false 1685570400,
      getDayZ exBerlin false 1685570400⟩ ∧
    ¬ FirstHour exBerlin 1685656800 ⟨getYearZ exBerlin false 1685656800, getMonthZ exBerlin false 1685656800,
      getDayZ exBerlin false 1685656800⟩ ∧ HourAfterMidnight exBerlin 1685656800 := by
  refine ⟨⟨⟨?_, ?_⟩, ?_⟩, ⟨⟨?_, ?_⟩, ?_⟩, fun h => absurd h.2 ?_, ?_, ?_⟩ <;> decide +kernel

/-- So the property is false of the texts: half past midnight on 1 January 2023 in Sydney reads before the table of month
lengths, on 1 February 2023 the month is 13, on 1 June 2023 in Berlin the day is wrong (30 for 31 May) and reads back as
a time one day earlier. -/
theorem C99_false : convertToString2Z exSydney false 1672493400 = .ub ∧
    convertToString2Z exSydney false 1675171800 = .ok "2022-13-31 23:30:00".toList ∧
    convertToString2Z exBerlin false 1685570400 = .ok "2023-05-30 23:00:00".toList ∧
    convertToString2 (1685570400 + exBerlin.std) = .ok "2023-05-31 23:00:00".toList ∧
    convertToTimeZ exBerlin false "2023-05-30 23:00:00".toList
      [.int 4, .lit '-', .int 2, .lit '-', .int 2, .ws, .int 2, .lit ':', .int 2, .lit ':', .int 2] true =
      .ok (1685570400 - 86400) := by decide +kernel

/-- In the hour after midnight `ConvertToString` gives the new day and `ConvertToString2` the old one; the start of the
day that is read back from the former lies after the instant it was printed for. -/
theorem C99_false_day : convertToStringZ exBerlin false 1685656800 = .ok "2023-06-02".toList ∧
    convertToString2Z exBerlin false 1685656800 = .ok "2023-06-01 23:00:00".toList ∧
    convertToTimeZ exBerlin false "2023-06-02".toList [.int 4, .lit '-', .int 2, .lit '-', .int 2] false =
      .ok (1685656800 + 3600) := by decide +kernel

/-- A saving of half an hour is taken for a whole one: the text is half an hour off standard time. -/
theorem C99_false_half_hour : convertToString2Z exHowe false 1672540000 = .ok "2023-01-01 12:26:40".toList ∧
    convertToString2 (1672540000 + exHowe.std) = .ok "2023-01-01 12:56:40".toList ∧
    convertToTimeZ exHowe false "2023-01-01 12:26:40".toList
      [.int 4, .lit '-', .int 2, .lit '-', .int 2, .ws, .int 2, .lit ':', .int 2, .lit ':', .int 2] true =
      .ok (1672540000 - 1800) := by decide +kernel

end CCGL
