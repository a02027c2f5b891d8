import Verif.Model.Time
/-!
# Model of `src/utils_time.cpp` with `utc_time = false`

The C library's local time is that of a zone with one standard offset and one saving (glibc/POSIX): at the instants
where `dst` holds, `localtime_r` shows the time `std + save` ahead of UTC and `tm_isdst = 1`, elsewhere `std` ahead and
`tm_isdst = 0`. `mktime` of a broken-down time with `tm_isdst = 0` interprets it as standard time and normalises the
fields. Changes of the standard offset over the years and double summer times are not modelled.
-/
namespace CCGL

/-- A time zone with daylight saving: offsets in seconds, and the instants at which the saving is in force. -/
structure TZ where
  std : Int
  save : Int
  dst : Int → Bool

/-- What the wall clock is ahead of UTC at the instant `t`. -/
def TZ.offset (z : TZ) (t : Int) : Int := z.std + (if z.dst t then z.save else 0)

/-- `localtime_r` (utils_time.cpp:197-203 `LocalTime`). -/
def TZ.localtime (z : TZ) (t : Int) : TM :=
  { gmtime (t + z.offset t) with isdst := if z.dst t then 1 else 0 }

/-- `mktime` of a broken-down time with `tm_isdst = 0`: it is taken as standard time. -/
def TZ.mktimeStd (z : TZ) (tm : TM) : Int := timegm tm - z.std

/-- utils_time.cpp:213-219 `GetDateTime`: UTC or local. -/
def getDateTime (z : TZ) (utc : Bool) (t : Int) : TM := if utc then gmtime t else z.localtime t

/-- utils_time.cpp:221-227 `GetYear(date, utc_time)`. -/
def getYearZ (z : TZ) (utc : Bool) (t : Int) : Int := (getDateTime z utc t).year + 1900
/-- utils_time.cpp:229-235 `GetMonth(date, utc_time)`. -/
def getMonthZ (z : TZ) (utc : Bool) (t : Int) : Int := (getDateTime z utc t).mon + 1
/-- utils_time.cpp:237-243 `GetDay(date, utc_time)`. -/
def getDayZ (z : TZ) (utc : Bool) (t : Int) : Int := (getDateTime z utc t).mday
/-- utils_time.cpp:245-251 `DayOfYear(date, utc_time)`. -/
def dayOfYearZ (z : TZ) (utc : Bool) (t : Int) : Int := (getDateTime z utc t).yday + 1
/-- utils_time.cpp:257-263 `JulianDay(date, utc_time)`. -/
def julianDayZ (z : TZ) (utc : Bool) (t : Int) : Int :=
  julianDay ((getDateTime z utc t).year + 1900) ((getDateTime z utc t).mon + 1) (getDateTime z utc t).mday

/-- utils_time.cpp:157-180 `ConvertYMDToTime(year, month, day, utc_time)`. -/
def convertYMDToTimeZ (z : TZ) (utc : Bool) (year month day : Int) : Int :=
  let tm : TM := { year := year - 1900, mon := month - 1, mday := day, hour := 0, min := 0, sec := 0, yday := 0,
                   isdst := 0 }
  if utc then timegm tm else z.mktimeStd tm

/-- utils_time.cpp:113-155 `ConvertToTime(str_date, format, include_hour, utc_time)`; as in `convertToTime`, missing
values are undefined. -/
def convertToTimeZ (z : TZ) (utc : Bool) (s : Str) (format : List Fmt) (includeHour : Bool) : Out Int :=
  if s = [] then .ok 0
  else match sscanf format s with
    | yr :: mn :: dy :: rest =>
      let hr := if includeHour then rest.getD 0 0 else 0
      let mi := if includeHour then rest.getD 1 0 else 0
      let sc := if includeHour then rest.getD 2 0 else 0
      let tm : TM := { year := yr - 1900, mon := mn - 1, mday := dy, hour := hr, min := mi, sec := sc, yday := 0,
                       isdst := 0 }
      .ok (if utc then timegm tm else z.mktimeStd tm)
    | _ => .ub

/-- utils_time.cpp:30-40 `ConvertToString(date, utc_time)`: the hour is changed under daylight saving, but not
printed. -/
def convertToStringZ (z : TZ) (utc : Bool) (t : Int) : Out Str :=
  let tm := getDateTime z utc t
  let tm1 := if 0 < tm.isdst then { tm with hour := tm.hour - 1 } else tm
  strftime 11 [.Y, .lit '-', .m, .lit '-', .d] tm1

/-- utils_time.cpp:43 and 78 the static array `month_days`. -/
def monthDaysTab : List Int := [0, 31, 28, 31, 30, 31, 30, 31, 31, 30, 31, 30, 31]

/-- utils_time.cpp:46-66 (and, the same text, 80-103): the broken-down time under daylight saving is moved back by one
hour. `month_days` is indexed with the month from 0; an index of -1 reads before the array. -/
def dstBack (t : TM) : Out TM :=
  if 0 < t.isdst then
    if t.hour ≠ 0 then .ok { t with hour := t.hour - 1 }
    else
      let mday := t.mday - 1
      if mday = 0 then
        let mon := t.mon - 1
        if mon = 0 then .ok { t with hour := 23, year := t.year - 1, mon := 12, mday := 31 }
        else match readAt (some monthDaysTab) mon with
          | .ok n => .ok { t with hour := 23, mon := mon, mday := if isLeapYear t.year then n + 1 else n }
          | .ub => .ub
          | .exn => .exn
      else .ok { t with hour := 23, mday := mday }
  else .ok t

/-- utils_time.cpp:42-74 `ConvertToString2(date, utc_time)`. A month beyond 12 is printed as it is (glibc; the C
standard leaves the characters unspecified). -/
def convertToString2Z (z : TZ) (utc : Bool) (t : Int) : Out Str :=
  match dstBack (getDateTime z utc t) with
  | .ok tm => strftime 30 [.Y, .lit '-', .m, .lit '-', .d, .lit ' ', .H, .lit ':', .M, .lit ':', .S] tm
  | .ub => .ub
  | .exn => .exn

/-- utils_time.cpp:76-111 `ConvertToString3(date, utc_time)`. -/
def convertToString3Z (z : TZ) (utc : Bool) (t : Int) : Out Str :=
  match dstBack (getDateTime z utc t) with
  | .ok tm => strftime 30 [.Y, .lit '_', .m, .lit '_', .d, .lit '_', .H, .M, .S] tm
  | .ub => .ub
  | .exn => .exn

/-- `strftime` where the hour may be negative: what is printed for it is unspecified (`neg`). -/
def strftimeNeg (neg : Str) (size : Nat) (f : List TFmt) (t : TM) : Out Str :=
  let s := f.flatMap (fun x => if x = .H ∧ t.hour < 0 then neg else strftime1 t x)
  if s.length < size then .ok s else .ub

/-- utils_time.cpp:182-195 `GetDateInfoFromTimet(t, year, month, day, utc_time)`: the hour becomes -1 in the first hour
of a day under daylight saving. -/
def getDateInfoZ (neg : Str) (z : TZ) (utc : Bool) (t : Int) : Out (Int × Int × Int) :=
  let tm := getDateTime z utc t
  let tm1 := if 0 < tm.isdst then { tm with hour := tm.hour - 1 } else tm
  match strftimeNeg neg 30 [.Y, .lit '-', .m, .lit '-', .d, .lit ' ', .H, .lit ':', .M, .lit ':', .S] tm1 with
  | .ok s =>
    match sscanf [.int 4, .lit '-', .int 2, .lit '-', .int 2, .ws, .int 2, .lit ':', .int 2, .lit ':', .int 2] s with
    | y :: m :: d :: _ => .ok (y, m, d)
    | _ => .ub
  | .ub => .ub
  | .exn => .exn

end CCGL
