import Verif.Model.Num
import Verif.Model.Out
/-!
# Model of `src/utils_time.{h,cpp}`

`int` and `time_t` are unbounded integers (overflow is not modelled, except where stated); UTC conversions of the C
library (`gmtime_r`, `timegm`) are modelled by exact day counts in the proleptic Gregorian calendar, without
leap seconds (POSIX). The local time zone is a parameter (`Zone`).
-/
namespace CCGL

/-- utils_time.h:31 `IsLeapYear`; `%` is the C++ remainder. -/
def isLeapYear (y : Int) : Bool :=
  !(decide (Int.tmod y 4 ≠ 0)) && (decide (Int.tmod y 100 ≠ 0) || !(decide (Int.tmod y 400 ≠ 0)))

/-- utils_time.cpp:265-271 `JulianDay(year, month, day)`; `/` is C++ division. -/
def julianDay (year month day : Int) : Int :=
  let a := Int.tdiv (14 - month) 12
  let y := year + 4800 - a
  let m := month + 12 * a - 3
  day + Int.tdiv (153 * m + 2) 5 + 365 * y + Int.tdiv y 4 - Int.tdiv y 100 + Int.tdiv y 400 - 32045

/-- utils_time.cpp:253-255 `DayOfYear(year, month, day)`. -/
def dayOfYear (year month day : Int) : Int := julianDay year month day - julianDay year 1 1 + 1

/-! ## C library: broken-down time -/

/-- `struct tm` (fields used by the code). -/
structure TM where
  year : Int      -- since 1900
  mon : Int       -- from 0
  mday : Int
  hour : Int
  min : Int
  sec : Int
  yday : Int
  isdst : Int
deriving Repr, DecidableEq

/-- Days before 1 January of year `y`, counted from 1 January of year 1. -/
def daysBeforeYear (y : Int) : Int := 365 * (y - 1) + (y - 1) / 4 - (y - 1) / 100 + (y - 1) / 400

/-- 1 for a leap year. -/
def leapN (y : Int) : Int := if y % 4 = 0 ∧ (y % 100 ≠ 0 ∨ y % 400 = 0) then 1 else 0

/-- Days before the first of month `m` (1..12) in its year: 0, 31, 59, 90, 120, 151, 181, 212, 243, 273, 304, 334,
one more from March on in leap years. -/
def daysBeforeMonth (y m : Int) : Int := (367 * m - 362) / 12 + (if m ≤ 2 then 0 else leapN y - 2)

/-- Days since 1970-01-01 of (year, month 1..12, day of month). -/
def dayNumber (y m d : Int) : Int := daysBeforeYear y + daysBeforeMonth y m + (d - 1) - 719162

/-- `timegm` (POSIX: seconds since the epoch of a broken-down UTC time; a month outside of 0..11 is carried into
the year, the other fields count linearly; `tm_yday` and `tm_isdst` are ignored). -/
def timegm (t : TM) : Int :=
  let y := t.year + 1900 + t.mon / 12
  let m := t.mon % 12 + 1
  86400 * (dayNumber y m 1 + (t.mday - 1)) + 3600 * t.hour + 60 * t.min + t.sec

/-- Year and day of the year (from 0) of a day number counted from 0001-01-01. -/
def yearOfDays (z : Int) : Int × Int :=
  let n400 := z / 146097
  let r := z % 146097
  let n100 := min (r / 36524) 3
  let r1 := r - n100 * 36524
  let n4 := r1 / 1461
  let r2 := r1 - n4 * 1461
  let n1 := min (r2 / 365) 3
  (400 * n400 + 100 * n100 + 4 * n4 + n1 + 1, r2 - n1 * 365)

/-- Month (1..12) of a day of the year (from 0). -/
def monthOfYday (y yd : Int) : Int :=
  let l := leapN y
  if yd < 31 then 1 else if yd < 59 + l then 2 else if yd < 90 + l then 3 else if yd < 120 + l then 4
  else if yd < 151 + l then 5 else if yd < 181 + l then 6 else if yd < 212 + l then 7
  else if yd < 243 + l then 8 else if yd < 273 + l then 9 else if yd < 304 + l then 10
  else if yd < 334 + l then 11 else 12

/-- `gmtime_r`: broken-down UTC time of a time. -/
def gmtime (t : Int) : TM :=
  let days := t / 86400
  let s := t % 86400
  let yd := yearOfDays (days + 719162)
  let m := monthOfYday yd.1 yd.2
  { year := yd.1 - 1900, mon := m - 1, mday := yd.2 - daysBeforeMonth yd.1 m + 1,
    hour := s / 3600, min := s % 3600 / 60, sec := s % 60, yday := yd.2, isdst := 0 }

/-! ## The functions of utils_time.cpp with `utc_time = true` -/

/-- utils_time.cpp:157-180 `ConvertYMDToTime`. -/
def convertYMDToTime (year month day : Int) : Int :=
  timegm { year := year - 1900, mon := month - 1, mday := day, hour := 0, min := 0, sec := 0, yday := 0, isdst := 0 }

/-- utils_time.cpp:221-227 `GetYear`. -/
def getYear (t : Int) : Int := (gmtime t).year + 1900
/-- utils_time.cpp:229-235 `GetMonth`. -/
def getMonth (t : Int) : Int := (gmtime t).mon + 1
/-- utils_time.cpp:237-243 `GetDay`. -/
def getDay (t : Int) : Int := (gmtime t).mday
/-- utils_time.cpp:245-251 `DayOfYear(time_t)`. -/
def dayOfYearT (t : Int) : Int := (gmtime t).yday + 1
/-- utils_time.cpp:257-263 `JulianDay(time_t)`. -/
def julianDayT (t : Int) : Int :=
  julianDay ((gmtime t).year + 1900) ((gmtime t).mon + 1) (gmtime t).mday

/-! ## Texts -/

/-- Two decimal digits (`%m`, `%d`, `%H`, `%M`, `%S` of `strftime`). -/
def twoDigits (n : Int) : Str := [digitChar (n.toNat / 10 % 10), digitChar (n.toNat % 10)]

/-- A conversion of `strftime`, or a literal character. -/
inductive TFmt where
  | Y | m | d | H | M | S
  | lit (c : Char)
deriving Repr, DecidableEq

/-- One element of a `strftime` format. `%Y` is printed without padding (glibc). -/
def strftime1 (t : TM) : TFmt → Str
  | .Y => intToDec (t.year + 1900)
  | .m => twoDigits (t.mon + 1)
  | .d => twoDigits t.mday
  | .H => twoDigits t.hour
  | .M => twoDigits t.min
  | .S => twoDigits t.sec
  | .lit c => [c]

/-- `strftime(buf, size, format, tm)` followed by the construction of a string from the buffer: the text, or
undefined contents if it does not fit (`size` includes the terminating NUL). -/
def strftime (size : Nat) (f : List TFmt) (t : TM) : Out Str :=
  let s := f.flatMap (strftime1 t)
  if s.length < size then .ok s else .ub

/-- utils_time.cpp:30-40 `ConvertToString`, format `"%Y-%m-%d"` (UTC: `tm_isdst = 0`, so the hour is not
changed). -/
def convertToString (t : Int) : Out Str := strftime 11 [.Y, .lit '-', .m, .lit '-', .d] (gmtime t)

/-- utils_time.cpp:42-74 `ConvertToString2`, format `"%Y-%m-%d %X"` (UTC; `%X` of the C locale is `%H:%M:%S`). -/
def convertToString2 (t : Int) : Out Str :=
  strftime 30 [.Y, .lit '-', .m, .lit '-', .d, .lit ' ', .H, .lit ':', .M, .lit ':', .S] (gmtime t)

/-- utils_time.cpp:76-111 `ConvertToString3`, format `"%Y_%m_%d_%H%M%S"` (UTC). -/
def convertToString3 (t : Int) : Out Str :=
  strftime 30 [.Y, .lit '_', .m, .lit '_', .d, .lit '_', .H, .M, .S] (gmtime t)

/-- An element of a `scanf` format: `%<width>d` (width 0: unlimited), a literal character, or a blank (which
matches any amount of white space). -/
inductive Fmt where
  | int (width : Nat)
  | lit (c : Char)
  | ws
deriving Repr, DecidableEq

/-- `%<w>d` of `sscanf`: skip blanks, an optional sign, then digits, at most `w` characters if `w > 0`; the value and
the rest, or a matching failure. -/
def scanInt (w : Nat) (s : Str) : Option (Int × Str) :=
  let s1 := s.dropWhile isSpaceC
  let sg := signPart s1
  let lim := if w = 0 then sg.2.2.length else w - sg.2.1
  let ds := (sg.2.2.take lim).takeWhile isDigitC
  if ds = [] then none
  else some (if sg.1 then -(digitsVal 0 ds : Int) else digitsVal 0 ds, sg.2.2.drop ds.length)

/-- `sscanf`: the values assigned before the first matching failure. -/
def sscanf : List Fmt → Str → List Int
  | [], _ => []
  | .int w :: fs, s => match scanInt w s with
    | some (v, rest) => v :: sscanf fs rest
    | none => []
  | .lit c :: fs, s => match s with
    | d :: rest => if c = d then sscanf fs rest else []
    | [] => []
  | .ws :: fs, s => sscanf fs (s.dropWhile isSpaceC)

/-- utils_time.cpp:113-155 `ConvertToTime` (UTC). If fewer values are assigned than requested the uninitialised
`yr`, `mn`, `dy` are read: undefined. (With `include_hour` the missing hour, minute and second stay 0.) -/
def convertToTime (s : Str) (format : List Fmt) (includeHour : Bool) : Out Int :=
  if s = [] then .ok 0
  else match sscanf format s with
    | yr :: mn :: dy :: rest =>
      let hr := if includeHour then rest.getD 0 0 else 0
      let mi := if includeHour then rest.getD 1 0 else 0
      let sc := if includeHour then rest.getD 2 0 else 0
      .ok (timegm { year := yr - 1900, mon := mn - 1, mday := dy, hour := hr, min := mi, sec := sc,
                    yday := 0, isdst := 0 })
    | _ => .ub

/-- utils_time.cpp:182-195 `GetDateInfoFromTimet` (UTC): the three output parameters (undefined if not all are
assigned). -/
def getDateInfo (t : Int) : Out (Int × Int × Int) := do
  let s ← convertToString2 t
  match sscanf [.int 4, .lit '-', .int 2, .lit '-', .int 2, .ws, .int 2, .lit ':', .int 2, .lit ':', .int 2] s with
  | y :: m :: d :: _ => .ok (y, m, d)
  | _ => .ub

/-! ## `DateTime` (GCC branch) -/

/-- The C library's local time: the contract of POSIX that `mktime` inverts `localtime_r`. (`mktime` also
normalises its argument; this is `localtime (mktime tm)`.) -/
structure Zone where
  localtime : Int → TM
  mktime : TM → Int
  roundtrip : ∀ t, mktime (localtime t) = t

/-- A zone with a fixed offset from UTC in seconds. -/
def fixedZone (off : Int) (h : ∀ t, timegm (gmtime t) = t) : Zone :=
  ⟨fun t => gmtime (t + off), fun tm => timegm tm - off, fun t => by rw [h]; omega⟩

/-- utils_time.h:156-166 the fields of `DateTime` (without `day_of_week`). -/
structure DateTime where
  year : Int
  month : Int
  day : Int
  dayOfYear : Int
  hour : Int
  minute : Int
  second : Int
  milliseconds : Int
  totalMs : Nat
  filetime : Nat
deriving Repr, DecidableEq

/-- utils_time.cpp:315-332 `ConvertTMToDateTime`: signed overflow of `timer * 1000 + milliseconds` is undefined,
a negative value wraps on conversion to the unsigned type. -/
def ofTM (z : Zone) (tm0 : TM) (ms : Int) : Out DateTime :=
  let total := z.mktime tm0 * 1000 + ms
  let tm := z.localtime (z.mktime tm0)
  if total < -(2 ^ 63) ∨ 2 ^ 63 ≤ total then .ub
  else .ok { year := tm.year + 1900, month := tm.mon + 1, day := tm.mday, dayOfYear := tm.yday,
             hour := tm.hour, minute := tm.min, second := tm.sec, milliseconds := ms,
             totalMs := (total % 2 ^ 64).toNat, filetime := (total % 2 ^ 64).toNat }

/-- utils_time.cpp:413-436 `FromFileTime`. -/
def fromFileTime (z : Zone) (f : Nat) : Out DateTime :=
  ofTM z (z.localtime ((f / 1000 : Nat) : Int)) ((f % 1000 : Nat) : Int)

/-- utils_time.cpp:379-411 `FromDateTime`. -/
def fromDateTime (z : Zone) (y m d h mi s ms : Int) : Out DateTime :=
  ofTM z { year := y - 1900, mon := m - 1, mday := d, hour := h, min := mi, sec := s, yday := 0, isdst := -1 } ms

/-- utils_time.cpp:467-486 `ToUTCTime`: `mktime` is applied to the result of `gmtime_r`. -/
def DateTime.toUTCTime (z : Zone) (d : DateTime) : Out DateTime :=
  ofTM z (gmtime ((d.filetime / 1000 : Nat) : Int)) d.milliseconds

/-- utils_time.cpp:445-465 `ToLocalTime`; `now` is the current time read by `time(nullptr)`. -/
def DateTime.toLocalTime (z : Zone) (now : Int) (d : DateTime) : Out DateTime :=
  ofTM z (z.localtime (((d.filetime / 1000 : Nat) : Int) + now - z.mktime (gmtime now))) d.milliseconds

/-- utils_time.cpp:488-494 `Forward(imilliseconds)`: the parameter is not used, the member `milliseconds` is
(unsigned 64-bit addition). -/
def DateTime.forward (z : Zone) (d : DateTime) (_ims : Int) : Out DateTime :=
  fromFileTime z (((d.filetime : Int) + d.milliseconds) % 2 ^ 64).toNat

/-- utils_time.cpp:496-502 `Backward(imilliseconds)`: likewise. -/
def DateTime.backward (z : Zone) (d : DateTime) (_ims : Int) : Out DateTime :=
  fromFileTime z (((d.filetime : Int) - d.milliseconds) % 2 ^ 64).toNat

end CCGL
