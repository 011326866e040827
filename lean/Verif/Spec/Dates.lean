import Verif.Spec.Tab

/-!
# Dates, after RFC 7231 section 7.1.1.1
-/

namespace Httpolice.Spec

open Httpolice.Model

/-! ## The calendar -/

/-- Leap years. -/
def LeapYear (y : Nat) : Prop := 4 ∣ y ∧ (100 ∣ y → 400 ∣ y)

instance (y : Nat) : Decidable (LeapYear y) := inferInstanceAs (Decidable (_ ∧ _))

/-- The number of days in a month. -/
def monthLength (y : Nat) : Nat → Nat
  | 1 => 31
  | 2 => if LeapYear y then 29 else 28
  | 3 => 31
  | 4 => 30
  | 5 => 31
  | 6 => 30
  | 7 => 31
  | 8 => 31
  | 9 => 30
  | 10 => 31
  | 11 => 30
  | 12 => 31
  | _ => 0

/-- There is such a day. -/
def RealDate (y m d : Nat) : Prop := 1 ≤ y ∧ 1 ≤ m ∧ m ≤ 12 ∧ 1 ≤ d ∧ d ≤ monthLength y m

instance (y m d : Nat) : Decidable (RealDate y m d) := inferInstanceAs (Decidable (_ ∧ _))

/-- There is such a time of day (leap seconds aside). -/
def RealTime (h m s : Nat) : Prop := h < 24 ∧ m < 60 ∧ s < 60

instance (h m s : Nat) : Decidable (RealTime h m s) := inferInstanceAs (Decidable (_ ∧ _))

/-- Days in the first `m` months of a year. -/
def daysInMonths (y : Nat) : Nat → Nat
  | 0 => 0
  | m + 1 => daysInMonths y m + monthLength y (m + 1)

/-- Days in the first `y` years. -/
def daysInYears : Nat → Nat
  | 0 => 0
  | y + 1 => daysInYears y + daysInMonths (y + 1) 12

/-- The day of the week, from 0 for Monday: 1 January 1 was a Monday. -/
def weekdayOf (y m d : Nat) : Nat := (daysInYears (y - 1) + daysInMonths y (m - 1) + (d - 1)) % 7

/-! ## Texts -/

/-- Two digits. -/
def two (n : Nat) : Str := [48 + n / 10, 48 + n % 10]

/-- Four digits. -/
def four (n : Nat) : Str := two (n / 100) ++ two (n % 100)

/-- Short names of days. -/
def shortDays : List Str := [str "Mon", str "Tue", str "Wed", str "Thu", str "Fri", str "Sat", str "Sun"]

/-- Long names of days. -/
def longDays : List Str :=
  [str "Monday", str "Tuesday", str "Wednesday", str "Thursday", str "Friday", str "Saturday", str "Sunday"]

/-- Names of months. -/
def months : List Str := [str "Jan", str "Feb", str "Mar", str "Apr", str "May", str "Jun", str "Jul", str "Aug",
  str "Sep", str "Oct", str "Nov", str "Dec"]

/-- The name of the month, from 1. -/
def monthName (m : Nat) : Str := months.getD (m - 1) []

/-- What is written in a date. -/
structure Stamp where
  dow : Nat
  year : Nat
  month : Nat
  day : Nat
  hour : Nat
  minute : Nat
  second : Nat
deriving DecidableEq, Repr

/-- The formats: IMF-fixdate, RFC 850, and asctime; in the last, the day is either two digits or a space and a digit. -/
inductive DateFormat
  | imf | rfc850 | asctime | asctimeSpaced
deriving DecidableEq, Repr

/-- "hh:mm:ss". -/
def timeText (h m s : Nat) : Str := two h ++ str ":" ++ two m ++ str ":" ++ two s

/-- The date in the given format. -/
def Stamp.text (x : Stamp) : DateFormat → Str
  | .imf => shortDays.getD x.dow [] ++ str ", " ++ two x.day ++ str " " ++ monthName x.month ++ str " " ++ four x.year ++
      str " " ++ timeText x.hour x.minute x.second ++ str " GMT"
  | .rfc850 => longDays.getD x.dow [] ++ str ", " ++ two x.day ++ str "-" ++ monthName x.month ++ str "-" ++
      two (x.year % 100) ++ str " " ++ timeText x.hour x.minute x.second ++ str " GMT"
  | .asctime => shortDays.getD x.dow [] ++ str " " ++ monthName x.month ++ str " " ++ two x.day ++ str " " ++
      timeText x.hour x.minute x.second ++ str " " ++ four x.year
  | .asctimeSpaced => shortDays.getD x.dow [] ++ str " " ++ monthName x.month ++ str " " ++ str " " ++ [48 + x.day] ++
      str " " ++ timeText x.hour x.minute x.second ++ str " " ++ four x.year

/-- The format has room for these numbers, whether or not they make sense; two-digit years are those of the twentieth
century. -/
def Stamp.Fits (x : Stamp) (f : DateFormat) : Prop :=
  x.dow < 7 ∧ 1 ≤ x.month ∧ x.month ≤ 12 ∧ x.hour < 100 ∧ x.minute < 100 ∧ x.second < 100 ∧
    x.day < (if f = .asctimeSpaced then 10 else 100) ∧
    (if f = .rfc850 then 1900 ≤ x.year ∧ x.year < 2000 else x.year < 10000)

instance (x : Stamp) (f : DateFormat) : Decidable (x.Fits f) := inferInstanceAs (Decidable (_ ∧ _))

/-! ## Values and complaints -/

/-- A `datetime` object. -/
def Stamp.datetime (x : Stamp) : GVal :=
  .obj (str "datetime") [.int x.year, .int x.month, .int x.day, .int x.hour, .int x.minute, .int x.second]

/-- There are such a day and time. -/
def Stamp.Real (x : Stamp) : Prop := RealDate x.year x.month x.day ∧ RealTime x.hour x.minute x.second

instance (x : Stamp) : Decidable x.Real := inferInstanceAs (Decidable (_ ∧ _))

/-- How a day that is not is shown: "31 Feb 2001". -/
def badDateText (y m d : Nat) : Str := str (toString d) ++ str " " ++ monthName m ++ str " " ++ str (toString y)

/-- How a day is shown. -/
def shownDate (y m d : Nat) : Str :=
  if RealDate y m d then four y ++ str "-" ++ two m ++ str "-" ++ two d else badDateText y m d

/-- The value: an instant, or something `Unavailable`. -/
def Stamp.value (x : Stamp) : GVal :=
  if x.Real then x.datetime
  else .obj (str "Unavailable") [.text (shownDate x.year x.month x.day ++ str " " ++ timeText x.hour x.minute x.second)]

/-- Names of days in reports (sic). -/
def reportDays : List Str :=
  [str "Monday", str "Tuesday", str "Wednesday", str "Thursday", str "Friday", str "Saturady", str "Sunday"]

/-- 1222 (there is no such day). -/
def noDayNotes (y m d : Nat) : List PyComplaint :=
  if RealDate y m d then [] else [(1222, [(str "date", .other (.text (badDateText y m d)))])]

/-- 1223 (there is no such time). -/
def noTimeNotes (h m s : Nat) : List PyComplaint :=
  if RealTime h m s then [] else [(1223, [(str "time", .other (.text (timeText h m s)))])]

/-- 1108 (the day of the week is wrong). -/
def Stamp.weekdayNotes (x : Stamp) : List PyComplaint :=
  if x.Real ∧ weekdayOf x.year x.month x.day ≠ x.dow then
    [(1108, [(str "date", .other (.obj (str "%Y-%m-%d") [.int x.year, .int x.month, .int x.day])),
      (str "claimed", .other (.text (reportDays.getD x.dow []))),
      (str "actual", .other (.text (reportDays.getD (weekdayOf x.year x.month x.day) [])))])]
  else []

/-- 1107 (the format is obsolete). -/
def obsoleteNotes (f : DateFormat) : List PyComplaint := if f = .imf then [] else [(1107, [])]

/-- All complaints about a date. -/
def Stamp.notes (x : Stamp) (f : DateFormat) : List PyComplaint :=
  noDayNotes x.year x.month x.day ++ noTimeNotes x.hour x.minute x.second ++ obsoleteNotes f ++ x.weekdayNotes

end Httpolice.Spec
