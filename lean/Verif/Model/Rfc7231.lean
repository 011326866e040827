import Verif.Model.Program
import Verif.Model.Framing
import Verif.Model.TextReport

/-!
# Dates in httpolice/syntax/rfc7231.py

Objects of Python's `datetime` module are given by class and fields: `date(y, m, d)`, `time(h, m, s)`, and
`datetime(y, m, d, h, m, s)`; the rules of `datetime` for which of them exist, and for `weekday`, are part of the model.
-/

namespace Httpolice.Model

/-- `DIGIT` (syntax/common.py 10). -/
def digitBits : Nat → Bool := fun c => decide (48 ≤ c ∧ c ≤ 57)

/-- `SP` (syntax/common.py 14). -/
def spBits : Nat → Bool := fun c => decide (32 ≤ c ∧ c ≤ 32)

/-- `DIGIT` in an expression (httpolice/syntax/common.py, syntax/rfc7231.py 66). -/
abbrev GExpr.digit {N : Type} : GExpr N := .chars digitBits true

/-- `SP` in an expression (httpolice/syntax/common.py, syntax/rfc7231.py 81). -/
abbrev GExpr.sp {N : Type} : GExpr N := .chars spBits true

/-- `octet(c)` (parse.py 510-512). -/
abbrev GExpr.octet {N : Type} (c : Nat) : GExpr N := .chars (fun x => decide (c ≤ x ∧ x ≤ c)) false

/-- `octet(c) * octet(c1) * octet(c2) * ...` (httpolice/syntax/rfc7231.py 49-55, 67-78, 114-128). -/
def GExpr.octets {N : Type} (c : Nat) (cs : Str) : GExpr N := cs.foldl (fun e c => .seq e (.octet c)) (.octet c)

/-- The same, given by a word (httpolice/syntax/rfc7231.py 49-55, 67-78, 114-128). -/
def GExpr.word {N : Type} : Str → GExpr N
  | [] => .empty
  | c :: cs => .octets c cs

/-- `subst(k) << w | subst(k + 1) << w1 | ...` for the given words (httpolice/syntax/rfc7231.py 49-55, 67-78,
113-128). -/
def GExpr.numbered {N : Type} (e : GExpr N) (k : Nat) : List Str → GExpr N
  | [] => e
  | w :: ws => GExpr.numbered (.alt e (.subst (.int k) (.word w))) (k + 1) ws

/-- The same from the first word on (httpolice/syntax/rfc7231.py 49-55, 67-78, 113-128). -/
def GExpr.numberedFrom {N : Type} (k : Nat) : List Str → GExpr N
  | [] => .empty
  | w :: ws => GExpr.numbered (.subst (.int k) (.word w)) (k + 1) ws

/-- `int` on a string of decimal digits; other arguments cannot occur here (httpolice/syntax/rfc7231.py 66, 79,
95-97). -/
def intF : Func GVal PyComplaint := pureFunc fun
  | [.text s] => .int (decimal s)
  | _ => .none

/-- `lambda s: int('19' + s)` (syntax/rfc7231.py 134). -/
def int19F : Func GVal PyComplaint := pureFunc fun
  | [.text s] => .int (decimal (str "19" ++ s))
  | _ => .none

/-- `_DAY_NAMES` (syntax/rfc7231.py 21-22). -/
def dayNames : List Str :=
  [str "Monday", str "Tuesday", str "Wednesday", str "Thursday", str "Friday", str "Saturady", str "Sunday"]

/-- `_MONTH_NAMES` (syntax/rfc7231.py 23-24). -/
def monthNames : List Str :=
  [str "Jan", str "Feb", str "Mar", str "Apr", str "May", str "Jun", str "Jul", str "Aug", str "Sep", str "Oct",
    str "Nov", str "Dec"]

/-! ## Python's `datetime` -/

/-- `calendar.isleap` (`datetime._is_leap`) (httpolice/syntax/rfc7231.py 58-64). -/
def pyLeap (y : Nat) : Bool := y % 4 == 0 && (y % 100 != 0 || y % 400 == 0)

/-- `datetime._days_in_month` (httpolice/syntax/rfc7231.py 58-64). -/
def pyMonthDays (y m : Nat) : Nat :=
  if m = 2 && pyLeap y then 29 else [31, 28, 31, 30, 31, 30, 31, 31, 30, 31, 30, 31].getD (m - 1) 0

/-- `date(y, m, d)` does not raise `ValueError` (httpolice/syntax/rfc7231.py 58-64). -/
def pyDateOk (y m d : Nat) : Bool :=
  decide (1 ≤ y) && decide (y ≤ 9999) && decide (1 ≤ m) && decide (m ≤ 12) && decide (1 ≤ d) && decide (d ≤ pyMonthDays y m)

/-- `time(h, m, s)` does not raise `ValueError` (httpolice/syntax/rfc7231.py 84-93). -/
def pyTimeOk (h m s : Nat) : Bool := decide (h ≤ 23) && decide (m ≤ 59) && decide (s ≤ 59)

/-- `datetime._days_before_year` (httpolice/syntax/rfc7231.py 162-170). -/
def pyDaysBeforeYear (y : Nat) : Nat := (y - 1) * 365 + (y - 1) / 4 - (y - 1) / 100 + (y - 1) / 400

/-- `datetime._days_before_month` (httpolice/syntax/rfc7231.py 162-170). -/
def pyDaysBeforeMonth (y m : Nat) : Nat :=
  [0, 31, 59, 90, 120, 151, 181, 212, 243, 273, 304, 334].getD (m - 1) 0 + (if m > 2 && pyLeap y then 1 else 0)

/-- `date.weekday()`: `(self.toordinal() + 6) % 7` (httpolice/syntax/rfc7231.py 162-170). -/
def pyWeekday (y m d : Nat) : Nat := (pyDaysBeforeYear y + pyDaysBeforeMonth y m + d + 6) % 7

/-- `%02d`, for numbers below 100 (httpolice/syntax/rfc7231.py 58-64, 84-93). -/
def pad2 (n : Nat) : Str := [48 + n / 10, 48 + n % 10]

/-- `%04d`, for numbers below 10000 (httpolice/syntax/rfc7231.py 58-64). -/
def pad4 (n : Nat) : Str := [48 + n / 1000, 48 + n / 100 % 10, 48 + n / 10 % 10, 48 + n % 10]

/-- `str(date(y, m, d))` (httpolice/syntax/rfc7231.py 162-170). -/
def isoDate (y m d : Nat) : Str := pad4 y ++ str "-" ++ pad2 m ++ str "-" ++ pad2 d

/-- `str(time(h, m, s))`, and `u'%02d:%02d:%02d' % (h, m, s)` (syntax/rfc7231.py 91). -/
def isoTime (h m s : Nat) : Str := pad2 h ++ str ":" ++ pad2 m ++ str ":" ++ pad2 s

/-- A `date` object (httpolice/syntax/rfc7231.py 58-64). -/
def dateObj (y m d : Nat) : GVal := .obj (str "date") [.int y, .int m, .int d]

/-- A `time` object (httpolice/syntax/rfc7231.py 84-93). -/
def timeObj (h m s : Nat) : GVal := .obj (str "time") [.int h, .int m, .int s]

/-- A `datetime` object (httpolice/syntax/rfc7231.py 103-106). -/
def datetimeObj (y m d h mi s : Nat) : GVal := .obj (str "datetime") [.int y, .int m, .int d, .int h, .int mi, .int s]

/-- `Unavailable(s)` (structure.py 13-37). -/
def unavailableObj (s : Str) : GVal := .obj (str "Unavailable") [.text s]

/-! ## Semantic actions -/

/-- `_to_date` (syntax/rfc7231.py 57-64). -/
def toDate (d m y : Nat) : GVal × List PyComplaint :=
  if pyDateOk y m d then (dateObj y m d, [])
  else
    let s := decimalText d ++ str " " ++ monthNames.getD (m - 1) [] ++ str " " ++ decimalText y
    (unavailableObj s, [(1222, [(str "date", .other (.text s))])])

/-- `_to_date` as a semantic action; other arguments cannot occur (httpolice/syntax/rfc7231.py 58-64). -/
def toDateF : Func GVal PyComplaint
  | [.int d, .int m, .int y] => (.val (toDate d.toNat m.toNat y.toNat).1, (toDate d.toNat m.toNat y.toNat).2)
  | _ => (.val .none, [])

/-- `_to_time` (syntax/rfc7231.py 83-93). -/
def toTime (h m s : Nat) : GVal × List PyComplaint :=
  if pyTimeOk h m s then (timeObj h m s, [])
  else (unavailableObj (isoTime h m s), [(1223, [(str "time", .other (.text (isoTime h m s)))])])

/-- `_to_time` as a semantic action; other arguments cannot occur (httpolice/syntax/rfc7231.py 84-93). -/
def toTimeF : Func GVal PyComplaint
  | [.int h, .int m, .int s] => (.val (toTime h.toNat m.toNat s.toNat).1, (toTime h.toNat m.toNat s.toNat).2)
  | _ => (.val .none, [])

/-- `str` of what `_to_date` and `_to_time` return (structure.py 34-37 for `Unavailable`). -/
def dtText : GVal → Str
  | .obj cls [.int a, .int b, .int c] => if cls = str "date" then isoDate a.toNat b.toNat c.toNat
      else isoTime a.toNat b.toNat c.toNat
  | .obj _ [.text s] => s
  | _ => []

/-- The second part of the result of `_to_datetime` (syntax/rfc7231.py 103-106). -/
def toDatetime : GVal → GVal → GVal
  | .obj cls [.int y, .int m, .int d], .obj cls' [.int h, .int mi, .int s] =>
    if cls = str "date" ∧ cls' = str "time" then datetimeObj y.toNat m.toNat d.toNat h.toNat mi.toNat s.toNat else .none
  | d, t => unavailableObj (dtText d ++ str " " ++ dtText t)

/-- `_to_datetime` as a semantic action; other arguments cannot occur (httpolice/syntax/rfc7231.py 103-106). -/
def toDatetimeF : Func GVal PyComplaint := pureFunc fun
  | [dow, d, t] => .tuple [dow, toDatetime d t]
  | _ => .none

/-- `_from_asctime` (syntax/rfc7231.py 143-146); other arguments cannot occur. -/
def fromAsctimeF : Func GVal PyComplaint
  | [dow, .tuple [.int m, .int d], t, .int y] =>
    (.val (.tuple [dow, toDatetime (toDate d.toNat m.toNat y.toNat).1 t]), (toDate d.toNat m.toNat y.toNat).2)
  | _ => (.val .none, [])

/-- `_obsolete_date` (syntax/rfc7231.py 153-156). -/
def obsoleteDateF : Func GVal PyComplaint := fun args => (.val (args.headD .none), [(1107, [])])

/-- `_check_day_of_week` (syntax/rfc7231.py 161-168). How `strftime` prints the date depends on the platform for years
before 1000, so that the text is left open. Other arguments cannot occur. -/
def checkDayF : Func GVal PyComplaint
  | [.tuple [.int dow, .obj cls [.int y, .int m, .int d, .int h, .int mi, .int s]]] =>
    (.val (.obj cls [.int y, .int m, .int d, .int h, .int mi, .int s]),
      if pyWeekday y.toNat m.toNat d.toNat ≠ dow.toNat then
        [(1108, [(str "date", .other (.obj (str "%Y-%m-%d") [.int y, .int m, .int d])),
          (str "claimed", .other (.text (dayNames.getD dow.toNat []))),
          (str "actual", .other (.text (dayNames.getD (pyWeekday y.toNat m.toNat d.toNat) [])))])]
      else [])
  | [.tuple [_, r]] => (.val r, [])
  | _ => (.val .none, [])

/-! ## Definitions -/

/-- Names in the module (httpolice/syntax/rfc7231.py 49-170). -/
inductive DateName
  | dayName | day | month | year | date1 | hour | minute | second | timeOfDay | gmt | imfFixdate | dayNameL | date2
  | rfc850Date | date3 | asctimeDate | obsDate | httpDate
deriving DecidableEq, Repr

/-- `skip(SP)` (httpolice/syntax/rfc7231.py 81, 109-111, 136-140). -/
abbrev skipSp : GExpr DateName := .skip .sp

/-- `int << string_times(k, k, DIGIT)` (httpolice/syntax/rfc7231.py 66, 79, 95-97). -/
abbrev digitsE (k : Nat) : GExpr DateName := .app intF false (.stringTimes k (some k) .digit)

/-- syntax/rfc7231.py 49-171. -/
def dateDefs : List (DateName × Defn DateName) := [
  -- day_name (49-55)
  (.dayName, .named true (.numberedFrom 0
    [str "Mon", str "Tue", str "Wed", str "Thu", str "Fri", str "Sat", str "Sun"])),
  -- day (66)
  (.day, .named true (digitsE 2)),
  -- month (67-78)
  (.month, .named true (.numberedFrom 1 [str "Jan", str "Feb", str "Mar", str "Apr", str "May", str "Jun", str "Jul",
    str "Aug", str "Sep", str "Oct", str "Nov", str "Dec"])),
  -- year (79)
  (.year, .named true (digitsE 4)),
  -- date1 (81)
  (.date1, .named true (.app toDateF false
    (.seq (.seq (.seq (.seq (.ref .day) skipSp) (.ref .month)) skipSp) (.ref .year)))),
  -- hour, minute, second (95-97)
  (.hour, .named true (digitsE 2)),
  (.minute, .named true (digitsE 2)),
  (.second, .named true (digitsE 2)),
  -- time_of_day (99-101)
  (.timeOfDay, .named true (.app toTimeF false
    (.seq (.seq (.seq (.seq (.ref .hour) (.skip (.lit (str ":") false))) (.ref .minute)) (.skip (.lit (str ":") false)))
      (.ref .second)))),
  -- GMT (108)
  (.gmt, .named false (.word (str "GMT"))),
  -- IMF_fixdate (109-111)
  (.imfFixdate, .named true (.app toDatetimeF false
    (.seq (.seq (.seq (.seq (.seq (.ref .dayName) (.skip (.seq (.lit (str ",") false) .sp))) (.ref .date1)) skipSp)
      (.ref .timeOfDay)) (.skip (.seq .sp (.ref .gmt)))))),
  -- day_name_l (113-129)
  (.dayNameL, .named true (.numberedFrom 0
    [str "Monday", str "Tuesday", str "Wednesday", str "Thursday", str "Friday", str "Saturday", str "Sunday"])),
  -- date2 (131-134)
  (.date2, .named true (.app toDateF false
    (.seq (.seq (.seq (.seq (.ref .day) (.skip (.lit (str "-") false))) (.ref .month)) (.skip (.lit (str "-") false)))
      (.app int19F false (.stringTimes 2 (some 2) .digit))))),
  -- rfc850_date (136-138)
  (.rfc850Date, .named true (.app toDatetimeF false
    (.seq (.seq (.seq (.seq (.seq (.ref .dayNameL) (.skip (.seq (.lit (str ",") false) .sp))) (.ref .date2)) skipSp)
      (.ref .timeOfDay)) (.skip (.seq .sp (.ref .gmt)))))),
  -- date3 (140-141)
  (.date3, .named true (.seq (.seq (.ref .month) skipSp)
    (.alt (digitsE 2) (.app intF false (.seq skipSp .digit))))),
  -- asctime_date (148-151)
  (.asctimeDate, .named true (.app fromAsctimeF false
    (.seq (.seq (.seq (.seq (.seq (.seq (.ref .dayName) skipSp) (.ref .date3)) skipSp) (.ref .timeOfDay)) skipSp)
      (.ref .year)))),
  -- obs_date (158-159)
  (.obsDate, .named true (.alt (.app obsoleteDateF false (.ref .rfc850Date)) (.app obsoleteDateF false (.ref .asctimeDate)))),
  -- HTTP_date (170-171)
  (.httpDate, .named true (.alt (.app checkDayF false (.ref .imfFixdate)) (.app checkDayF false (.ref .obsDate))))]

end Httpolice.Model
