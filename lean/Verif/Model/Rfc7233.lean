import Verif.Model.Rfc7231

/-!
# httpolice/syntax/rfc7233.py

Without `If_Range`. `OWS`, which is imported from syntax/rfc7230.py, is defined here as well; where it was defined does not
show.
-/

namespace Httpolice.Model

/-- `tchar` (syntax/rfc7230.py 17-18): all alternatives are terminals, so it is a terminal. -/
def tcharBits : Nat → Bool := fun c =>
  [33, 35, 36, 37, 38, 39, 42, 43, 45, 46, 94, 95, 96, 124, 126].contains c || digitBits c ||
    decide (65 ≤ c ∧ c ≤ 90) || decide (97 ≤ c ∧ c ≤ 122)

/-- `VCHAR` (syntax/common.py 15). -/
def vcharBits : Nat → Bool := fun c => decide (33 ≤ c ∧ c ≤ 126)

/-- `CHAR` (syntax/common.py 8). -/
def charBits7 : Nat → Bool := fun c => decide (1 ≤ c ∧ c ≤ 127)

/-- `SP | HTAB` (syntax/rfc7230.py 53). -/
def spHtabBits : Nat → Bool := fun c => decide (32 ≤ c ∧ c ≤ 32) || decide (9 ≤ c ∧ c ≤ 9)

/-- A class used as a function; the object is kept with the arguments of the constructor
(httpolice/syntax/rfc7233.py 35-73). -/
def classF (cls : Str) : Func GVal PyComplaint := pureFunc (.obj cls)

/-- `first > last`, where `last` may be `None` (httpolice/syntax/rfc7233.py 20-23). -/
def rangeReversed : GVal → GVal → Bool
  | .int first, .int last => decide (first > last)
  | _, _ => false

/-- `_well_formed1` (syntax/rfc7233.py 19-23); other arguments cannot occur. -/
def wellFormed1F : Func GVal PyComplaint
  | [first, last] => (.val (.tuple [first, last]), if rangeReversed first last then [(1133, [])] else [])
  | _ => (.val .none, [])

/-- `lambda x: (None, x)` (syntax/rfc7233.py 32); other arguments cannot occur. -/
def suffixF : Func GVal PyComplaint := pureFunc fun
  | [x] => .tuple [.none, x]
  | _ => .none

/-- `complete <= last`, where `complete` may be `None` (httpolice/syntax/rfc7233.py 54-60). -/
def completeTooSmall : GVal → GVal → Bool
  | .int complete, .int last => decide (complete ≤ last)
  | _, _ => false

/-- The condition in `_well_formed2` (syntax/rfc7233.py 55-58). -/
def badContentRange : GVal → Bool
  | .obj _ [_, .tuple [.tuple [first, last], complete]] => rangeReversed first last || completeTooSmall complete last
  | _ => false

/-- `_well_formed2` (syntax/rfc7233.py 53-60). -/
def wellFormed2F : Func GVal PyComplaint := fun args =>
  (.val (args.headD .none), if badContentRange (args.headD .none) then [(1148, [])] else [])

/-- Names in the module. `rangeUnits` and `byteRanges` are the calls of `comma_list1`
(httpolice/syntax/rfc7233.py 12-73). -/
inductive RangeName
  | ows | bytesUnit | otherRangeUnit | rangeUnit | rangeUnits | acceptableRanges | acceptRanges
  | firstBytePos | lastBytePos | byteRangeSpec | suffixLength | suffixByteRangeSpec | byteRanges | byteRangeSet
  | byteRangesSpecifier | otherRangeSet | otherRangesSpecifier | range
  | byteRange | completeLength | byteRangeResp | unsatisfiedRange | byteContentRange | otherRangeResp | otherContentRange
  | contentRange
deriving DecidableEq, Repr

/-- `int << string1(DIGIT)` (httpolice/syntax/rfc7233.py 25-30, 45). -/
abbrev numberE : GExpr RangeName := .app intF false (.string1 .digit)

/-- syntax/rfc7233.py 12-69. `order` is the order in which Python iterates over a set. -/
def rangeDefs (order : List Nat → List Nat) : List (RangeName × Defn RangeName) := [
  -- OWS (syntax/rfc7230.py 53)
  (.ows, .named false (.string (.chars spHtabBits false))),
  -- bytes_unit (12)
  (.bytesUnit, .named false (.app (classF (str "RangeUnit")) true (.lit (str "bytes") false))),
  -- other_range_unit (13); token__excluding (syntax/rfc7230.py 22-23)
  (.otherRangeUnit, .named false (.app (classF (str "RangeUnit")) true (.excl order tcharBits true [[], str "bytes"]))),
  -- range_unit (14)
  (.rangeUnit, .named true (.alt (.ref .bytesUnit) (.ref .otherRangeUnit))),
  -- acceptable_ranges (15-16)
  (.rangeUnits, .list1 .ows (.ref .rangeUnit)),
  (.acceptableRanges, .named true (.alt (.app (classF (str "CaseInsensitive")) true (.lit (str "none") false))
    (.ref .rangeUnits))),
  -- Accept_Ranges (17)
  (.acceptRanges, .named true (.ref .acceptableRanges)),
  -- first_byte_pos, last_byte_pos (25-26)
  (.firstBytePos, .named false numberE),
  (.lastBytePos, .named false numberE),
  -- byte_range_spec (27-28)
  (.byteRangeSpec, .named true (.app wellFormed1F false
    (.seq (.seq (.ref .firstBytePos) (.skip (.lit (str "-") false))) (.maybe (.ref .lastBytePos))))),
  -- suffix_length (30)
  (.suffixLength, .named false numberE),
  -- suffix_byte_range_spec (31-32)
  (.suffixByteRangeSpec, .named true (.app suffixF false (.seq (.skip (.lit (str "-") false)) (.ref .suffixLength)))),
  -- byte_range_set (34)
  (.byteRanges, .list1 .ows (.alt (.ref .byteRangeSpec) (.ref .suffixByteRangeSpec))),
  (.byteRangeSet, .named false (.ref .byteRanges)),
  -- byte_ranges_specifier (35-36)
  (.byteRangesSpecifier, .named true (.app (classF (str "RangeSpecifier")) true
    (.seq (.seq (.ref .bytesUnit) (.skip (.lit (str "=") false))) (.ref .byteRangeSet)))),
  -- other_range_set (38)
  (.otherRangeSet, .named false (.string1 (.chars vcharBits true))),
  -- other_ranges_specifier (39-40)
  (.otherRangesSpecifier, .named true (.app (classF (str "RangeSpecifier")) true
    (.seq (.seq (.ref .otherRangeUnit) (.skip (.lit (str "=") false))) (.ref .otherRangeSet)))),
  -- Range (42)
  (.range, .named true (.alt (.ref .byteRangesSpecifier) (.ref .otherRangesSpecifier))),
  -- byte_range (44)
  (.byteRange, .named false (.seq (.seq (.ref .firstBytePos) (.skip (.lit (str "-") false))) (.ref .lastBytePos))),
  -- complete_length (45)
  (.completeLength, .named false numberE),
  -- byte_range_resp (46-48)
  (.byteRangeResp, .named true (.seq (.seq (.ref .byteRange) (.skip (.lit (str "/") false)))
    (.alt (.ref .completeLength) (.subst .none (.lit (str "*") false))))),
  -- unsatisfied_range (50-51)
  (.unsatisfiedRange, .named true (.seq (.subst .none (.lit (str "*/") false)) (.ref .completeLength))),
  -- byte_content_range (62-63)
  (.byteContentRange, .named true (.app wellFormed2F false (.app (classF (str "ContentRange")) true
    (.seq (.seq (.ref .bytesUnit) (.skip .sp)) (.alt (.ref .byteRangeResp) (.ref .unsatisfiedRange)))))),
  -- other_range_resp (65)
  (.otherRangeResp, .named true (.string (.chars charBits7 true))),
  -- other_content_range (66-67)
  (.otherContentRange, .named true (.app (classF (str "ContentRange")) true
    (.seq (.seq (.ref .otherRangeUnit) (.skip .sp)) (.ref .otherRangeResp)))),
  -- Content_Range (69)
  (.contentRange, .named true (.alt (.ref .byteContentRange) (.ref .otherContentRange)))]

end Httpolice.Model
