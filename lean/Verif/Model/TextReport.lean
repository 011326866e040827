import Verif.Model.Text
import Verif.Model.Cli

/-!
# Model of `httpolice/reports/text.py`

The title of a complaint is the list of texts that `_piece_to_text` reaches (reports/text.py 63-78):
the title from `notices.xml` with variables replaced by values. The report is text; writing it as
UTF-8 is left out (`C41_encodable`: this cannot fail).
-/

namespace Httpolice.Model

/-- What the report shows of a complaint (httpolice/reports/text.py 56-60). -/
structure TComplaint where
  severity : Severity
  id : Nat
  title : List Str
deriving DecidableEq, Repr

/-- What the report shows of a request (httpolice/reports/text.py 37-47). -/
structure TReq where
  method : Str
  target : Str
  complaints : List TComplaint
deriving DecidableEq, Repr

/-- What the report shows of a response; `phrase` is `find_reason_phrase(response)`
(httpolice/reports/text.py 50-53). -/
structure TResp where
  status : Int
  phrase : Str
  complaints : List TComplaint
deriving DecidableEq, Repr

/-- What the report shows of an exchange (httpolice/reports/text.py 11-47). -/
structure TExch where
  request : Option TReq
  responses : List TResp
  complaints : List TComplaint
deriving DecidableEq, Repr

/-- `find_reason_phrase` (reports/common.py 76-77) given the reason, empty if there is none, and the
title of the status code if it is known. -/
def findReasonPhrase (reason : Str) (title : Option Str) : Str :=
  if reason.isEmpty then
    match title with
    | none => str "(unknown)"
    | some t => if t.isEmpty then str "(unknown)" else t
  else reason

/-- `severity.name[0].upper()` (notice.py 58). -/
def Severity.short : Severity → Str
  | .error => str "E"
  | .comment => str "C"
  | .debug => str "D"

/-- `%d` for a number that is not negative (httpolice/reports/text.py 50-61). -/
def decimalText (n : Nat) : Str := str (toString n)

/-- `'%d' % n`, and also `str(n)` (httpolice/reports/text.py 50-53, httpolice/citation.py 36-54). -/
def intText (n : Int) : Str :=
  match n with
  | .ofNat k => decimalText k
  | .negSucc k => 45 :: decimalText (k + 1)

/-- `c.isspace()` (httpolice/reports/text.py 37-53). -/
def isSpaceChar (c : Nat) : Bool :=
  (9 ≤ c && c ≤ 13) || (28 ≤ c && c ≤ 32) || c = 0x85 || c = 0xA0 || c = 0x1680 ||
    (0x2000 ≤ c && c ≤ 0x200A) || c = 0x2028 || c = 0x2029 || c = 0x202F || c = 0x205F || c = 0x3000

/-- `s.strip()` (httpolice/reports/text.py 37-53). -/
def stripText (s : Str) : Str :=
  ((s.dropWhile isSpaceChar).reverse.dropWhile isSpaceChar).reverse

/-- The title as text: `_piece_to_text` (reports/text.py 63-78). -/
def pieceText (pieces : List Str) : Str := (pieces.map printable).flatten

/-- `_write_complaint_line` (reports/text.py 56-60): what is written. -/
def complaintLine (c : TComplaint) : Str :=
  c.severity.short ++ str " " ++ decimalText c.id ++ str " " ++
    detypographize (stripText (pieceText c.title)) ++ str "\n"

/-- `_exchange_marker` (reports/text.py 37-47). -/
def exchangeMarker (e : TExch) : Str :=
  ellipsize
    (match e.request with
    | some r => str "------------ request: " ++ printable r.method ++ str " " ++ printable r.target
    | none => if e.responses.isEmpty then str "------------" else str "------------ unknown request")
    79 ++ str "\n"

/-- `_response_marker` (reports/text.py 50-53). -/
def responseMarker (r : TResp) : Str :=
  ellipsize (str "------------ response: " ++ intText r.status ++ str " " ++ printable r.phrase)
    60 ++ str "\n"

/-- `WriteIfAny` (util/text.py 116-146): what reaches the parent file if `value` was written. -/
def writeIfAny (beginning value : Str) : Str := if value.isEmpty then [] else beginning ++ value

/-- The block for a response (reports/text.py 29-32). -/
def responseBlock (r : TResp) : Str :=
  writeIfAny (responseMarker r) (r.complaints.flatMap complaintLine)

/-- The lines for a request (reports/text.py 26-28). -/
def requestLines : Option TReq → Str
  | some r => r.complaints.flatMap complaintLine
  | none => []

/-- The block for an exchange (reports/text.py 25-34). -/
def exchangeBlock (e : TExch) : Str :=
  writeIfAny (exchangeMarker e)
    (requestLines e.request ++ e.responses.flatMap responseBlock ++ e.complaints.flatMap complaintLine)

/-- `text_report` (reports/text.py 11-34). -/
def textReport (exchanges : List TExch) : Str := exchanges.flatMap exchangeBlock

end Httpolice.Model
