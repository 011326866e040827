import Verif.Model.Strings
import Verif.Model.Import

/-!
# The part of httpolice/syntax/rfc7230.py that other modules import
-/

namespace Httpolice.Model

/-- `_check_just_one_space` (syntax/rfc7230.py 55-59); other arguments cannot occur. -/
def oneSpaceF : Func GVal PyComplaint
  | [.text s] => (.val (.text s), if s ≠ str " " then [(1014, [(str "num", .other (.int s.length))])] else [])
  | _ => (.val .none, [])

/-- `_bad_whitespace` (syntax/rfc7230.py 63-67); other arguments cannot occur. -/
def badWhitespaceF : Func GVal PyComplaint
  | [.text s] => (.val (.text s), if s ≠ [] then [(1015, [])] else [])
  | _ => (.val .none, [])

/-- Names. `pair` is the call `quoted_pair(sensible_for=u'"\\')` (httpolice/syntax/rfc7230.py 15-60). -/
inductive StrName
  | token | pair | quoted | ows | rws | bws
deriving DecidableEq, Repr

/-- syntax/rfc7230.py 20-69, in this order, without `comment`. -/
def stringDefs : List (StrName × Defn StrName) := [
  -- token (20)
  (.token, .named false .token),
  -- quoted_pair (25-34)
  (.pair, .named false (.quotedPair (str "\"\\"))),
  -- quoted_string (38-40)
  (.quoted, .named false (.quotedString .pair)),
  -- OWS (53)
  (.ows, .named false .ows),
  -- RWS (61)
  (.rws, .named false (.app oneSpaceF false (.string1 (.chars spHtabBits false)))),
  -- BWS (69)
  (.bws, .named false (.app badWhitespaceF false (.ref .ows)))]

end Httpolice.Model
