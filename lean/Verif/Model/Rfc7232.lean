import Verif.Model.Strings
import Verif.Model.Import

/-!
# httpolice/syntax/rfc7232.py
-/

namespace Httpolice.Model

/-- `True` and `False` as values in a grammar (httpolice/syntax/rfc7232.py 12-30). -/
def pyBool (b : Bool) : GVal := .obj (if b then str "True" else str "False") []

/-- `etagc` (syntax/rfc7232.py 11). -/
def etagcBits : Nat → Bool := fun c => decide (33 ≤ c ∧ c ≤ 33) || decide (35 ≤ c ∧ c ≤ 126) || obsTextBits c

/-- `_no_backslashes` (syntax/rfc7232.py 13-17); other arguments cannot occur. -/
def noBackslashesF : Func GVal PyComplaint
  | [.text s] => (.val (.text s), if s.contains 92 then [(1119, [])] else [])
  | _ => (.val .none, [])

/-- Names in the module. `date` are the names of syntax/rfc7231.py; `matchTags` and `noneMatchTags` are the calls of
`comma_list1`; `ifRange` is from syntax/rfc7233.py. -/
inductive TagName
  | date (n : DateName)
  | ows | weak | opaqueTag | entityTag | etag | lastModified | matchTags | ifMatch | noneMatchTags | ifNoneMatch
  | ifModifiedSince | ifUnmodifiedSince | ifRange
deriving DecidableEq, Repr

/-- syntax/rfc7232.py 10-30, after what is imported from syntax/rfc7231.py and syntax/rfc7230.py. -/
def tagDefs : List (TagName × Defn TagName) := importDefs .date dateDefs ++ [
  -- OWS (syntax/rfc7230.py 53)
  (.ows, .named false .ows),
  -- weak (10)
  (.weak, .named false (.subst (pyBool true) (.seq (.octet 0x57) (.octet 0x2F)))),
  -- opaque_tag (19)
  (.opaqueTag, .named false (.app noBackslashesF false
    (.add (.add (.chars dquoteBits true) (.string (.chars etagcBits true))) (.chars dquoteBits true)))),
  -- entity_tag (20)
  (.entityTag, .named true (.app (classF (str "EntityTag")) true
    (.seq (.maybe (.ref .weak) (pyBool false)) (.ref .opaqueTag)))),
  -- ETag (22)
  (.etag, .named true (.ref .entityTag)),
  -- Last_Modified (23)
  (.lastModified, .named true (.ref (.date .httpDate))),
  -- If_Match (25)
  (.matchTags, .list1 .ows (.ref .entityTag)),
  (.ifMatch, .named true (.alt (.lit (str "*") false) (.ref .matchTags))),
  -- If_None_Match (26)
  (.noneMatchTags, .list1 .ows (.ref .entityTag)),
  (.ifNoneMatch, .named true (.alt (.lit (str "*") false) (.ref .noneMatchTags))),
  -- If_Modified_Since, If_Unmodified_Since (27-28)
  (.ifModifiedSince, .named true (.ref (.date .httpDate))),
  (.ifUnmodifiedSince, .named true (.ref (.date .httpDate))),
  -- If_Range (syntax/rfc7233.py 71)
  (.ifRange, .named true (.alt (.ref .entityTag) (.ref (.date .httpDate))))]

end Httpolice.Model
