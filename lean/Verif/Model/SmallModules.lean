import Verif.Model.Rfc7231Headers
import Verif.Model.Rfc7232
import Verif.Model.Rfc7235

/-!
# Small modules: rfc7240.py, rfc6797.py, internal.py, rfc5789.py, w3c_ldp.py and rfc7540.py in httpolice/syntax
-/

namespace Httpolice.Model

/-- `_normalize_empty_value` (syntax/rfc7240.py 9-14). Other arguments cannot occur. -/
def normalizeEmptyF : Func GVal PyComplaint := pureFunc fun
  | [.tuple [name, value]] => .obj (str "Parametrized") [name, match value with | .text [] => .none | v => v]
  | [x] => .obj (str "Parametrized") [x, .none]
  | _ => .none

/-- `_collect_elements` (syntax/rfc6797.py 16-17), `_remove_empty` (syntax/rfc7239.py 10-11). Other arguments cannot occur. -/
def collectElementsF : Func GVal PyComplaint := pureFunc fun
  | [.list xs] => .list (xs.filter fun | .none => false | _ => true)
  | _ => .none

/-- Names in these modules. Those with a number at the end are calls of the same function, again or with other arguments; `...s`
are the calls of `comma_list` and `comma_list1` (httpolice/syntax/rfc7240.py, syntax/rfc6797.py,
syntax/internal.py, syntax/rfc5789.py, syntax/w3c_ldp.py, syntax/rfc7540.py). -/
inductive SmallName
  | sem (n : SemName)
  | attr1 | head | attr2 | param | preference | prefers | prefer | attr3 | head2 | applieds | preferenceApplied
  | return_ | wait | handling
  | directiveName | directiveValue | directive | hsts | maxAge
  | noticeId | resp | silences | silence
  | patches | acceptPatch | attr4 | mediaRange | posts | acceptPost
deriving DecidableEq, Repr

/-- A name for strings (httpolice/parse.py 528-533). -/
abbrev GExpr.ms (n : StrName) : GExpr SmallName := .ref (.sem (.hop (.str n)))

/-- `parameter(name_cls=cls)` (syntax/rfc7231.py 27-31). -/
def attrE (order : List Nat → List Nat) (cls : Str) : GExpr SmallName :=
  .seq (.seq (.app (classF cls) true (.tokenExcluding order [])) (.skip (.lit (str "=") false))) (.alt (.ms .token) (.ms .quoted))

/-- `preference_parameter(head)` (syntax/rfc7240.py 16-23), after the call of `parameter`. -/
def prefParamE (attr : SmallName) (cls : Str) : GExpr SmallName :=
  .app normalizeEmptyF false (.alt (.ref attr) (.app (classF cls) true (.ms .token)))

/-- The modules, one after the other, after what they import. `order` is the order in which Python iterates over a set
(httpolice/syntax/rfc7240.py, syntax/rfc6797.py, syntax/internal.py, syntax/rfc5789.py, syntax/w3c_ldp.py,
syntax/rfc7540.py). -/
def smallDefs (order : List Nat → List Nat) : List (SmallName × Defn SmallName) :=
  importDefs .sem (semDefs order) ++ [
  -- syntax/rfc7240.py: preference (25-28), with the calls of preference_parameter (16-23)
  (.attr1, .named true (attrE order (str "Preference"))),
  (.head, .named true (prefParamE .attr1 (str "Preference"))),
  (.attr2, .named true (attrE order (str "CaseInsensitive"))),
  (.param, .named true (prefParamE .attr2 (str "CaseInsensitive"))),
  (.preference, .named true (.app (classF (str "Parametrized")) true (.seq (.ref .head)
    (.many (.seq (.skip (.seq (.ms .ows) (.lit (str ";") false))) (.maybe (.seq (.skip (.ms .ows)) (.ref .param)))))))),
  -- Prefer (30)
  (.prefers, .list1 (.sem (.hop (.str .ows))) (.ref .preference)),
  (.prefer, .named true (.ref .prefers)),
  -- Preference_Applied (32)
  (.attr3, .named true (attrE order (str "Preference"))),
  (.head2, .named true (prefParamE .attr3 (str "Preference"))),
  (.applieds, .list1 (.sem (.hop (.str .ows))) (.ref .head2)),
  (.preferenceApplied, .named true (.ref .applieds)),
  -- return_, wait, handling (35-37)
  (.return_, .named true (.app (classF (str "CaseInsensitive")) true
    (.alt (.lit (str "representation") false) (.lit (str "minimal") false)))),
  (.wait, .named false (.ref (.sem .delaySeconds))),
  (.handling, .named true (.app (classF (str "CaseInsensitive")) true
    (.alt (.lit (str "strict") false) (.lit (str "lenient") false)))),
  -- syntax/rfc6797.py: directive_name, directive_value, directive (11-14)
  (.directiveName, .named false (.app (classF (str "HSTSDirective")) true (.ms .token))),
  (.directiveValue, .named false (.alt (.ms .token) (.ms .quoted))),
  (.directive, .named true (.app (classF (str "Parametrized")) true (.seq (.ref .directiveName)
    (.maybe (.seq (.skip (.seq (.seq (.ms .ows) (.lit (str "=") false)) (.ms .ows))) (.ref .directiveValue)))))),
  -- Strict_Transport_Security (19-20)
  (.hsts, .named true (.app collectElementsF false (.mod (.maybe (.ref .directive))
    (.many (.seq (.semicolon (.sem (.hop (.str .ows)))) (.maybe (.ref .directive))))))),
  -- max_age_value (22)
  (.maxAge, .named true .number),
  -- syntax/internal.py: notice_id, resp, HTTPolice_Silence (7-9)
  (.noticeId, .named true .number),
  (.resp, .named true (.subst (pyBool true) (.lit (str "resp") false))),
  (.silences, .list (.sem (.hop (.str .ows))) (.seq (.ref .noticeId) (.maybe (.seq (.skip (.ms .rws)) (.ref .resp))))),
  (.silence, .named true (.ref .silences)),
  -- syntax/rfc5789.py: Accept_Patch (7)
  (.patches, .list1 (.sem (.hop (.str .ows))) (.ref (.sem .mediaType))),
  (.acceptPatch, .named true (.ref .patches)),
  -- syntax/w3c_ldp.py: Accept_Post (7), with media_range() (syntax/rfc7231.py 173-186)
  (.attr4, .named true (attrE order (str "CaseInsensitive"))),
  (.mediaRange, .named true (.app (classF (str "Parametrized")) true (.seq
    (.alt (.alt (.lit (str "*/*") false) (.add (.add (.ref (.sem .type_)) (.lit (str "/") false)) (.lit (str "*") false)))
      (mediaNameE.rename .sem))
    (.app (classF (str "MultiDict")) true (.many (.seq (.semicolon (.sem (.hop (.str .ows)))) (.ref .attr4))))))),
  (.posts, .list (.sem (.hop (.str .ows))) (.ref .mediaRange)),
  (.acceptPost, .named true (.ref .posts))]

/-- Names in syntax/rfc7540.py. -/
inductive Http2Name
  | auth (n : AuthName)
  | http2Settings
deriving DecidableEq, Repr

/-- syntax/rfc7540.py 6, after what is imported. -/
def http2Defs : List (Http2Name × Defn Http2Name) :=
  importDefs .auth authDefs ++ [(.http2Settings, .named true (.ref (.auth .token68)))]

end Httpolice.Model
