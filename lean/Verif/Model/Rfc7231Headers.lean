import Verif.Model.Rfc7230Headers
import Verif.Model.Rfc7231

/-!
# Headers in httpolice/syntax/rfc7231.py

Without those that need comments, languages or URIs: User-Agent, Server, From, Accept-Language, Content-Language,
Content-Location, Location and Referer.
-/

namespace Httpolice.Model

/-- `_BAD_MEDIA_TYPES` (syntax/common.py 18-22). Keys are the same if they are so in lower case (structure.py 153-166). -/
def badMediaTypes : List (Str × Str) :=
  [(str "application/text", str "text/plain"), (str "plain/text", str "text/plain"), (str "text/json", str "application/json")]

/-- `check_media_type` (syntax/common.py 24-28). Other arguments cannot occur. -/
def checkMediaTypeF : Func GVal PyComplaint
  | [.obj cls [.text w]] => (.val (.obj cls [.text w]),
      match badMediaTypes.find? fun x => x.1 = w.map litLower with
      | some x => [(1282, [(str "bad", .other (.obj cls [.text w])), (str "good", .other (.obj (str "MediaType") [.text x.2]))])]
      | none => [])
  | _ => (.val .none, [])

/-- `_prepend_q` (syntax/rfc7231.py 194-195). Other arguments cannot occur. -/
def prependQF : Func GVal PyComplaint := pureFunc fun
  | [q, .list xs] => .obj (str "MultiDict") [.list (.tuple [.obj (str "CaseInsensitive") [.text (str "q")], q] :: xs)]
  | _ => .none

/-- Names in the module. Those with a number at the end are calls of the same function with other arguments; `...s` are the
calls of `comma_list` and `comma_list1` (httpolice/syntax/rfc7231.py 18-48, 172-231). -/
inductive SemName
  | hop (n : HopName)
  | date (n : DateName)
  | parameter | type_ | subtype | mediaType | contentCoding | parameter2 | mediaRange | qvalue | weight | acceptExt
  | acceptParams | accepts | accept | charset | acceptCharsets | acceptCharset | codings | acceptEncodings | acceptEncoding
  | delaySeconds | retryAfter | methods | allow | contentCodings | contentEncoding | contentType | dateHeader | maxForwards
  | fieldNames | vary | expect
deriving DecidableEq, Repr

/-- A name for strings (httpolice/parse.py 528-533). -/
abbrev GExpr.ss (n : StrName) : GExpr SemName := .ref (.hop (.str n))

/-- `parameter(exclude)` (syntax/rfc7231.py 27-31). -/
def parameterE (order : List Nat → List Nat) (exclude : List Str) : GExpr SemName :=
  .seq (.seq (.app (classF (str "CaseInsensitive")) true (.tokenExcluding order exclude)) (.skip (.lit (str "=") false)))
    (.alt (.ss .token) (.ss .quoted))

/-- `check_media_type << (MediaType << type_ + '/' + subtype)` (syntax/rfc7231.py 36, 178). -/
def mediaNameE : GExpr SemName :=
  .app checkMediaTypeF false (.app (classF (str "MediaType")) true
    (.add (.add (.ref .type_) (.lit (str "/") false)) (.ref .subtype)))

/-- `MultiDict << many(skip(OWS * ';' * OWS) * param)` (syntax/rfc7231.py 37, 181-185). -/
def parametersE (param : SemName) : GExpr SemName :=
  .app (classF (str "MultiDict")) true (.many (.seq (.semicolon (.hop (.str .ows))) (.ref param)))

/-- syntax/rfc7231.py 27-229, after what is imported from syntax/rfc7230.py, without what has to do with comments, languages
and URIs. `order` is the order in which Python iterates over a set. -/
def semDefs (order : List Nat → List Nat) : List (SemName × Defn SemName) :=
  importDefs .hop (hopDefs order) ++ (importDefs .date dateDefs ++ [
  -- type_, subtype (33-34)
  (.type_, .named true (.ss .token)),
  (.subtype, .named true (.ss .token)),
  -- media_type (35-37), with parameter() (27-31)
  (.parameter, .named true (parameterE order [])),
  (.mediaType, .named true (.app (classF (str "Parametrized")) true (.seq mediaNameE (parametersE .parameter)))),
  -- content_coding (39)
  (.contentCoding, .named true (.app (classF (str "ContentCoding")) true (.ss .token))),
  -- media_range(no_q=True) (173-186), with parameter(exclude=['q'])
  (.parameter2, .named true (parameterE order [str "q"])),
  (.mediaRange, .named true (.app (classF (str "Parametrized")) true (.seq
    (.alt (.alt (.lit (str "*/*") false) (.add (.add (.ref .type_) (.lit (str "/") false)) (.lit (str "*") false))) mediaNameE)
    (parametersE .parameter2)))),
  -- qvalue (188-189)
  (.qvalue, .named true (.alt (rankE (str "0") .digit) (rankE (str "1") (.lit (str "0") false)))),
  -- weight (190)
  (.weight, .named true (.seq (.skip (.seq (.seq (.seq (.ss .ows) (.lit (str ";") false)) (.ss .ows)) (.lit (str "q=") false)))
    (.ref .qvalue))),
  -- accept_ext (191-192)
  (.acceptExt, .named true (.seq (.seq (.semicolon (.hop (.str .ows))) (.ss .token))
    (.maybe (.seq (.skip (.lit (str "=") false)) (.alt (.ss .token) (.ss .quoted)))))),
  -- accept_params (197)
  (.acceptParams, .named true (.app prependQF false (.seq (.ref .weight) (.many (.ref .acceptExt))))),
  -- Accept (199-201)
  (.accepts, .list (.hop (.str .ows)) (.app (classF (str "Parametrized")) true (.seq (.ref .mediaRange)
    (.maybe (.ref .acceptParams) (.obj (str "MultiDict") [.list []]))))),
  (.accept, .named true (.ref .accepts)),
  -- charset, Accept_Charset (203-206)
  (.charset, .named true (.app (classF (str "Charset")) true (.ss .token))),
  (.acceptCharsets, .list1 (.hop (.str .ows)) (.app (classF (str "Parametrized")) true (.seq
    (.alt (.ref .charset) (.app (classF (str "Charset")) true (.lit (str "*") false))) (.maybe (.ref .weight))))),
  (.acceptCharset, .named true (.ref .acceptCharsets)),
  -- codings, Accept_Encoding (208-211)
  (.codings, .named true (.alt (.alt (.ref .contentCoding)
    (.app (classF (str "ContentCoding")) true (.lit (str "identity") false))) (.lit (str "*") false))),
  (.acceptEncodings, .list (.hop (.str .ows)) (.app (classF (str "Parametrized")) true (.seq (.ref .codings)
    (.maybe (.ref .weight))))),
  (.acceptEncoding, .named true (.ref .acceptEncodings)),
  -- delay_seconds, Retry_After (216-217)
  (.delaySeconds, .named true .number),
  (.retryAfter, .named true (.alt (.ref (.date .httpDate)) (.ref .delaySeconds))),
  -- Allow, Content_Encoding (219-220)
  (.methods, .list (.hop (.str .ows)) (.ref (.hop .method))),
  (.allow, .named true (.ref .methods)),
  (.contentCodings, .list1 (.hop (.str .ows)) (.ref .contentCoding)),
  (.contentEncoding, .named true (.ref .contentCodings)),
  -- Content_Type, Date (223-224)
  (.contentType, .named true (.ref .mediaType)),
  (.dateHeader, .named true (.ref (.date .httpDate))),
  -- Max_Forwards (226)
  (.maxForwards, .named true .number),
  -- Vary (228)
  (.fieldNames, .list1 (.hop (.str .ows)) (.ref (.hop .fieldName))),
  (.vary, .named true (.alt (.lit (str "*") false) (.ref .fieldNames))),
  -- Expect (229)
  (.expect, .named true (.app (classF (str "CaseInsensitive")) true (.lit (str "100-continue") false)))])

end Httpolice.Model
