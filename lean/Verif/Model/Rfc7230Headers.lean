import Verif.Model.StringsModule

/-!
# Headers in httpolice/syntax/rfc7230.py

Without Host and Via.
-/

namespace Httpolice.Model

/-- `_empty_params` (syntax/rfc7230.py 116); `MultiDict()` is `MultiDict([])`. Other arguments cannot occur. -/
def emptyParamsF : Func GVal PyComplaint := pureFunc fun
  | [c] => .obj (str "Parametrized") [c, .obj (str "MultiDict") [.list []]]
  | _ => .none

/-- Names in the module. Those with a number at the end are calls of the same function with other arguments; `...s` are the
calls of `comma_list` and `comma_list1` (httpolice/syntax/rfc7230.py 90-166). -/
inductive HopName
  | str (n : StrName)
  | method | fieldName
  | transferParameter | transferExtension | transferCoding | transferCodings | transferEncoding
  | rank | tRanking | transferParameter2 | transferExtension2 | transferCoding2 | tCodings | tCodingss | te
  | trailers | trailer | connectionOption | connectionOptions | connection
  | protocolName | protocolVersion | protocol | protocols | upgrade | contentLength
deriving DecidableEq, Repr

/-- A name for strings (httpolice/parse.py 528-533). -/
abbrev GExpr.s (n : StrName) : GExpr HopName := .ref (.str n)

/-- `skip(OWS * ';' * OWS)` (httpolice/syntax/rfc7230.py 118-135). -/
def GExpr.semicolon {N : Type} (ows : N) : GExpr N := .skip (.seq (.seq (.ref ows) (.lit (str ";") false)) (.ref ows))

/-- `_built_in_codings` (syntax/rfc7230.py 115). -/
def builtInCodings : List Str := [str "chunked", str "compress", str "deflate", str "gzip"]

/-- `transfer_parameter(no_q)` (syntax/rfc7230.py 109-113); `name` is the expression for the name. -/
def transferParameterE (name : GExpr HopName) : GExpr HopName :=
  .seq (.seq name (.skip (.seq (.seq (.s .bws) (.lit (str "=") false)) (.s .bws)))) (.alt (.s .token) (.s .quoted))

/-- `transfer_extension(exclude, no_q)` (syntax/rfc7230.py 118-122); `param` is `transfer_parameter(no_q)`. -/
def transferExtensionE (order : List Nat → List Nat) (exclude : List Str) (param : HopName) : GExpr HopName :=
  .app (classF (str "Parametrized")) true (.seq
    (.app (classF (str "TransferCoding")) true (.tokenExcluding order exclude))
    (.app (classF (str "MultiDict")) true (.many (.seq (.semicolon (.str .ows)) (.ref param)))))

/-- `_empty_params << (TransferCoding << literal(name))` (syntax/rfc7230.py 130). -/
def builtInE (name : Str) : GExpr HopName :=
  .app emptyParamsF false (.app (classF (str "TransferCoding")) true (.lit name false))

/-- `transfer_coding(no_trailers, no_q)` (syntax/rfc7230.py 124-131); `ext` is the call of `transfer_extension`. -/
def transferCodingE (ext : HopName) : GExpr HopName :=
  builtInCodings.foldl (fun r name => .alt r (builtInE name)) (.ref ext)

/-- `float << d + maybe_str('.' + string_times(0, 3, e))` (syntax/rfc7230.py 135-136). -/
def rankE {N : Type} (d : Str) (e : GExpr N) : GExpr N :=
  .app (classF (str "float")) true (.add (.lit d false) (.maybeStr (.add (.lit (str ".") false) (.stringTimes 0 (some 3) e))))

/-- syntax/rfc7230.py 92-164, without what has to do with URIs, and without Host and Via. `order` is the order in which Python
iterates over a set. -/
def hopDefs (order : List Nat → List Nat) : List (HopName × Defn HopName) := importDefs .str stringDefs ++ [
  -- method (92)
  (.method, .named true (.app (classF (str "Method")) true (.s .token))),
  -- field_name (107)
  (.fieldName, .named true (.app (classF (str "FieldName")) true (.s .token))),
  -- Transfer_Encoding (133), with transfer_coding() (124-131)
  (.transferParameter, .named true (transferParameterE (.s .token))),
  (.transferExtension, .named true (transferExtensionE order builtInCodings .transferParameter)),
  (.transferCoding, .named true (transferCodingE .transferExtension)),
  (.transferCodings, .list1 (.str .ows) (.ref .transferCoding)),
  (.transferEncoding, .named true (.ref .transferCodings)),
  -- rank (135-136)
  (.rank, .named true (.alt (rankE (str "0") .digit) (rankE (str "1") (.lit (str "0") false)))),
  -- t_ranking (137)
  (.tRanking, .named true (.seq (.skip (.seq (.seq (.seq (.s .ows) (.lit (str ";") false)) (.s .ows)) (.lit (str "q=") false)))
    (.ref .rank))),
  -- t_codings (138-140), with transfer_coding(no_trailers=True, no_q=True)
  (.transferParameter2, .named true (transferParameterE (.tokenExcluding order [str "q"]))),
  (.transferExtension2, .named true (transferExtensionE order (builtInCodings ++ [str "trailers"]) .transferParameter2)),
  (.transferCoding2, .named true (transferCodingE .transferExtension2)),
  (.tCodings, .named true (.alt (.app (classF (str "CaseInsensitive")) true (.lit (str "trailers") false))
    (.app (classF (str "Parametrized")) true (.seq (.ref .transferCoding2) (.maybe (.ref .tRanking)))))),
  -- TE (141)
  (.tCodingss, .list (.str .ows) (.ref .tCodings)),
  (.te, .named true (.ref .tCodingss)),
  -- Trailer (143)
  (.trailers, .list1 (.str .ows) (.ref .fieldName)),
  (.trailer, .named true (.ref .trailers)),
  -- connection_option (147)
  (.connectionOption, .named true (.app (classF (str "ConnectionOption")) true (.s .token))),
  -- Connection (148)
  (.connectionOptions, .list1 (.str .ows) (.ref .connectionOption)),
  (.connection, .named true (.ref .connectionOptions)),
  -- protocol_name, protocol_version (150-151)
  (.protocolName, .named true (.s .token)),
  (.protocolVersion, .named true (.s .token)),
  -- protocol (152-153)
  (.protocol, .named true (.app (classF (str "Versioned")) true (.seq
    (.app (classF (str "UpgradeToken")) true (.ref .protocolName))
    (.maybe (.seq (.skip (.lit (str "/") false)) (.ref .protocolVersion)))))),
  -- Upgrade (154)
  (.protocols, .list1 (.str .ows) (.ref .protocol)),
  (.upgrade, .named true (.ref .protocols)),
  -- Content_Length (164)
  (.contentLength, .named true .number)]

end Httpolice.Model
