import Verif.Model.Rfc3986
import Verif.Model.StringsModule
import Verif.Model.Rfc7230Headers
import Verif.Model.Rfc7231
import Verif.Model.Rfc7234

/-!
# Links: httpolice/syntax/rfc8288.py
-/

namespace Httpolice.Model

/-- The symbols for values of parameters (syntax/rfc8288.py 32-35). -/
inductive LinkSymbol
  | uriReference | rel | rev | hreflang | type_ | extValue
deriving DecidableEq, Repr

/-- What `_inner_parse` (parse.py 725-800) returns for a value of a parameter. -/
abbrev LinkParser := LinkSymbol → Str → Except PErr (Node GVal × List PyComplaint × List (Annot GVal))

/-- `parse(value, symbol, complain, 1158, name=name, value=value)` (syntax/rfc8288.py 37-38; parse.py 91-128) where `value` is
text that was made of bytes, so that it can be encoded. The model of the parser has other errors than
`ParseError`, which grammars like these never give (C01); they are not told apart here. The memo makes no difference (C05). -/
def linkArgument (P : LinkParser) (symbol : LinkSymbol) (name : GVal) (value : Str) : GVal × List PyComplaint :=
  let extra : Context PErr GVal := [(str "name", .other name), (str "value", .other (.text value))]
  match P symbol value with
  | .ok (node, cs, _) => (.ofNode node, cs.map fun c => (c.1, mergeContext extra c.2))
  | .error e => (unavailableObj value, [(1158, mergeContext extra [(str "error", .err e)])])

/-- The parameters that count once only (syntax/rfc8288.py 20). -/
def onceNames : List Str := [str "rel", str "media", str "title", str "title*", str "type"]

/-- The dictionary of symbols (syntax/rfc8288.py 32-35). -/
def linkSymbols : List (Str × LinkSymbol) :=
  [(str "anchor", .uriReference), (str "rel", .rel), (str "rev", .rev), (str "hreflang", .hreflang), (str "type", .type_),
    (str "title*", .extValue)]

/-- An exception raised by `_process_params`: `UnboundLocalError` (`parsed_as` in syntax/rfc8288.py 28 or 30), and
`AttributeError` (`None.encode` in parse.py 93, called from syntax/rfc8288.py 37). -/
inductive LinkError
  | unbound | noValue
deriving DecidableEq, Repr

/-- The local variables of `_process_params`: `r`, `seen` (names in lower case), `parsed_as` (`none` where it has no value yet);
and the complaints so far (httpolice/syntax/rfc8288.py 16-49). -/
structure LinkVars where
  r : List GVal := []
  seen : List Str := []
  parsedAs : Option Str := none
  complaints : List PyComplaint := []

/-- A comparison of `parsed_as` (syntax/rfc8288.py 28, 30), which is made only for one name. -/
def LinkVars.asks (s : LinkVars) (applies : Bool) (symbol : Str) : Except LinkError Bool :=
  if applies then
    match s.parsedAs with
    | none => .error .unbound
    | some x => .ok (x == symbol)
  else .ok false

/-- `seen.add(name)` and the assignment to `parsed_as` (syntax/rfc8288.py 20, 25-27). -/
def LinkVars.enter (s : LinkVars) (key : Str) (value : Option (Str × Str)) : LinkVars :=
  { s with
    seen := if key ∈ onceNames then key :: s.seen else s.seen
    parsedAs := match value with
      | some (p, _) => some p
      | none => s.parsedAs }

/-- The value that is put into the dictionary (syntax/rfc8288.py 27, 32-38), with the complaints. -/
def linkResult (P : LinkParser) (name : Str) (value : Option (Str × Str)) : Except LinkError (GVal × List PyComplaint) :=
  match linkSymbols.lookup (name.map litLower), value with
  | some symbol, some (_, v) => .ok (linkArgument P symbol (.obj (str "CaseInsensitive") [.text name]) v)
  | some _, none => .error .noValue
  | none, some (_, v) => .ok (.text v, [])
  | none, none => .ok (.none, [])

/-- One round of the loop in `_process_params` (syntax/rfc8288.py 19-41). Names are compared in lower case
(structure.py 153-166). -/
def linkRound (P : LinkParser) (s : LinkVars) (param : Str × Option (Str × Str)) : Except LinkError LinkVars :=
  let key := param.1.map litLower
  let name : GVal := .obj (str "CaseInsensitive") [.text param.1]
  if key ∈ onceNames ∧ key ∈ s.seen then
    .ok { s with complaints := s.complaints ++ [(1225, [(str "name", .other name)])] }
  else do
    let s := s.enter key param.2
    let a ← s.asks (key == str "title") (str "token")
    let b ← s.asks (key == str "hreflang") (str "quoted_string")
    let (value, cs) ← linkResult P param.1 param.2
    return { s with
      r := s.r ++ [.tuple [name, value]]
      complaints := s.complaints ++ ((if a then [(1307, [])] else []) ++ (if b then [(1308, [])] else []) ++ cs ++
        (if key == str "rev" then [(1226, [])] else [])) }

/-- `_process_params` (syntax/rfc8288.py 15-44). -/
def processParams (P : LinkParser) (params : List (Str × Option (Str × Str))) : Except LinkError (GVal × List PyComplaint) := do
  let s ← params.foldlM (linkRound P) {}
  return (.obj (str "MultiDict") [.list s.r],
    s.complaints ++ (if s.seen.contains (str "rel") then [] else [(1309, [])]))

/-- A parameter as it comes from the grammar. Other values cannot occur (httpolice/syntax/rfc8288.py 16-49). -/
def linkPair : GVal → Str × Option (Str × Str)
  | .tuple [.obj _ [.text name], .tuple [.obj symbol [], .text value]] => (name, some (symbol, value))
  | .tuple [.obj _ [.text name], _] => (name, none)
  | _ => ([], none)

/-- Stands for the exception (httpolice/syntax/rfc8288.py 16-49). -/
def raisedObj : LinkError → GVal
  | .unbound => .obj (str "UnboundLocalError") []
  | .noValue => .obj (str "AttributeError") []

/-- `_process_params` as a function for `<<`. An exception in it is one of `parse`; here the value is an object that stands for
the exception, so that it can be told where it is raised (httpolice/syntax/rfc8288.py 16-49). -/
def processParamsF (P : LinkParser) : Func GVal PyComplaint
  | [.list xs] =>
    match processParams P (xs.map linkPair) with
    | .ok (v, cs) => (.val v, cs)
    | .error e => (.val (raisedObj e), [])
  | _ => (.val .none, [])

/-- Names in the module (httpolice/syntax/rfc8288.py 51-72). -/
inductive LinkName
  | str (n : StrName)
  | uri (n : UriName)
  | linkParam | linkValue | links | link
deriving DecidableEq, Repr

/-- syntax/rfc8288.py 46-55, after what is imported from syntax/rfc7230.py and syntax/rfc3986.py. -/
def linkDefs (P : LinkParser) : List (LinkName × Defn LinkName) :=
  importDefs .str stringDefs ++ (importDefs .uri uriDefs ++ [
  -- link_param (46-49)
  (.linkParam, .named true (.seq (.seq (.app (classF (Httpolice.Model.str "CaseInsensitive")) true (.ref (.str .token)))
    (.skip (.ref (.str .bws))))
    (.maybe (.seq (.skip (.seq (.lit (Httpolice.Model.str "=") false) (.ref (.str .bws))))
      (.alt (.mark (Httpolice.Model.str "token") (.str .token)) (.mark (Httpolice.Model.str "quoted_string") (.str .quoted))))))),
  -- link_value (51-53)
  (.linkValue, .named true (.app (classF (Httpolice.Model.str "Parametrized")) true (.seq (.seq (.seq
    (.skip (.lit (Httpolice.Model.str "<") false)) (.ref (.uri .uriReference))) (.skip (.lit (Httpolice.Model.str ">") false)))
    (.app (processParamsF P) false (.many (.seq (.semicolon (.str .ows)) (.ref .linkParam))))))),
  -- Link (55)
  (.links, .list (.str .ows) (.ref .linkValue)),
  (.link, .named true (.ref .links))])

end Httpolice.Model
