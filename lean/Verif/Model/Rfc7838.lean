import Verif.Model.Rfc7234
import Verif.Model.Rfc8187

/-!
# Alternative services: httpolice/syntax/rfc7838.py
-/

namespace Httpolice.Model

/-- A digit of `'%02X'` (httpolice/syntax/rfc7838.py 19-35). -/
def upperDigit (n : Nat) : Nat := if n < 10 then 48 + n else 55 + n

/-- One round of the loop in `_check_protocol_id` (syntax/rfc7838.py 26-30), with `pct_encode(c, safe='').upper()`, where `c` is
one byte that is not in `tchar - '%'`: the standard library leaves only letters, digits and `_.-~` as they are, and they are all
in `tchar`. -/
def protocolByte (c : Nat) : Str := if tcharBits c && c != 37 then [c] else [37, upperDigit (c / 16), upperDigit (c % 16)]

/-- `_check_protocol_id` (syntax/rfc7838.py 19-33). Other arguments cannot occur. -/
def checkProtocolIdF : Func GVal PyComplaint
  | [.text w] =>
    let correct := (unquote w).flatMap protocolByte
    (.val (bytesObj (unquote w)),
      if w = correct then [] else [(1256, [(str "actual", .other (.text w)), (str "correct", .other (.text correct))])])
  | _ => (.val .none, [])

/-- What `_inner_parse` (parse.py 725-800) returns for an authority. -/
abbrev AltParser := Str → Except PErr (Node GVal × List PyComplaint × List (Annot GVal))

/-- `_check_alt_authority` (syntax/rfc7838.py 37-40; parse.py 91-128), as `linkArgument`. Other arguments cannot occur. -/
def checkAltAuthorityF (P : AltParser) : Func GVal PyComplaint
  | [.text w] =>
    let extra : Context PErr GVal := [(str "authority", .other (.text w))]
    match P w with
    | .ok (node, cs, _) => (.val (.ofNode node), cs.map fun c => (c.1, mergeContext extra c.2))
    | .error e => (.val (unavailableObj w), [(1257, mergeContext extra [(str "error", .err e)])])
  | _ => (.val .none, [])

/-- Names for the symbol of `_check_alt_authority` (httpolice/syntax/rfc7838.py 37-42). -/
inductive AuthorityName
  | uri (n : UriName)
  | whole
deriving DecidableEq, Repr

/-- `maybe_str(uri_host) + ':' + port` (syntax/rfc7838.py 39), after syntax/rfc3986.py. In the code the symbol is made anew each
time, when all modules are there, and has no name. -/
def authorityDefs : List (AuthorityName × Defn AuthorityName) :=
  importDefs .uri uriDefs ++ [
  (.whole, .named false (.add (.add (.maybeStr (.ref (.uri .host))) (.lit (str ":") false)) (.ref (.uri .port))))]

/-- Names in the module. `altValues` is the call of `comma_list1` (httpolice/syntax/rfc7838.py 14-59). -/
inductive AltName
  | cache (n : CacheName)
  | uri (n : UriName)
  | clear | protocolId | altAuthority | alternative | parameter | altValue | altValues | altSvc | ma | persist | altUsed
deriving DecidableEq, Repr

/-- A name for strings (httpolice/parse.py 528-533). -/
abbrev GExpr.als (n : StrName) : GExpr AltName := .ref (.cache (.hop (.str n)))

/-- The module, after what it imports. `order` is the order in which Python iterates over a set
(httpolice/syntax/rfc7838.py 14-59). -/
def altDefs (order : List Nat → List Nat) (P : AltParser) : List (AltName × Defn AltName) :=
  importDefs .cache (cacheDefs order) ++ (importDefs .uri uriDefs ++ [
  -- clear (17)
  (.clear, .named true (.lit (str "clear") true)),
  -- protocol_id (35)
  (.protocolId, .named true (.app checkProtocolIdF false (.als .token))),
  -- alt_authority (42)
  (.altAuthority, .named true (.app (checkAltAuthorityF P) false (.als .quoted))),
  -- alternative (44)
  (.alternative, .named true (.seq (.seq (.ref .protocolId) (.skip (.lit (str "=") false))) (.ref .altAuthority))),
  -- parameter (45-46)
  (.parameter, .named true (.seq (.seq (.app (classF (str "AltSvcParam")) true (.als .token)) (.skip (.lit (str "=") false)))
    (.alt (.als .token) (.als .quoted)))),
  -- alt_value (47-49)
  (.altValue, .named true (.app (classF (str "Parametrized")) true (.seq (.ref .alternative)
    (.app (classF (str "MultiDict")) true (.many (.seq (.semicolon (.cache (.hop (.str .ows)))) (.ref .parameter))))))),
  -- Alt_Svc (51)
  (.altValues, .list1 (.cache (.hop (.str .ows))) (.ref .altValue)),
  (.altSvc, .named true (.alt (.ref .clear) (.ref .altValues))),
  -- ma, persist (53-54)
  (.ma, .named true (.ref (.cache .deltaSeconds))),
  (.persist, .named true (.subst (.obj (str "True") []) (.lit (str "1") false))),
  -- Alt_Used (56)
  (.altUsed, .named true (.add (.ref (.uri .host)) (.maybeStr (.add (.lit (str ":") false) (.ref (.uri .port))))))])

end Httpolice.Model
