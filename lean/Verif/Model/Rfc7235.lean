import Verif.Model.Rfc7234

/-!
# httpolice/syntax/rfc7235.py
-/

namespace Httpolice.Model

/-- `ALPHA` (syntax/common.py 7). -/
def alphaBits : Nat → Bool := fun c => decide (65 ≤ c ∧ c ≤ 90) || decide (97 ≤ c ∧ c ≤ 122)

/-- `ALPHA | DIGIT | '-' | '.' | '_' | '~' | '+' | '/'` (syntax/rfc7235.py 12). -/
def token68Bits : Nat → Bool := fun c =>
  alphaBits c || digitBits c || charBits 45 false c || charBits 46 false c || charBits 95 false c || charBits 126 false c ||
    charBits 43 false c || charBits 47 false c

/-- `_check_realm` (syntax/rfc7235.py 15-20). A `CaseInsensitive` is the same as a string if they are so in lower case
(structure.py 153-166). Other arguments cannot occur. -/
def checkRealmF : Func GVal PyComplaint
  | [.obj cls [.text k], .tuple [.obj symbol [], v]] => (.val (.tuple [.obj cls [.text k], v]),
      if k.map litLower = str "realm" ∧ symbol ≠ str "quoted_string" then [(1196, [])] else [])
  | _ => (.val .none, [])

/-- Names in the module. `...s` are the calls of `comma_list` and `comma_list1`
(httpolice/syntax/rfc7235.py 12-44). -/
inductive AuthName
  | str (n : StrName)
  | authScheme | token68 | authParam | authParams | challenge | challenges | wwwAuthenticate | challenges2 | proxyAuthenticate
  | authParams2 | credentials | authorization | proxyAuthorization
deriving DecidableEq, Repr

/-- `Parametrized << (auth_scheme * maybe(skip(string1(SP)) * (token68 | MultiDict << comma_list(auth_param)),
default=MultiDict()))` (syntax/rfc7235.py 26-30, 35-39). -/
def schemeE (params : AuthName) : GExpr AuthName :=
  .app (classF (str "Parametrized")) true (.seq (.ref .authScheme)
    (.maybe (.seq (.skip (.string1 (.chars spBits true)))
      (.alt (.ref .token68) (.app (classF (str "MultiDict")) true (.ref params)))) (.obj (str "MultiDict") [.list []])))

/-- syntax/rfc7235.py 11-42, after what is imported from syntax/rfc7230.py. -/
def authDefs : List (AuthName × Defn AuthName) :=
  importDefs .str stringDefs ++ [
  -- auth_scheme (11)
  (.authScheme, .named true (.app (classF (str "AuthScheme")) true (.ref (.str .token)))),
  -- token68 (12-13)
  (.token68, .named true (.add (.string1 (.chars token68Bits false)) (.string (.lit (str "=") false)))),
  -- auth_param (22-24)
  (.authParam, .named true (.app checkRealmF false (.seq (.seq
    (.app (classF (str "CaseInsensitive")) true (.ref (.str .token)))
    (.skip (.seq (.seq (.ref (.str .bws)) (.lit (str "=") false)) (.ref (.str .bws)))))
    (.alt (.mark (str "token") (.str .token)) (.mark (str "quoted_string") (.str .quoted)))))),
  -- challenge (26-30)
  (.authParams, .list (.str .ows) (.ref .authParam)),
  (.challenge, .named false (schemeE .authParams)),
  -- WWW_Authenticate, Proxy_Authenticate (32-33)
  (.challenges, .list1 (.str .ows) (.ref .challenge)),
  (.wwwAuthenticate, .named true (.ref .challenges)),
  (.challenges2, .list1 (.str .ows) (.ref .challenge)),
  (.proxyAuthenticate, .named true (.ref .challenges2)),
  -- credentials (35-39)
  (.authParams2, .list (.str .ows) (.ref .authParam)),
  (.credentials, .named false (schemeE .authParams2)),
  -- Authorization, Proxy_Authorization (41-42)
  (.authorization, .named true (.ref .credentials)),
  (.proxyAuthorization, .named true (.ref .credentials))]

end Httpolice.Model
