import Verif.Model.Rfc7234
import Verif.Model.Rfc3986
import Verif.Model.SmallModules

/-!
# More small modules: rfc7239.py, whatwg_fetch.py and rfc6749.py in httpolice/syntax
-/

namespace Httpolice.Model

/-- Names in these modules. `...s` are the calls of `comma_list` and `comma_list1` (httpolice/syntax/rfc7239.py,
syntax/whatwg_fetch.py, syntax/rfc6749.py). -/
inductive FetchName
  | cache (n : CacheName)
  | uri (n : UriName)
  | obfnode | nodename | nodeNumber | obfport | nodePort | node | forwardedValue | forwardedPair | forwardedElement
  | forwardeds | forwarded
  | origin | originOrNull | originHeader | requestMethod | requestNames | requestHeaders | wildcard | allowOrigin
  | allowCredentials | exposeNames | exposeHeaders | maxAge | allowMethodNames | allowMethods | allowNames | allowHeaders
  | contentTypeOptions | resourcePolicy
  | scopeToken | scope | error | errorDescription | errorUri
deriving DecidableEq, Repr

/-- The characters in `obfnode` and `obfport` (syntax/rfc7239.py 14, 20). -/
def obfBits : Nat → Bool := fun c =>
  alphaBits c || digitBits c || charBits 46 false c || charBits 95 false c || charBits 45 false c

/-- `NQSCHAR` (syntax/rfc6749.py 8-9). -/
def nqsBits : Nat → Bool := fun c =>
  decide (0x20 ≤ c ∧ c ≤ 0x21) || decide (0x23 ≤ c ∧ c ≤ 0x5B) || decide (0x5D ≤ c ∧ c ≤ 0x7E)

/-- `NQCHAR` (syntax/rfc6749.py 10-11). -/
def nqBits : Nat → Bool := fun c =>
  decide (0x21 ≤ c ∧ c ≤ 0x21) || decide (0x23 ≤ c ∧ c ≤ 0x5B) || decide (0x5D ≤ c ∧ c ≤ 0x7E)

/-- A name for strings (httpolice/parse.py 528-533). -/
abbrev GExpr.fs (n : StrName) : GExpr FetchName := .ref (.cache (.hop (.str n)))

/-- The modules, one after the other, after what they import. `order` is the order in which Python iterates over a set
(httpolice/syntax/rfc7239.py, syntax/whatwg_fetch.py, syntax/rfc6749.py). -/
def fetchDefs (order : List Nat → List Nat) : List (FetchName × Defn FetchName) :=
  importDefs .cache (cacheDefs order) ++ (importDefs .uri uriDefs ++ [
  -- syntax/rfc7239.py: obfnode, nodename (14-17)
  (.obfnode, .named true (.add (.lit (str "_") false) (.string1 (.chars obfBits false)))),
  (.nodename, .named true (.alt (.alt (.alt (.ref (.uri .ipv4))
    (.seq (.seq (.skip (.lit (str "[") false)) (.ref (.uri .ipv6))) (.skip (.lit (str "]") false))))
    (.lit (str "unknown") false)) (.ref .obfnode))),
  -- port, obfport, node_port (19-21)
  (.nodeNumber, .named true (.app intF false (.stringTimes 1 (some 5) (.chars digitBits true)))),
  (.obfport, .named true (.add (.lit (str "_") false) (.string1 (.chars obfBits false)))),
  (.nodePort, .named true (.alt (.ref .nodeNumber) (.ref .obfport))),
  -- node (23)
  (.node, .named true (.seq (.ref .nodename) (.maybe (.seq (.skip (.lit (str ":") false)) (.ref .nodePort))))),
  -- value, forwarded_pair (25-26)
  (.forwardedValue, .named true (.alt (.fs .token) (.fs .quoted))),
  (.forwardedPair, .named true (.seq (.seq (.app (classF (str "ForwardedParam")) true (.fs .token))
    (.skip (.lit (str "=") false))) (.ref .forwardedValue))),
  -- forwarded_element (28-29)
  (.forwardedElement, .named true (.app collectElementsF false (.mod (.maybe (.ref .forwardedPair))
    (.many (.seq (.skip (.lit (str ";") false)) (.maybe (.ref .forwardedPair))))))),
  -- Forwarded (31)
  (.forwardeds, .list1 (.cache (.hop (.str .ows))) (.ref .forwardedElement)),
  (.forwarded, .named true (.ref .forwardeds)),
  -- syntax/whatwg_fetch.py: origin, origin_or_null, Origin (12-14)
  (.origin, .named true (.add (.add (.add (.ref (.uri .scheme)) (.lit (str "://") false)) (.ref (.uri .host)))
    (.maybeStr (.add (.lit (str ":") false) (.ref (.uri .port)))))),
  (.originOrNull, .named true (.alt (.ref .origin) (.lit (str "null") true))),
  (.originHeader, .named true (.ref .originOrNull)),
  -- Access_Control_Request_Method, Access_Control_Request_Headers (16-17)
  (.requestMethod, .named true (.ref (.cache (.hop .method)))),
  (.requestNames, .list1 (.cache (.hop (.str .ows))) (.ref (.cache (.hop .fieldName)))),
  (.requestHeaders, .named true (.ref .requestNames)),
  -- wildcard, Access_Control_Allow_Origin (18-19)
  (.wildcard, .named false (.lit (str "*") false)),
  (.allowOrigin, .named true (.alt (.ref .originOrNull) (.ref .wildcard))),
  -- Access_Control_Allow_Credentials (20)
  (.allowCredentials, .named true (.lit (str "true") true)),
  -- Access_Control_Expose_Headers, Access_Control_Max_Age (21-22)
  (.exposeNames, .list (.cache (.hop (.str .ows))) (.ref (.cache (.hop .fieldName)))),
  (.exposeHeaders, .named true (.ref .exposeNames)),
  (.maxAge, .named true (.ref (.cache .deltaSeconds))),
  -- Access_Control_Allow_Methods, Access_Control_Allow_Headers (23-24)
  (.allowMethodNames, .list (.cache (.hop (.str .ows))) (.ref (.cache (.hop .method)))),
  (.allowMethods, .named true (.ref .allowMethodNames)),
  (.allowNames, .list (.cache (.hop (.str .ows))) (.ref (.cache (.hop .fieldName)))),
  (.allowHeaders, .named true (.ref .allowNames)),
  -- X_Content_Type_Options (26)
  (.contentTypeOptions, .named true (.lit (str "nosniff") false)),
  -- Cross_Origin_Resource_Policy (28-29)
  (.resourcePolicy, .named true (.alt (.lit (str "same-origin") true) (.lit (str "same-site") true))),
  -- syntax/rfc6749.py: scope_token, scope (13-14)
  (.scopeToken, .named true (.string1 (.chars nqBits true))),
  (.scope, .named true (.mod (.ref .scopeToken) (.many (.seq (.skip (.chars spBits true)) (.ref .scopeToken))))),
  -- error, error_description, error_uri (16-18)
  (.error, .named true (.string1 (.chars nqsBits true))),
  (.errorDescription, .named true (.string1 (.chars nqsBits true))),
  (.errorUri, .named true (.ref (.uri .uriReference)))])

end Httpolice.Model
