import Verif.Model.Rfc7234
import Verif.Model.Rfc3986

/-!
# Comments and the headers that have to do with hosts and products

The rest of httpolice/syntax/rfc7230.py, rfc7231.py and rfc7234.py: comments, Via, User-Agent, Server and Warning.
-/

namespace Httpolice.Model

/-- `ctext` (syntax/rfc7230.py 42-43). -/
def ctextBits : Nat → Bool := fun c =>
  decide (9 ≤ c ∧ c ≤ 9) || spBits c || decide (33 ≤ c ∧ c ≤ 39) || decide (42 ≤ c ∧ c ≤ 91) ||
    decide (93 ≤ c ∧ c ≤ 126) || obsTextBits c

/-- `lambda s: s[1:-1]` (syntax/rfc7230.py 50). Other arguments cannot occur. -/
def stripF : Func GVal PyComplaint := pureFunc fun
  | [.text s] => .text (s.drop 1).dropLast
  | _ => .none

/-- `WarnCode`, a subclass of `int` (structure.py 361-368), on a string of decimal digits; other arguments cannot occur. -/
def warnCodeF : Func GVal PyComplaint := pureFunc fun
  | [.text s] => .obj (str "WarnCode") [.int (decimal s)]
  | _ => .none

/-- The calls of `comment(include_parens=False)`; there are no others. Each makes symbols of its own
(httpolice/syntax/rfc7230.py 45-51, 162, syntax/rfc7231.py 44-47). -/
inductive CommentUse
  | via | userAgent | server
deriving DecidableEq, Repr

/-- Names. `pair`, `inner` and `comment` are for what a call of `comment` makes: `quoted_pair(sensible_for=u'()\\')`, `inner`
with parentheses, and the result. `...s` are the calls of `comma_list1` (httpolice/syntax/rfc7230.py 25-51,
150-162, syntax/rfc7231.py 40-47, syntax/rfc7234.py 34-47). -/
inductive CommentName
  | cache (n : CacheName)
  | uri (n : UriName)
  | pair (u : CommentUse) | inner (u : CommentUse) | comment (u : CommentUse)
  | receivedProtocol | pseudonym | receivedBy | viaItems | via
  | productVersion | product | userAgent | server
  | warnCode | warnAgent | warnText | warnDate | warningValue | warnings | warning
deriving DecidableEq, Repr

/-- A name for strings (httpolice/parse.py 528-533). -/
abbrev GExpr.cms (n : StrName) : GExpr CommentName := .ref (.cache (.hop (.str n)))

/-- `comment(include_parens=False)` (syntax/rfc7230.py 45-51). The call is in the middle of an expression; here it comes
before, as with `comma_list`. `quoted_pair` is called when `inner` is there already, but it does not use it. -/
def commentCall (u : CommentUse) : List (CommentName × Defn CommentName) := [
  -- quoted_pair (25-34)
  (.pair u, .named false (.quotedPair (str "()\\"))),
  -- inner (46-48)
  (.inner u, .nested 40 41 (.string (.alt (.alt (.chars ctextBits true) (.ref (some (.pair u)))) (.ref none)))),
  -- 49-51
  (.comment u, .named false (.app stripF false (.ref (.inner u))))]

/-- `uri_host + maybe_str(':' + port) | pseudonym` (syntax/rfc7230.py 159, syntax/rfc7234.py 38). -/
def agentE : GExpr CommentName :=
  .alt (.add (.ref (.uri .host)) (.maybeStr (.add (.lit (str ":") false) (.ref (.uri .port))))) (.ref .pseudonym)

/-- `product % many(skip(RWS) * (product | comment(include_parens=False)))` (syntax/rfc7231.py 43-46). -/
def productsE (u : CommentUse) : GExpr CommentName :=
  .mod (.ref .product) (.many (.seq (.skip (.cms .rws)) (.alt (.ref .product) (.ref (.comment u)))))

/-- The definitions, after what they use. `order` is the order in which Python iterates over a set
(httpolice/syntax/rfc7230.py 25-51, 150-162, syntax/rfc7231.py 40-47, syntax/rfc7234.py 34-47). -/
def commentDefs (order : List Nat → List Nat) : List (CommentName × Defn CommentName) :=
  importDefs .cache (cacheDefs order) ++ (importDefs .uri uriDefs ++ (commentCall .via ++ [
  -- syntax/rfc7230.py
  -- received_protocol (156-157)
  (.receivedProtocol, .named true (.app (classF (str "Versioned")) true (.seq
    (.maybe (.seq (.ref (.cache (.hop .protocolName))) (.skip (.lit (str "/") false))) (.text (str "HTTP")))
    (.ref (.cache (.hop .protocolVersion)))))),
  -- pseudonym (158)
  (.pseudonym, .named true (.cms .token)),
  -- received_by (159)
  (.receivedBy, .named true agentE),
  -- Via (160-162)
  (.viaItems, .list1 (.cache (.hop (.str .ows))) (.seq (.seq (.seq (.ref .receivedProtocol) (.skip (.cms .rws)))
    (.ref .receivedBy)) (.maybe (.seq (.skip (.cms .rws)) (.ref (.comment .via)))))),
  (.via, .named true (.ref .viaItems)),
  -- syntax/rfc7231.py
  -- product_version, product (40-42)
  (.productVersion, .named true (.cms .token)),
  (.product, .named true (.app (classF (str "Versioned")) true (.seq
    (.app (classF (str "ProductName")) true (.cms .token))
    (.maybe (.seq (.skip (.lit (str "/") false)) (.ref .productVersion))))))] ++
  -- User_Agent (43-44)
  commentCall .userAgent ++ [(.userAgent, .named true (productsE .userAgent))] ++
  -- Server (45-46)
  commentCall .server ++ [(.server, .named true (productsE .server)),
  -- syntax/rfc7234.py
  -- warn_code (37)
  (.warnCode, .named true (.app warnCodeF true (.stringTimes 3 (some 3) .digit))),
  -- warn_agent (38)
  (.warnAgent, .named true agentE),
  -- warn_text (39)
  (.warnText, .named true (.cms .quoted)),
  -- warn_date (40)
  (.warnDate, .named true (.seq (.seq (.skip (.chars dquoteBits true)) (.ref (.cache (.date .httpDate))))
    (.skip (.chars dquoteBits true)))),
  -- warning_value (41-44)
  (.warningValue, .named true (.app (classF (str "WarningValue")) true (.seq (.seq (.seq (.seq (.seq
    (.ref .warnCode) (.skip (.chars spBits true))) (.ref .warnAgent)) (.skip (.chars spBits true))) (.ref .warnText))
    (.maybe (.seq (.skip (.chars spBits true)) (.ref .warnDate)))))),
  -- Warning_ (45)
  (.warnings, .list1 (.cache (.hop (.str .ows))) (.ref .warningValue)),
  (.warning, .named true (.ref .warnings))]))

end Httpolice.Model
