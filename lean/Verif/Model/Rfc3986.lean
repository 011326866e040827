import Verif.Model.Rfc7235

/-!
# httpolice/syntax/rfc3986.py
-/

namespace Httpolice.Model

/-- `HEXDIG` (syntax/common.py 12). -/
def hexBits : Nat → Bool := fun c =>
  digitBits c || charBits 65 false c || charBits 66 false c || charBits 67 false c || charBits 68 false c ||
    charBits 69 false c || charBits 70 false c

/-- `sub_delims` (syntax/rfc3986.py 9-10). -/
def subDelimBits : Nat → Bool := fun c =>
  charBits 33 false c || charBits 36 false c || charBits 38 false c || charBits 39 false c || charBits 40 false c ||
    charBits 41 false c || charBits 42 false c || charBits 43 false c || charBits 44 false c || charBits 59 false c ||
    charBits 61 false c

/-- `unreserved` (syntax/rfc3986.py 11). -/
def unreservedBits : Nat → Bool := fun c =>
  alphaBits c || digitBits c || charBits 45 false c || charBits 46 false c || charBits 95 false c || charBits 126 false c

/-- `unreserved | sub_delims | ':' | '@'` (syntax/rfc3986.py 12). -/
def pcharBits : Nat → Bool := fun c => unreservedBits c || subDelimBits c || charBits 58 false c || charBits 64 false c

/-- `unreserved | sub_delims | '@'` (syntax/rfc3986.py 16). -/
def noColonBits : Nat → Bool := fun c => unreservedBits c || subDelimBits c || charBits 64 false c

/-- `ALPHA | DIGIT | '+' | '-' | '.'` (syntax/rfc3986.py 18). -/
def schemeBits : Nat → Bool := fun c =>
  alphaBits c || digitBits c || charBits 43 false c || charBits 45 false c || charBits 46 false c

/-- `unreserved | sub_delims | ':'` (syntax/rfc3986.py 19, 44). -/
def userinfoBits : Nat → Bool := fun c => unreservedBits c || subDelimBits c || charBits 58 false c

/-- `unreserved | sub_delims` (syntax/rfc3986.py 51). -/
def regNameBits : Nat → Bool := fun c => unreservedBits c || subDelimBits c

/-- Names in the module; the names from `partialUri` on are in syntax/rfc7230.py and syntax/rfc7231.py. -/
inductive UriName
  | pctEncoded | pchar | segment | segmentNz | segmentNzNc | scheme | userinfo | decOctet | ipv4 | h16 | ls32 | ipv6
  | ipvFuture | zoneId | ipv6z | ipLiteral | regName | host | port | authority
  | pathAbempty | pathAbsolute | pathNoscheme | pathRootless | pathEmpty | hierPart | query | fragment
  | absoluteUri | relativePart | uri | relativeRef | uriReference
  | absolutePath | partialUri | originForm | absoluteForm | authorityForm | asteriskForm | requestTarget | hostHeader
  | contentLocation | location | referer
deriving DecidableEq, Repr

/-- `octet_range(min, max)` (parse.py 503-508). -/
def GExpr.range (min max : Nat) : GExpr UriName := .chars (fun c => decide (min ≤ c ∧ c ≤ max)) false

/-- `string_times(min, max, h16 + ':')` (syntax/rfc3986.py 29-40). -/
def GExpr.h16s (min max : Nat) : GExpr UriName := .stringTimes min (some max) (.add (.ref .h16) (.lit (str ":") false))

/-- `maybe_str(string_times(0, n, h16 + ':') + h16)` (syntax/rfc3986.py 32-40). -/
def GExpr.upTo (n : Nat) : GExpr UriName := .maybeStr (.add (.h16s 0 n) (.ref .h16))

/-- `a + '::'` (syntax/rfc3986.py 31-40). -/
def GExpr.gap (a : GExpr UriName) : GExpr UriName := .add a (.lit (str "::") false)

/-- `'/' + segment` (syntax/rfc3986.py 56-59). -/
def GExpr.slashSegment : GExpr UriName := .add (.lit (str "/") false) (.ref .segment)

/-- `maybe_str('?' + query)` (syntax/rfc3986.py 68-77). -/
def GExpr.maybeQuery : GExpr UriName := .maybeStr (.add (.lit (str "?") false) (.ref .query))

/-- `maybe_str('#' + fragment)` (syntax/rfc3986.py 73-77). -/
def GExpr.maybeFragment : GExpr UriName := .maybeStr (.add (.lit (str "#") false) (.ref .fragment))

/-- `'//' + authority + path_abempty` (syntax/rfc3986.py 62, 70). -/
def GExpr.netPath : GExpr UriName := .add (.add (.lit (str "//") false) (.ref .authority)) (.ref .pathAbempty)

/-- syntax/rfc3986.py 8-79; syntax/rfc7230.py 94-103, 145; syntax/rfc7231.py 222-227. -/
def uriDefs : List (UriName × Defn UriName) := [
  -- pct_encoded (8)
  (.pctEncoded, .named false (.add (.add (.lit (str "%") false) (.chars hexBits true)) (.chars hexBits true))),
  -- pchar (12)
  (.pchar, .named false (.alt (.chars pcharBits false) (.ref .pctEncoded))),
  -- segment, segment_nz, segment_nz_nc (14-16)
  (.segment, .named false (.string (.ref .pchar))),
  (.segmentNz, .named false (.string1 (.ref .pchar))),
  (.segmentNzNc, .named false (.string1 (.alt (.chars noColonBits false) (.ref .pctEncoded)))),
  -- scheme (18)
  (.scheme, .named true (.add (.chars alphaBits true) (.string (.chars schemeBits false)))),
  -- userinfo (19)
  (.userinfo, .named true (.string (.alt (.chars userinfoBits false) (.ref .pctEncoded)))),
  -- dec_octet (20-24)
  (.decOctet, .named false (.alt (.alt (.alt (.alt (.chars digitBits true)
    (.add (.range 0x31 0x39) (.chars digitBits true)))
    (.add (.add (.lit (str "1") false) (.chars digitBits true)) (.chars digitBits true)))
    (.add (.add (.lit (str "2") false) (.range 0x30 0x34)) (.chars digitBits true)))
    (.add (.lit (str "25") false) (.range 0x30 0x35)))),
  -- IPv4address (25-26)
  (.ipv4, .named true (.add (.add (.add (.add (.add (.add (.ref .decOctet) (.lit (str ".") false)) (.ref .decOctet))
    (.lit (str ".") false)) (.ref .decOctet)) (.lit (str ".") false)) (.ref .decOctet))),
  -- h16 (27)
  (.h16, .named false (.stringTimes 1 (some 4) (.chars hexBits true))),
  -- ls32 (28)
  (.ls32, .named false (.alt (.add (.add (.ref .h16) (.lit (str ":") false)) (.ref .h16)) (.ref .ipv4))),
  -- IPv6address (29-41)
  (.ipv6, .named true (.alt (.alt (.alt (.alt (.alt (.alt (.alt (.alt
    (.add (.h16s 6 6) (.ref .ls32))
    (.add (.add (.lit (str "::") false) (.h16s 5 5)) (.ref .ls32)))
    (.add (.add (.gap (.maybeStr (.ref .h16))) (.h16s 4 4)) (.ref .ls32)))
    (.add (.add (.gap (.upTo 1)) (.h16s 3 3)) (.ref .ls32)))
    (.add (.add (.gap (.upTo 2)) (.h16s 2 2)) (.ref .ls32)))
    (.add (.add (.add (.gap (.upTo 3)) (.ref .h16)) (.lit (str ":") false)) (.ref .ls32)))
    (.add (.gap (.upTo 4)) (.ref .ls32)))
    (.add (.gap (.upTo 5)) (.ref .h16)))
    (.gap (.upTo 6)))),
  -- IPvFuture (43-44)
  (.ipvFuture, .named true (.add (.add (.add (.lit (str "v") false) (.string1 (.chars hexBits true))) (.lit (str ".") false))
    (.string1 (.chars userinfoBits false)))),
  -- ZoneID (47)
  (.zoneId, .named true (.string1 (.alt (.chars unreservedBits true) (.ref .pctEncoded)))),
  -- IPv6addrz (48)
  (.ipv6z, .named true (.add (.add (.ref .ipv6) (.lit (str "%25") false)) (.ref .zoneId))),
  -- IP_literal (49)
  (.ipLiteral, .named true (.add (.add (.lit (str "[") false) (.alt (.alt (.ref .ipv6) (.ref .ipv6z)) (.ref .ipvFuture)))
    (.lit (str "]") false))),
  -- reg_name (51)
  (.regName, .named true (.string (.alt (.chars regNameBits false) (.ref .pctEncoded)))),
  -- host (52)
  (.host, .named true (.alt (.alt (.ref .ipLiteral) (.ref .ipv4)) (.ref .regName))),
  -- port (53)
  (.port, .named true (.string (.chars digitBits true))),
  -- authority (54)
  (.authority, .named true (.add (.add (.maybeStr (.add (.ref .userinfo) (.lit (str "@") false))) (.ref .host))
    (.maybeStr (.add (.lit (str ":") false) (.ref .port))))),
  -- path_abempty, path_absolute, path_noscheme, path_rootless, path_empty (56-60)
  (.pathAbempty, .named false (.string .slashSegment)),
  (.pathAbsolute, .named false (.add (.lit (str "/") false) (.maybeStr (.add (.ref .segmentNz) (.string .slashSegment))))),
  (.pathNoscheme, .named false (.add (.ref .segmentNzNc) (.string .slashSegment))),
  (.pathRootless, .named false (.add (.ref .segmentNz) (.string .slashSegment))),
  (.pathEmpty, .named false (.subst (.text []) .empty)),
  -- hier_part (62-63)
  (.hierPart, .named true (.alt (.alt (.alt .netPath (.ref .pathAbsolute)) (.ref .pathRootless)) (.ref .pathEmpty))),
  -- query, fragment (65-66)
  (.query, .named true (.string (.alt (.alt (.ref .pchar) (.lit (str "/") false)) (.lit (str "?") false)))),
  (.fragment, .named true (.string (.alt (.alt (.ref .pchar) (.lit (str "/") false)) (.lit (str "?") false)))),
  -- absolute_URI (68)
  (.absoluteUri, .named true (.add (.add (.add (.ref .scheme) (.lit (str ":") false)) (.ref .hierPart)) .maybeQuery)),
  -- relative_part (70-71)
  (.relativePart, .named true (.alt (.alt (.alt .netPath (.ref .pathAbsolute)) (.ref .pathNoscheme)) (.ref .pathEmpty))),
  -- URI (73-74)
  (.uri, .named true (.add (.add (.add (.add (.ref .scheme) (.lit (str ":") false)) (.ref .hierPart)) .maybeQuery)
    .maybeFragment)),
  -- relative_ref (76-77)
  (.relativeRef, .named true (.add (.add (.ref .relativePart) .maybeQuery) .maybeFragment)),
  -- URI_reference (79)
  (.uriReference, .named true (.alt (.ref .uri) (.ref .relativeRef))),
  -- absolute_path, partial_URI, origin_form, absolute_form, authority_form, asterisk_form, request_target
  -- (syntax/rfc7230.py 94-103)
  (.absolutePath, .named true (.string1 .slashSegment)),
  (.partialUri, .named true (.add (.ref .relativePart) .maybeQuery)),
  (.originForm, .named true (.add (.ref .absolutePath) .maybeQuery)),
  (.absoluteForm, .named true (.ref .absoluteUri)),
  (.authorityForm, .named true (.ref .authority)),
  (.asteriskForm, .named false (.lit (str "*") false)),
  (.requestTarget, .named true (.alt (.alt (.alt (.ref .originForm) (.ref .absoluteForm)) (.ref .authorityForm))
    (.ref .asteriskForm))),
  -- Host (syntax/rfc7230.py 145)
  (.hostHeader, .named true (.add (.ref .host) (.maybeStr (.add (.lit (str ":") false) (.ref .port))))),
  -- Content_Location, Location, Referer (syntax/rfc7231.py 222-227)
  (.contentLocation, .named true (.alt (.ref .absoluteUri) (.ref .partialUri))),
  (.location, .named true (.ref .uriReference)),
  (.referer, .named true (.alt (.ref .absoluteUri) (.ref .partialUri)))]

/-- `normal_target` (request.py 21). -/
def normalTargetE : GExpr UriName :=
  .alt (.mark (str "origin_form") .originForm) (.mark (str "absolute_form") .absoluteForm)

/-- `options_target` (request.py 22). -/
def optionsTargetE : GExpr UriName :=
  .alt (.alt (.mark (str "origin_form") .originForm) (.mark (str "asterisk_form") .asteriskForm))
    (.mark (str "absolute_form") .absoluteForm)

/-- `connect_target` (request.py 23). -/
def connectTargetE : GExpr UriName := .mark (str "authority_form") .authorityForm

/-- The choice of a symbol in `Request.target_form` (request.py 117-122). -/
def targetE (method : Str) : GExpr UriName :=
  if method = str "CONNECT" then connectTargetE
  else if method = str "OPTIONS" then optionsTargetE
  else normalTargetE

end Httpolice.Model
