import Verif.Spec.Ranges
import Verif.Spec.Inputs

/-!
# URIs, after RFC 3986 (with RFC 6874)
-/

namespace Httpolice.Spec

open Httpolice.Model

/-- ASCII letters. -/
def IsLetter (c : Nat) : Prop := (65 ≤ c ∧ c ≤ 90) ∨ (97 ≤ c ∧ c ≤ 122)

/-- Hexadecimal digits, of either case. -/
def IsHexDigit (c : Nat) : Prop := IsDigit c ∨ (65 ≤ c ∧ c ≤ 70) ∨ (97 ≤ c ∧ c ≤ 102)

/-- Section 2.3. -/
def Unreserved (c : Nat) : Prop := IsLetter c ∨ IsDigit c ∨ c ∈ str "-._~"

/-- Section 2.2. -/
def SubDelim (c : Nat) : Prop := c ∈ str "!$&'()*+,;="

/-- Such characters, and others as a percent sign with two hexadecimal digits. -/
inductive Encoded (P : Nat → Prop) : Str → Prop
  | nil : Encoded P []
  | char {c : Nat} {w : Str} : P c → Encoded P w → Encoded P (c :: w)
  | percent {a b : Nat} {w : Str} : IsHexDigit a → IsHexDigit b → Encoded P w → Encoded P (37 :: a :: b :: w)

/-! ## Hosts -/

/-- A number up to 255 without leading zeros. -/
def IsByteNumber (w : Str) : Prop := IsNumeral w ∧ numeral w ≤ 255 ∧ (w.length = 1 ∨ w.head? ≠ some 48)

/-- Four of them, with dots. -/
def IsIPv4 (w : Str) : Prop :=
  ∃ a b c d, IsByteNumber a ∧ IsByteNumber b ∧ IsByteNumber c ∧ IsByteNumber d ∧
    w = a ++ str "." ++ b ++ str "." ++ c ++ str "." ++ d

/-- Sixteen bits: up to four hexadecimal digits. -/
def IsPiece (w : Str) : Prop := 1 ≤ w.length ∧ w.length ≤ 4 ∧ ∀ c ∈ w, IsHexDigit c

/-- Separated by colons. -/
def colons : List Str → Str
  | [] => []
  | [w] => w
  | w :: l => w ++ 58 :: colons l

/-- Pieces, and perhaps an IPv4 address in place of the last two. -/
structure Pieces where
  pieces : List Str
  v4 : Option Str

def Pieces.Ok (p : Pieces) : Prop := (∀ w ∈ p.pieces, IsPiece w) ∧ ∀ w, p.v4 = some w → IsIPv4 w

def Pieces.text (p : Pieces) : Str := colons (p.pieces ++ p.v4.toList)

/-- How many pieces this amounts to. -/
def Pieces.count (p : Pieces) : Nat := p.pieces.length + 2 * p.v4.toList.length

/-- Eight pieces; or fewer, with `::` for those that are left out. -/
def IsIPv6 (w : Str) : Prop :=
  (∃ p : Pieces, p.Ok ∧ p.count = 8 ∧ w = p.text) ∨
  ∃ (front : List Str) (p : Pieces), (∀ u ∈ front, IsPiece u) ∧ p.Ok ∧ front.length + p.count ≤ 7 ∧
    w = colons front ++ str "::" ++ p.text

/-- An address with a version. -/
def IsIPvFuture (w : Str) : Prop :=
  ∃ v hex rest, (v = 86 ∨ v = 118) ∧ (hex ≠ [] ∧ ∀ c ∈ hex, IsHexDigit c) ∧
    (rest ≠ [] ∧ ∀ c ∈ rest, Unreserved c ∨ SubDelim c ∨ c = 58) ∧ w = v :: hex ++ 46 :: rest

/-- The zone of an IPv6 address. -/
def IsZone (w : Str) : Prop := w ≠ [] ∧ Encoded Unreserved w

/-- What may be in brackets. -/
def IsBracketed (w : Str) : Prop :=
  IsIPv6 w ∨ (∃ a z, IsIPv6 a ∧ IsZone z ∧ w = a ++ str "%25" ++ z) ∨ IsIPvFuture w

/-- An address in brackets; or a name, of which IPv4 addresses are a special case. -/
def IsHost (w : Str) : Prop :=
  (∃ a, IsBracketed a ∧ w = 91 :: a ++ [93]) ∨ Encoded (fun c => Unreserved c ∨ SubDelim c) w

/-- Any number of digits, perhaps none. -/
def IsPort (w : Str) : Prop := ∀ c ∈ w, IsDigit c

/-- Something that may be left out, with a sign before it. -/
def before (sign : Str) : Option Str → Str
  | none => []
  | some w => sign ++ w

/-- Something that may be left out, with a sign after it. -/
def after (sign : Str) : Option Str → Str
  | none => []
  | some w => w ++ sign

/-- Section 3.2. -/
structure Authority where
  user : Option Str
  host : Str
  port : Option Str
deriving DecidableEq, Repr

def Authority.Ok (a : Authority) : Prop :=
  (∀ w, a.user = some w → Encoded (fun c => Unreserved c ∨ SubDelim c ∨ c = 58) w) ∧ IsHost a.host ∧
    ∀ w, a.port = some w → IsPort w

def Authority.text (a : Authority) : Str := after (str "@") a.user ++ a.host ++ before (str ":") a.port

/-! ## URIs -/

/-- Section 3.3. -/
def PathChar (c : Nat) : Prop := Unreserved c ∨ SubDelim c ∨ c = 58 ∨ c = 64

/-- Section 3. -/
structure Uri where
  scheme : Option Str
  authority : Option Authority
  path : Str
  query : Option Str
  fragment : Option Str
deriving DecidableEq, Repr

/-- Section 3.1. -/
def IsScheme (w : Str) : Prop :=
  ∃ c rest, IsLetter c ∧ (∀ d ∈ rest, IsLetter d ∨ IsDigit d ∨ d ∈ str "+-.") ∧ w = c :: rest

/-- Segments with slashes. -/
def IsPath (w : Str) : Prop := Encoded (fun c => PathChar c ∨ c = 47) w

/-- Sections 3.4 and 3.5. -/
def IsQuery (w : Str) : Prop := Encoded (fun c => PathChar c ∨ c = 47 ∨ c = 63) w

/-- The first segment. -/
def firstSegment (w : Str) : Str := w.takeWhile (fun c => decide (c ≠ 47))

/-- All components are in order, and a path does not look like something else: after an authority, it is empty or begins with a
slash; with no authority, it does not begin with two; and with no scheme either, there is no colon before the first slash
(section 3.3). -/
structure Uri.Ok (u : Uri) : Prop where
  scheme : ∀ w, u.scheme = some w → IsScheme w
  authority : ∀ a, u.authority = some a → a.Ok
  path : IsPath u.path
  query : ∀ w, u.query = some w → IsQuery w
  fragment : ∀ w, u.fragment = some w → IsQuery w
  rooted : u.authority ≠ none → u.path = [] ∨ u.path.head? = some 47
  single : u.authority = none → ¬ str "//" <+: u.path
  plain : u.authority = none → u.scheme = none → 58 ∉ firstSegment u.path

def Uri.text (u : Uri) : Str :=
  after (str ":") u.scheme ++ before (str "//") (u.authority.map Authority.text) ++ u.path ++ before (str "?") u.query ++
    before (str "#") u.fragment

/-- Section 4.1. -/
def IsUriReference (w : Str) : Prop := ∃ u : Uri, u.Ok ∧ w = u.text

/-- Section 4.3. -/
def IsAbsoluteUri (w : Str) : Prop := ∃ u : Uri, u.Ok ∧ u.scheme ≠ none ∧ u.fragment = none ∧ w = u.text

/-- Without a fragment (RFC 7231, sections 3.1.4.2 and 5.5.2). -/
def IsUriNoFragment (w : Str) : Prop := ∃ u : Uri, u.Ok ∧ u.fragment = none ∧ w = u.text

/-- The authority (RFC 7230, section 5.3.3). -/
def IsAuthority (w : Str) : Prop := ∃ a : Authority, a.Ok ∧ w = a.text

/-- A path from the root, and perhaps a query (RFC 7230, section 5.3.1). -/
def IsOriginForm (w : Str) : Prop :=
  ∃ (path : Str) (query : Option Str), IsPath path ∧ path.head? = some 47 ∧ (∀ q, query = some q → IsQuery q) ∧
    w = path ++ before (str "?") query

/-- A host, and perhaps a port (RFC 7230, section 5.4). -/
def IsHostHeader (w : Str) : Prop :=
  ∃ (host : Str) (port : Option Str), IsHost host ∧ (∀ p, port = some p → IsPort p) ∧ w = host ++ before (str ":") port

/-- The target of a request (RFC 7230, section 5.3). -/
inductive TargetSyn
  | origin (w : Str)
  | absolute (w : Str)
  | authority (w : Str)
  | asterisk
deriving DecidableEq, Repr

/-- The authority is for CONNECT and only for it; the asterisk is for OPTIONS. -/
def TargetSyn.Ok (method : Str) : TargetSyn → Prop
  | .origin w => method ≠ str "CONNECT" ∧ IsOriginForm w
  | .absolute w => method ≠ str "CONNECT" ∧ IsAbsoluteUri w
  | .authority w => method = str "CONNECT" ∧ IsAuthority w
  | .asterisk => method = str "OPTIONS"

def TargetSyn.text : TargetSyn → Str
  | .origin w => w
  | .absolute w => w
  | .authority w => w
  | .asterisk => str "*"

/-- The form, and the target. -/
def TargetSyn.value : TargetSyn → GVal
  | .origin w => .tuple [.obj (str "origin_form") [], .text w]
  | .absolute w => .tuple [.obj (str "absolute_form") [], .text w]
  | .authority w => .tuple [.obj (str "authority_form") [], .text w]
  | .asterisk => .tuple [.obj (str "asterisk_form") [], .text (str "*")]

end Httpolice.Spec
