import Verif.Spec.Negotiation
import Verif.Spec.Uri

/-!
# Forwarded (RFC 7239), cross-origin requests (Fetch), and scopes and errors in OAuth (RFC 6749)
-/

namespace Httpolice.Spec

open Httpolice.Model

/-! ## Forwarded -/

/-- Pairs with semicolons between them. Any of the pairs may be left out, and there is no whitespace (section 4). -/
structure HopSyn where
  first : Option Attr
  rest : List (Option Attr)

def HopSyn.all (x : HopSyn) : List (Option Attr) := x.first :: x.rest

def HopSyn.Ok (x : HopSyn) : Prop := ∀ a, some a ∈ x.all → a.Ok IsToken

def optPairText : Option Attr → Str
  | none => []
  | some a => a.text

def HopSyn.text (x : HopSyn) : Str := optPairText x.first ++ x.rest.flatMap fun o => 59 :: optPairText o

/-- Those that are there. -/
def HopSyn.pairs (x : HopSyn) : List Attr := x.all.filterMap fun o => o

def HopSyn.value (x : HopSyn) : GVal :=
  .list (x.pairs.map fun a => .tuple [nameValue (str "ForwardedParam") a.name, .text a.value.content])

/-- 1017. -/
def HopSyn.notes (x : HopSyn) : List PyComplaint := x.pairs.flatMap Attr.notes

/-- The elements with anything in them. -/
def List1Syn.hops (l : List1Syn HopSyn) : List HopSyn := l.elems.filter fun x => x.text ≠ []

/-- As `Reads`, except that between commas, where there is nothing, there may be an element with no pairs, or none. -/
def ReadsHops (parse : Str → Parsing) : Prop :=
  Takes parse (List1Syn.Ok HopSyn.Ok) (List1Syn.text HopSyn.text) ∧ ∀ x : List1Syn HopSyn, x.Ok HopSyn.Ok →
    ∃ y : List1Syn HopSyn, y.Ok HopSyn.Ok ∧ y.text HopSyn.text = x.text HopSyn.text ∧ y.hops = x.hops ∧
      ∃ cs as, parse (x.text HopSyn.text) = .ok (.val (y.value HopSyn.value), cs, as) ∧ cs.Perm (y.notes HopSyn.notes)

/-- An underscore, and at least one of letters, digits, dots, underscores and hyphens (section 6.3). -/
def IsHidden (w : Str) : Prop :=
  ∃ v : Str, v ≠ [] ∧ (∀ c ∈ v, IsLetter c ∨ IsDigit c ∨ c ∈ str "._-") ∧ w = 95 :: v

/-- The name of a node (section 6). -/
inductive NodeName
  | ipv4 (w : Str)
  | ipv6 (w : Str)
  | unknown (w : Str)
  | hidden (w : Str)

def NodeName.Ok : NodeName → Prop
  | .ipv4 w => IsIPv4 w
  | .ipv6 w => IsIPv6 w
  | .unknown w => SameWord w (str "unknown")
  | .hidden w => IsHidden w

/-- An IPv6 address is in brackets. -/
def NodeName.text : NodeName → Str
  | .ipv6 w => 91 :: w ++ [93]
  | .ipv4 w | .unknown w | .hidden w => w

/-- Without the brackets. -/
def NodeName.value : NodeName → GVal
  | .ipv4 w | .ipv6 w | .unknown w | .hidden w => .text w

/-- The port of a node. -/
inductive NodePort
  | number (w : Str)
  | hidden (w : Str)

/-- A number has up to five digits. -/
def NodePort.Ok : NodePort → Prop
  | .number w => IsNumeral w ∧ w.length ≤ 5
  | .hidden w => IsHidden w

def NodePort.text : NodePort → Str
  | .number w | .hidden w => w

def NodePort.value : NodePort → GVal
  | .number w => .int (numeral w)
  | .hidden w => .text w

/-- A node, perhaps with a port. -/
structure NodeSyn where
  name : NodeName
  port : Option NodePort

def NodeSyn.Ok (x : NodeSyn) : Prop := x.name.Ok ∧ ∀ p, x.port = some p → p.Ok

def NodeSyn.text (x : NodeSyn) : Str := x.name.text ++ before (str ":") (x.port.map NodePort.text)

def NodeSyn.value (x : NodeSyn) : GVal :=
  .tuple [x.name.value, match x.port with | none => .none | some p => p.value]

/-! ## Cross-origin requests -/

/-- A scheme, a host and perhaps a port. -/
def IsOrigin (w : Str) : Prop :=
  ∃ (scheme host : Str) (port : Option Str), IsScheme scheme ∧ IsHost host ∧ (∀ p, port = some p → IsPort p) ∧
    w = scheme ++ str "://" ++ host ++ before (str ":") port

/-! ## OAuth -/

/-- A printable character, except for quotes and backslashes. -/
def IsNq (c : Nat) : Prop := 33 ≤ c ∧ c ≤ 126 ∧ c ≠ 34 ∧ c ≠ 92

/-- The same, or a space. -/
def IsNqs (c : Nat) : Prop := c = 32 ∨ IsNq c

def IsScopeToken (w : Str) : Prop := w ≠ [] ∧ ∀ c ∈ w, IsNq c

/-- Words with one space between them. -/
structure ScopeSyn where
  first : Str
  rest : List Str

def ScopeSyn.words (x : ScopeSyn) : List Str := x.first :: x.rest

def ScopeSyn.Ok (x : ScopeSyn) : Prop := ∀ w ∈ x.words, IsScopeToken w

def ScopeSyn.text (x : ScopeSyn) : Str := x.first ++ x.rest.flatMap fun w => 32 :: w

def ScopeSyn.value (x : ScopeSyn) : GVal := .list (x.words.map .text)

/-- What an error is. -/
def IsErrorText (w : Str) : Prop := w ≠ [] ∧ ∀ c ∈ w, IsNqs c

end Httpolice.Spec
