import Verif.Spec.Encoded
import Verif.Model.Rfc7838

/-!
# Alternative services (RFC 7838)
-/

namespace Httpolice.Spec

open Httpolice.Model

/-! ## Names of protocols -/

/-- A name of a protocol: bytes, as they are or in hexadecimal. A percent sign may also be there by itself. -/
abbrev ProtocolSyn := List XChar

/-- A sign that may be in a token, or two digits. -/
def XChar.InToken : XChar → Prop
  | .plain c => IsTchar c
  | .percent a b => IsHexDigit a ∧ IsHexDigit b

/-- A percent sign with two digits after it does not stand for itself. -/
def ProtocolSyn.Ok (l : ProtocolSyn) : Prop :=
  l ≠ [] ∧ (∀ c ∈ l, c.InToken) ∧
    ∀ l1 a b l2, l = l1 ++ .plain 37 :: .plain a :: .plain b :: l2 → ¬ (IsHexDigit a ∧ IsHexDigit b)

def ProtocolSyn.text (l : ProtocolSyn) : Str := l.flatMap XChar.text

/-- The name. -/
def ProtocolSyn.bytes (l : ProtocolSyn) : Str := l.map XChar.byte

/-- The one way to write it (section 3): whatever may be in a token is as it is, except for percent signs; anything else is in
hexadecimal, with capital letters. -/
def XChar.Proper : XChar → Prop
  | .plain c => c ≠ 37
  | .percent a b => (IsDigit a ∨ (65 ≤ a ∧ a ≤ 70)) ∧ (IsDigit b ∨ (65 ≤ b ∧ b ≤ 70)) ∧
      (IsTchar (16 * hexVal a + hexVal b) → 16 * hexVal a + hexVal b = 37)

open Classical in
/-- A byte in this way. -/
noncomputable def properly (c : Nat) : XChar :=
  if IsTchar c ∧ c ≠ 37 then .plain c
  else .percent ((str "0123456789ABCDEF").getD (c / 16) 0) ((str "0123456789ABCDEF").getD (c % 16) 0)

open Classical in
/-- 1256 if it is written in another way. -/
noncomputable def ProtocolSyn.notes (l : ProtocolSyn) : List PyComplaint :=
  if ∀ c ∈ l, c.Proper then []
  else [(1256, [(str "actual", .other (.text l.text)),
    (str "correct", .other (.text (ProtocolSyn.text (l.bytes.map properly))))])]

/-! ## Authorities -/

/-- Perhaps a host; a colon, and a port. -/
def IsAltAuthority (w : Str) : Prop := ∃ host port, (host = [] ∨ IsHost host) ∧ IsPort port ∧ w = host ++ 58 :: port

/-- The error. -/
def errorOf : Parsing → PErr
  | .ok _ => .index
  | .error e => e

open Classical in
/-- An authority that is malformed is not available. -/
noncomputable def authorityValue (w : Str) : GVal := if IsAltAuthority w then .text w else unavailableObj w

open Classical in
/-- 1257 for it. `P` is the parser that reports an error. -/
noncomputable def authorityNotes (P : Str → Parsing) (w : Str) : List PyComplaint :=
  if IsAltAuthority w then [] else [(1257, [(str "authority", .other (.text w)), (str "error", .err (errorOf (P w)))])]

/-! ## Alt-Svc -/

/-- An alternative with its parameters. -/
structure AltSyn where
  protocol : ProtocolSyn
  authority : Quoted
  params : SemiSyn Attr

def AltSyn.Ok (x : AltSyn) : Prop := x.protocol.Ok ∧ x.authority.Ok ∧ x.params.Ok (Attr.Ok IsToken)

def AltSyn.text (x : AltSyn) : Str := x.protocol.text ++ 61 :: x.authority.text ++ x.params.text Attr.text

/-- A parameter. -/
def altEntry (x : Attr) : GVal := .tuple [nameValue (str "AltSvcParam") x.name, .text x.value.content]

/-- With `f` for what is made of the authority. -/
def AltSyn.valueBy (f : Str → GVal) (x : AltSyn) : GVal :=
  .obj (str "Parametrized") [.tuple [.obj (str "bytes") [.text x.protocol.bytes], f x.authority.content],
    multi (x.params.elems.map altEntry)]

noncomputable def AltSyn.value (x : AltSyn) : GVal := x.valueBy authorityValue

/-- With `f` for the complaints about the authority. -/
noncomputable def AltSyn.notesBy (f : Str → List PyComplaint) (x : AltSyn) : List PyComplaint :=
  x.protocol.notes ++ x.authority.notes ++ f x.authority.content ++ x.params.elems.flatMap Attr.notes

noncomputable def AltSyn.notes (P : Str → Parsing) (x : AltSyn) : List PyComplaint := x.notesBy (authorityNotes P)

/-- The word `clear`, or alternatives. -/
inductive AltSvcSyn
  | clear
  | values (l : List1Syn AltSyn)

def AltSvcSyn.Ok : AltSvcSyn → Prop
  | .clear => True
  | .values l => l.Ok AltSyn.Ok

def AltSvcSyn.text : AltSvcSyn → Str
  | .clear => str "clear"
  | .values l => l.text AltSyn.text

def AltSvcSyn.valueBy (f : Str → GVal) : AltSvcSyn → GVal
  | .clear => .text (str "clear")
  | .values l => l.value (AltSyn.valueBy f)

noncomputable def AltSvcSyn.notesBy (f : Str → List PyComplaint) : AltSvcSyn → List PyComplaint
  | .clear => []
  | .values l => l.notes (AltSyn.notesBy f)

noncomputable def AltSvcSyn.value : AltSvcSyn → GVal := AltSvcSyn.valueBy authorityValue

noncomputable def AltSvcSyn.notes (P : Str → Parsing) : AltSvcSyn → List PyComplaint := AltSvcSyn.notesBy (authorityNotes P)

end Httpolice.Spec
