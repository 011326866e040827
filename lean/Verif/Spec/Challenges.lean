import Verif.Spec.Negotiation

/-!
# Challenges and credentials, after RFC 7235
-/

namespace Httpolice.Spec

open Httpolice.Model

/-- Letters, digits and some signs. -/
def IsToken68Char (c : Nat) : Prop :=
  (65 ≤ c ∧ c ≤ 90) ∨ (97 ≤ c ∧ c ≤ 122) ∨ (48 ≤ c ∧ c ≤ 57) ∨ c ∈ str "-._~+/"

/-- Such characters, one at least, and then a number of equals signs. -/
structure Token68 where
  body : Str
  pad : Nat
deriving DecidableEq, Repr

def Token68.Ok (x : Token68) : Prop := x.body ≠ [] ∧ ∀ c ∈ x.body, IsToken68Char c

def Token68.text (x : Token68) : Str := x.body ++ List.replicate x.pad 61

/-- One space or more. -/
def IsSpaces (w : Str) : Prop := w ≠ [] ∧ ∀ c ∈ w, c = 32

/-- A parameter. -/
def Param.entry (x : Param) : GVal := .tuple [nameValue (str "CaseInsensitive") x.name, .text x.value.content]

/-- 1196 for a realm without quotes; 1015 and 1017. -/
def Param.authNotes (x : Param) : List PyComplaint :=
  x.notes ++ (match x.value with
    | .token _ => if SameWord x.name (str "realm") then [(1196, [])] else []
    | .quoted _ => [])

/-- What follows the scheme. -/
inductive Details
  | nothing
  | token (spaces : Str) (x : Token68)
  | params (spaces : Str) (l : ListSyn Param)

def Details.Ok : Details → Prop
  | .nothing => True
  | .token s x => IsSpaces s ∧ x.Ok
  | .params s l => IsSpaces s ∧ l.Ok (Param.Ok IsToken)

def Details.text : Details → Str
  | .nothing => []
  | .token s x => s ++ x.text
  | .params s l => s ++ l.text Param.text

def Details.value : Details → GVal
  | .nothing => multi []
  | .token _ x => .text x.text
  | .params _ l => multi (l.elems.map Param.entry)

def Details.notes : Details → List PyComplaint
  | .nothing => []
  | .token _ _ => []
  | .params _ l => l.notes Param.authNotes

/-- A challenge, or credentials. -/
structure AuthSyn where
  scheme : Str
  details : Details

def AuthSyn.Ok (x : AuthSyn) : Prop := IsToken x.scheme ∧ x.details.Ok

def AuthSyn.text (x : AuthSyn) : Str := x.scheme ++ x.details.text

def AuthSyn.value (x : AuthSyn) : GVal :=
  .obj (str "Parametrized") [nameValue (str "AuthScheme") x.scheme, x.details.value]

def AuthSyn.notes (x : AuthSyn) : List PyComplaint := x.details.notes

/-- The same complaints, but for how many times there is 1151. -/
def SameButGaps (cs ds : List PyComplaint) : Prop :=
  (cs.filter fun x => x.1 ≠ 1151).Perm (ds.filter fun x => x.1 ≠ 1151) ∧ ((1151, []) ∈ cs ↔ (1151, []) ∈ ds)

/-- Like `Reads`, where several lists may share the gaps. -/
def ReadsButGaps {α : Type} (parse : Str → Parsing) (Ok : α → Prop) (print : α → Str) (value : α → GVal)
    (notes : α → List PyComplaint) : Prop :=
  Takes parse Ok print ∧
    ∀ x, Ok x → ∃ cs as, parse (print x) = .ok (.val (value x), cs, as) ∧ SameButGaps cs (notes x)

end Httpolice.Spec
