import Verif.Spec.Hops
import Verif.Spec.Dates
import Verif.Spec.Uri

/-!
# Comments, after RFC 7230 section 3.2.6, and headers where they are used
-/

namespace Httpolice.Spec

open Httpolice.Model

/-- What is written in a comment: characters, some with a backslash, and comments in parentheses. -/
inductive Remarks
  | done
  | plain (c : Nat) (rest : Remarks)
  | escaped (c : Nat) (rest : Remarks)
  | comment (inner rest : Remarks)
deriving DecidableEq, Repr

/-- Anything but control characters, and but for parentheses and backslashes by themselves. -/
def Remarks.Ok : Remarks → Prop
  | .done => True
  | .plain c r => ((c = 9 ∨ (32 ≤ c ∧ c ≤ 126) ∨ (128 ≤ c ∧ c ≤ 255)) ∧ c ≠ 40 ∧ c ≠ 41 ∧ c ≠ 92) ∧ r.Ok
  | .escaped c r => (c = 9 ∨ (32 ≤ c ∧ c ≤ 126) ∨ (128 ≤ c ∧ c ≤ 255)) ∧ r.Ok
  | .comment i r => i.Ok ∧ r.Ok

/-- As it is written. -/
def Remarks.inside : Remarks → Str
  | .done => []
  | .plain c r => c :: r.inside
  | .escaped c r => 92 :: c :: r.inside
  | .comment i r => 40 :: (i.inside ++ 41 :: r.inside)

/-- In parentheses. -/
def Remarks.text (x : Remarks) : Str := 40 :: (x.inside ++ [41])

/-- What it stands for: no backslashes, but comments inside keep their parentheses. -/
def Remarks.content : Remarks → Str
  | .done => []
  | .plain c r => c :: r.content
  | .escaped c r => c :: r.content
  | .comment i r => 40 :: (i.content ++ 41 :: r.content)

/-- 1017: nothing but parentheses and backslashes needs to be escaped. -/
def Remarks.notes : Remarks → List PyComplaint
  | .done => []
  | .plain _ r => r.notes
  | .escaped c r => (if c = 40 ∨ c = 41 ∨ c = 92 then [] else [(1017, [(str "char", .other (.text [c]))])]) ++ r.notes
  | .comment i r => i.notes ++ r.notes

/-! ## User-Agent and Server -/

/-- A product is written as a protocol is. -/
def productValue (x : Protocol) : GVal := .obj (str "Versioned") [nameValue (str "ProductName") x.name,
  match x.version with | none => .none | some v => .text v]

/-- A product or a comment. -/
inductive ProductPart
  | product (p : Protocol)
  | comment (r : Remarks)

def ProductPart.Ok : ProductPart → Prop
  | .product p => p.Ok
  | .comment r => r.Ok

def ProductPart.text : ProductPart → Str
  | .product p => p.text
  | .comment r => r.text

def ProductPart.value : ProductPart → GVal
  | .product p => productValue p
  | .comment r => .text r.content

def ProductPart.notes : ProductPart → List PyComplaint
  | .product _ => []
  | .comment r => r.notes

/-- A product, and others with whitespace before each. -/
structure Products where
  first : Protocol
  rest : List (Str × ProductPart)

def Products.Ok (x : Products) : Prop := x.first.Ok ∧ ∀ y ∈ x.rest, IsRws y.1 ∧ y.2.Ok

def Products.text (x : Products) : Str := x.first.text ++ x.rest.flatMap fun y => y.1 ++ y.2.text

def Products.value (x : Products) : GVal := .list (productValue x.first :: x.rest.map fun y => y.2.value)

/-- Also 1014 for whitespace other than one space. -/
def Products.notes (x : Products) : List PyComplaint := x.rest.flatMap fun y => wideSpaceNotes y.1 ++ y.2.notes

/-! ## Via -/

/-- A host perhaps with a port, or a token. -/
def IsAgent (w : Str) : Prop := IsHostHeader w ∨ IsToken w

/-- An element of Via. -/
structure Hop where
  name : Option Str
  version : Str
  space : Str
  host : Str
  comment : Option (Str × Remarks)

def Hop.Ok (x : Hop) : Prop := (∀ n, x.name = some n → IsToken n) ∧ IsToken x.version ∧ IsRws x.space ∧ IsAgent x.host ∧
  ∀ s r, x.comment = some (s, r) → IsRws s ∧ r.Ok

def Hop.text (x : Hop) : Str := (match x.name with | none => [] | some n => n ++ str "/") ++ x.version ++ x.space ++ x.host ++
  (match x.comment with | none => [] | some (s, r) => s ++ r.text)

/-- The protocol is HTTP unless there is a name. -/
def Hop.value (x : Hop) : GVal := .tuple [.obj (str "Versioned") [.text (x.name.getD (str "HTTP")), .text x.version], .text x.host,
  match x.comment with | none => .none | some (_, r) => .text r.content]

def Hop.notes (x : Hop) : List PyComplaint := wideSpaceNotes x.space ++
  (match x.comment with | none => [] | some (s, r) => wideSpaceNotes s ++ r.notes)

/-! ## Warning -/

/-- An element of Warning. -/
structure WarningSyn where
  code : Str
  agent : Str
  message : Quoted
  date : Option (DateFormat × Stamp)

def WarningSyn.Ok (x : WarningSyn) : Prop := (IsNumeral x.code ∧ x.code.length = 3) ∧ IsAgent x.agent ∧ x.message.Ok ∧
  ∀ f d, x.date = some (f, d) → d.Fits f

def WarningSyn.text (x : WarningSyn) : Str := x.code ++ str " " ++ x.agent ++ str " " ++ x.message.text ++
  (match x.date with | none => [] | some (f, d) => str " \"" ++ d.text f ++ str "\"")

def WarningSyn.value (x : WarningSyn) : GVal := .obj (str "WarningValue") [.obj (str "WarnCode") [.int (numeral x.code)],
  .text x.agent, .text x.message.content, match x.date with | none => .none | some (_, d) => d.value]

def WarningSyn.notes (x : WarningSyn) : List PyComplaint :=
  x.message.notes ++ (match x.date with | none => [] | some (f, d) => d.notes f)

end Httpolice.Spec
