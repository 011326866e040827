import Verif.Spec.Settings
import Verif.Spec.Dates

/-!
# Media types and preferences, after RFC 7231
-/

namespace Httpolice.Spec

open Httpolice.Model

/-! ## Readings -/

/-- Like `Reads`, where several values may be right for what is written. -/
def ReadsAs {α : Type} (parse : Str → Parsing) (Ok : α → Prop) (print : α → Str) (IsValue : α → GVal → Prop)
    (notes : α → List PyComplaint) : Prop :=
  Takes parse Ok print ∧ ∀ x, Ok x → ∃ v cs as, parse (print x) = .ok (.val v, cs, as) ∧ IsValue x v ∧ cs.Perm (notes x)

/-- Lists of the same length, with related elements. -/
inductive Pairwise2 {α β : Type} (R : α → β → Prop) : List α → List β → Prop
  | nil : Pairwise2 R [] []
  | cons {a : α} {b : β} {l : List α} {m : List β} : R a b → Pairwise2 R l m → Pairwise2 R (a :: l) (b :: m)

/-- A list of values that are right for the elements. -/
def ListSyn.IsValue {α : Type} (IsValue : α → GVal → Prop) (l : ListSyn α) (v : GVal) : Prop :=
  ∃ vs, v = .list vs ∧ Pairwise2 IsValue l.elems vs

/-! ## Media types -/

/-- A parameter without whitespace around the equals sign. -/
structure Attr where
  name : Str
  value : Word

/-- The name is one of these. -/
def Attr.Ok (Name : Str → Prop) (x : Attr) : Prop := Name x.name ∧ x.value.Ok

def Attr.text (x : Attr) : Str := x.name ++ str "=" ++ x.value.text

/-- 1017. -/
def Attr.notes (x : Attr) : List PyComplaint := x.value.notes

def Attr.entry (x : Attr) : GVal := .tuple [nameValue (str "CaseInsensitive") x.name, .text x.value.content]

/-- A dictionary that may have several values for a name. -/
def multi (entries : List GVal) : GVal := .obj (str "MultiDict") [.list entries]

/-- A media type. -/
structure MediaSyn where
  type_ : Str
  subtype : Str
  params : SemiSyn Attr

/-- The names of parameters are among these. -/
def MediaSyn.Ok (Name : Str → Prop) (x : MediaSyn) : Prop :=
  IsToken x.type_ ∧ IsToken x.subtype ∧ x.params.Ok (Attr.Ok Name)

def MediaSyn.name (x : MediaSyn) : Str := x.type_ ++ str "/" ++ x.subtype

def MediaSyn.text (x : MediaSyn) : Str := x.name ++ x.params.text Attr.text

def MediaSyn.value (x : MediaSyn) : GVal :=
  .obj (str "Parametrized") [nameValue (str "MediaType") x.name, multi (x.params.elems.map Attr.entry)]

/-- What is meant by a wrong name of a media type. -/
def meant (w : Str) : Option Str :=
  if SameWord w (str "application/text") ∨ SameWord w (str "plain/text") then some (str "text/plain")
  else if SameWord w (str "text/json") then some (str "application/json")
  else none

/-- 1282 for a wrong name. -/
def meantNotes (w : Str) : List PyComplaint :=
  match meant w with
  | none => []
  | some v => [(1282, [(str "bad", .other (nameValue (str "MediaType") w)), (str "good", .other (nameValue (str "MediaType") v))])]

/-- 1282 and 1017. -/
def MediaSyn.notes (x : MediaSyn) : List PyComplaint := meantNotes x.name ++ x.params.elems.flatMap Attr.notes

/-! ## Accept -/

/-- A media type or range, perhaps with a weight and with what follows it. -/
structure AcceptSyn where
  range : MediaSyn
  rank : Option (Ranking × SemiSyn Setting)

/-- A parameter `q` would be the weight. -/
def AcceptSyn.Ok (x : AcceptSyn) : Prop :=
  x.range.Ok (fun w => IsToken w ∧ ¬ SameWord w (str "q")) ∧
    ∀ r l, x.rank = some (r, l) → r.Ok ∧ SemiSyn.Ok (Setting.Ok IsToken) l

def AcceptSyn.text (x : AcceptSyn) : Str :=
  x.range.text ++ (match x.rank with | none => [] | some (r, l) => r.text ++ SemiSyn.text Setting.text l)

/-- An extension. -/
def Setting.entry (x : Setting) : GVal :=
  .tuple [.text x.name, match x.value with | none => .none | some w => .text w.content]

/-- The second part of the value: the weight as `q`, and extensions. -/
def AcceptSyn.extras (x : AcceptSyn) : GVal :=
  multi (match x.rank with
    | none => []
    | some (r, l) => .tuple [nameValue (str "CaseInsensitive") (str "q"), r.value] :: l.elems.map Setting.entry)

/-- The value, given that of the range. -/
def AcceptSyn.valueWith (name : GVal) (x : AcceptSyn) : GVal :=
  .obj (str "Parametrized") [.obj (str "Parametrized") [name, multi (x.range.params.elems.map Attr.entry)], x.extras]

/-- The range is a media type; but with `*` after the slash it may be text. -/
def AcceptSyn.IsValue (x : AcceptSyn) (v : GVal) : Prop :=
  v = x.valueWith (nameValue (str "MediaType") x.range.name) ∨
    (x.range.subtype = str "*" ∧ v = x.valueWith (.text x.range.name))

def AcceptSyn.notes (x : AcceptSyn) : List PyComplaint :=
  x.range.notes ++ (match x.rank with | none => [] | some (_, l) => l.elems.flatMap Setting.notes)

/-! ## Accept-Charset and Accept-Encoding -/

/-- A name, perhaps with a weight. -/
structure RankedSyn where
  name : Str
  rank : Option Ranking

def RankedSyn.Ok (x : RankedSyn) : Prop := IsToken x.name ∧ ∀ r, x.rank = some r → r.Ok

def RankedSyn.text (x : RankedSyn) : Str := x.name ++ (match x.rank with | none => [] | some r => r.text)

/-- The value, given that of the name. -/
def RankedSyn.valueWith (name : GVal) (x : RankedSyn) : GVal :=
  .obj (str "Parametrized") [name, match x.rank with | none => .none | some r => r.value]

/-- In Accept-Charset. -/
def RankedSyn.charset (x : RankedSyn) : GVal := x.valueWith (nameValue (str "Charset") x.name)

/-- In Accept-Encoding: a coding; but `*` may be text. -/
def RankedSyn.IsCoding (x : RankedSyn) (v : GVal) : Prop :=
  v = x.valueWith (nameValue (str "ContentCoding") x.name) ∨ (x.name = str "*" ∧ v = x.valueWith (.text x.name))

/-! ## Other headers -/

/-- Vary has names of headers; but `*` by itself may be text. -/
def VaryValue (l : List1Syn Str) (v : GVal) : Prop :=
  v = l.value (nameValue (str "FieldName")) ∨ (l = ⟨[], str "*", []⟩ ∧ v = .text (str "*"))

/-- What is in Retry-After. -/
inductive RetrySyn
  | date (f : DateFormat) (x : Stamp)
  | seconds (w : Str)

def RetrySyn.Ok : RetrySyn → Prop
  | .date f x => x.Fits f
  | .seconds w => IsNumeral w

def RetrySyn.text : RetrySyn → Str
  | .date f x => x.text f
  | .seconds w => w

def RetrySyn.value : RetrySyn → GVal
  | .date _ x => x.value
  | .seconds w => .int (numeral w)

def RetrySyn.notes : RetrySyn → List PyComplaint
  | .date f x => x.notes f
  | .seconds _ => []

end Httpolice.Spec
