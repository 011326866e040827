import Verif.Spec.Negotiation
import Verif.Spec.Challenges

/-!
# Preferences (RFC 7240), Strict-Transport-Security (RFC 6797) and other small headers
-/

namespace Httpolice.Spec

open Httpolice.Model

/-! ## Preferences -/

/-- A name with a value; an empty value is none (RFC 7240, section 2). -/
def Setting.preference (cls : Str) (x : Setting) : GVal :=
  .obj (str "Parametrized") [nameValue cls x.name,
    match x.value with
    | none => .none
    | some w => if w.content = [] then .none else .text w.content]

/-- A preference with parameters. There may be nothing after a semicolon. -/
structure PrefSyn where
  head : Setting
  params : List (Str × Option (Str × Setting))

def PrefSyn.Ok (x : PrefSyn) : Prop :=
  x.head.Ok IsToken ∧ ∀ p ∈ x.params, IsOws p.1 ∧ ∀ s y, p.2 = some (s, y) → IsOws s ∧ y.Ok IsToken

/-- What follows a semicolon. -/
def paramText : Option (Str × Setting) → Str
  | none => []
  | some (s, y) => s ++ y.text

def PrefSyn.text (x : PrefSyn) : Str := x.head.text ++ x.params.flatMap fun p => p.1 ++ 59 :: paramText p.2

/-- Where nothing follows a semicolon, there is `None` in the list. -/
def PrefSyn.value (x : PrefSyn) : GVal :=
  .obj (str "Parametrized") [x.head.preference (str "Preference"), .list (x.params.map fun p =>
    match p.2 with
    | none => .none
    | some (_, y) => y.preference (str "CaseInsensitive"))]

/-- 1017. -/
def PrefSyn.notes (x : PrefSyn) : List PyComplaint :=
  x.head.notes ++ x.params.flatMap fun p => match p.2 with | none => [] | some (_, y) => y.notes

/-! ## Strict-Transport-Security -/

/-- A directive, perhaps with a value and with the whitespace before and after the equals sign. -/
structure DirSyn where
  name : Str
  value : Option ((Str × Str) × Word)

def DirSyn.Ok (x : DirSyn) : Prop :=
  IsToken x.name ∧ ∀ a b w, x.value = some ((a, b), w) → IsOws a ∧ IsOws b ∧ w.Ok

def DirSyn.text (x : DirSyn) : Str :=
  x.name ++ (match x.value with | none => [] | some ((a, b), w) => a ++ 61 :: b ++ w.text)

def DirSyn.result (x : DirSyn) : GVal :=
  .obj (str "Parametrized") [nameValue (str "HSTSDirective") x.name,
    match x.value with | none => .none | some (_, w) => .text w.content]

/-- 1017. -/
def DirSyn.notes (x : DirSyn) : List PyComplaint := match x.value with | none => [] | some (_, w) => w.notes

/-- Directives and semicolons; any of the directives may be left out. -/
structure HstsSyn where
  first : Option DirSyn
  rest : SemiSyn (Option DirSyn)

/-- If it is there, it is in order. -/
def optDirOk (o : Option DirSyn) : Prop := ∀ d, o = some d → d.Ok

def optDirText : Option DirSyn → Str
  | none => []
  | some d => d.text

def HstsSyn.Ok (x : HstsSyn) : Prop := optDirOk x.first ∧ x.rest.Ok optDirOk

def HstsSyn.text (x : HstsSyn) : Str := optDirText x.first ++ x.rest.text optDirText

/-- Those that are there. -/
def HstsSyn.dirs (x : HstsSyn) : List DirSyn := (x.first :: x.rest.elems).filterMap fun o => o

def HstsSyn.value (x : HstsSyn) : GVal := .list (x.dirs.map DirSyn.result)

def HstsSyn.notes (x : HstsSyn) : List PyComplaint := x.dirs.flatMap DirSyn.notes

/-! ## Other headers -/

/-- A number in HTTPolice-Silence, perhaps with whitespace and `resp`. -/
structure SilenceSyn where
  number : Str
  resp : Option (Str × Str)

def SilenceSyn.Ok (x : SilenceSyn) : Prop :=
  IsNumeral x.number ∧ ∀ s w, x.resp = some (s, w) → IsRws s ∧ SameWord w (str "resp")

def SilenceSyn.text (x : SilenceSyn) : Str :=
  x.number ++ (match x.resp with | none => [] | some (s, w) => s ++ w)

def SilenceSyn.value (x : SilenceSyn) : GVal :=
  .tuple [.int (numeral x.number), match x.resp with | none => .none | some _ => .obj (str "True") []]

/-- 1014 for more than one space. -/
def SilenceSyn.notes (x : SilenceSyn) : List PyComplaint :=
  match x.resp with
  | none => []
  | some (s, _) => wideSpaceNotes s

/-- A media type or range; with `*` after the slash it may be text. -/
def MediaSyn.IsRange (x : MediaSyn) (v : GVal) : Prop :=
  v = x.value ∨ (x.subtype = str "*" ∧ v = .obj (str "Parametrized") [.text x.name, multi (x.params.elems.map Attr.entry)])

end Httpolice.Spec
