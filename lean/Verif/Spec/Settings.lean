import Verif.Spec.Hops

/-!
# Directives to caches, after RFC 7234
-/

namespace Httpolice.Spec

open Httpolice.Model

/-- A name, perhaps with a value after an equals sign. -/
structure Setting where
  name : Str
  value : Option Word

/-- The name is one of these. -/
def Setting.Ok (Name : Str → Prop) (x : Setting) : Prop := Name x.name ∧ ∀ w, x.value = some w → w.Ok

def Setting.text (x : Setting) : Str := x.name ++ (match x.value with | none => [] | some w => str "=" ++ w.text)

/-- 1017. -/
def Setting.notes (x : Setting) : List PyComplaint := match x.value with | none => [] | some w => w.notes

/-- The value with what it is, a token or a quoted string. -/
def Word.marked : Word → GVal
  | .token s => .tuple [.obj (str "token") [], .text s]
  | .quoted q => .tuple [.obj (str "quoted_string") [], .text q.content]

/-- A directive in Cache-Control. -/
def Setting.directive (x : Setting) : GVal := .obj (str "Parametrized") [nameValue (str "CacheDirective") x.name,
  match x.value with | none => .none | some w => w.marked]

/-- An element of Pragma. -/
inductive PragmaSyn
  | noCache (w : Str)
  | other (x : Setting)

/-- `no-cache` in whatever case, without a value; or something else. -/
def PragmaSyn.Ok : PragmaSyn → Prop
  | .noCache w => SameWord w (str "no-cache")
  | .other x => x.Ok fun w => IsToken w ∧ ¬ SameWord w (str "no-cache")

def PragmaSyn.text : PragmaSyn → Str
  | .noCache w => w
  | .other x => x.text

def PragmaSyn.value : PragmaSyn → GVal
  | .noCache w => nameValue (str "CaseInsensitive") w
  | .other x => .obj (str "Parametrized") [.text x.name, match x.value with | none => .none | some w => .text w.content]

def PragmaSyn.notes : PragmaSyn → List PyComplaint
  | .noCache _ => []
  | .other x => x.notes

end Httpolice.Spec
