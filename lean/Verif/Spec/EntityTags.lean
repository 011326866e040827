import Verif.Spec.Ranges
import Verif.Spec.Dates

/-!
# Entity tags, after RFC 7232
-/

namespace Httpolice.Spec

open Httpolice.Model

/-- An entity tag: whether it is weak, and what is between the quotes. -/
structure EntityTag where
  weak : Bool
  tag : Str
deriving DecidableEq, Repr

/-- Visible characters but for quotes. -/
def EntityTag.Ok (x : EntityTag) : Prop := ∀ c ∈ x.tag, c = 33 ∨ (35 ≤ c ∧ c ≤ 126) ∨ (128 ≤ c ∧ c ≤ 255)

instance (x : EntityTag) : Decidable x.Ok := inferInstanceAs (Decidable (∀ c ∈ x.tag, _))

/-- As it is written; `W` is case-sensitive. -/
def EntityTag.text (x : EntityTag) : Str := (if x.weak then str "W/" else []) ++ (str "\"" ++ x.tag ++ str "\"")

/-- As it is understood: the quotes are part of the tag. -/
def EntityTag.value (x : EntityTag) : GVal :=
  .obj (str "EntityTag") [.obj (if x.weak then str "True" else str "False") [], .text (str "\"" ++ x.tag ++ str "\"")]

/-- 1119: a backslash does not escape anything here. -/
def EntityTag.notes (x : EntityTag) : List PyComplaint := if 92 ∈ x.tag then [(1119, [])] else []

/-- What is written in If-Match or If-None-Match. -/
inductive MatchSyn
  | any
  | tags (l : List1Syn EntityTag)

def MatchSyn.Ok : MatchSyn → Prop
  | .any => True
  | .tags l => l.Ok EntityTag.Ok

def MatchSyn.text : MatchSyn → Str
  | .any => str "*"
  | .tags l => l.text EntityTag.text

def MatchSyn.value : MatchSyn → GVal
  | .any => .text (str "*")
  | .tags l => .list (l.elems.map EntityTag.value)

/-- 1119 for each of the tags with a backslash, and 1151, once, if there are empty elements. -/
def MatchSyn.notes : MatchSyn → List PyComplaint
  | .any => []
  | .tags l => l.elems.flatMap EntityTag.notes ++ gapNotes l.Gaps

/-- What is written in If-Range: a tag, or a date in one of the formats. -/
inductive IfRangeSyn
  | tag (x : EntityTag)
  | date (f : DateFormat) (x : Stamp)

def IfRangeSyn.Ok : IfRangeSyn → Prop
  | .tag x => x.Ok
  | .date f x => x.Fits f

def IfRangeSyn.text : IfRangeSyn → Str
  | .tag x => x.text
  | .date f x => x.text f

def IfRangeSyn.value : IfRangeSyn → GVal
  | .tag x => x.value
  | .date _ x => x.value

def IfRangeSyn.notes : IfRangeSyn → List PyComplaint
  | .tag x => x.notes
  | .date f x => x.notes f

end Httpolice.Spec
