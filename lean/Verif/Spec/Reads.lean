import Verif.Spec.Tab

/-!
# Reading what is written
-/

namespace Httpolice.Spec

open Httpolice.Model

/-- What a parser returns: an error, or a node with complaints and annotations. -/
abbrev Parsing := Except PErr (Node GVal × List PyComplaint × List (Annot GVal))

/-- The texts that are accepted are those that `print` gives for something that is `Ok`; and all others are rejected. -/
def Takes {α : Type} (parse : Str → Parsing) (Ok : α → Prop) (print : α → Str) : Prop :=
  ∀ data, ((∃ res, parse data = .ok res) ↔ ∃ x, Ok x ∧ data = print x) ∧
    ((∃ e, parse data = .error (.parse e)) ↔ ¬ ∃ x, Ok x ∧ data = print x)

/-- Each text is read as what it was printed from, and with the complaints that are due, in whatever order. -/
def Reads {α : Type} (parse : Str → Parsing) (Ok : α → Prop) (print : α → Str) (value : α → GVal)
    (notes : α → List PyComplaint) : Prop :=
  Takes parse Ok print ∧ ∀ x, Ok x → ∃ cs as, parse (print x) = .ok (.val (value x), cs, as) ∧ cs.Perm (notes x)

/-- Each text is read as something it may have been printed from, with the complaints that are due. This is for texts that can
be understood in several ways. -/
def ReadsSome {α : Type} (parse : Str → Parsing) (Ok : α → Prop) (print : α → Str) (value : α → GVal)
    (notes : α → List PyComplaint) : Prop :=
  Takes parse Ok print ∧ ∀ data node cs as, parse data = .ok (node, cs, as) →
    ∃ x, Ok x ∧ data = print x ∧ node = .val (value x) ∧ cs.Perm (notes x)

/-! ## Lists -/

def List1Syn.value {α : Type} (value : α → GVal) (l : List1Syn α) : GVal := .list (l.elems.map value)

/-- Complaints about the elements; 1151 if there are gaps. -/
def List1Syn.notes {α : Type} (notes : α → List PyComplaint) (l : List1Syn α) : List PyComplaint :=
  l.elems.flatMap notes ++ gapNotes l.Gaps

def ListSyn.value {α : Type} (value : α → GVal) (l : ListSyn α) : GVal := .list (l.elems.map value)

/-- Complaints about the elements; 1151 if there are gaps. -/
def ListSyn.notes {α : Type} (notes : α → List PyComplaint) (l : ListSyn α) : List PyComplaint :=
  l.elems.flatMap notes ++ gapNotes l.Gaps

/-- Exactly the texts of a language are read, and the value is the text, with nothing to report. -/
def ReadsVerbatim (parse : Str → Parsing) (L : Str → Prop) : Prop := Reads parse L (fun w => w) GVal.text (fun _ => [])

end Httpolice.Spec
