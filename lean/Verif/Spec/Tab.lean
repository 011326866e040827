import Verif.Spec.Program

/-!
# Denotations given by abstract syntax

`tabD P t v c`: the texts are `t a` where `P a`, with the arguments `v a` and the complaints `c a`. So `a` is what a text
stands for, and `t` prints it.
-/

namespace Httpolice.Spec

open Httpolice.Model

/-- The texts that the printer `t` gives. -/
def tabD {α : Type} (P : α → Prop) (t : α → Str) (v : α → List GVal) (c : α → List PyComplaint) : Den :=
  fun w vs cs => ∃ a, P a ∧ w = t a ∧ vs = v a ∧ cs = c a

/-! ## Comma-separated lists -/

/-- What is written in a list with at least one element: `lead` has the whitespace after each of the commas at the
beginning, and `tail` has the whitespace before each of the later commas, and what follows, if anything. -/
structure List1Syn (α : Type) where
  lead : List Str
  head : α
  tail : List (Str × Option (Str × α))

/-- What follows a comma is in order. -/
def slotOk {α : Type} (P : α → Prop) : Option (Str × α) → Prop
  | none => True
  | some (s, a) => IsOws s ∧ P a

/-- What follows a comma. -/
def slotText {α : Type} (t : α → Str) : Option (Str × α) → Str
  | none => []
  | some (s, a) => s ++ t a

/-- All in order. -/
def List1Syn.Ok {α : Type} (P : α → Prop) (l : List1Syn α) : Prop :=
  (∀ s ∈ l.lead, IsOws s) ∧ P l.head ∧ ∀ x ∈ l.tail, IsOws x.1 ∧ slotOk P x.2

/-- The text: `*( "," OWS ) element *( OWS "," [ OWS element ] )`. -/
def List1Syn.text {α : Type} (t : α → Str) (l : List1Syn α) : Str :=
  l.lead.flatMap (fun s => 44 :: s) ++ t l.head ++ l.tail.flatMap (fun x => x.1 ++ 44 :: slotText t x.2)

/-- The elements. -/
def List1Syn.elems {α : Type} (l : List1Syn α) : List α := l.head :: l.tail.filterMap (fun x => x.2.map Prod.snd)

/-- Nothing between two commas, or at one of the ends. -/
def List1Syn.Gaps {α : Type} (l : List1Syn α) : Prop := l.lead ≠ [] ∨ ∃ x ∈ l.tail, x.2.isNone = true

instance {α : Type} (l : List1Syn α) : Decidable l.Gaps := inferInstanceAs (Decidable (_ ∨ _))

/-- 1151 (empty elements). -/
def gapNotes (gaps : Prop) [Decidable gaps] : List PyComplaint := if gaps then [(1151, [])] else []

/-- What is written in a list that may be empty: elements with the whitespace that follows them; and before each but the
first, the whitespace that follows the comma. -/
structure ListSyn (α : Type) where
  first : Option (α × Str)
  rest : List (Str × Option (α × Str))

/-- An element with whitespace, in order. -/
def placeOk {α : Type} (P : α → Prop) : Option (α × Str) → Prop
  | none => True
  | some (a, s) => P a ∧ IsOws s

/-- An element with whitespace. -/
def placeText {α : Type} (t : α → Str) : Option (α × Str) → Str
  | none => []
  | some (a, s) => t a ++ s

/-- All in order. -/
def ListSyn.Ok {α : Type} (P : α → Prop) (l : ListSyn α) : Prop :=
  placeOk P l.first ∧ ∀ x ∈ l.rest, IsOws x.1 ∧ placeOk P x.2

/-- The text: `[ element OWS ] *( "," OWS [ element OWS ] )`. -/
def ListSyn.text {α : Type} (t : α → Str) (l : ListSyn α) : Str :=
  placeText t l.first ++ l.rest.flatMap (fun x => 44 :: x.1 ++ placeText t x.2)

/-- The elements. -/
def ListSyn.elems {α : Type} (l : ListSyn α) : List α :=
  (l.first :: l.rest.map Prod.snd).filterMap (fun x => x.map Prod.fst)

/-- There is a comma, and nothing between two commas, or at one of the ends. -/
def ListSyn.Gaps {α : Type} (l : ListSyn α) : Prop :=
  l.rest ≠ [] ∧ (l.first.isNone = true ∨ ∃ x ∈ l.rest, x.2.isNone = true)

instance {α : Type} (l : ListSyn α) : Decidable l.Gaps := inferInstanceAs (Decidable (_ ∧ _))

end Httpolice.Spec
