import Verif.Spec.Values

/-!
# Comma-separated lists

`E u x cs`: the text `u` is an element with the value `x` and complaints `cs`. The rules of RFC 7230 section 7 with
erratum 5257, and what is actually allowed in their place.
-/

namespace Httpolice.Spec

open Httpolice.Model

/-- Spaces and tabs. -/
def IsOws (w : Str) : Prop := ∀ c ∈ w, c = 32 ∨ c = 9

/-- Elements of lists: text, value, complaints. -/
abbrev Elements := Str → GVal → List PyComplaint → Prop

/-- `[ element OWS ]`; if it is missing then the value is `None`. -/
inductive Slot (E : Elements) : Elements
  | missing : Slot E [] .none []
  | present {u s : Str} {x : GVal} {cs : List PyComplaint} : E u x cs → IsOws s → Slot E (u ++ s) x cs

/-- `[ element OWS ] *( "," OWS [ element OWS ] )`, with all the values. -/
inductive Slots (E : Elements) : Str → List GVal → List PyComplaint → Prop
  | last {u : Str} {x : GVal} {cs : List PyComplaint} : Slot E u x cs → Slots E u [x] cs
  | more {u s v : Str} {x : GVal} {xs : List GVal} {cs ds : List PyComplaint} :
      Slot E u x cs → IsOws s → Slots E v xs ds → Slots E (u ++ (44 :: s) ++ v) (x :: xs) (cs ++ ds)

/-- `*( "," OWS )`. -/
inductive Commas : Str → List GVal → Prop
  | nil : Commas [] []
  | cons {s v : Str} {xs : List GVal} : IsOws s → Commas v xs → Commas ((44 :: s) ++ v) (.none :: xs)

/-- `*( OWS "," [ OWS element ] )`, with all the values. -/
inductive MoreElements (E : Elements) : Str → List GVal → List PyComplaint → Prop
  | nil : MoreElements E [] [] []
  | missing {s v : Str} {xs : List GVal} {cs : List PyComplaint} : IsOws s → MoreElements E v xs cs →
      MoreElements E (s ++ 44 :: v) (.none :: xs) cs
  | present {s t u v : Str} {x : GVal} {xs : List GVal} {cs ds : List PyComplaint} : IsOws s → IsOws t → E u x cs →
      MoreElements E v xs ds → MoreElements E (s ++ 44 :: (t ++ u) ++ v) (x :: xs) (cs ++ ds)

/-- `*( "," OWS ) element *( OWS "," [ OWS element ] )`. -/
def NonemptyList (E : Elements) (w : Str) (l : List GVal) (cs : List PyComplaint) : Prop :=
  ∃ a u v xs x ys c d, w = a ++ u ++ v ∧ l = xs ++ x :: ys ∧ cs = c ++ d ∧ Commas a xs ∧ E u x c ∧ MoreElements E v ys d

/-- Not `None`. -/
def isThere : GVal → Bool
  | .none => false
  | _ => true

/-- What is made of the values of all the places in a list: those that are there, and notice 1151
if some are not and there is a comma. -/
def Collected (xs : List GVal) (result : List GVal) (cs : List PyComplaint) : Prop :=
  result = xs.filter isThere ∧
  ((2 ≤ xs.length ∧ GVal.none ∈ xs ∧ cs = [(1151, [])]) ∨ (¬ (2 ≤ xs.length ∧ GVal.none ∈ xs) ∧ cs = []))

/-- The elements that a symbol stands for. -/
def elementsOf (h : PyHeap) (ops : ParseOps GVal) (s : Sym) : Elements := fun u x cs =>
  ∃ c, Value h ops s u (.val x) c ∧ cs.Perm c

/-- The rule `[ element ]`. -/
inductive OptElement (E : Elements) : Str → Prop
  | missing : OptElement E []
  | present {u : Str} {x : GVal} {cs : List PyComplaint} : E u x cs → OptElement E u

/-- The rule `*( OWS "," OWS [ element ] )`. -/
inductive ListTail (E : Elements) : Str → Prop
  | nil : ListTail E []
  | cons {s t u v : Str} : IsOws s → IsOws t → OptElement E u → ListTail E v →
      ListTail E (s ++ 44 :: t ++ u ++ v)

/-- RFC 7230 as amended by erratum 5257: `#element => [ element ] *( OWS "," OWS [ element ] )`. -/
def RfcList (E : Elements) (w : Str) : Prop := ∃ u v, w = u ++ v ∧ OptElement E u ∧ ListTail E v

end Httpolice.Spec
