import Verif.Spec.Texts
import Verif.Spec.Links
import Verif.Spec.Encoded

/-!
# What is written in Link headers
-/

namespace Httpolice.Spec

open Httpolice.Model

/-- The header is written as it should be, with these links. -/
def HeaderLinks (e : Entry) (ls : List LinkSyn) : Prop :=
  ∃ x : ListSyn LinkSyn, x.Ok LinkSyn.Ok ∧ e.value = x.text LinkSyn.text ∧ ls = x.elems

/-- All links of a message, in order, apart from headers that are not written as they should be. -/
def WrittenLinks (lower : Str → Str) (m : Msg) (ls : List LinkSyn) : Prop :=
  ∃ lss, Pairwise2 (fun e ls => HeaderLinks e ls ∨ ((¬∃ ls, HeaderLinks e ls) ∧ ls = []))
      ((m.headers ++ m.trailers).filter fun e => lower e.name = asciiLower (str "Link")) lss ∧
    ls = lss.flatten

/-- Some link lacks a value where one is needed (C79). -/
def LacksValue (lower : Str → Str) (m : Msg) : Prop :=
  ∃ e ∈ m.headers ++ m.trailers, Called lower e.name "Link" ∧ ∃ ls, HeaderLinks e ls ∧ ∃ l ∈ ls, ¬Sound l.entries

/-- The text of the first `rel`. -/
def RelText (l : LinkSyn) (w : Str) : Prop :=
  ∃ a n v b, l.entries = a ++ (n, some v) :: b ∧ SameWord n (str "rel") ∧ (∀ e ∈ a, ¬SameWord e.1 (str "rel")) ∧ w = v.content

/-- The relations. -/
def RelsSyn.all (x : RelsSyn) : List RelSyn := x.first :: x.rest.map Prod.snd

/-- Its first `rel` has `blocked-by`, in lower case. -/
def LinkBlockedBy (l : LinkSyn) : Prop :=
  ∃ x : RelsSyn, x.Ok ∧ RelText l x.text ∧ RelSyn.name (str "blocked-by") ∈ x.all

/-- Its first `rel` is not a list of relations. -/
def BadRel (l : LinkSyn) : Prop := ∃ w, RelText l w ∧ ¬∃ x : RelsSyn, x.Ok ∧ w = x.text

/-- A 451 response has a link with a bad relation before any that has `blocked-by`. -/
def BadLinkText (lower : Str → Str) (r : Response) : Prop :=
  r.status = 451 ∧ ∃ a l b, WrittenLinks lower r.fields (a ++ l :: b) ∧ BadRel l ∧ ∀ x ∈ a, ¬LinkBlockedBy x

end Httpolice.Spec
