import Verif.Spec.Checks

/-!
# What the notices about headers are about
-/

namespace Httpolice.Spec

open Httpolice.Model

/-- The name is that of a row of known/header.csv, in whatever case. -/
def IsHeader (E : Env) (name : Str) (row : HeaderRow) : Prop := row ∈ headerRows ∧ E.lower name = asciiLower (str row.key)

/-- A header that may be there only once. -/
def Sole (E : Env) (name : Str) : Prop :=
  ∃ row, IsHeader E name row ∧ (row.rule = some .single ∨ row.key = "Strict-Transport-Security")

/-- A header that may be there many times, all together making a list. -/
def Several (E : Env) (name : Str) : Prop :=
  ∃ row, IsHeader E name row ∧
    (row.rule = some .multi ∨ (row.rule = some .special ∧ row.key ≠ "Strict-Transport-Security"))

/-- A header that must not be sent in trailers. -/
def Barred (E : Env) (name : Str) : Prop := ∃ row, IsHeader E name row ∧ row.badForTrailer = true

/-- An entry that is looked at. -/
def Counts (E : Env) (m : Msg) (e : Entry) : Prop := e ∈ m.headers ∨ (e ∈ m.trailers ∧ ¬Barred E e.name)

/-- Two entries with the same name, in this order, both of which are looked at. -/
def TwoOf (E : Env) (m : Msg) (a b : Entry) : Prop :=
  E.lower a.name = E.lower b.name ∧
    ([a, b].Sublist m.headers ∨ (¬Barred E a.name ∧ [a, b].Sublist (m.headers ++ m.trailers)))

/-- Names of headers are compared without regard to case. -/
def CaseBlind (E : Env) : Prop := ∀ a b, E.lower a = E.lower b → E.kind a = E.kind b

/-- Neither parsing the request target nor decoding payloads reports the notice. -/
structure NotElsewhere (E : Env) (ex : Exchange) (id : Nat) : Prop where
  target : ∀ forms s r, E.parseTarget forms s = some r → ∀ n ∈ r.2, n.id ≠ id
  request : ∀ req, ex.request = some req → ∀ n ∈ req.payload.notes, n.1 ≠ id
  responses : ∀ r ∈ ex.responses, ∀ n ∈ r.payload.notes, n.1 ≠ id

end Httpolice.Spec
