import Verif.Spec.Strings

/-!
# Parameters and weights, after RFC 7230 and RFC 7231
-/

namespace Httpolice.Spec

open Httpolice.Model

/-- A parameter: name and value, and the whitespace before and after the equals sign. -/
structure Param where
  name : Str
  before : Str
  after : Str
  value : Word

/-- The name is one of these, and the rest is in order. -/
def Param.Ok (Name : Str → Prop) (x : Param) : Prop := Name x.name ∧ IsOws x.before ∧ IsOws x.after ∧ x.value.Ok

def Param.text (x : Param) : Str := x.name ++ x.before ++ str "=" ++ x.after ++ x.value.text

/-- 1015 for whitespace around the equals sign; and 1017. -/
def Param.notes (x : Param) : List PyComplaint := badSpaceNotes x.before ++ badSpaceNotes x.after ++ x.value.notes

/-- What follows semicolons, with the whitespace before and after each of them. -/
abbrev SemiSyn (α : Type) := List ((Str × Str) × α)

def SemiSyn.Ok {α : Type} (P : α → Prop) (l : SemiSyn α) : Prop := ∀ x ∈ l, (IsOws x.1.1 ∧ IsOws x.1.2) ∧ P x.2

def SemiSyn.text {α : Type} (t : α → Str) (l : SemiSyn α) : Str := l.flatMap fun x => x.1.1 ++ 59 :: x.1.2 ++ t x.2

def SemiSyn.elems {α : Type} (l : SemiSyn α) : List α := l.map Prod.snd

/-- A weight between 0 and 1: whether it is 1, and the digits after the point, if there is one. -/
structure Weight where
  one : Bool
  digits : Option Str
deriving DecidableEq, Repr

/-- At most three digits; and zeros only, if it is 1. -/
def Weight.Ok (x : Weight) : Prop :=
  ∀ ds, x.digits = some ds → ds.length ≤ 3 ∧ ∀ c ∈ ds, 48 ≤ c ∧ c ≤ 57 ∧ (x.one = true → c = 48)

def Weight.text (x : Weight) : Str :=
  (if x.one then str "1" else str "0") ++ (match x.digits with | none => [] | some ds => str "." ++ ds)

def Weight.value (x : Weight) : GVal := .obj (str "float") [.text x.text]

/-- A weight with what comes before: whitespace, a semicolon, whitespace, and `q=` in whatever case. -/
structure Ranking where
  before : Str
  after : Str
  mark : Str
  weight : Weight
deriving DecidableEq, Repr

def Ranking.Ok (x : Ranking) : Prop := IsOws x.before ∧ IsOws x.after ∧ SameWord x.mark (str "q=") ∧ x.weight.Ok

def Ranking.text (x : Ranking) : Str := x.before ++ str ";" ++ x.after ++ x.mark ++ x.weight.text

def Ranking.value (x : Ranking) : GVal := x.weight.value

end Httpolice.Spec
