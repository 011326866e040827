import Verif.Spec.Ranges

/-!
# Quoted strings, after RFC 7230
-/

namespace Httpolice.Spec

open Httpolice.Model

/-- Some whitespace. -/
def IsRws (w : Str) : Prop := w ≠ [] ∧ IsOws w

/-- 1014: this should be one space. -/
def wideSpaceNotes (w : Str) : List PyComplaint :=
  if w ≠ [32] then [(1014, [(str "num", .other (.int w.length))])] else []

/-- 1015: there should be no whitespace. -/
def badSpaceNotes (w : Str) : List PyComplaint := if w ≠ [] then [(1015, [])] else []

/-- A character in a quoted string, as it is or with a backslash. -/
inductive QChar
  | plain (c : Nat)
  | escaped (c : Nat)
deriving DecidableEq, Repr

/-- Anything but control characters, and but for what has to be escaped. -/
def QChar.Ok : QChar → Prop
  | .plain c => (c = 9 ∨ (32 ≤ c ∧ c ≤ 126) ∨ (128 ≤ c ∧ c ≤ 255)) ∧ c ≠ 34 ∧ c ≠ 92
  | .escaped c => c = 9 ∨ (32 ≤ c ∧ c ≤ 126) ∨ (128 ≤ c ∧ c ≤ 255)

instance : DecidablePred QChar.Ok := fun
  | .plain _ => inferInstanceAs (Decidable (_ ∧ _))
  | .escaped _ => inferInstanceAs (Decidable (_ ∨ _))

/-- As it is written. -/
def QChar.text : QChar → Str
  | .plain c => [c]
  | .escaped c => [92, c]

/-- What it stands for. -/
def QChar.char : QChar → Nat
  | .plain c => c
  | .escaped c => c

/-- 1017: nothing but quotes and backslashes needs to be escaped. -/
def QChar.notes : QChar → List PyComplaint
  | .plain _ => []
  | .escaped c => if c = 34 ∨ c = 92 then [] else [(1017, [(str "char", .other (.text [c]))])]

/-- What is written in a quoted string. -/
abbrev Quoted := List QChar

/-- All characters may be there. -/
def Quoted.Ok (q : Quoted) : Prop := ∀ c ∈ q, c.Ok

/-- In quotes. -/
def Quoted.text (q : Quoted) : Str := 34 :: (q.flatMap QChar.text ++ [34])

/-- What it stands for. -/
def Quoted.content (q : Quoted) : Str := q.map QChar.char

/-- 1017 for every character that does not need to be escaped. -/
def Quoted.notes (q : Quoted) : List PyComplaint := q.flatMap QChar.notes

/-- A token or a quoted string. -/
inductive Word
  | token (s : Str)
  | quoted (q : Quoted)

def Word.Ok : Word → Prop
  | .token s => IsToken s
  | .quoted q => q.Ok

def Word.text : Word → Str
  | .token s => s
  | .quoted q => q.text

def Word.content : Word → Str
  | .token s => s
  | .quoted q => q.content

def Word.notes : Word → List PyComplaint
  | .token _ => []
  | .quoted q => q.notes

end Httpolice.Spec
