import Verif.Spec.Credentials

/-!
# Vocabulary for stating when notices about particular headers are reported
-/

namespace Httpolice.Spec

open Httpolice.Model

/-- A hexadecimal digit. -/
def HexChar (c : Nat) : Prop := (48 ≤ c ∧ c ≤ 57) ∨ (65 ≤ c ∧ c ≤ 70) ∨ (97 ≤ c ∧ c ≤ 102)

/-- The text has a `%` with two hexadecimal digits after it. -/
def PercentEncoded (s : Str) : Prop := ∃ a x y b, s = a ++ 37 :: x :: y :: b ∧ HexChar x ∧ HexChar y

/-- The first parameter is given before any of the second. -/
def Precedes (E : Env) (ps : List (Str × Str)) (n n' : String) : Prop :=
  ∃ l x l', ps = l ++ x :: l' ∧ IsWord E x.1 n ∧ (∀ y ∈ l, ¬IsWord E y.1 n') ∧ HasParam E l' n'

/-- The first item is a wildcard that covers the second, which has the same weight. -/
def Subsumes (E : Env) (x y : Str × Option Nat) : Prop :=
  (x.1 = str "*" ∨ ∃ a, x.1 = a ++ str "/*") ∧ E.fnmatch y.1 x.1 = true ∧ E.fnmatch x.1 y.1 = false ∧
    x.2.getD 1000 = y.2.getD 1000

/-- There are two entries or more with that name, in the headers and the trailers together. -/
def Twice (E : Env) (m : Msg) (name : String) : Prop :=
  ∃ a e b e' c, m.headers ++ m.trailers = a ++ e :: (b ++ e' :: c) ∧ HasName E e name ∧ HasName E e' name

/-- The method is in known/method.csv. -/
def KnownMethod (s : Str) : Prop := ∃ r ∈ methodRows, s = str r.key

/-- A digit of the URL-safe base 64. -/
def UrlsafeDigit (c : Nat) : Prop :=
  (65 ≤ c ∧ c ≤ 90) ∨ (97 ≤ c ∧ c ≤ 122) ∨ (48 ≤ c ∧ c ≤ 57) ∨ c = 45 ∨ c = 95

/-- Arguments of preferences that are the same; words in any case. -/
inductive SameArg (E : Env) : ArgVal PrefArg → ArgVal PrefArg → Prop
  | none : SameArg E .none .none
  | malformed (s : Str) : SameArg E (.unavailable s) (.unavailable s)
  | raw (s : Str) : SameArg E (.raw s) (.raw s)
  | rawWord (s w : Str) (h : E.lower s = E.lower w) : SameArg E (.raw s) (.parsed (.word w))
  | wordRaw (w s : Str) (h : E.lower w = E.lower s) : SameArg E (.parsed (.word w)) (.raw s)
  | word (w w' : Str) (h : E.lower w = E.lower w') : SameArg E (.parsed (.word w)) (.parsed (.word w'))
  | num (n : Nat) : SameArg E (.parsed (.num n)) (.parsed (.num n))

/-- The elements of `Prefer`, in all of its entries. -/
def preferencesOf (E : Env) (m : Msg) : List (Str × ArgVal PrefArg) :=
  ((fieldsFor m "Prefer").filter fun e => decide (E.lower e.name = asciiLower (str "Prefer"))).flatMap
    fun e => match E.grammars.prefer e with
      | .list l => l
      | _ => []

/-- The argument of the first preference of that name. -/
def FirstPref (E : Env) (m : Msg) (name : String) (a : ArgVal PrefArg) : Prop :=
  ∃ l d l', preferencesOf E m = l ++ (d, a) :: l' ∧ IsWord E d name ∧ ∀ x ∈ l, ¬IsWord E x.1 name

/-- The argument of a preference does not cancel it: it is not zero or empty. -/
def PrefStands : ArgVal PrefArg → Prop
  | .raw s => s ≠ []
  | .parsed (.num n) => n ≠ 0
  | _ => True

/-- There is a preference with that name and value. -/
def Prefers (E : Env) (m : Msg) (name value : String) : Prop :=
  ∃ x, Listed E m "Prefer" E.grammars.prefer x ∧ IsWord E x.1 name ∧ SameArg E x.2 (.raw (str value))

/-- A protocol is in the `Upgrade` headers of both. -/
def CommonProtocol (E : Env) (r : Response) (req : Request) (x : Str × Option Str) : Prop :=
  Listed E r.fields "Upgrade" E.grammars.upgrade x ∧ Listed E req.fields "Upgrade" E.grammars.upgrade x

end Httpolice.Spec
