import Verif.Model.Inputs

/-!
# Specifications for `httpolice/inputs/streams.py`
-/

namespace Httpolice.Spec
open Httpolice.Model

/-- `Interleaving ls out`: `out` can be had by taking elements off the fronts of the lists `ls`, one
at a time, until all are empty. -/
inductive Interleaving {α : Type} : List (List α) → List α → Prop
  | done {ls : List (List α)} : (∀ l ∈ ls, l = []) → Interleaving ls []
  | take {ls : List (List α)} {i : Nat} {x : α} {l out : List α} :
      ls[i]? = some (x :: l) → Interleaving (ls.set i l) out → Interleaving ls (x :: out)

/-- A response date and age whose sum can be represented. -/
def Representable (r : Option Int × Option Nat) : Prop :=
  ∀ d a, r = (some d, some a) → d + (a : Int) ≤ maxTime

/-- The time of an exchange as its messages tell it: the `Date` of the request, or else that of the
first response that has one, plus its `Age`. -/
def ownTime {α : Type} (e : Exch α) : Option Int :=
  e.reqDate <|> e.resps.findSome? fun r => r.1.map (· + ((r.2.getD 0 : Nat) : Int))

/-- `time` gives the times of the exchanges of a connection that starts at `prev`: the exchange's own
time, or else that of the exchange before it; and these times do not decrease. -/
def InTime {α : Type} (time : Exch α → Int) : Option Int → List (Exch α) → Prop
  | _, [] => True
  | prev, e :: es =>
    (ownTime e <|> prev) = some (time e) ∧ (∀ p, prev = some p → p ≤ time e) ∧
      InTime time (some (time e)) es

/-! ## Pairs of streams -/

/-- Two streams are the two directions of one connection. -/
def Opposite (a b : StreamInfo) : Prop :=
  a.connectionHint = b.connectionHint ∧ a.source = b.destination ∧ a.destination = b.source

/-- Two streams are the same direction of one connection. -/
def SameDirection (a b : StreamInfo) : Prop :=
  a.connectionHint = b.connectionHint ∧ a.source = b.source ∧ a.destination = b.destination

/-- `t` is the earliest of the known times of the streams `l`. -/
def Earliest (l : List StreamInfo) (t : Option Int) : Prop :=
  (t = none → ∀ s ∈ l, s.timeHint = none) ∧
    ∀ x, t = some x → (∃ s ∈ l, s.timeHint = some x) ∧ ∀ s ∈ l, ∀ y, s.timeHint = some y → x ≤ y

/-- The streams of a pair. -/
def members (p : StreamInfo × Option StreamInfo) : List StreamInfo := p.1 :: p.2.toList

/-! ## Looks of streams -/

/-- A decimal digit. -/
def IsDigit (c : Nat) : Prop := 48 ≤ c ∧ c ≤ 57

/-- The data starts with an HTTP/1.x status line. -/
def StartsWithStatus (data : Str) : Prop :=
  ∃ v a b c rest, IsDigit v ∧ IsDigit a ∧ IsDigit b ∧ IsDigit c ∧
    data = str "HTTP/1." ++ [v] ++ str " " ++ [a, b, c] ++ str " " ++ rest

/-- White space that can follow a line, other than a line feed. -/
def IsTrailing (c : Nat) : Prop := c = 32 ∨ c = 9 ∨ c = 13 ∨ c = 11 ∨ c = 12

/-- The first line of the data is an HTTP/1.x request line, possibly followed by white space. -/
def StartsWithRequest (data : Str) : Prop :=
  ∃ method target v ws rest, method ≠ [] ∧ target ≠ [] ∧
    (∀ c ∈ method ++ target, c ≠ 32 ∧ c ≠ 10) ∧ IsDigit v ∧ (∀ c ∈ ws, IsTrailing c) ∧
    (rest = [] ∨ ∃ more, rest = 10 :: more) ∧
    data = method ++ str " " ++ target ++ str " HTTP/1." ++ [v] ++ ws ++ rest

/-- A stream that is there and has the given look. -/
def There {P : Type} (contents : P → Str) (looks : Str → Prop) (path : Option P) : Prop :=
  ∃ p, path = some p ∧ looks (contents p)

/-! ## Combined files -/

/-- `s` is `a`, `sep`, `b`, and `sep` occurs nowhere earlier in `s`. -/
def CutAt (sep s a b : Str) : Prop :=
  s = a ++ sep ++ b ∧ ∀ a' b', s = a' ++ sep ++ b' → a.length ≤ a'.length

/-- `sep` occurs in `s`. -/
def Occurs (sep s : Str) : Prop := ∃ a b, s = a ++ sep ++ b

end Httpolice.Spec
