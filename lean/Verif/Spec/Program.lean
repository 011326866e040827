import Verif.Model.Program
import Verif.Spec.CommaList

/-!
# What the definitions of a module come to
-/

namespace Httpolice.Spec

open Httpolice.Model

variable {N : Type}

/-- One of these octets. -/
def octetD (bits : Nat → Bool) : Den := fun w vs cs => ∃ c, bits c = true ∧ w = [c] ∧ vs = [.text [c]] ∧ cs = []

/-- A string of these octets other than these words, in whatever case. -/
def exclD (bits : Nat → Bool) (xs : List Str) : Den := fun w vs cs =>
  ((∀ c ∈ w, bits c = true) ∧ ∀ x ∈ xs, ¬ SameWord w x) ∧ vs = [.text w] ∧ cs = []

/-- In a sequence, alternatives count as one argument. -/
def _root_.Httpolice.Model.GExpr.part (D : Den) : GExpr N → Den
  | .alt _ _ => oneD D
  | _ => D

/-- What an expression comes to, given what the names come to. -/
def _root_.Httpolice.Model.GExpr.den (δ : N → Den) : GExpr N → Den
  | .ref n => δ n
  | .chars bits _ => octetD bits
  | .empty => nothingD
  | .lit s cs => litD s cs
  | .seq a b => thenD (a.part (a.den δ)) (b.part (b.den δ))
  | .alt a b => orD (a.den δ) (b.den δ)
  | .app f _ a => appD f (a.den δ)
  | .group a => oneD (a.den δ)
  | .times min max a => timesD (a.den δ) (a.part (a.den δ)) min max
  | .excl _ bits _ xs => exclD bits xs

/-- Complaints in any order. -/
def anyOrder (D : Den) : Den := fun w vs cs => ∃ c, D w vs c ∧ cs.Perm c

/-- As the elements of a list. -/
def elementsD (D : Den) : Elements := fun w x cs => anyOrder (oneD D) w [x] cs

/-- A list of such elements. -/
def listD (D : Den) : Den := fun w vs cs =>
  ∃ xs r c d, Slots (elementsD D) w xs c ∧ Collected xs r d ∧ vs = [.list r] ∧ cs.Perm (c ++ d)

/-- A list of such elements, one at least. -/
def list1D (D : Den) : Den := fun w vs cs =>
  ∃ xs r c d, NonemptyList (elementsD D) w xs c ∧ Collected xs r d ∧ vs = [.list r] ∧ cs.Perm (c ++ d)

/-- What is got by doing something again and again. -/
def timesOver (F : Den → Den) : Nat → Den
  | 0 => fun _ _ _ => False
  | k + 1 => F (timesOver F k)

/-- What is got by doing something often enough, if every time it takes at least one octet. -/
def overAndOver (F : Den → Den) : Den := fun w => timesOver F (w.length + 1) w

/-- An expression between two characters, if its own symbol comes to `X`. -/
def betweenD (δ : N → Den) (first last : Nat) (e : GExpr (Option N)) (X : Den) : Den :=
  anyOrder (oneD ((e.between first last).den (withSelf δ X)))

/-- What a name comes to by its definition. -/
def _root_.Httpolice.Model.Defn.den (δ : N → Den) : Defn N → Den
  | .named _ e => anyOrder (oneD (e.den δ))
  | .list _ e => listD (e.den δ)
  | .list1 _ e => list1D (e.den δ)
  | .nested first last e => overAndOver (betweenD δ first last e)

/-- Only these names are used; repetitions are not contradictory; and what is excluded by `string_excluding`
consists of octets that are allowed there, in either case. -/
def _root_.Httpolice.Model.GExpr.Fine (known : List N) : GExpr N → Prop
  | .ref n => n ∈ known
  | .chars _ _ => True
  | .empty => True
  | .lit _ _ => True
  | .seq a b => a.Fine known ∧ b.Fine known
  | .alt a b => a.Fine known ∧ b.Fine known
  | .app _ _ a => a.Fine known
  | .group a => a.Fine known
  | .times min max a => (∀ k, max = some k → min ≤ k ∧ 1 ≤ k) ∧ a.Fine known
  | .excl order bits _ xs => (∀ l c, c ∈ order l ↔ c ∈ l) ∧
      ∀ x ∈ xs, ∀ c ∈ x, ∀ d, SameLetter d c → bits d = true

/-- Optional whitespace. -/
def spacesD : Den := fun w vs cs => IsOws w ∧ vs = [.text w] ∧ cs = []

/-- The same for a definition; elements of lists have a value, and `OWS` is what it is. -/
def _root_.Httpolice.Model.Defn.Fine (known : List N) (δ : N → Den) : Defn N → Prop
  | .named _ e => e.Fine known
  | .list ows e => ows ∈ known ∧ δ ows = spacesD ∧ e.Fine known ∧ ∀ w cs, ¬ e.den δ w [] cs
  | .list1 ows e => ows ∈ known ∧ δ ows = spacesD ∧ e.Fine known ∧ ∀ w cs, ¬ e.den δ w [] cs
  | .nested _ _ e => e.Fine (none :: known.map some)

/-- Every name comes to what `δ` says, by its definition, which uses earlier names only; and this but for the order
of complaints. -/
def Solves (known : List N) (δ : N → Den) : List (N × Defn N) → Prop
  | [] => True
  | (n, d) :: ds => d.Fine known δ ∧ anyOrder (d.den δ) = anyOrder (δ n) ∧ Solves (n :: known) δ ds

end Httpolice.Spec
