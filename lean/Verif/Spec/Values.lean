import Verif.Spec.Construction
import Verif.Model.Expr

/-!
# What expressions over the combinators evaluate to

`Expr` (`Model/Expr.lean`) are the expressions that a grammar module consists of, and `Expr.build` runs one on
the objects of the model. `Expr.den` says what it is supposed to come to, without reference to objects, rules, or inlining: a
relation between text, arguments (what a function applied to the expression gets), and complaints.

`Value` is what a symbol of the finished grammar evaluates to, read off derivations (`EvalSeq`).
The order of complaints is left open here (`C02_value` in `Props/Parser.lean` determines it).
-/

namespace Httpolice.Spec

open Httpolice.Model

/-- `Value h ops s w node cs`: some derivation of the octets `w` from the symbol `s` evaluates to the node
`node` with the complaints `cs`. -/
def Value {V C : Type} (h : Heap V C) (ops : ParseOps V) (s : Sym) (w : Str) (node : Node V) (cs : List C) :
    Prop :=
  ∃ as, EvalSeq h.grammar ops 0 [s.g] w [node] cs as

/-- Text, arguments, complaints. -/
abbrev Den := Str → List GVal → List PyComplaint → Prop

/-- A node as arguments: `_SKIP` disappears. -/
def argsOf : Node GVal → List GVal
  | .skip => []
  | .val v => [v]

/-- Arguments as one node. -/
def nodeOf : List GVal → Node GVal
  | [] => .skip
  | [v] => .val v
  | l => .val (.tuple l)

/-- Arguments as an element of a list; here `_SKIP` stays. -/
def elementOf : List GVal → GVal
  | [] => .skip
  | [v] => v
  | l => .tuple l

/-- Nothing. -/
def nothingD : Den := fun w vs cs => w = [] ∧ vs = [] ∧ cs = []

/-- One after the other. -/
def thenD (A B : Den) : Den := fun w vs cs =>
  ∃ u v xs ys c d, w = u ++ v ∧ vs = xs ++ ys ∧ cs = c ++ d ∧ A u xs c ∧ B v ys d

/-- One or the other. -/
def orD (A B : Den) : Den := fun w vs cs => A w vs cs ∨ B w vs cs

/-- A function applied to the arguments. -/
def appD (f : Func GVal PyComplaint) (A : Den) : Den := fun w vs cs =>
  ∃ xs c, A w xs c ∧ vs = argsOf (f xs).1 ∧ cs = c ++ (f xs).2

/-- Several arguments made into one. -/
def oneD (A : Den) : Den := fun w vs cs => ∃ xs, A w xs cs ∧ vs = argsOf (nodeOf xs)

/-- Any number of times, giving these elements. -/
inductive EachD (A : Den) : Str → List GVal → List PyComplaint → Prop
  | nil : EachD A [] [] []
  | cons {u v : Str} {xs l : List GVal} {c d : List PyComplaint} :
      A u xs c → EachD A v l d → EachD A (u ++ v) (elementOf xs :: l) (c ++ d)

/-- Any number of times, as a list. -/
def manyD (A : Den) : Den := fun w vs cs => ∃ l, EachD A w l cs ∧ vs = [.list l]

/-- The empty list. -/
def noneD : Den := fun w vs cs => w = [] ∧ vs = [.list []] ∧ cs = []

/-- Up to `k + 1` times, as a list; `P` is what the inner expression stands for in `*`. -/
def upToD (A P : Den) : Nat → Den
  | 0 => orD noneD (appD beginListF A)
  | k + 1 => orD noneD (appD continueRightListF (thenD P (upToD A P k)))

/-- `k` times after something. -/
def copiesD (A R : Den) : Nat → Den
  | 0 => R
  | k + 1 => copiesD A (thenD R (oneD A)) k

/-- Any number of times, or up to a number. -/
def repeatedD (A P : Den) : Option Int → Den
  | none => manyD A
  | some k => upToD A P (k - 1).toNat

/-- From `min` to `max` times, as a list. -/
def timesD (A P : Den) (min : Nat) (max : Option Nat) : Den :=
  if min = 0 then repeatedD A P (max.map Int.ofNat)
  else if max = some min then appD asListF (copiesD A nothingD min)
  else appD addF (thenD (appD asListF (copiesD A nothingD min))
    (repeatedD A P (max.map fun k : Nat => (k : Int) - (min : Int))))

/-- All symbols mentioned exist and are not inlined; for example, they are named. -/
def _root_.Httpolice.Model.Expr.Uses (h : PyHeap) : Expr → Prop
  | .sym (.term _ _) => True
  | .sym (.nt n) => ∃ x : NtObj, h.nts[n]? = some x ∧ x.ephemeral = false
  | .empty => True
  | .lit _ _ => True
  | .seq a b => a.Uses h ∧ b.Uses h
  | .alt a b => a.Uses h ∧ b.Uses h
  | .app _ _ a => a.Uses h
  | .group a => a.Uses h
  | .times _ _ a => a.Uses h

/-- What an expression comes to in a sequence: alternatives count as one argument, and everything else as it
is. `π` says so for symbols. -/
def _root_.Httpolice.Model.Expr.part (π : Sym → Den) (D : Den) : Expr → Den
  | .sym s => π s
  | .alt _ _ => oneD D
  | _ => D

/-- The text is the literal. -/
def litD (s : Str) (caseSens : Bool) : Den := fun w vs cs =>
  (if caseSens then w = s else SameWord w s) ∧ vs = [.text w] ∧ cs = []

/-- What the expression comes to, given what symbols come to (`σ`), also in a sequence (`π`). -/
def _root_.Httpolice.Model.Expr.den (σ π : Sym → Den) : Expr → Den
  | .sym s => σ s
  | .empty => nothingD
  | .lit s cs => litD s cs
  | .seq a b => thenD (a.part π (a.den σ π)) (b.part π (b.den σ π))
  | .alt a b => orD (a.den σ π) (b.den σ π)
  | .app f _ a => appD f (a.den σ π)
  | .group a => oneD (a.den σ π)
  | .times min max a => timesD (a.den σ π) (a.part π (a.den σ π)) min max

/-- What symbols come to in a grammar. -/
def symbolD (h : PyHeap) (ops : ParseOps GVal) (s : Sym) : Den := fun w vs cs =>
  ∃ node c, Value h ops s w node c ∧ vs = argsOf node ∧ cs.Perm c

/-- What the expression comes to in a grammar, if all of its symbols are not inlined. -/
def _root_.Httpolice.Model.Expr.denIn (h : PyHeap) (ops : ParseOps GVal) (e : Expr) : Den := e.den (symbolD h ops) (symbolD h ops)

end Httpolice.Spec
