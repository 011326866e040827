import Verif.Model.Combinators

/-!
# Grammar expressions

The modules in `httpolice/syntax` consist of Python expressions over the combinators of parse.py. Here such an
expression is a piece of data, so that it may be run (`Expr.build`) as well as be given a meaning (`Spec/Values.lean`).
-/

namespace Httpolice.Model

/-- Expressions: `sym` is a variable that holds a symbol; `empty` (parse.py 500); `lit` is `literal` or
`case_sens` or a string (parse.py 514-529); `seq` is `*`; `alt` is `|`; `app` is `<<`; then `group` and
`times`. -/
inductive Expr
  | sym (s : Sym)
  | empty
  | lit (s : Str) (caseSens : Bool)
  | seq (a b : Expr)
  | alt (a b : Expr)
  | app (f : Func GVal PyComplaint) (isClass : Bool) (a : Expr)
  | group (a : Expr)
  | times (min : Nat) (max : Option Nat) (a : Expr)

/-- `skip(a)` (parse.py 535-536). -/
abbrev Expr.skip (a : Expr) : Expr := .app skipF false a
/-- `maybe(a, default)` (parse.py 552-553). -/
abbrev Expr.maybe (a : Expr) (default : GVal := .none) : Expr := .alt a (.app (substF default) false .empty)
/-- `a + b` (parse.py 294-298). -/
abbrev Expr.add (a b : Expr) : Expr := .app addF false (.seq a b)
/-- `a % b` (parse.py 300-301). -/
abbrev Expr.mod (a b : Expr) : Expr := .app continueRightListF false (.seq a b)
/-- `many(a)` (parse.py 577-578). -/
abbrev Expr.many (a : Expr) : Expr := .times 0 none a
/-- `many1(a)` (parse.py 583-584). -/
abbrev Expr.many1 (a : Expr) : Expr := .times 1 none a
/-- `string_times(min, max, a)` (parse.py 574-575). -/
abbrev Expr.stringTimes (min : Nat) (max : Option Nat) (a : Expr) : Expr := .app joinF false (.times min max a)
/-- `string(a)` (parse.py 580-581). -/
abbrev Expr.string (a : Expr) : Expr := .app joinF false a.many
/-- `string1(a)` (parse.py 586-587). -/
abbrev Expr.string1 (a : Expr) : Expr := .app joinF false a.many1

/-- Run the expression, operands first, left to right (parse.py 252-304, 500-587). -/
def Expr.build (h : PyHeap) : Expr → Sym × PyHeap
  | .sym s => (s, h)
  | .empty => (emptySym, h)
  | .lit s cs => h.literal s cs
  | .seq a b => (b.build (a.build h).2).2.mul (a.build h).1 (b.build (a.build h).2).1
  | .alt a b => (b.build (a.build h).2).2.or (a.build h).1 (b.build (a.build h).2).1
  | .app f c a => (a.build h).2.wrap f (a.build h).1 c
  | .group a => (a.build h).2.group (a.build h).1
  | .times min max a => (a.build h).2.times min max (a.build h).1

/-- `e > named(...)`, `e > auto` or `e > pivot` (parse.py 207-224). -/
def Expr.define (e : Expr) (h : PyHeap) (pivot : Bool := false) : Sym × PyHeap :=
  (e.build h).2.seal (e.build h).1 pivot

end Httpolice.Model
