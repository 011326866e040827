import Verif.Model.Rfc7230

/-!
# Grammar modules

A module in `httpolice/syntax` is a sequence of definitions, each of which gives a name to an expression over the
combinators and over earlier names. Here it is a list of such definitions, so that it can be run (`runDefs`), and
reasoned about as a whole. `N` is the type of the names.
-/

namespace Httpolice.Model

variable {N : Type}

/-- The loop of `string_excluding` (parse.py 617-619) as an expression; `rec` stands for the recursive call. -/
def excludeLoopE (rec : List Str → Expr) (xs : List Str) (r : Expr) : List Nat → Expr
  | [] => r
  | c :: cs => excludeLoopE rec xs
      (.alt r (.add (.sym (.term (charBits c false) false)) (rec (continuations c xs)))) cs

/-- The end of `string_excluding` (parse.py 620-622) as an expression. -/
def excludeEndE (xs : List Str) (r : Expr) : Expr := if [] ∈ xs then r else .maybe r (.text [])

/-- `string_excluding(terminal, excluding)` (parse.py 590-622) as an expression, for ASCII words no longer than
the given length. -/
def excludingToE (order : List Nat → List Nat) (bits : Nat → Bool) (named : Bool) : Nat → List Str → Expr
  | 0, xs => excludeEndE xs (.add (.sym (.term bits named)) (.string (.sym (.term bits named))))
  | n + 1, xs => excludeEndE xs (excludeLoopE (excludingToE order bits named n) xs
      (.add (.sym (.term (freeBits bits (order (initialsOf xs))) (named && (initialsOf xs).isEmpty)))
        (.string (.sym (.term bits named)))) (order (initialsOf xs)))

/-- `string_excluding(terminal, excluding)` (parse.py 590-622) as an expression, for ASCII words. -/
def excludingE (order : List Nat → List Nat) (bits : Nat → Bool) (named : Bool) (xs : List Str) : Expr :=
  excludingToE order bits named (maxLength xs) xs

/-- An expression in a module: like `Expr`, but with names of symbols (`ref`) in place of objects. `chars` are
terminals, whether written in place or under a name, and `excl` is `string_excluding`, where `order` is the order
in which Python iterates over a set (httpolice/parse.py 503-588 and the modules in syntax/, for example
syntax/rfc7230.py 15-40). -/
inductive GExpr (N : Type)
  | ref (n : N)
  | chars (bits : Nat → Bool) (named : Bool)
  | empty
  | lit (s : Str) (caseSens : Bool)
  | seq (a b : GExpr N)
  | alt (a b : GExpr N)
  | app (f : Func GVal PyComplaint) (isClass : Bool) (a : GExpr N)
  | group (a : GExpr N)
  | times (min : Nat) (max : Option Nat) (a : GExpr N)
  | excl (order : List Nat → List Nat) (bits : Nat → Bool) (named : Bool) (xs : List Str)

/-- Look up the names (httpolice/parse.py 503-588 and the modules in syntax/, for example
syntax/rfc7230.py 15-40). -/
def GExpr.expr (env : N → Sym) : GExpr N → Expr
  | .ref n => .sym (env n)
  | .chars bits nm => .sym (.term bits nm)
  | .empty => .empty
  | .lit s cs => .lit s cs
  | .seq a b => .seq (a.expr env) (b.expr env)
  | .alt a b => .alt (a.expr env) (b.expr env)
  | .app f c a => .app f c (a.expr env)
  | .group a => .group (a.expr env)
  | .times min max a => .times min max (a.expr env)
  | .excl order bits nm xs => excludingE order bits nm xs

/-- `skip(a)` (parse.py 535-536). -/
abbrev GExpr.skip (a : GExpr N) : GExpr N := .app skipF false a
/-- `maybe(a, default)` (parse.py 552-553). -/
abbrev GExpr.maybe (a : GExpr N) (default : GVal := .none) : GExpr N := .alt a (.app (substF default) false .empty)
/-- `maybe_str(a)` (parse.py 555-556). -/
abbrev GExpr.maybeStr (a : GExpr N) : GExpr N := .maybe a (.text [])
/-- `a + b` (parse.py 294-298). -/
abbrev GExpr.add (a b : GExpr N) : GExpr N := .app addF false (.seq a b)
/-- `a % b` (parse.py 300-301). -/
abbrev GExpr.mod (a b : GExpr N) : GExpr N := .app continueRightListF false (.seq a b)
/-- `many(a)` (parse.py 577-578). -/
abbrev GExpr.many (a : GExpr N) : GExpr N := .times 0 none a
/-- `string_times(min, max, a)` (parse.py 574-575). -/
abbrev GExpr.stringTimes (min : Nat) (max : Option Nat) (a : GExpr N) : GExpr N := .app joinF false (.times min max a)
/-- `string(a)` (parse.py 580-581). -/
abbrev GExpr.string (a : GExpr N) : GExpr N := .app joinF false a.many
/-- `string1(a)` (parse.py 586-587). -/
abbrev GExpr.string1 (a : GExpr N) : GExpr N := .app joinF false (.times 1 none a)
/-- `subst(r) << a` (parse.py 667-670). -/
abbrev GExpr.subst (r : GVal) (a : GExpr N) : GExpr N := .app (substF r) false a

/-- A definition: `name = e > auto` or `> pivot` (parse.py 207-224); or a call of `comma_list(e)`, `comma_list1(e)`
(syntax/rfc7230.py 78-90), which gives a name itself; or `name = recursive() > named(...)` followed by
`name.rec = '(' + e + ')'` (syntax/rfc7230.py 46-48), with any two characters, where `e` may also use `name`,
as `none`. `ows` is the name of `OWS`. -/
inductive Defn (N : Type)
  | named (pivot : Bool) (e : GExpr N)
  | list (ows : N) (e : GExpr N)
  | list1 (ows : N) (e : GExpr N)
  | nested (first last : Nat) (e : GExpr (Option N))

/-- Names, and one more for this symbol (httpolice/parse.py 402-405). -/
def withSelf {α : Type} (env : N → α) (s : α) : Option N → α
  | none => s
  | some n => env n

/-- `'(' + e + ')'` (syntax/rfc7230.py 47-48). -/
abbrev GExpr.between (first last : Nat) (e : GExpr N) : GExpr N := .add (.add (.lit [first] false) e) (.lit [last] false)

/-- Run a definition. In the code, a call of `comma_list` in the middle of an expression happens when
it is reached; here it is a definition of its own that comes before (httpolice/parse.py 633-658). -/
def Defn.run (env : N → Sym) (h : PyHeap) : Defn N → Sym × PyHeap
  | .named pivot e => (e.expr env).define h pivot
  | .list ows e => (commaListE (env ows) ((e.expr env).build h).1).define ((e.expr env).build h).2
  | .list1 ows e => (commaList1E (env ows) ((e.expr env).build h).1).define ((e.expr env).build h).2
  | .nested first last e =>
    let s := h.recursive.2.seal h.recursive.1
    let t := ((e.between first last).expr (withSelf env s.1)).build s.2
    (s.1, t.2.setRules h.nts.length t.1)

/-- Assign to a variable (httpolice/parse.py 633-658). -/
def assignSym [DecidableEq N] (env : N → Sym) (n : N) (s : Sym) : N → Sym := fun m => if m = n then s else env m

/-- Run definitions one after another (httpolice/parse.py 633-658). -/
def runDefs [DecidableEq N] (env : N → Sym) (h : PyHeap) : List (N × Defn N) → (N → Sym) × PyHeap
  | [] => (env, h)
  | (n, d) :: ds => runDefs (assignSym env n (d.run env h).1) (d.run env h).2 ds

/-- Run a whole module (httpolice/parse.py 633-658). -/
def loadDefs [DecidableEq N] (ds : List (N × Defn N)) : (N → Sym) × PyHeap := runDefs (fun _ => emptySym) Heap.init ds

end Httpolice.Model
