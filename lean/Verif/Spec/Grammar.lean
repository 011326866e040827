import Verif.Model.Earley

/-!
# What a context-free grammar generates, and what its derivations evaluate to

Written over the grammar itself (its nonterminals, their rules, the symbols and actions of rules).
There are no charts, items or positions here.
-/

namespace Httpolice.Spec

open Httpolice.Model

variable {V C : Type}

/-- `GenSeq g l w`: the sequence of symbols `l` derives the octets `w`. -/
inductive GenSeq (g : Grammar V C) : List GSym → Str → Prop
  | nil : GenSeq g [] []
  | term {bits : Nat → Bool} {c : Nat} {l : List GSym} {w : Str} :
      bits c = true → GenSeq g l w → GenSeq g (.term bits :: l) (c :: w)
  | nt {n : Nat} {x : Nonterm} {r : Nat} {ru : GRule V C} {l : List GSym} {u w : Str} :
      g.nts[n]? = some x → r ∈ x.rules → g.rls[r]? = some ru →
      GenSeq g ru.symbols u → GenSeq g l w → GenSeq g (.nt n :: l) (u ++ w)

/-- The language of a symbol. -/
def Gen (g : Grammar V C) (x : GSym) (w : Str) : Prop := GenSeq g [x] w

/-- The rules that nonterminals refer to exist; and the rules of a `RepeatedNonterminal` either have
no left recursion of their own, or are an empty rule and a rule `self x`. This is how
`RepeatedNonterminal.rules` makes them (see `Props/Combinators.lean`). -/
structure Sane (g : Grammar V C) : Prop where
  rules_exist : ∀ (n : Nat) (x : Nonterm) (r : Nat), g.nts[n]? = some x → r ∈ x.rules →
    ∃ ru : GRule V C, g.rls[r]? = some ru
  repeated_shape : ∀ (n : Nat) (x : Nonterm), g.nts[n]? = some x → x.repeated = true →
    (∀ r ∈ x.rules, ∀ ru : GRule V C, g.rls[r]? = some ru → ru.symbols.head? ≠ some (.nt n)) ∨
    (∃ y : GSym, (∃ r ∈ x.rules, ∃ ru : GRule V C, g.rls[r]? = some ru ∧ ru.symbols = []) ∧
      ∀ r ∈ x.rules, ∀ ru : GRule V C, g.rls[r]? = some ru → ru.symbols = [] ∨ ru.symbols = [.nt n, y])

/-- What is not `_SKIP`. -/
def kept : List (Node V) → List V := List.filterMap fun
  | .skip => none
  | .val v => some v

/-- Several nodes as one: what is left after dropping `_SKIP`s, as a tuple unless it is one node. -/
inductive Collapses (ops : ParseOps V) : List (Node V) → Node V → Prop
  | nothing {ns : List (Node V)} : kept ns = [] → Collapses ops ns .skip
  | single {ns : List (Node V)} {v : V} : kept ns = [v] → Collapses ops ns (.val v)
  | several {ns : List (Node V)} {v v' : V} {vs : List V} : kept ns = v :: v' :: vs →
      Collapses ops ns (.val (ops.tuple (v :: v' :: vs)))

/-- The action of a rule turns these nodes into those and complains so. -/
inductive Acts : Option (Action V C) → List (Node V) → List (Node V) → List C → Prop
  | none {ns : List (Node V)} : Acts none ns ns []
  | some {f : Action V C} {ns : List (Node V)} : Acts (some f) ns (f ns).1 (f ns).2

/-- The annotations made for a node over octets `[i, j)` itself. -/
inductive Annotates (ops : ParseOps V) (i j : Nat) : Node V → List (Annot V) → Prop
  | skip : Annotates ops i j .skip []
  | no {v : V} : ops.annotated v = false → Annotates ops i j (.val v) []
  | yes {v : V} : ops.annotated v = true → Annotates ops i j (.val v) [⟨i, j, v⟩]

/-- `EvalSeq g ops i l w ns cs as`: there is a derivation of the octets `w` (the first of them
at offset `i`) from the sequence of symbols `l` such that, evaluated bottom-up from left to right,
it produces the nodes `ns`, the complaints `cs` in this order, and the annotations `as` in this order.
A repetition evaluates to the list of the values of the repeated symbol. -/
inductive EvalSeq (g : Grammar V C) (ops : ParseOps V) :
    Nat → List GSym → Str → List (Node V) → List C → List (Annot V) → Prop
  | nil {i : Nat} : EvalSeq g ops i [] [] [] [] []
  | term {i : Nat} {bits : Nat → Bool} {c : Nat} {l : List GSym} {w : Str} {ns : List (Node V)}
      {cs : List C} {as : List (Annot V)} :
      bits c = true → EvalSeq g ops (i + 1) l w ns cs as →
      EvalSeq g ops i (.term bits :: l) (c :: w) (.val (ops.char c) :: ns) cs as
  | rule {i n : Nat} {x : Nonterm} {r : Nat} {ru : GRule V C} {l : List GSym} {u w : Str}
      {ns ns' ms : List (Node V)} {node : Node V} {cs cs' ds : List C} {as as' bs : List (Annot V)} :
      g.nts[n]? = some x → r ∈ x.rules → g.rls[r]? = some ru →
      ¬ (x.repeated = true ∧ ru.symbols.head? = some (.nt n)) →
      EvalSeq g ops i ru.symbols u ns cs as →
      Acts ru.action ns ms ds → Collapses ops ms node → Annotates ops i (i + u.length) node bs →
      EvalSeq g ops (i + u.length) l w ns' cs' as' →
      EvalSeq g ops i (.nt n :: l) (u ++ w) (node :: ns') (cs ++ ds ++ cs') (as ++ bs ++ as')
  | repetition {i n m : Nat} {x : Nonterm} {r : Nat} {ru : GRule V C} {y : GSym} {l : List GSym}
      {u w : Str} {ns ns' : List (Node V)} {cs cs' : List C} {as as' : List (Annot V)} :
      g.nts[n]? = some x → r ∈ x.rules → g.rls[r]? = some ru →
      x.repeated = true → ru.symbols = [.nt n, y] →
      EvalSeq g ops i (List.replicate (m + 1) y) u ns cs as →
      EvalSeq g ops (i + u.length) l w ns' cs' as' →
      EvalSeq g ops i (.nt n :: l) (u ++ w) (.val (ops.list ns) :: ns') (cs ++ cs') (as ++ as')

/-- The data could be continued to something in the language. -/
def Viable (g : Grammar V C) (x : GSym) (w : Str) : Prop := ∃ v, Gen g x (w ++ v)

/-- Every symbol that occurs in a rule derives something. -/
def Productive (g : Grammar V C) : Prop :=
  ∀ (r : Nat) (ru : GRule V C), g.rls[r]? = some ru → ∀ y ∈ ru.symbols, ∃ w, Gen g y w

/-- `Within g m n`: the nonterminal `m` occurs in a derivation from `n`, below the root. -/
inductive Within (g : Grammar V C) : Nat → Nat → Prop
  | here {m n : Nat} {x : Nonterm} {r : Nat} {ru : GRule V C} :
      g.nts[n]? = some x → r ∈ x.rules → g.rls[r]? = some ru → .nt m ∈ ru.symbols → Within g m n
  | deeper {k m n : Nat} : Within g k m → Within g m n → Within g k n

end Httpolice.Spec
