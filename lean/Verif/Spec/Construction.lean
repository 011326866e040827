import Verif.Model.Combinators
import Verif.Spec.Grammar

/-!
# How grammars come about, and some operations on languages

`Builds guarded h h'`: from the objects `h`, using the combinators in any way, one may get to the
objects `h'`. This is the "later" in statements about what a symbol will stand for when it is used
for parsing. The `guarded` kind of construction is the one where recursive symbols are only ever defined
by rules that start with a terminal.
-/

namespace Httpolice.Spec

open Httpolice.Model

/-- The symbol exists, and it is not an unnamed `recursive()` whose `.rec` has not been set yet.
(Such a symbol would be inlined while it has no rules.) -/
def Usable {V C : Type} (h : Heap V C) : Sym → Prop
  | .term _ _ => True
  | .nt n => ∃ x : NtObj, h.nts[n]? = some x ∧ (x.hole = true → x.ephemeral = false)

/-- A nonterminal that has been defined. -/
def Defined {V C : Type} (h : Heap V C) (m : Nat) : Prop :=
  ∃ x : NtObj, h.nts[m]? = some x ∧ x.hole = false

/-- A nonterminal made by `recursive()` that has not been defined. -/
def Undefined {V C : Type} (h : Heap V C) (n : Nat) : Prop :=
  ∃ x : NtObj, h.nts[n]? = some x ∧ x.hole = true ∧ x.repeated = false

/-- Every rule of the nonterminal starts with a terminal. -/
def StartsWithTerminals {V C : Type} (h : Heap V C) (m : Nat) : Prop :=
  ∀ x : NtObj, h.nts[m]? = some x → ∀ r ∈ x.rules, ∀ ru : GRule V C, h.rls[r]? = some ru →
    ∃ bits l, ru.symbols = .term bits :: l

/-- Some sequence of uses of the combinators. -/
inductive Builds (guarded : Bool) : PyHeap → PyHeap → Prop
  | refl {h : PyHeap} : Builds guarded h h
  | or {h h' : PyHeap} {a b : Sym} : Builds guarded h h' → Usable h' a → Usable h' b →
      Builds guarded h (h'.or a b).2
  | mul {h h' : PyHeap} {a b : Sym} : Builds guarded h h' → Usable h' a → Usable h' b →
      Builds guarded h (h'.mul a b).2
  | wrap {h h' : PyHeap} {f : Func GVal PyComplaint} {a : Sym} {isClass : Bool} :
      Builds guarded h h' → Usable h' a → Builds guarded h (h'.wrap f a isClass).2
  | seal {h h' : PyHeap} {a : Sym} {pivot : Bool} : Builds guarded h h' →
      Builds guarded h (h'.seal a pivot).2
  | group {h h' : PyHeap} {a : Sym} : Builds guarded h h' → Usable h' a →
      Builds guarded h (h'.group a).2
  | repeatAll {h h' : PyHeap} {a : Sym} : Builds guarded h h' → Usable h' a →
      Builds guarded h (h'.repeatAll a).2
  | repeatUpTo {h h' : PyHeap} {a : Sym} {k : Nat} : Builds guarded h h' → Usable h' a →
      Builds guarded h (h'.repeatUpTo a k).2
  | recursive {h h' : PyHeap} : Builds guarded h h' → Builds guarded h h'.recursive.2
  | define {h h' : PyHeap} {n m : Nat} : Builds guarded h h' → Undefined h' n → Defined h' m →
      (guarded = true → StartsWithTerminals h' m) → Builds guarded h (h'.setRules n (.nt m))

/-- The octet strings that a symbol stands for. -/
def Accepts {V C : Type} (h : Heap V C) (s : Sym) (w : Str) : Prop := Gen h.grammar s.g w

/-- `w` consists of something from `A` and then something from `B`. -/
def Cat (A B : Str → Prop) (w : Str) : Prop := ∃ u v, w = u ++ v ∧ A u ∧ B v

/-- `w` consists of `k` things from `A`, one after another. -/
def Rep (A : Str → Prop) (k : Nat) (w : Str) : Prop :=
  ∃ ws : List Str, ws.length = k ∧ (∀ u ∈ ws, A u) ∧ w = ws.flatten

/-- `w` consists of one octet out of some. -/
def OneOf (bits : Nat → Bool) (w : Str) : Prop := ∃ c, bits c = true ∧ w = [c]

/-- The same ASCII letter in either case, or the same character. -/
def SameLetter (a b : Nat) : Prop :=
  a = b ∨ (65 ≤ a ∧ a ≤ 90 ∧ b = a + 32) ∨ (65 ≤ b ∧ b ≤ 90 ∧ a = b + 32)

/-- The same word but for the case of ASCII letters. -/
inductive SameWord : Str → Str → Prop
  | nil : SameWord [] []
  | cons {a b : Nat} {u v : Str} : SameLetter a b → SameWord u v → SameWord (a :: u) (b :: v)

end Httpolice.Spec
