import Verif.Lemmas.Dens
import Verif.Props.Combinators

/-!
# C57: what the grammar combinators evaluate to

`Expr.den` (`Spec/Values.lean`) says which arguments and complaints an expression over the combinators
stands for, by recursion on the expression. Here: whatever it is built from, in whatever objects, and
whatever is built afterwards, this is what the derivations from the resulting symbol evaluate to, and what the
parser returns. So the ways in which the implementation cuts corners (inlining unnamed symbols into the rules of
others, merging terminals, composing actions, left recursion evaluated as a loop) do not show in the values.
Complaints are compared up to their order.
-/

namespace Httpolice.Props

open Httpolice.Model Httpolice.Spec Httpolice.Lemmas

section
variable {b : Bool} {h h' : PyHeap}

theorem expr_of (hb : Builds b Heap.init h) {e : Expr} (hu : e.Uses h) (ann : GVal → Bool) :
    Built b ann h (e.build h) (fun h' => e.denIn h' (pyOps ann))
      (fun h' => e.part (symbolD h' (pyOps ann)) (e.denIn h' (pyOps ann))) :=
  expr_built (builds_good hb init_good).1 (builds_full hb init_good init_full) (given_of_uses hu)

/-- **C57**: the values of an expression. -/
theorem C57_values (hb : Builds b Heap.init h) {e : Expr} (hu : e.Uses h)
    (later : Builds b (e.build h).2 h') (ann : GVal → Bool) (w : Str) (node : Node GVal) (cs : List PyComplaint) :
    (∃ c, Value h' (pyOps ann) (e.build h).1 w node c ∧ cs.Perm c) ↔
      ∃ vs c, e.denIn h' (pyOps ann) w vs c ∧ node = nodeOf vs ∧ cs.Perm c := by
  have m := expr_of hb hu ann
  have hb1 := builds_trans hb m.builds
  have g1 := (builds_good hb1 init_good).1
  obtain ⟨g, e⟩ := builds_good later g1
  exact m.value (builds_full hb1 init_good init_full) e g.wf

/-- **C57**: an expression accepts the text for which it has some value. -/
theorem C57_accepts (hb : Builds b Heap.init h) {e : Expr} (hu : e.Uses h)
    (later : Builds b (e.build h).2 h') (ann : GVal → Bool) (w : Str) :
    Accepts h' (e.build h).1 w ↔ ∃ vs cs, e.denIn h' (pyOps ann) w vs cs := by
  have hb' := builds_trans hb (builds_trans (expr_of hb hu ann).builds later)
  rw [accepts_value (builds_good hb' init_good).1.wf (pyOps ann)]
  constructor
  · rintro ⟨node, cs, hv⟩
    obtain ⟨vs, c, h1, _, _⟩ := (C57_values hb hu later ann w node cs).mp ⟨cs, hv, .refl _⟩
    exact ⟨vs, c, h1⟩
  · rintro ⟨vs, cs, hv⟩
    obtain ⟨c, h1, _⟩ := (C57_values hb hu later ann w (nodeOf vs) cs).mpr ⟨vs, cs, hv, rfl, .refl _⟩
    exact ⟨_, _, h1⟩

/-- **C57**: the parser succeeds where the expression has a value, and returns such a value. -/
theorem C57_parses (hb : Builds true Heap.init h) {e : Expr} (hu : e.Uses h)
    (later : Builds true (e.build h).2 h') {n : Nat} (hn : (e.build h).1 = .nt n) (hd : Defined h' n)
    (ann : GVal → Bool) (data : Str) :
    ((∃ res, innerParse h'.grammar (pyOps ann) data n = .ok res) ↔
      ∃ vs cs, e.denIn h' (pyOps ann) data vs cs) ∧
    ∀ node complaints annots, innerParse h'.grammar (pyOps ann) data n = .ok (node, complaints, annots) →
      ∃ vs cs, e.denIn h' (pyOps ann) data vs cs ∧ node = nodeOf vs ∧ complaints.Perm cs := by
  have hb' := builds_trans hb (builds_trans (expr_of hb hu ann).builds later)
  refine ⟨?_, fun node complaints annots hr => ?_⟩
  · rw [(C09_parses hb' hd (pyOps ann) data).1, ← hn]
    exact C57_accepts hb hu later ann data
  · have := C02_value (C09_built hb').1 (pyOps ann) data n node complaints annots hr
    refine (C57_values hb hu later ann data node complaints).mp ⟨complaints, ⟨annots, ?_⟩, .refl _⟩
    rw [hn]
    exact this

/-- **C57**: naming a symbol does not change its values. -/
theorem C57_named (hb : Builds b Heap.init h) {s : Sym} (hs : Usable h s) (pivot : Bool)
    (later : Builds b (h.seal s pivot).2 h') (ops : ParseOps GVal) (w : Str) (node : Node GVal)
    (cs : List PyComplaint) :
    Value h' ops (h.seal s pivot).1 w node cs ↔ Value h' ops s w node cs := by
  have hg := (builds_good hb init_good).1
  obtain ⟨g, e⟩ := builds_good later (builds_good (.seal (a := s) (pivot := pivot) .refl) hg).1
  rw [value_iff, value_iff]
  exact seal_whole hg hs pivot e g.wf

/-- **C57**: and a symbol that has been named may be used in expressions. -/
theorem C57_named_uses (hb : Builds b Heap.init h) {s : Sym} (hs : Usable h s) (pivot : Bool) :
    (Expr.sym (h.seal s pivot).1).Uses (h.seal s pivot).2 := by
  have := seal_plain (builds_full hb init_good init_full) hs pivot
  match hr : (h.seal s pivot).1 with
  | .term _ _ => trivial
  | .nt n =>
    rw [hr] at this
    exact this

/-- **C57**: after `n.rec = m`, the symbol `n` has the values of `m`. -/
theorem C57_recursive (hb : Builds b Heap.init h) {n m : Nat} (hn : Undefined h n) (hm : Defined h m)
    (hrep : ∀ y, h.nts[m]? = some y → y.repeated = false) (hgd : b = true → StartsWithTerminals h m)
    (later : Builds b (h.setRules n (.nt m)) h') (ops : ParseOps GVal) (w : Str) (node : Node GVal)
    (cs : List PyComplaint) : Value h' ops (.nt n) w node cs ↔ Value h' ops (.nt m) w node cs := by
  have hg := (builds_good hb init_good).1
  obtain ⟨g, e⟩ := builds_good later (builds_good (.define .refl hn hm hgd) hg).1
  obtain ⟨y, hy, hyh⟩ := hm
  rw [value_iff, value_iff]
  exact define_whole hg hn hy hyh (hrep y hy) hgd e g.wf

/-- **C57**: `times(min, max, e)` evaluates to the list of the values of its parts, in order, provided that
`e` always gives one value. In particular, so do `many` and `many1`. -/
theorem C57_times (hb : Builds b Heap.init h) {e : Expr} (hu : e.Uses h) (min : Nat) (max : Option Nat)
    (hm : ∀ k, max = some k → min ≤ k ∧ 1 ≤ k) (later : Builds b ((Expr.times min max e).build h).2 h')
    (ann : GVal → Bool) (hone : ∀ w vs cs, e.denIn h' (pyOps ann) w vs cs → ∃ v, vs = [v])
    (w : Str) (node : Node GVal) (cs : List PyComplaint) :
    (∃ c, Value h' (pyOps ann) ((Expr.times min max e).build h).1 w node c ∧ cs.Perm c) ↔
      ∃ l : List GVal, min ≤ l.length ∧ (∀ k, max = some k → l.length ≤ k) ∧ node = .val (.list l) ∧
        ∃ c, EachD (e.denIn h' (pyOps ann)) w l c ∧ cs.Perm c := by
  have hone : Single (e.denIn h' (pyOps ann)) := hone
  rw [C57_values hb (e := .times min max e) hu later]
  unfold Expr.denIn
  simp only [Expr.den, part_same hone]
  constructor
  · rintro ⟨vs, c, h1, rfl, p⟩
    obtain ⟨l, h2, h3, h4, rfl⟩ := (times_single hone min max hm).mp h1
    exact ⟨l, h2, h3, rfl, c, h4, p⟩
  · rintro ⟨l, h2, h3, rfl, c, h4, p⟩
    exact ⟨[.list l], c, (times_single hone min max hm).mpr ⟨l, h2, h3, h4, rfl⟩, rfl, p⟩

/-- **C57**: `string_times(min, max, e)`, `string(e)` and `string1(e)` evaluate to the very text, without
complaints, provided that `e` does. -/
theorem C57_string (hb : Builds b Heap.init h) {e : Expr} (hu : e.Uses h) (min : Nat) (max : Option Nat)
    (hm : ∀ k, max = some k → min ≤ k ∧ 1 ≤ k) (later : Builds b ((e.stringTimes min max).build h).2 h')
    (ann : GVal → Bool)
    (hecho : ∀ w vs cs, e.denIn h' (pyOps ann) w vs cs → vs = [.text w] ∧ cs = [])
    (w : Str) (node : Node GVal) (cs : List PyComplaint) :
    Value h' (pyOps ann) ((e.stringTimes min max).build h).1 w node cs ↔
      (∃ j, min ≤ j ∧ (∀ k, max = some k → j ≤ k) ∧ Rep (fun u => ∃ vs c, e.denIn h' (pyOps ann) u vs c) j w) ∧
      node = .val (.text w) ∧ cs = [] := by
  have hecho : Echo (e.denIn h' (pyOps ann)) := hecho
  have hden : ∀ vs c, (e.stringTimes min max).denIn h' (pyOps ann) w vs c ↔
      (∃ j, min ≤ j ∧ (∀ k, max = some k → j ≤ k) ∧ Rep (langD (e.denIn h' (pyOps ann))) j w) ∧
        vs = [.text w] ∧ c = [] := by
    intro vs c
    rw [← stringTimes_echo hecho min max hm]
    unfold Expr.denIn
    simp only [Expr.den, part_same hecho.single]
  have hval := C57_values hb (e := e.stringTimes min max) hu later ann w node
  constructor
  · intro hv
    obtain ⟨vs, c, h1, rfl, p⟩ := (hval cs).mp ⟨cs, hv, .refl _⟩
    obtain ⟨h2, rfl, rfl⟩ := (hden vs c).mp h1
    exact ⟨h2, rfl, List.Perm.eq_nil p⟩
  · rintro ⟨h2, rfl, rfl⟩
    obtain ⟨c, h3, p⟩ := (hval []).mpr ⟨_, _, (hden _ _).mpr ⟨h2, rfl, rfl⟩, rfl, .refl _⟩
    rw [List.Perm.eq_nil p.symm] at h3
    exact h3

/-- **C57**: terminals and literals evaluate to the text itself. -/
theorem C57_echoes (h : PyHeap) (ann : GVal → Bool) (bits : Nat → Bool) (nm : Bool) (s : Str) (caseSens : Bool)
    (w : Str) (vs : List GVal) (cs : List PyComplaint) :
    ((Expr.sym (.term bits nm)).denIn h (pyOps ann) w vs cs ↔
      (∃ c, bits c = true ∧ w = [c]) ∧ vs = [.text w] ∧ cs = []) ∧
    ((Expr.lit s caseSens).denIn h (pyOps ann) w vs cs ↔
      (if caseSens then w = s else SameWord w s) ∧ vs = [.text w] ∧ cs = []) := by
  refine ⟨?_, Iff.rfl⟩
  show symbolD h (pyOps ann) (.term bits nm) w vs cs ↔ _
  unfold symbolD
  constructor
  · rintro ⟨node, c, hv, rfl, p⟩
    have := value_iff.mp hv
    cases this with
    | term h1 h2 =>
      cases h2
      rw [List.Perm.eq_nil p]
      exact ⟨⟨_, h1, rfl⟩, rfl, rfl⟩
  · rintro ⟨⟨c, hc, rfl⟩, rfl, rfl⟩
    exact ⟨.val (.text [c]), [], value_iff.mpr (.term hc .nil), rfl, .refl _⟩

end

/-! ## Concrete cases -/

mutual
/-- Values as text, to compare them. -/
def render : GVal → Str
  | .none => [0]
  | .skip => [1]
  | .text s => 2 :: s ++ [3]
  | .int n => [4, n.natAbs]
  | .tuple l => 5 :: renderAll l ++ [6]
  | .list l => 7 :: renderAll l ++ [8]
  | .obj c l => 9 :: c ++ 10 :: renderAll l ++ [11]
def renderAll : List GVal → Str
  | [] => []
  | v :: l => render v ++ renderAll l
end

/-- What the parser returned: the value and the notices. -/
def shown : Except PErr (Node GVal × List PyComplaint × List (Annot GVal)) → Option (Option Str × List Nat)
  | .ok (.val v, cs, _) => some (some (render v), cs.map (·.1))
  | .ok (.skip, cs, _) => some (none, cs.map (·.1))
  | .error _ => none

/-- A function that complains when its first argument is empty. -/
def checkName : Func GVal PyComplaint
  | .text [] :: l => (.val (.tuple (.none :: l)), [(1017, [])])
  | l => (.val (.tuple l), [])

/-- `many(check_name << string(lower) * skip('=') * maybe(string1(digit), 7) * skip(';'))` -/
def pairs : Expr :=
  .many (.app checkName false (.seq (.seq (.seq (.string (.sym (octetRange 97 122))) (.skip (.lit (str "=") false)))
    (.maybe (.string1 (.sym (octetRange 48 57))) (.int 7))) (.skip (.lit (str ";") false))))

/-- The conditions of `C57_values`, `C57_accepts` and `C57_parses` are met, here with nothing built before or
after, and this is what the parser returns. -/
example : pairs.Uses Heap.init ∧ (pairs.build Heap.init).1 = .nt 23 ∧ Defined (pairs.build Heap.init).2 23 ∧
    shown (innerParse (pairs.build Heap.init).2.grammar (pyOps fun _ => false) (str "ab=10;=;c=;") 23) =
      some (some (render (.list [.tuple [.text (str "ab"), .text (str "10")], .tuple [.none, .int 7],
        .tuple [.text (str "c"), .int 7]])), [1017]) ∧
    shown (innerParse (pairs.build Heap.init).2.grammar (pyOps fun _ => false) (str "ab=10;c") 23) = none :=
  ⟨⟨⟨⟨trivial, trivial⟩, trivial, trivial⟩, trivial⟩, rfl, ⟨_, rfl, rfl⟩, by decide +kernel, by decide +kernel⟩

/-- `C57_named`, `C57_named_uses`: a symbol that may be named, here again. -/
example : Builds true Heap.init nest ∧ Usable nest (.nt 1) ∧ Usable nest (octet 97) :=
  ⟨nest_builds, ⟨_, rfl, nofun⟩, trivial⟩

/-- `C57_recursive`: the example of `C09_recursive` is not a `RepeatedNonterminal`. -/
example : Undefined nest6.2 1 ∧ Defined nest6.2 9 ∧ ∀ y, nest6.2.nts[9]? = some y → y.repeated = false :=
  ⟨⟨_, rfl, rfl, rfl⟩, ⟨_, rfl, rfl⟩, fun y hy => by cases hy; rfl⟩

/-- `C57_times`, `C57_string`: `string_times(1, 3, digit | 'x')`; the alternatives echo, hence give one value. -/
def few : Expr := .alt (.sym (octetRange 48 57)) (.lit (str "x") false)

example : (∀ k, some 3 = some k → 1 ≤ k ∧ 1 ≤ k) ∧ few.Uses Heap.init ∧
    ∀ (h : PyHeap) (w : Str) (vs : List GVal) (cs : List PyComplaint),
      few.denIn h (pyOps fun _ => false) w vs cs → vs = [.text w] ∧ cs = [] := by
  refine ⟨by intro k hk; cases hk; decide, ⟨trivial, trivial⟩, ?_⟩
  rintro h w vs cs (h1 | h1)
  · exact ((C57_echoes h _ _ false (str "x") false w vs cs).1.mp h1).2
  · exact ((C57_echoes h (fun _ => false) (fun _ => true) false (str "x") false w vs cs).2.mp h1).2

example : (Expr.stringTimes 1 (some 3) few |>.build Heap.init).1 = .nt 14 ∧
    shown (innerParse ((few.stringTimes 1 (some 3)).build Heap.init).2.grammar (pyOps fun _ => false)
      (str "0X2") 14) = some (some (render (.text (str "0X2"))), []) ∧
    shown (innerParse ((few.stringTimes 1 (some 3)).build Heap.init).2.grammar (pyOps fun _ => false)
      (str "0X2x") 14) = none := ⟨rfl, by decide +kernel, by decide +kernel⟩

end Httpolice.Props
