import Verif.Lemmas.CommaList
import Verif.Props.Values

/-!
# C10: comma-separated lists

In all of these, `OWS` has been defined by its expression in some objects `h0`, then anything was built until `h`,
where `element` is any usable symbol, then `comma_list(element)` was called, and then anything was built until `h'`,
which is the finished grammar.
-/

namespace Httpolice.Props

open Httpolice.Model Httpolice.Spec Httpolice.Lemmas

section
attribute [local irreducible] Expr.define
variable {b : Bool} {h0 h h' : PyHeap}

theorem elements_den {ann : GVal → Bool} {s : Sym} (hskip : ∀ w cs, ¬ Value h' (pyOps ann) s w .skip cs) :
    symbolD h' (pyOps ann) s = elemsD (elementsOf h' (pyOps ann) s) := by
  funext w vs cs
  refine propext ⟨?_, ?_⟩
  · rintro ⟨node, c, h1, rfl, p⟩
    cases node with
    | skip => exact absurd h1 (hskip _ _)
    | val x => exact ⟨x, rfl, c, h1, p⟩
  · rintro ⟨x, rfl, c, h1, p⟩
    exact ⟨.val x, c, h1, rfl, p⟩

theorem value_of_symbol {ann : GVal → Bool} {s : Sym} {w : Str} {node : Node GVal} {cs : List PyComplaint} :
    (∃ c, Value h' (pyOps ann) s w node c ∧ cs.Perm c) ↔ symbolD h' (pyOps ann) s w (argsOf node) cs := by
  constructor
  · rintro ⟨c, h1, p⟩
    exact ⟨node, c, h1, rfl, p⟩
  · rintro ⟨node', c, h1, h2, p⟩
    have := congrArg nodeOf h2
    rw [node_args, node_args] at this
    subst this
    exact ⟨c, h1, p⟩

theorem lists_of {A : Den} {S : Str → List GVal → List PyComplaint → Prop}
    (hA : ∀ w vs cs, A w vs cs ↔ ∃ l r c d, S w l c ∧ Collected l r d ∧ vs = [.list r] ∧ cs = c ++ d) {w : Str}
    {node : Node GVal} {cs : List PyComplaint} : permD (oneD A) w (argsOf node) cs ↔
      ∃ xs r c d, S w xs c ∧ Collected xs r d ∧ node = .val (.list r) ∧ cs.Perm (c ++ d) := by
  rw [single_oneD]
  · unfold permD
    simp only [hA]
    constructor
    · rintro ⟨_, ⟨l, r, c, d, h1, h2, h3, rfl⟩, p⟩
      have := congrArg nodeOf h3
      rw [node_args] at this
      exact ⟨l, r, c, d, h1, h2, this, p⟩
    · rintro ⟨l, r, c, d, h1, h2, rfl, p⟩
      exact ⟨_, ⟨l, r, c, d, h1, h2, rfl, rfl⟩, p⟩
  · intro w vs cs hv
    obtain ⟨l, r, c, d, _, _, rfl, _⟩ := (hA ..).mp hv
    exact ⟨_, rfl⟩

/-- **C10**: `comma_list(element)` evaluates to the list of the values of the elements, in order, where
the text consists of possibly missing elements separated by commas and whitespace; and it complains if some element
is missing, unless there is no comma. -/
theorem C10_comma_list (h1 : Builds b Heap.init h0) (p : Bool) (h2 : Builds b (owsE.define h0 p).2 h) {element : Sym}
    (he : Usable h element) (q : Bool)
    (later : Builds b ((commaListE (owsE.define h0 p).1 element).define h q).2 h') (ann : GVal → Bool)
    (hskip : ∀ w cs, ¬ Value h' (pyOps ann) element w .skip cs) (w : Str) (node : Node GVal) (cs : List PyComplaint) :
    (∃ c, Value h' (pyOps ann) ((commaListE (owsE.define h0 p).1 element).define h q).1 w node c ∧ cs.Perm c) ↔
      ∃ xs r c d, Slots (elementsOf h' (pyOps ann) element) w xs c ∧ Collected xs r d ∧
        node = .val (.list r) ∧ cs.Perm (c ++ d) := by
  have b0 := builds_trans h1 (define_builds h1 ows_usable p)
  have iows := (is_ows (ann := ann) h1 p).later b0 h2
  have hb := builds_trans b0 h2
  have hu := comma_usable iows.usable he
  have l := builds_trans (define_builds hb hu q) later
  obtain ⟨g, e⟩ := builds_good l (builds_good hb init_good).1
  have hone := (one_spread (ann := ann) (builds_full hb init_good init_full) e g.wf he).trans (elements_den hskip)
  rw [value_of_symbol, define_symbol hb hu q later]
  exact lists_of (S := Slots _) (w := w) fun w vs cs => comma_list_den (l := l) iows hone

/-- **C10**: the same for `comma_list1(element)`, where one element at least is there. -/
theorem C10_comma_list1 (h1 : Builds b Heap.init h0) (p : Bool) (h2 : Builds b (owsE.define h0 p).2 h) {element : Sym}
    (he : Usable h element) (q : Bool)
    (later : Builds b ((commaList1E (owsE.define h0 p).1 element).define h q).2 h') (ann : GVal → Bool)
    (hskip : ∀ w cs, ¬ Value h' (pyOps ann) element w .skip cs) (w : Str) (node : Node GVal) (cs : List PyComplaint) :
    (∃ c, Value h' (pyOps ann) ((commaList1E (owsE.define h0 p).1 element).define h q).1 w node c ∧ cs.Perm c) ↔
      ∃ xs r c d, NonemptyList (elementsOf h' (pyOps ann) element) w xs c ∧ Collected xs r d ∧
        node = .val (.list r) ∧ cs.Perm (c ++ d) := by
  have b0 := builds_trans h1 (define_builds h1 ows_usable p)
  have iows := (is_ows (ann := ann) h1 p).later b0 h2
  have hb := builds_trans b0 h2
  have hu := comma1_usable iows.usable he
  have l := builds_trans (define_builds hb hu q) later
  obtain ⟨g, e⟩ := builds_good l (builds_good hb init_good).1
  have hf := builds_full hb init_good init_full
  have hone := (one_spread (ann := ann) hf e g.wf he).trans (elements_den hskip)
  have hone' := (one_once (ann := ann) hf e g.wf he).trans (elements_den hskip)
  rw [value_of_symbol, define_symbol hb hu q later]
  exact lists_of (S := NonemptyList _) (w := w) fun w vs cs => comma_list1_den (l := l) iows hone hone'

/-- **C10**: the texts of `comma_list` compared with RFC 7230 (erratum 5257): every text by the rule of the RFC that
does not begin with whitespace is accepted, and every text that is accepted is one by the rule, followed by
optional whitespace. -/
theorem C10_rfc (E : Elements) (w : Str) :
    (RfcList E w → (∀ c u, w = c :: u → ¬ (c = 32 ∨ c = 9)) → ∃ xs cs, Slots E w xs cs) ∧
    ((∃ xs cs, Slots E w xs cs) → ∃ u t, w = u ++ t ∧ RfcList E u ∧ IsOws t) := by
  refine ⟨rfc_slots, ?_⟩
  rintro ⟨xs, cs, hs⟩
  obtain ⟨u, v, t, rfl, h1, h2, h3⟩ := slots_rfc hs
  exact ⟨u ++ v, t, rfl, ⟨u, v, rfl, h1, h2⟩, h3⟩

/-- What `Slots` and `NonemptyList` are the values of, `comma_list` and `comma_list1` accept. -/
theorem collected_exists (xs : List GVal) : ∃ r d, Collected xs r d := by
  obtain ⟨r, d, h⟩ : ∃ r d, collectF [.list xs] = (.val (.list r), d) := ⟨_, _, rfl⟩
  exact ⟨r, d, collect_iff.mp h⟩

/-- **C10**: so `parse` succeeds on these texts, fails on others, and returns such values and complaints. -/
theorem C10_parses (h1 : Builds true Heap.init h0) (p : Bool) (h2 : Builds true (owsE.define h0 p).2 h) {element : Sym}
    (he : Usable h element) (q : Bool)
    (later : Builds true ((commaListE (owsE.define h0 p).1 element).define h q).2 h') (ann : GVal → Bool)
    (hskip : ∀ w cs, ¬ Value h' (pyOps ann) element w .skip cs) {n : Nat}
    (hn : ((commaListE (owsE.define h0 p).1 element).define h q).1 = .nt n) (hd : Defined h' n) (data : Str) :
    ((∃ res, innerParse h'.grammar (pyOps ann) data n = .ok res) ↔
      ∃ xs c, Slots (elementsOf h' (pyOps ann) element) data xs c) ∧
    ∀ node complaints annots, innerParse h'.grammar (pyOps ann) data n = .ok (node, complaints, annots) →
      ∃ xs r c d, Slots (elementsOf h' (pyOps ann) element) data xs c ∧ Collected xs r d ∧
        node = .val (.list r) ∧ complaints.Perm (c ++ d) := by
  have b0 := builds_trans h1 (define_builds h1 ows_usable p)
  have iows := (is_ows (ann := ann) h1 p).later b0 h2
  have hb := builds_trans b0 h2
  have hu := comma_usable iows.usable he
  have hb' := builds_trans hb (builds_trans (define_builds hb hu q) later)
  have key := C10_comma_list h1 p h2 he q later ann hskip data
  rw [hn] at key
  refine ⟨?_, fun node complaints annots hr => ?_⟩
  · rw [(C09_parses hb' hd (pyOps ann) data).1, accepts_value (builds_good hb' init_good).1.wf (pyOps ann)]
    constructor
    · rintro ⟨node, cs, hv⟩
      obtain ⟨xs, r, c, d, k1, _⟩ := (key node cs).mp ⟨cs, hv, .refl _⟩
      exact ⟨xs, c, k1⟩
    · rintro ⟨xs, c, k1⟩
      obtain ⟨r, d, k2⟩ := collected_exists xs
      obtain ⟨c, hv, _⟩ := (key _ _).mpr ⟨xs, r, c, d, k1, k2, rfl, .refl _⟩
      exact ⟨_, c, hv⟩
  · exact (key node complaints).mp
      ⟨complaints, ⟨annots, C02_value (C09_built hb').1 (pyOps ann) data n node complaints annots hr⟩, .refl _⟩

end

/-! ## Concrete cases -/

/-- `OWS`, then `comma_list(string1(lower) * skip('=') * digit)`: the element is an inlined symbol, of two values. -/
def listOws : Sym × PyHeap := owsE.define Heap.init
def listElemE : Expr :=
  .seq (.string1 (.sym (octetRange 97 122))) (.seq (.skip (.lit (str "=") false)) (.sym (octetRange 48 57)))
def listElem : Sym × PyHeap := listElemE.build listOws.2
def list0 : Sym × PyHeap := (commaListE listOws.1 listElem.1).define listElem.2
def list1 : Sym × PyHeap := (commaList1E listOws.1 listElem.1).define listElem.2

example : shown (innerParse list0.2.grammar (pyOps fun _ => false) (str ", a=1 ,,bc=2") 38) =
      some (some (render (.list [.tuple [.text (str "a"), .text (str "1")], .tuple [.text (str "bc"), .text (str "2")]])),
        [1151]) ∧
    shown (innerParse list0.2.grammar (pyOps fun _ => false) (str "a=1") 38) =
      some (some (render (.list [.tuple [.text (str "a"), .text (str "1")]])), []) ∧
    shown (innerParse list0.2.grammar (pyOps fun _ => false) [] 38) = some (some (render (.list [])), []) ∧
    shown (innerParse list0.2.grammar (pyOps fun _ => false) (str "a=1 b=2") 38) = none := by decide +kernel

example : shown (innerParse list1.2.grammar (pyOps fun _ => false) (str ", a=1 ,,bc=2") 43) =
      some (some (render (.list [.tuple [.text (str "a"), .text (str "1")], .tuple [.text (str "bc"), .text (str "2")]])),
        [1151]) ∧
    shown (innerParse list1.2.grammar (pyOps fun _ => false) (str ",,") 43) = none := by decide +kernel

set_option maxRecDepth 10000 in
/-- These meet the conditions of the theorems: whatever is built later, the element is never skipped. -/
example : Builds true Heap.init Heap.init ∧ Builds true listOws.2 listElem.2 ∧ Usable listElem.2 listElem.1 ∧
    list0.1 = .nt 38 ∧ Defined list0.2 38 ∧
    ∀ h', Builds true listElem.2 h' → ∀ w cs, ¬ Value h' (pyOps fun _ => false) listElem.1 w .skip cs := by
  have hb : Builds true Heap.init listOws.2 := define_builds .refl ows_usable false
  have hu : listElemE.Uses listOws.2 := ⟨trivial, trivial, trivial⟩
  have m := expr_of hb hu fun _ => false
  refine ⟨.refl, m.builds, m.usable, rfl, ⟨_, rfl, rfl⟩, fun h' later w cs hv => ?_⟩
  obtain ⟨vs, c, h1, h2, _⟩ := (C57_values hb hu later _ w _ _).mp ⟨cs, hv, .refl _⟩
  obtain ⟨u, v, xs, ys, c1, c2, _, rfl, _, ⟨xs', c3, _, rfl, _⟩, u', v', _, zs, _, _, _, rfl, _, _, hz⟩ := h1
  obtain ⟨_, rfl, _⟩ := (C57_echoes h' (fun _ => false) _ false [] false v' zs _).1.mp hz
  simp only [joinF, pureFunc, argsOf] at h2
  have hne : ∀ l : List GVal, nodeOf l = .skip → l = [] := by
    intro l hl
    match l with
    | [] => rfl
    | [_] => cases hl
    | _ :: _ :: _ => cases hl
  have := hne _ h2.symm
  simp at this

end Httpolice.Props
