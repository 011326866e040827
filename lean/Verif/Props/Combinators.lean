import Verif.Lemmas.Excluding
import Verif.Props.Parser

/-!
# C08, C09: what the grammar combinators accept

Everywhere `Builds b Heap.init h` says that the objects `h` came about by some use of the combinators,
in any order and with any arguments, starting from the freshly imported module; and
`Builds b (...).2 h'` that `h'` came about by further such use, after the operation in question. The
arguments are any usable symbols: terminals, inlined (ephemeral) ones, named ones. What is
claimed is that the symbol that was returned accepts, in the finished grammar `h'`, exactly
what one expects from what its arguments accept in `h'` -- even when the arguments themselves are
recursive symbols that are only defined later. `C09_parses` links `Accepts` with the parser.
-/

namespace Httpolice.Props

open Httpolice.Model Httpolice.Spec Httpolice.Lemmas

section
variable {b : Bool} {h h' : PyHeap}

theorem made_lang {out : Sym × PyHeap} {l : PyHeap → Str → Prop} (m : Made b h out l)
    (later : Builds b out.2 h') (w : Str) : Accepts h' out.1 w ↔ l h' w := by
  obtain ⟨g, e⟩ := builds_good later m.good
  exact m.lang h' e g.wf w

/-- `a | c` accepts what `a` or `c` accept. -/
theorem C09_or (hb : Builds b Heap.init h) {a c : Sym} (ha : Usable h a) (hc : Usable h c)
    (later : Builds b (h.or a c).2 h') (w : Str) :
    Accepts h' (h.or a c).1 w ↔ Accepts h' a w ∨ Accepts h' c w :=
  made_lang (or_made (builds_good hb init_good).1 ha hc) later w

/-- `a * c` accepts something that `a` accepts followed by something that `c` accepts. -/
theorem C09_mul (hb : Builds b Heap.init h) {a c : Sym} (ha : Usable h a) (hc : Usable h c)
    (later : Builds b (h.mul a c).2 h') (w : Str) :
    Accepts h' (h.mul a c).1 w ↔ ∃ u v, w = u ++ v ∧ Accepts h' a u ∧ Accepts h' c v :=
  made_lang (mul_made (builds_good hb init_good).1 ha hc) later w

/-- The same for `a + c`. -/
theorem C09_add (hb : Builds b Heap.init h) {a c : Sym} (ha : Usable h a) (hc : Usable h c)
    (later : Builds b (h.add a c).2 h') (w : Str) :
    Accepts h' (h.add a c).1 w ↔ ∃ u v, w = u ++ v ∧ Accepts h' a u ∧ Accepts h' c v :=
  made_lang (add_made (builds_good hb init_good).1 ha hc) later w

/-- The same for `a % c`. -/
theorem C09_mod (hb : Builds b Heap.init h) {a c : Sym} (ha : Usable h a) (hc : Usable h c)
    (later : Builds b (h.mod a c).2 h') (w : Str) :
    Accepts h' (h.mod a c).1 w ↔ ∃ u v, w = u ++ v ∧ Accepts h' a u ∧ Accepts h' c v :=
  made_lang (mod_made (builds_good hb init_good).1 ha hc) later w

/-- `a - c`, for terminals. -/
theorem C09_minus (bits bits' : Nat → Bool) (nm : Bool) (w : Str) :
    Accepts h (.term (termMinus bits bits') nm) w ↔
      Accepts h (.term bits nm) w ∧ ¬ Accepts h (.term bits' nm) w := by
  simp only [accepts_term, OneOf, termMinus]
  constructor
  · rintro ⟨c, hc, rfl⟩
    have : bits c = true ∧ bits' c = false := by
      cases h1 : bits c <;> cases h2 : bits' c <;> simp_all
    refine ⟨⟨c, this.1, rfl⟩, ?_⟩
    rintro ⟨d, hd, he⟩
    cases he
    rw [this.2] at hd
    cases hd
  · rintro ⟨⟨c, hc, rfl⟩, hn⟩
    refine ⟨c, ?_, rfl⟩
    cases h2 : bits' c with
    | true => exact absurd ⟨c, h2, rfl⟩ hn
    | false => simp [hc]

/-- `func << a` accepts what `a` accepts, and so does `skip(a)`. -/
theorem C09_wrap (hb : Builds b Heap.init h) {a : Sym} (ha : Usable h a)
    (f : Func GVal PyComplaint) (isClass : Bool)
    (later : Builds b (h.wrap f a isClass).2 h') (w : Str) :
    Accepts h' (h.wrap f a isClass).1 w ↔ Accepts h' a w :=
  made_lang (wrap_made (builds_good hb init_good).1 ha f isClass) later w

theorem C09_skip (hb : Builds b Heap.init h) {a : Sym} (ha : Usable h a)
    (later : Builds b (h.skip a).2 h') (w : Str) :
    Accepts h' (h.skip a).1 w ↔ Accepts h' a w :=
  made_lang (skip_made (builds_good hb init_good).1 ha) later w

/-- Naming a symbol does not change what it accepts, whether or not it has been named before. -/
theorem C09_named (hb : Builds b Heap.init h) {a : Sym} (ha : Usable h a) (pivot : Bool)
    (later : Builds b (h.seal a pivot).2 h') (w : Str) :
    Accepts h' (h.seal a pivot).1 w ↔ Accepts h' a w := by
  obtain ⟨h1, _, h3⟩ := seal_step (builds_good hb init_good).1 a pivot
  obtain ⟨g, e⟩ := builds_good later h1
  exact h3 ha h' e g.wf w

/-- `group(a)` accepts what `a` accepts. -/
theorem C09_group (hb : Builds b Heap.init h) {a : Sym} (ha : Usable h a)
    (later : Builds b (h.group a).2 h') (w : Str) :
    Accepts h' (h.group a).1 w ↔ Accepts h' a w := by
  obtain ⟨h1, _, _, h3⟩ := group_step (builds_good hb init_good).1 ha
  obtain ⟨g, e⟩ := builds_good later h1
  exact h3 h' e g.wf w

/-- `maybe(a)` accepts what `a` accepts, and nothing. -/
theorem C09_maybe (hb : Builds b Heap.init h) {a : Sym} (ha : Usable h a) (default : GVal)
    (later : Builds b (h.maybe a default).2 h') (w : Str) :
    Accepts h' (h.maybe a default).1 w ↔ Accepts h' a w ∨ w = [] :=
  made_lang (maybe_made (builds_good hb init_good).1 ha default) later w

/-- `literal(s)` accepts `s` and the strings that differ from it in the case of ASCII letters;
`case_sens(s)` just `s`. -/
theorem C09_literal (hb : Builds b Heap.init h) (s : Str)
    (later : Builds b (h.literal s false).2 h') (w : Str) :
    Accepts h' (h.literal s false).1 w ↔ SameWord w s :=
  made_lang (literal_made (builds_good hb init_good).1 s false) later w

theorem C09_case_sens (hb : Builds b Heap.init h) (s : Str)
    (later : Builds b (h.literal s true).2 h') (w : Str) :
    Accepts h' (h.literal s true).1 w ↔ w = s :=
  made_lang (literal_made (builds_good hb init_good).1 s true) later w

/-- `octet_range(lo, hi)`. -/
theorem C09_octet_range (lo hi : Nat) (w : Str) :
    Accepts h (octetRange lo hi) w ↔ ∃ c, w = [c] ∧ lo ≤ c ∧ c ≤ hi := by
  unfold octetRange
  rw [accepts_term]
  simp only [OneOf, decide_eq_true_eq]
  exact ⟨fun ⟨c, h1, h2⟩ => ⟨c, h2, h1⟩, fun ⟨c, h1, h2⟩ => ⟨c, h2, h1⟩⟩

/-- `times(min, max, a)` accepts from `min` to `max` things that `a` accepts, one after another.
(See `C09_times_zero` for `max = 0`.) -/
theorem C09_times (hb : Builds b Heap.init h) {a : Sym} (ha : Usable h a) (min : Nat)
    (max : Option Nat) (hm : ∀ k, max = some k → min ≤ k ∧ 1 ≤ k)
    (later : Builds b (h.times min max a).2 h') (w : Str) :
    Accepts h' (h.times min max a).1 w ↔
      ∃ j, min ≤ j ∧ (∀ k, max = some k → j ≤ k) ∧ Rep (Accepts h' a) j w :=
  made_lang (times_made (builds_good hb init_good).1 ha min max hm) later w

theorem C09_string_times (hb : Builds b Heap.init h) {a : Sym} (ha : Usable h a) (min : Nat)
    (max : Option Nat) (hm : ∀ k, max = some k → min ≤ k ∧ 1 ≤ k)
    (later : Builds b (h.stringTimes min max a).2 h') (w : Str) :
    Accepts h' (h.stringTimes min max a).1 w ↔
      ∃ j, min ≤ j ∧ (∀ k, max = some k → j ≤ k) ∧ Rep (Accepts h' a) j w :=
  made_lang (stringTimes_made (builds_good hb init_good).1 ha min max hm) later w

/-- `times(0, 0, a)` accepts not only the empty string, but also what `a` accepts. -/
theorem C09_times_zero (hb : Builds b Heap.init h) {a : Sym} (ha : Usable h a)
    (later : Builds b (h.times 0 (some 0) a).2 h') (w : Str) :
    Accepts h' (h.times 0 (some 0) a).1 w ↔ w = [] ∨ Accepts h' a w := by
  have m : Made b h (h.times 0 (some 0) a) (fun h' w => ∃ j, j ≤ 0 + 1 ∧ Rep (Accepts h' a) j w) :=
    repeatUpTo_made (builds_good hb init_good).1 ha 0
  rw [made_lang m later]
  constructor
  · rintro ⟨j, hj, h⟩
    match j, hj with
    | 0, _ => exact .inl (rep_zero.mp h)
    | 1, _ => exact .inr (rep_one.mp h)
  · rintro (h | h)
    · exact ⟨0, by omega, rep_zero.mpr h⟩
    · exact ⟨1, by omega, rep_one.mpr h⟩

/-- `many(a)` and `string(a)` accept any number of things that `a` accepts. -/
theorem C09_many (hb : Builds b Heap.init h) {a : Sym} (ha : Usable h a)
    (later : Builds b (h.many a).2 h') (w : Str) :
    Accepts h' (h.many a).1 w ↔ ∃ j, Rep (Accepts h' a) j w :=
  made_lang (many_made (builds_good hb init_good).1 ha) later w

theorem C09_string (hb : Builds b Heap.init h) {a : Sym} (ha : Usable h a)
    (later : Builds b (h.string a).2 h') (w : Str) :
    Accepts h' (h.string a).1 w ↔ ∃ j, Rep (Accepts h' a) j w :=
  made_lang (string_made (builds_good hb init_good).1 ha) later w

/-- `many1(a)` and `string1(a)` accept any number but zero of things that `a` accepts. -/
theorem C09_many1 (hb : Builds b Heap.init h) {a : Sym} (ha : Usable h a)
    (later : Builds b (h.many1 a).2 h') (w : Str) :
    Accepts h' (h.many1 a).1 w ↔ ∃ j, 1 ≤ j ∧ Rep (Accepts h' a) j w :=
  made_lang (many1_made (builds_good hb init_good).1 ha) later w

theorem C09_string1 (hb : Builds b Heap.init h) {a : Sym} (ha : Usable h a)
    (later : Builds b (h.string1 a).2 h') (w : Str) :
    Accepts h' (h.string1 a).1 w ↔ ∃ j, 1 ≤ j ∧ Rep (Accepts h' a) j w :=
  made_lang (string1_made (builds_good hb init_good).1 ha) later w

/-- After `n.rec = m`, the symbols `n` and `m` accept the same. -/
theorem C09_recursive (hb : Builds b Heap.init h) {n m : Nat} (hn : Undefined h n) (hm : Defined h m)
    (hgd : b = true → StartsWithTerminals h m) (later : Builds b (h.setRules n (.nt m)) h') (w : Str) :
    Accepts h' (.nt n) w ↔ Accepts h' (.nt m) w := by
  have hg := (builds_good hb init_good).1
  have h1 := (builds_good (.define .refl hn hm hgd) hg).1
  obtain ⟨g, e⟩ := builds_good later h1
  exact define_lang hg hn hm hgd h' e g.wf w

/-- What was returned by a combinator may be used as an argument of further ones. -/
theorem C09_usable (hb : Builds b Heap.init h) {a c : Sym} (ha : Usable h a) (hc : Usable h c)
    (f : Func GVal PyComplaint) (isClass : Bool) (k : Nat) :
    Usable (h.or a c).2 (h.or a c).1 ∧ Usable (h.mul a c).2 (h.mul a c).1 ∧
    Usable (h.wrap f a isClass).2 (h.wrap f a isClass).1 ∧ Usable (h.group a).2 (h.group a).1 ∧
    Usable (h.repeatAll a).2 (h.repeatAll a).1 ∧ Usable (h.repeatUpTo a k).2 (h.repeatUpTo a k).1 := by
  have hg := (builds_good hb init_good).1
  exact ⟨(or_made hg ha hc).usable, (mul_made hg ha hc).usable, (wrap_made hg ha f isClass).usable,
    (group_step hg ha).2.2.1, (repeatAll_made hg ha).usable, (repeatUpTo_made hg ha k).usable⟩

/-- Symbols remain usable. -/
theorem C09_usable_later (hb : Builds b Heap.init h) (later : Builds b h h') {a : Sym}
    (ha : Usable h a) : Usable h' a :=
  (builds_good later (builds_good hb init_good).1).2.usable ha

/-- Whatever is built meets the conditions under which the claims about the parser hold: rules are
where they should be, `RepeatedNonterminal`s are as expected; and, if recursive symbols are only
defined by rules that begin with a terminal, then `is_nullable` always returns. -/
theorem C09_built (hb : Builds b Heap.init h) :
    Sane h.grammar ∧ (b = true → NullableReturns h.grammar) ∧
    ∀ n, Defined h n → HasRules h.grammar n := by
  have hg := (builds_good hb init_good).1
  refine ⟨wf_sane hg.wf, fun hb' n => ?_, fun n ⟨x, hx, hh⟩ => ?_⟩
  · obtain ⟨c, hc⟩ := ord_nullable (hg.ord hb') n
    exact ⟨_, c, hc⟩
  · exact ⟨_, grammar_nt hx, (builds_full hb init_good init_full n x hx).1 hh⟩

/-- The parser accepts what `Accepts` says, and rejects all else with a `ParseError`. -/
theorem C09_parses (hb : Builds true Heap.init h) {n : Nat} (hn : Defined h n)
    (ops : ParseOps GVal) (data : Str) :
    ((∃ res, innerParse h.grammar ops data n = .ok res) ↔ Accepts h (.nt n) data) ∧
    ((∃ e, innerParse h.grammar ops data n = .error (.parse e)) ↔ ¬ Accepts h (.nt n) data) := by
  obtain ⟨h1, h2, h3⟩ := C09_built hb
  exact C01_accepts h1 (h2 rfl) (h3 n hn) ops data

/-- `string_excluding(t, xs)` accepts the strings made of octets of `t` other than the words
in `xs`, in any case; provided that all characters of `xs` are in `t`, in either case. `order` is the
order in which a set is iterated over. -/
theorem C08_string_excluding (hb : Builds b Heap.init h) (order : List Nat → List Nat)
    (horder : ∀ l c, c ∈ order l ↔ c ∈ l) (bits : Nat → Bool) (named : Bool) (xs : List Str)
    (hxs : ∀ x ∈ xs, ∀ c ∈ x, ∀ d, SameLetter d c → bits d = true)
    (later : Builds b (h.stringExcluding order bits named xs).2 h') (w : Str) :
    Accepts h' (h.stringExcluding order bits named xs).1 w ↔
      (∀ c ∈ w, bits c = true) ∧ ¬ ∃ x ∈ xs, SameWord w x :=
  made_lang (stringExcluding_made horder bits named (builds_good hb init_good).1 xs hxs) later w

/-- In other words, it is `string(t)` without these words. -/
theorem C08_like_string (hb : Builds b Heap.init h) (order : List Nat → List Nat)
    (horder : ∀ l c, c ∈ order l ↔ c ∈ l) (bits : Nat → Bool) (named : Bool) (xs : List Str)
    (hxs : ∀ x ∈ xs, ∀ c ∈ x, ∀ d, SameLetter d c → bits d = true)
    (later : Builds b ((h.stringExcluding order bits named xs).2.string (.term bits named)).2 h')
    (w : Str) :
    Accepts h' (h.stringExcluding order bits named xs).1 w ↔
      Accepts h' ((h.stringExcluding order bits named xs).2.string (.term bits named)).1 w ∧
      ∀ x ∈ xs, ¬ SameWord w x := by
  have m := stringExcluding_made horder bits named (builds_good hb init_good).1 xs hxs
  have m2 := string_made m.good (s := .term bits named) trivial
  rw [made_lang m2 later, made_lang m (builds_trans m2.builds later), rep_term]
  unfold Excluded
  simp only [not_exists, not_and]

end

/-! ## Concrete cases -/

/-- `c = recursive() > named`; `c.rec = '(' * many(c | 'a') * ')'`; the objects that result. -/
def nest1 : Sym × PyHeap := (Heap.init : PyHeap).recursive
def nest2 : Sym × PyHeap := nest1.2.seal nest1.1
def nest3 : Sym × PyHeap := nest2.2.or nest2.1 (octet 97)
def nest4 : Sym × PyHeap := nest3.2.many nest3.1
def nest5 : Sym × PyHeap := nest4.2.mul (octet 40) nest4.1
def nest6 : Sym × PyHeap := nest5.2.mul nest5.1 (octet 41)
def nest : PyHeap := nest6.2.setRules 1 nest6.1

theorem nest_builds : Builds true Heap.init nest := by
  have h2 : Builds true Heap.init nest2.2 := .seal (.recursive .refl)
  have u2 : Usable nest2.2 nest2.1 := ⟨_, rfl, fun _ => rfl⟩
  have h3 : Builds true Heap.init nest3.2 := .or h2 u2 trivial
  have u3 : Usable nest3.2 nest3.1 := ⟨_, rfl, nofun⟩
  have h4 : Builds true Heap.init nest4.2 := .repeatAll h3 u3
  have u4 : Usable nest4.2 nest4.1 := ⟨_, rfl, nofun⟩
  have h5 : Builds true Heap.init nest5.2 := .mul h4 trivial u4
  have u5 : Usable nest5.2 nest5.1 := ⟨_, rfl, nofun⟩
  have h6 : Builds true Heap.init nest6.2 := .mul h5 u5 trivial
  refine .define (m := 9) h6 ⟨_, rfl, rfl, rfl⟩ ⟨_, rfl, rfl⟩ (fun _ x hx r hr ru hru => ?_)
  cases hx
  simp only [List.mem_singleton] at hr
  subst hr
  cases hru
  exact ⟨_, _, rfl⟩

/-- The grammar is not trivial, and it may be used for parsing. -/
example : Defined nest 1 ∧
    (innerParse nest.grammar (pyOps fun _ => false) (str "(a(a))") 1).isOk = true ∧
    (innerParse nest.grammar (pyOps fun _ => false) (str "(a(a)") 1).isOk = false :=
  ⟨⟨_, rfl, rfl⟩, by decide +kernel, by decide +kernel⟩

/-- Hence what it accepts, by the theorem. -/
example : Accepts nest (.nt 1) (str "(a(a))") :=
  (C09_parses nest_builds ⟨_, rfl, rfl⟩ (pyOps fun _ => false) _).1.mp (by
    have h : (innerParse nest.grammar (pyOps fun _ => false) (str "(a(a))") 1).isOk = true := by
      decide +kernel
    cases hr : innerParse nest.grammar (pyOps fun _ => false) (str "(a(a))") 1 with
    | ok r => exact ⟨r, rfl⟩
    | error e => rw [hr] at h; cases h)

/-- The hypotheses of the other theorems, with arguments of each kind, in this grammar: the named
recursive symbol, the inlined `nest6`, a terminal. -/
example : Builds false Heap.init nest6.2 ∧ Usable nest6.2 nest2.1 ∧ Usable nest6.2 nest6.1 ∧
    Undefined nest6.2 1 ∧ Defined nest6.2 9 ∧ nest6.1 = .nt 9 ∧ Usable nest6.2 (octet 97) := by
  have h2 : Builds false Heap.init nest2.2 := .seal (.recursive .refl)
  have u2 : Usable nest2.2 nest2.1 := ⟨_, rfl, fun _ => rfl⟩
  have h3 : Builds false Heap.init nest3.2 := .or h2 u2 trivial
  have u3 : Usable nest3.2 nest3.1 := ⟨_, rfl, nofun⟩
  have h4 : Builds false Heap.init nest4.2 := .repeatAll h3 u3
  have u4 : Usable nest4.2 nest4.1 := ⟨_, rfl, nofun⟩
  have h5 : Builds false Heap.init nest5.2 := .mul h4 trivial u4
  have u5 : Usable nest5.2 nest5.1 := ⟨_, rfl, nofun⟩
  exact ⟨.mul h5 u5 trivial, ⟨_, rfl, fun _ => rfl⟩, ⟨_, rfl, nofun⟩, ⟨_, rfl, rfl, rfl⟩, ⟨_, rfl, rfl⟩, rfl,
    trivial⟩

/-- `C09_literal`: case is ignored in letters, and only there. -/
example : SameWord [110, 79, 45, 67] [78, 79, 45, 99] ∧ ¬ SameWord [91] [123] := by
  refine ⟨.cons ?_ (.cons ?_ (.cons ?_ (.cons ?_ .nil))), ?_⟩
  · unfold SameLetter; decide
  · unfold SameLetter; decide
  · unfold SameLetter; decide
  · unfold SameLetter; decide
  · intro h
    cases h with
    | cons h _ => revert h; unfold SameLetter; decide

/-- `C09_times`: bounds that meet the condition. -/
example : ∀ k, some 8 = some k → 1 ≤ k ∧ 1 ≤ k := by intro k hk; cases hk; decide

/-- `C08_string_excluding`: the tokens other than `filename*` and `f`. -/
def lettersStar : Nat → Bool := fun c => decide (97 ≤ c ∧ c ≤ 122 ∨ 65 ≤ c ∧ c ≤ 90 ∨ c = 42)

example : ∀ x ∈ [str "file*", str "F"], ∀ c ∈ x, ∀ d, SameLetter d c → lettersStar d = true := by
  intro x hx c hc d hd
  simp only [lettersStar, decide_eq_true_eq]
  have : ∀ x ∈ [str "file*", str "F"], ∀ c ∈ x, 97 ≤ c ∧ c ≤ 122 ∨ 65 ≤ c ∧ c ≤ 90 ∨ c = 42 := by
    decide
  have := this x hx c hc
  unfold SameLetter at hd
  omega

example : (innerParse ((Heap.init : PyHeap).stringExcluding id lettersStar false [str "ab", str "A"]).2.grammar
      (pyOps fun _ => false) (str "aB") ((Heap.init : PyHeap).stringExcluding id lettersStar false
        [str "ab", str "A"]).2.nts.length.pred).isOk = false ∧
    (innerParse ((Heap.init : PyHeap).stringExcluding id lettersStar false [str "ab", str "A"]).2.grammar
      (pyOps fun _ => false) (str "aBa") ((Heap.init : PyHeap).stringExcluding id lettersStar false
        [str "ab", str "A"]).2.nts.length.pred).isOk = true := by
  decide +kernel

end Httpolice.Props
