import Verif.Lemmas.Parser
import Verif.Props.Memo

/-!
# The Earley parser: C01 - C04

The grammar `g` is arbitrary but for `Sane` (rules exist; `RepeatedNonterminal`s have the rules
that the class gives them) and `NullableReturns`: `is_nullable` does not recurse into itself forever.
The latter is a real restriction, see `C01_left_recursion_raises`.
-/

namespace Httpolice.Props

open Httpolice.Model Httpolice.Spec Httpolice.Lemmas

variable {V C : Type}

/-- `is_nullable` returns, at whatever depth of recursion, for every nonterminal. -/
def NullableReturns (g : Grammar V C) : Prop := ∀ n, ∃ k b, nullableTo g k n = some b

/-- The nonterminal exists and has rules. -/
def HasRules (g : Grammar V C) (n : Nat) : Prop := ∃ x : Nonterm, g.nts[n]? = some x ∧ x.rules ≠ []

theorem inner_cases {g : Grammar V C} (hs : Sane g) (hn : NullableReturns g) {target : Nat}
    (ht : HasRules g target) (ops : ParseOps V) (data : Str) :
    ∃ chart, ChartOk g data target chart ∧
      ((Gen g (.nt target) data ∧ ∃ r : PRes V C, r.start = 0 ∧
          ResOk g ops data (.nt target) data.length r ∧
          innerParse g ops data target = .ok (r.node, r.complaints, r.annots)) ∨
        (¬ Gen g (.nt target) data ∧ ∃ e, ErrOk g data target chart e ∧
          innerParse g ops data target = .error (.parse e))) := by
  rcases innerParse_cases hs ops data target with ⟨_, n, h⟩ | ⟨chart, hok, h | ⟨h1, h2⟩⟩
  · obtain ⟨k, b, hk⟩ := hn n
    rw [nullable_adequate hk] at h
    cases h
  · exact ⟨chart, hok, .inl h⟩
  · obtain ⟨x, hx, hxr⟩ := ht
    obtain ⟨e, he, heok⟩ := buildParseError_ok hs hok (by rw [rulesOf_of hx]; exact hxr)
    exact ⟨chart, hok, .inr ⟨h1, e, heok, by rw [h2, he]⟩⟩

/-! ## Grammars for examples -/

deriving instance DecidableEq for Except

/-- Values are strings. -/
def strOps : ParseOps Str where
  char c := [c]
  tuple := List.flatten
  list ns := ns.flatMap fun | .skip => [] | .val v => v
  annotated v := v.length == 2

/-- One octet. -/
def oct (c : Char) : GSym := .term fun n => n == c.toNat

/-- Brackets: `S ::= "" | "(" S ")" S`. -/
def brackets : Grammar Str Nat where
  nts := [⟨[0, 1], false, true⟩]
  rls := [⟨[], none⟩, ⟨[oct '(', .nt 0, oct ')', .nt 0], some fun ns => (ns, [ns.length])⟩]

/-- Repetition: `T ::= R "b"`, `R ::= "" | R A`, `A ::= "" | "a"`. -/
def repetitions : Grammar Str Nat where
  nts := [⟨[0], false, true⟩, ⟨[1, 2], true, false⟩, ⟨[3, 4], false, false⟩]
  rls := [⟨[.nt 1, oct 'b'], none⟩, ⟨[], some fun _ => ([.val []], [])⟩, ⟨[.nt 1, .nt 2], none⟩,
    ⟨[], none⟩, ⟨[oct 'a'], none⟩]

/-- Left recursion without an empty rule before it: `L ::= L "x" | "y"`. -/
def leftRecursion : Grammar Str Nat where
  nts := [⟨[0, 1], false, false⟩]
  rls := [⟨[.nt 0, oct 'x'], none⟩, ⟨[oct 'y'], none⟩]

/-- A comment: `K ::= "(" R ")"`, `R ::= "" | R K`. -/
def comments : Grammar Str Nat where
  nts := [⟨[0], false, true⟩, ⟨[1, 2], true, false⟩]
  rls := [⟨[oct '(', .nt 1, oct ')'], none⟩, ⟨[], some fun _ => ([.val []], [])⟩,
    ⟨[.nt 1, .nt 0], none⟩]

theorem brackets_sane : Sane brackets where
  rules_exist := by
    intro n x r hx hr
    match n, hx with
    | 0, hx =>
      cases hx
      simp only [List.mem_cons, List.not_mem_nil, or_false] at hr
      rcases hr with rfl | rfl <;> exact ⟨_, rfl⟩
  repeated_shape := by
    intro n x hx hr
    match n, hx with
    | 0, hx => cases hx; cases hr

theorem repetitions_sane : Sane repetitions where
  rules_exist := by
    intro n x r hx hr
    match n, hx with
    | 0, hx =>
      cases hx
      simp only [List.mem_cons, List.not_mem_nil, or_false] at hr
      rcases hr with rfl; exact ⟨_, rfl⟩
    | 1, hx =>
      cases hx
      simp only [List.mem_cons, List.not_mem_nil, or_false] at hr
      rcases hr with rfl | rfl <;> exact ⟨_, rfl⟩
    | 2, hx =>
      cases hx
      simp only [List.mem_cons, List.not_mem_nil, or_false] at hr
      rcases hr with rfl | rfl <;> exact ⟨_, rfl⟩
  repeated_shape := by
    intro n x hx hr
    match n, hx with
    | 0, hx => cases hx; cases hr
    | 1, hx =>
      cases hx
      right
      refine ⟨.nt 2, ⟨1, by decide, _, rfl, rfl⟩, ?_⟩
      intro r hr ru hru
      simp only [List.mem_cons, List.not_mem_nil, or_false] at hr
      rcases hr with rfl | rfl
      · cases hru; exact .inl rfl
      · cases hru; exact .inr rfl
    | 2, hx => cases hx; cases hr

theorem comments_sane : Sane comments where
  rules_exist := by
    intro n x r hx hr
    match n, hx with
    | 0, hx =>
      cases hx
      simp only [List.mem_cons, List.not_mem_nil, or_false] at hr
      rcases hr with rfl; exact ⟨_, rfl⟩
    | 1, hx =>
      cases hx
      simp only [List.mem_cons, List.not_mem_nil, or_false] at hr
      rcases hr with rfl | rfl <;> exact ⟨_, rfl⟩
  repeated_shape := by
    intro n x hx hr
    match n, hx with
    | 0, hx => cases hx; cases hr
    | 1, hx =>
      cases hx
      right
      refine ⟨.nt 0, ⟨1, by decide, _, rfl, rfl⟩, ?_⟩
      intro r hr ru hru
      simp only [List.mem_cons, List.not_mem_nil, or_false] at hr
      rcases hr with rfl | rfl
      · cases hru; exact .inl rfl
      · cases hru; exact .inr rfl

theorem brackets_nullable : NullableReturns brackets := by
  intro n
  match n with
  | 0 => exact ⟨1, true, rfl⟩
  | n + 1 => exact ⟨1, false, rfl⟩

theorem repetitions_nullable : NullableReturns repetitions := by
  intro n
  match n with
  | 0 => exact ⟨2, false, rfl⟩
  | 1 => exact ⟨1, true, rfl⟩
  | 2 => exact ⟨1, true, rfl⟩
  | n + 3 => exact ⟨1, false, rfl⟩

theorem comments_nullable : NullableReturns comments := by
  intro n
  match n with
  | 0 => exact ⟨1, false, rfl⟩
  | 1 => exact ⟨1, true, rfl⟩
  | n + 2 => exact ⟨1, false, rfl⟩

/-! ## C01 -/

/-- **C01**: `_inner_parse` succeeds exactly when the grammar derives the data from the symbol, and
raises `ParseError` exactly when it does not. -/
theorem C01_accepts {g : Grammar V C} (hs : Sane g) (hn : NullableReturns g) {target : Nat}
    (ht : HasRules g target) (ops : ParseOps V) (data : Str) :
    ((∃ res, innerParse g ops data target = .ok res) ↔ Gen g (.nt target) data) ∧
    ((∃ e, innerParse g ops data target = .error (.parse e)) ↔ ¬ Gen g (.nt target) data) := by
  obtain ⟨chart, _, ⟨h1, r, _, _, h2⟩ | ⟨h1, e, _, h2⟩⟩ := inner_cases hs hn ht ops data
  · rw [h2]
    exact ⟨⟨fun _ => h1, fun _ => ⟨_, rfl⟩⟩, ⟨(by rintro ⟨e, he⟩; cases he), fun h => absurd h1 h⟩⟩
  · rw [h2]
    exact ⟨⟨(by rintro ⟨e, he⟩; cases he), fun h => absurd h h1⟩, ⟨fun _ => h1, fun _ => ⟨e, rfl⟩⟩⟩

example : Sane brackets ∧ NullableReturns brackets ∧ HasRules brackets 0 ∧
    innerParse brackets strOps (str "(())()") 0 = .ok (.val (str "(())()"), [4, 4, 4], [⟨1, 3, str "()"⟩,
      ⟨4, 6, str "()"⟩]) ∧
    innerParse brackets strOps (str "(()") 0 =
      .error (.parse ⟨3, none, [([40], [0]), ([41], [0])], true⟩) :=
  ⟨brackets_sane, brackets_nullable, ⟨_, rfl, by decide⟩, by decide +kernel, by decide +kernel⟩

/-- **C01** without the restriction on the grammar: whenever there is a verdict, it is right; the only
other outcomes are `RecursionError`, when `is_nullable` recurses into itself forever, and
`IndexError`, when the symbol has no rules. -/
theorem C01_verdicts {g : Grammar V C} (hs : Sane g) (ops : ParseOps V) (data : Str) (target : Nat) :
    (∀ res, innerParse g ops data target = .ok res → Gen g (.nt target) data) ∧
    (∀ e, innerParse g ops data target = .error (.parse e) → ¬ Gen g (.nt target) data) ∧
    (innerParse g ops data target = .error .recursion → ∃ n, ∀ k, nullableTo g k n = none) ∧
    (innerParse g ops data target = .error .index → ¬ HasRules g target) := by
  rcases innerParse_cases hs ops data target with ⟨h, n, hn⟩ | ⟨chart, hok, ⟨hg, r, _, _, h⟩ | ⟨hg, h⟩⟩
  · rw [h]
    refine ⟨nofun, nofun, fun _ => ⟨n, fun k => ?_⟩, nofun⟩
    cases hk : nullableTo g k n with
    | none => rfl
    | some b => rw [nullable_adequate hk] at hn; cases hn
  · rw [h]
    exact ⟨fun _ _ => hg, nofun, nofun, nofun⟩
  · rw [h]
    by_cases hr : HasRules g target
    · obtain ⟨x, hx, hxr⟩ := hr
      obtain ⟨e, he, _⟩ := buildParseError_ok hs hok (by rw [rulesOf_of hx]; exact hxr)
      rw [he]
      exact ⟨nofun, fun _ _ => hg, nofun, nofun⟩
    · refine ⟨?_, fun _ _ => hg, ?_, fun _ => hr⟩
      · intro res h'
        cases h'
      · intro h'
        have h' := Except.error.inj h'
        unfold buildParseError at h'
        split at h'
        · cases h'
        · split at h' <;> cases h'

example : Sane brackets ∧ innerParse brackets strOps (str "x") 0 =
    .error (.parse ⟨0, some 120, [([40], [0])], true⟩) ∧
    innerParse brackets strOps (str "") 1 = .error .index :=
  ⟨brackets_sane, by decide +kernel, by decide +kernel⟩

/-- **C01** for `parse` itself, in any sequence of calls (with the memo): a call returns a parsed value
exactly when the grammar derives the data from the symbol; otherwise it raises `ParseError`, or
reports the notice `fail_notice_id` and returns `Unavailable`. -/
theorem C01_parse {X Cls : Type} [DecidableEq Cls] {g : Grammar V (Nat × Context PErr X)}
    (hs : Sane g) (hn : NullableReturns g) (ops : ParseOps V) (isInst : V → Cls → Bool)
    (cs : List (ParseCall Nat Cls PErr X)) (i : Nat) (c : ParseCall Nat Cls PErr X)
    (hc : cs[i]? = some c) (data : Str) (hdata : c.data.encode = some data)
    (ht : HasRules g c.symbol) :
    (Gen g (.nt c.symbol) data → ∃ complaints v ann,
      (parseHistory (parserInner g ops isInst) [] cs).1[i]? =
        some (.returned complaints (.ok v) ann)) ∧
    (¬ Gen g (.nt c.symbol) data → c.failId = none → ∃ e,
      (parseHistory (parserInner g ops isInst) [] cs).1[i]? = some (.raised (.parse e))) ∧
    (∀ id, ¬ Gen g (.nt c.symbol) data → c.failId = some id → ∃ e ann,
      (parseHistory (parserInner g ops isInst) [] cs).1[i]? =
        some (.returned (if c.complain then
            [(id, mergeContext c.extra [(str "error", .err (.parse e))])] else [])
          (.unavailable (.bytes data)) ann)) := by
  obtain ⟨h1, h2, h3⟩ := C05_outcome (parserInner g ops isInst) cs i c hc data hdata
  obtain ⟨a1, a2⟩ := C01_accepts hs hn ht
    { ops with annotated := fun v => c.classes.any (isInst v) } data
  refine ⟨?_, ?_, ?_⟩
  · intro hg
    obtain ⟨⟨v, cs', as⟩, hres⟩ := a1.mpr hg
    obtain ⟨ann, ha⟩ := h1 ⟨v, cs', as⟩ (by simp only [parserInner, hres])
    exact ⟨_, _, ann, ha⟩
  · intro hg hf
    obtain ⟨e, he⟩ := a2.mpr hg
    exact ⟨e, h2 _ (by simp only [parserInner, he]) hf⟩
  · intro id hg hf
    obtain ⟨e, he⟩ := a2.mpr hg
    obtain ⟨ann, ha⟩ := h3 (.parse e) id (by simp only [parserInner, he]) hf
    exact ⟨e, ann, ha⟩

example : Gen brackets (.nt 0) (str "()") ∧ ¬ Gen brackets (.nt 0) (str ")") := by
  have h := fun d => C01_accepts brackets_sane brackets_nullable ⟨_, rfl, by decide⟩ strOps (target := 0) d
  exact ⟨(h (str "()")).1.mp ⟨(.val (str "()"), [4], [⟨0, 2, str "()"⟩]), by decide +kernel⟩,
    (h (str ")")).2.mp ⟨⟨0, some 41, [([40], [0])], true⟩, by decide +kernel⟩⟩

/-- What C01 does not cover: left recursion that is not preceded by an empty alternative makes
`is_nullable` recurse into itself, and the parser raises `RecursionError` for every nonempty input
that gets there, and for the empty input. (No symbol of HTTPolice itself is like that.) -/
theorem C01_left_recursion_raises (data : Str) :
    innerParse leftRecursion strOps data 0 = .error .recursion ∧
    Gen leftRecursion (.nt 0) (str "yx") := by
  constructor
  · unfold innerParse
    have : chartLoop leftRecursion []
        (addItems [] ((leftRecursion.rulesOf 0).map fun r => ⟨0, r, 0, 0⟩)) data
          = .error .recursion := by
      cases data with
      | nil => rfl
      | cons c data => rfl
    rw [this]
  · have h : Gen leftRecursion (.nt 0) (str "y") :=
      .nt (x := ⟨[0, 1], false, false⟩) (r := 1) (ru := ⟨[oct 'y'], none⟩) (u := str "y") (w := [])
        rfl (by decide) rfl (.term rfl .nil) .nil
    exact .nt (x := ⟨[0, 1], false, false⟩) (r := 0) (ru := ⟨[.nt 0, oct 'x'], none⟩) (u := str "yx")
      (w := []) rfl (by decide) rfl
      (genSeq_cons' (u := str "y") (v := str "x") h (.term rfl .nil)) .nil

/-! ## C02 -/

/-- **C02**: the value, the complaints and the annotations are those of one derivation of all the data
from the symbol, evaluated bottom-up and left to right. -/
theorem C02_value {g : Grammar V C} (hs : Sane g) (ops : ParseOps V) (data : Str) (target : Nat)
    (node : Node V) (complaints : List C) (annots : List (Annot V))
    (h : innerParse g ops data target = .ok (node, complaints, annots)) :
    EvalSeq g ops 0 [.nt target] data [node] complaints annots := by
  rcases innerParse_cases hs ops data target with ⟨h', _⟩ | ⟨chart, _, ⟨_, r, h0, hr, h'⟩ | ⟨_, h'⟩⟩
  · rw [h'] at h; cases h
  · rw [h'] at h
    cases h
    have := hr.eval
    rwa [h0, seg_full] at this
  · rw [h'] at h; cases h

/-- **C02**: what is evaluated is a derivation. -/
theorem C02_derivation {g : Grammar V C} (hs : Sane g) (ops : ParseOps V) (data : Str) (target : Nat)
    (node : Node V) (complaints : List C) (annots : List (Annot V))
    (h : EvalSeq g ops 0 [.nt target] data [node] complaints annots) : Gen g (.nt target) data :=
  evalSeq_gen hs h

/-- **C02** for the annotations: they lie within the data, and their objects are of the right kind. -/
theorem C02_annotations {g : Grammar V C} (hs : Sane g) (ops : ParseOps V) (data : Str) (target : Nat)
    (node : Node V) (complaints : List C) (annots : List (Annot V))
    (h : innerParse g ops data target = .ok (node, complaints, annots)) :
    ∀ a ∈ annots, a.start ≤ a.stop ∧ a.stop ≤ data.length ∧ ops.annotated a.obj = true := by
  have key : ∀ {i l w ns cs as}, EvalSeq g ops i l w ns cs as →
      ∀ a ∈ as, a.start ≤ a.stop ∧ a.stop ≤ i + w.length ∧ ops.annotated a.obj = true := by
    intro i l w ns cs as he
    induction he with
    | nil => intro a ha; cases ha
    | term _ _ ih =>
      intro a ha
      obtain ⟨h1, h2, h3⟩ := ih a ha
      exact ⟨h1, by rw [List.length_cons]; omega, h3⟩
    | rule _ _ _ _ _ _ _ hb _ ih1 ih2 =>
      intro a ha
      rw [List.mem_append, List.mem_append] at ha
      rw [List.length_append]
      rcases ha with (ha | ha) | ha
      · obtain ⟨h1, h2, h3⟩ := ih1 a ha
        exact ⟨h1, by omega, h3⟩
      · cases hb with
        | skip => cases ha
        | no => cases ha
        | yes hy =>
          rw [List.mem_singleton] at ha
          subst ha
          exact ⟨Nat.le_add_right .., by show _ + _ ≤ _; omega, hy⟩
      · obtain ⟨h1, h2, h3⟩ := ih2 a ha
        exact ⟨h1, by omega, h3⟩
    | repetition _ _ _ _ _ _ _ ih1 ih2 =>
      intro a ha
      rw [List.mem_append] at ha
      rw [List.length_append]
      rcases ha with ha | ha
      · obtain ⟨h1, h2, h3⟩ := ih1 a ha
        exact ⟨h1, by omega, h3⟩
      · obtain ⟨h1, h2, h3⟩ := ih2 a ha
        exact ⟨h1, by omega, h3⟩
  intro a ha
  have := key (C02_value hs ops data target node complaints annots h) a ha
  rwa [Nat.zero_add] at this

example : Sane repetitions ∧
    innerParse repetitions strOps (str "aab") 0 = .ok (.val (str "aab"), [], []) :=
  ⟨repetitions_sane, by decide +kernel⟩

/-! ## C03 -/

/-- **C03**: the loops of the parser and the recursion of the search always end. -/
theorem C03_terminates {g : Grammar V C} (hs : Sane g) (ops : ParseOps V) (data : Str)
    (target : Nat) : innerParse g ops data target ≠ .error .diverge := by
  rcases innerParse_cases hs ops data target with ⟨h, _⟩ | ⟨chart, hok, ⟨_, r, _, _, h⟩ | ⟨_, h⟩⟩
  · rw [h]; intro h'; cases h'
  · rw [h]; intro h'; cases h'
  · rw [h]
    by_cases hr : g.rulesOf target = []
    · have hcols : ∀ i, chart.getD i [] = [] := by
        have hv : ∀ {i it}, ¬ Valid g data target i it := by
          intro i it hv
          induction hv with
          | seed h' => rw [hr] at h'; cases h'
          | predict _ _ _ ih => exact ih
          | skip _ _ _ ih => exact ih
          | scan _ _ _ _ ih => exact ih
          | complete _ _ _ _ ih _ => exact ih
        intro i
        cases hc : chart.getD i [] with
        | nil => rfl
        | cons a l => exact absurd (hok.valid i a (by rw [hc]; exact List.mem_cons_self)) hv
      have hl : lastColumn 0 chart = none := by
        cases hl : lastColumn 0 chart with
        | none => rfl
        | some x =>
          obtain ⟨i, items⟩ := x
          obtain ⟨_, h2, h3, _⟩ := lastColumn_some hl
          exact absurd (h2.symm.trans (hcols _)) h3
      unfold buildParseError
      rw [hl]
      intro h'; cases h'
    · obtain ⟨e, he, _⟩ := buildParseError_ok hs hok hr
      rw [he]
      intro h'; cases h'

/-- **C03**: the only ways for `_inner_parse` to end are a result and `ParseError`, provided that the
symbol has rules and that `is_nullable` returns. -/
theorem C03_outcomes {g : Grammar V C} (hs : Sane g) (hn : NullableReturns g) {target : Nat}
    (ht : HasRules g target) (ops : ParseOps V) (data : Str) :
    (∃ res, innerParse g ops data target = .ok res) ∨
    (∃ e, innerParse g ops data target = .error (.parse e)) := by
  obtain ⟨chart, _, ⟨_, r, _, _, h⟩ | ⟨_, e, _, h⟩⟩ := inner_cases hs hn ht ops data
  · exact .inl ⟨_, h⟩
  · exact .inr ⟨e, h⟩

example : Sane repetitions ∧ NullableReturns repetitions ∧ HasRules repetitions 0 ∧
    innerParse repetitions strOps (str "aac") 0 =
      .error (.parse ⟨2, some 99, [([98], [0]), ([97], [0])], false⟩) :=
  ⟨repetitions_sane, repetitions_nullable, ⟨_, rfl, by decide⟩, by decide +kernel⟩

/-! ## C04 -/

/-- **C04**: the position of the error is within the data or at its end; what is before it could be
continued to something valid; with the octet found there it could not; and the octets reported
as expected are exactly those that could follow. -/
theorem C04_position {g : Grammar V C} (hs : Sane g) (hn : NullableReturns g) (hp : Productive g)
    {target : Nat} (ht : HasRules g target) (ops : ParseOps V) (data : Str) (e : ParseErr)
    (h : innerParse g ops data target = .error (.parse e)) :
    e.position ≤ data.length ∧ e.found = data[e.position]? ∧
    Viable g (.nt target) (data.take e.position) ∧
    (e.position < data.length → ¬ Viable g (.nt target) (data.take (e.position + 1))) ∧
    ∀ c, (∃ x ∈ e.expected, c ∈ x.1) ↔
      c < 256 ∧ Viable g (.nt target) (data.take e.position ++ [c]) := by
  obtain ⟨chart, hok, ⟨_, r, _, _, h'⟩ | ⟨_, e', he, h'⟩⟩ := inner_cases hs hn ht ops data
  · rw [h'] at h; cases h
  · rw [h'] at h
    cases h
    have hvia := @valid_viable V C g hs (fun l => productive_suffix hp l) data target
    have hpos : e.position ≤ data.length := by
      cases hc : chart.getD e.position [] with
      | nil => exact absurd hc he.nonempty
      | cons a l =>
        exact (chart_itemOk hs hok _ a (by rw [hc]; exact List.mem_cons_self)).bound
    refine ⟨hpos, he.found, ?_, ?_, ?_⟩
    · cases hc : chart.getD e.position [] with
      | nil => exact absurd hc he.nonempty
      | cons a l =>
        have hv := hok.valid e.position a (by rw [hc]; exact List.mem_cons_self)
        obtain ⟨y, hy⟩ := productive_suffix hp ((g.symbolsOf a.rule).drop a.pos)
          ⟨a.sym, a.rule, _, (valid_ok hs hv).rule, (List.take_append_drop ..).symm⟩
        obtain ⟨w, hw⟩ := hvia hv y hy
        exact ⟨y ++ w, by rw [← List.append_assoc]; exact hw⟩
    · rintro hlt ⟨v, hv⟩
      exact chart_reaches hs hok hlt hv (he.last _ (Nat.lt_succ_self _))
    · intro c
      rw [he.expected c]
      refine and_congr_right fun _ => ?_
      constructor
      · rintro ⟨it, hit, bits, hnx, hb⟩
        have hv := hok.valid e.position it hit
        obtain ⟨hlt, hge⟩ := List.getElem?_eq_some_iff.mp hnx
        obtain ⟨y, hy⟩ := productive_suffix hp ((g.symbolsOf it.rule).drop (it.pos + 1))
          ⟨it.sym, it.rule, _, (valid_ok hs hv).rule, (List.take_append_drop ..).symm⟩
        obtain ⟨w, hw⟩ := hvia hv (c :: y) (by
          rw [List.drop_eq_getElem_cons hlt, hge]
          exact .term hb hy)
        exact ⟨y ++ w, by simpa using hw⟩
      · rintro ⟨v, hv⟩
        obtain ⟨r, hr, hw⟩ := gen_nt_inv hv
        exact chart_expects hs hok hw (c := c) (v := v) (l' := []) (hok.seed r hr) (by simp)
          (Nat.zero_le _) hpos (by simp [seg])

/-- **C04**: a symbol that is not recursive: `end of data` is reported as expected exactly when what
precedes the position is valid. -/
theorem C04_end_of_data {g : Grammar V C} (hs : Sane g) (hn : NullableReturns g)
    {target : Nat} (ht : HasRules g target) (hw : ¬ Within g target target) (ops : ParseOps V)
    (data : Str) (e : ParseErr) (h : innerParse g ops data target = .error (.parse e)) :
    e.endOfData = true ↔ Gen g (.nt target) (data.take e.position) := by
  obtain ⟨chart, hok, ⟨_, r, _, _, h'⟩ | ⟨_, e', he, h'⟩⟩ := inner_cases hs hn ht ops data
  · rw [h'] at h; cases h
  · rw [h'] at h
    cases h
    rw [he.stop]
    constructor
    · rintro ⟨it, hit, hsym, hnx⟩
      have hv := hok.valid _ it hit
      have hio := valid_ok hs hv
      have hst : it.start = 0 := by
        rcases target_start hs hw hv with h1 | h1
        · exact h1.2
        · exact absurd hsym h1.1
      obtain ⟨n, hd⟩ := hio.der
      rw [take_completed hnx, hst] at hd
      have := gen_nt hs hio.rule (der_gen hs hd)
      rw [hsym] at this
      simpa [seg] using this
    · intro hg
      obtain ⟨r, hr, hwg⟩ := gen_nt_inv hg
      have hpos : e.position ≤ data.length := by
        cases hc : chart.getD e.position [] with
        | nil => exact absurd hc he.nonempty
        | cons a l =>
          exact (chart_itemOk hs hok _ a (by rw [hc]; exact List.mem_cons_self)).bound
      have hwg' : GenSeq g (g.symbolsOf r) (seg data 0 e.position) := by simpa [seg] using hwg
      obtain ⟨n, hd⟩ := gen_der_seg (Nat.zero_le _) hpos hwg'
      refine ⟨_, chart_completed hs hok (target_predicted hok) hr hd, rfl, ?_⟩
      simp [Grammar.next]

/-- **C04** for any symbol, even a recursive one: if what precedes the position is valid, `end of data`
is reported as expected. (The other direction does not hold: `C04_end_of_data_spurious`.) -/
theorem C04_end_of_data_recursive {g : Grammar V C} (hs : Sane g) (hn : NullableReturns g)
    {target : Nat} (ht : HasRules g target) (ops : ParseOps V)
    (data : Str) (e : ParseErr) (h : innerParse g ops data target = .error (.parse e)) :
    Gen g (.nt target) (data.take e.position) → e.endOfData = true := by
  obtain ⟨chart, hok, ⟨_, r, _, _, h'⟩ | ⟨_, e', he, h'⟩⟩ := inner_cases hs hn ht ops data
  · rw [h'] at h; cases h
  · rw [h'] at h
    cases h
    rw [he.stop]
    intro hg
    obtain ⟨r, hr, hwg⟩ := gen_nt_inv hg
    have hpos : e.position ≤ data.length := by
      cases hc : chart.getD e.position [] with
      | nil => exact absurd hc he.nonempty
      | cons a l =>
        exact (chart_itemOk hs hok _ a (by rw [hc]; exact List.mem_cons_self)).bound
    have hwg' : GenSeq g (g.symbolsOf r) (seg data 0 e.position) := by simpa [seg] using hwg
    obtain ⟨n, hd⟩ := gen_der_seg (Nat.zero_le _) hpos hwg'
    refine ⟨_, chart_completed hs hok (target_predicted hok) hr hd, rfl, ?_⟩
    simp [Grammar.next]

/-- A recursive symbol may be reported to be complete where it is not: `_build_parse_error` does not
look where the completed item started. For a comment `(()`, the error at the end of the data
says that `end of data` was expected. -/
theorem C04_end_of_data_spurious :
    innerParse comments strOps (str "(()") 0 =
      .error (.parse ⟨3, none, [([41], [0]), ([40], [0])], true⟩) ∧
    ¬ Gen comments (.nt 0) (str "(()") := by
  have h : innerParse comments strOps (str "(()") 0 =
      .error (.parse ⟨3, none, [([41], [0]), ([40], [0])], true⟩) := by decide +kernel
  exact ⟨h, (C01_accepts comments_sane comments_nullable ⟨_, rfl, by decide⟩ strOps _).2.mp ⟨_, h⟩⟩

theorem repetitions_productive : Productive repetitions := by
  have hA : Gen repetitions (.nt 2) [] :=
    .nt (x := ⟨[3, 4], false, false⟩) (r := 3) (ru := ⟨[], none⟩) (u := []) (w := [])
      rfl (by decide) rfl .nil .nil
  have hR : Gen repetitions (.nt 1) [] :=
    .nt (x := ⟨[1, 2], true, false⟩) (r := 1) (u := []) (w := []) rfl (by decide) rfl .nil .nil
  intro r ru hru y hy
  match r, hru with
  | 0, hru =>
    cases hru
    simp only [List.mem_cons, List.not_mem_nil, or_false] at hy
    rcases hy with rfl | rfl
    · exact ⟨[], hR⟩
    · exact ⟨str "b", .term rfl .nil⟩
  | 1, hru => cases hru; cases hy
  | 2, hru =>
    cases hru
    simp only [List.mem_cons, List.not_mem_nil, or_false] at hy
    rcases hy with rfl | rfl
    · exact ⟨[], hR⟩
    · exact ⟨[], hA⟩
  | 3, hru => cases hru; cases hy
  | 4, hru =>
    cases hru
    simp only [List.mem_cons, List.not_mem_nil, or_false] at hy
    subst hy
    exact ⟨str "a", .term rfl .nil⟩

theorem repetitions_not_within : ¬ Within repetitions 0 0 := by
  have key : ∀ m n, Within repetitions m n → m ≠ 0 := by
    intro m n h
    induction h with
    | @here m n x r ru hx hr hru hm =>
      rintro rfl
      match r, hru with
      | 0, hru => cases hru; simp [oct] at hm
      | 1, hru => cases hru; cases hm
      | 2, hru => cases hru; simp at hm
      | 3, hru => cases hru; cases hm
      | 4, hru => cases hru; simp [oct] at hm
    | deeper _ _ ih _ => exact ih
  exact fun h => key 0 0 h rfl

example : Sane repetitions ∧ NullableReturns repetitions ∧ Productive repetitions ∧
    HasRules repetitions 0 ∧ ¬ Within repetitions 0 0 ∧
    innerParse repetitions strOps (str "aba") 0 = .error (.parse ⟨2, some 97, [], true⟩) :=
  ⟨repetitions_sane, repetitions_nullable, repetitions_productive, ⟨_, rfl, by decide⟩,
    repetitions_not_within, by decide +kernel⟩

end Httpolice.Props
