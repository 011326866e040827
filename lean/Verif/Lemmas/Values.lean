import Verif.Spec.Values
import Verif.Lemmas.Excluding

/-!
# Values of the combinators
-/

namespace Httpolice.Lemmas

open Httpolice.Model Httpolice.Spec

variable {V C : Type}

/-- `EvalSeq` without annotations. -/
inductive ValSeq (g : Grammar V C) (ops : ParseOps V) :
    List GSym → Str → List (Node V) → List C → Prop
  | nil : ValSeq g ops [] [] [] []
  | term {bits : Nat → Bool} {c : Nat} {l : List GSym} {w : Str} {ns : List (Node V)} {cs : List C} :
      bits c = true → ValSeq g ops l w ns cs →
      ValSeq g ops (.term bits :: l) (c :: w) (.val (ops.char c) :: ns) cs
  | rule {n : Nat} {x : Nonterm} {r : Nat} {ru : GRule V C} {l : List GSym} {u w : Str}
      {ns ns' ms : List (Node V)} {node : Node V} {cs cs' ds : List C} :
      g.nts[n]? = some x → r ∈ x.rules → g.rls[r]? = some ru →
      ¬ (x.repeated = true ∧ ru.symbols.head? = some (.nt n)) →
      ValSeq g ops ru.symbols u ns cs →
      Acts ru.action ns ms ds → Collapses ops ms node →
      ValSeq g ops l w ns' cs' →
      ValSeq g ops (.nt n :: l) (u ++ w) (node :: ns') (cs ++ ds ++ cs')
  | repetition {n m : Nat} {x : Nonterm} {r : Nat} {ru : GRule V C} {y : GSym} {l : List GSym}
      {u w : Str} {ns ns' : List (Node V)} {cs cs' : List C} :
      g.nts[n]? = some x → r ∈ x.rules → g.rls[r]? = some ru →
      x.repeated = true → ru.symbols = [.nt n, y] →
      ValSeq g ops (List.replicate (m + 1) y) u ns cs →
      ValSeq g ops l w ns' cs' →
      ValSeq g ops (.nt n :: l) (u ++ w) (.val (ops.list ns) :: ns') (cs ++ cs')

theorem annotates_exists (ops : ParseOps V) (i j : Nat) (node : Node V) :
    ∃ as, Annotates ops i j node as := by
  cases node with
  | skip => exact ⟨_, .skip⟩
  | val v =>
    cases h : ops.annotated v with
    | true => exact ⟨_, .yes h⟩
    | false => exact ⟨_, .no h⟩

theorem valSeq_iff {g : Grammar V C} {ops : ParseOps V} {l : List GSym} {w : Str} {ns : List (Node V)}
    {cs : List C} (i : Nat) : ValSeq g ops l w ns cs ↔ ∃ as, EvalSeq g ops i l w ns cs as := by
  constructor
  · intro h
    induction h generalizing i with
    | nil => exact ⟨_, .nil⟩
    | term h1 _ ih =>
      obtain ⟨as, h2⟩ := ih (i + 1)
      exact ⟨_, .term h1 h2⟩
    | @rule n x r ru l u w ns ns' ms node cs cs' ds h1 h2 h3 h4 _ h5 h6 _ ih1 ih2 =>
      obtain ⟨as, k1⟩ := ih1 i
      obtain ⟨as', k2⟩ := ih2 (i + u.length)
      obtain ⟨bs, k3⟩ := annotates_exists ops i (i + u.length) node
      exact ⟨_, .rule h1 h2 h3 h4 k1 h5 h6 k3 k2⟩
    | @repetition n m x r ru y l u w ns ns' cs cs' h1 h2 h3 h4 h5 _ _ ih1 ih2 =>
      obtain ⟨as, k1⟩ := ih1 i
      obtain ⟨as', k2⟩ := ih2 (i + u.length)
      exact ⟨_, .repetition h1 h2 h3 h4 h5 k1 k2⟩
  · rintro ⟨as, h⟩
    induction h with
    | nil => exact .nil
    | term h1 _ ih => exact .term h1 ih
    | rule h1 h2 h3 h4 _ h5 h6 _ _ ih1 ih2 => exact .rule h1 h2 h3 h4 ih1 h5 h6 ih2
    | repetition h1 h2 h3 h4 h5 _ _ ih1 ih2 => exact .repetition h1 h2 h3 h4 h5 ih1 ih2

theorem value_iff {h : Heap V C} {ops : ParseOps V} {s : Sym} {w : Str} {node : Node V} {cs : List C} :
    Value h ops s w node cs ↔ ValSeq h.grammar ops [s.g] w [node] cs := (valSeq_iff 0).symm

theorem valSeq_append {g : Grammar V C} {ops : ParseOps V} {l l' : List GSym} {w w' : Str}
    {ns ns' : List (Node V)} {cs cs' : List C} (h : ValSeq g ops l w ns cs) (h' : ValSeq g ops l' w' ns' cs') :
    ValSeq g ops (l ++ l') (w ++ w') (ns ++ ns') (cs ++ cs') := by
  induction h with
  | nil => exact h'
  | term h1 _ ih => exact .term h1 ih
  | rule h1 h2 h3 h4 h7 h5 h6 _ _ ih2 =>
    have := ValSeq.rule h1 h2 h3 h4 h7 h5 h6 ih2
    simpa only [List.append_assoc, List.cons_append] using this
  | repetition h1 h2 h3 h4 h5 h6 _ _ ih2 =>
    have := ValSeq.repetition h1 h2 h3 h4 h5 h6 ih2
    simpa only [List.append_assoc, List.cons_append] using this

theorem valSeq_length {g : Grammar V C} {ops : ParseOps V} {l : List GSym} {w : Str}
    {ns : List (Node V)} {cs : List C} (h : ValSeq g ops l w ns cs) : ns.length = l.length := by
  induction h with
  | nil => rfl
  | term _ _ ih => simp [ih]
  | rule _ _ _ _ _ _ _ _ _ ih => simp [ih]
  | repetition _ _ _ _ _ _ _ _ ih => simp [ih]

theorem valSeq_split {g : Grammar V C} {ops : ParseOps V} {l l' : List GSym} {w : Str}
    {ns : List (Node V)} {cs : List C} (h : ValSeq g ops (l ++ l') w ns cs) :
    ∃ u v ns1 ns2 cs1 cs2, w = u ++ v ∧ ns = ns1 ++ ns2 ∧ cs = cs1 ++ cs2 ∧ ValSeq g ops l u ns1 cs1 ∧
      ValSeq g ops l' v ns2 cs2 := by
  generalize hl : l ++ l' = m at h
  induction h generalizing l with
  | nil =>
    obtain ⟨rfl, rfl⟩ := List.append_eq_nil_iff.mp hl
    exact ⟨[], [], [], [], [], [], rfl, rfl, rfl, .nil, .nil⟩
  | term h1 h2 ih =>
    cases l with
    | nil =>
      subst hl
      exact ⟨[], _, [], _, [], _, rfl, rfl, rfl, .nil, .term h1 h2⟩
    | cons a l =>
      simp only [List.cons_append, List.cons.injEq] at hl
      obtain ⟨rfl, hl⟩ := hl
      obtain ⟨u, v, ns1, ns2, cs1, cs2, rfl, rfl, rfl, k1, k2⟩ := ih hl
      exact ⟨_, v, _, ns2, cs1, cs2, rfl, rfl, rfl, .term h1 k1, k2⟩
  | rule h1 h2 h3 h4 h7 h5 h6 h8 _ ih =>
    cases l with
    | nil =>
      subst hl
      exact ⟨[], _, [], _, [], _, rfl, rfl, rfl, .nil, .rule h1 h2 h3 h4 h7 h5 h6 h8⟩
    | cons a l =>
      simp only [List.cons_append, List.cons.injEq] at hl
      obtain ⟨rfl, hl⟩ := hl
      obtain ⟨u, v, ns1, ns2, cs1, cs2, rfl, rfl, rfl, k1, k2⟩ := ih hl
      exact ⟨_, v, _, ns2, _, cs2, (List.append_assoc ..).symm, rfl, (List.append_assoc ..).symm,
        .rule h1 h2 h3 h4 h7 h5 h6 k1, k2⟩
  | repetition h1 h2 h3 h4 h5 h6 h8 _ ih =>
    cases l with
    | nil =>
      subst hl
      exact ⟨[], _, [], _, [], _, rfl, rfl, rfl, .nil, .repetition h1 h2 h3 h4 h5 h6 h8⟩
    | cons a l =>
      simp only [List.cons_append, List.cons.injEq] at hl
      obtain ⟨rfl, hl⟩ := hl
      obtain ⟨u, v, ns1, ns2, cs1, cs2, rfl, rfl, rfl, k1, k2⟩ := ih hl
      exact ⟨_, v, _, ns2, _, cs2, (List.append_assoc ..).symm, rfl, (List.append_assoc ..).symm,
        .repetition h1 h2 h3 h4 h5 h6 k1, k2⟩

/-! ## Rules and symbols -/

/-- Nodes, complaints of children, complaints of the rule's own action. -/
abbrev SV (V C : Type) := Str → List (Node V) → List C → List C → Prop

/-- Node and complaints. -/
abbrev WV (V C : Type) := Str → Node V → List C → Prop

/-- What a rule gives. -/
def RuleVal (h : Heap V C) (ops : ParseOps V) (r : Nat) : SV V C := fun w ns cs ds =>
  ∃ ms, ValSeq h.grammar ops (h.grammar.symbolsOf r) w ms cs ∧ Acts (h.grammar.actionOf r) ms ns ds

/-- What a symbol gives as one node. -/
def Whole (h : Heap V C) (ops : ParseOps V) (s : Sym) : WV V C := fun w node cs =>
  ValSeq h.grammar ops [s.g] w [node] cs

/-- Nodes made one node. -/
def pack (ops : ParseOps V) (S : SV V C) : WV V C := fun w node cs =>
  ∃ ns c d, S w ns c d ∧ Collapses ops ns node ∧ cs = c ++ d

/-- One node as a sequence of nodes. -/
def unpack (W : WV V C) : SV V C := fun w ns cs ds => ∃ node, ns = [node] ∧ W w node cs ∧ ds = []

/-- What a symbol, as it is in `h`, gives when it is used in `|` or `<<`, evaluated in `h'`. -/
def Spread (h h' : Heap V C) (ops : ParseOps V) : Sym → SV V C
  | .term bits nm => unpack (Whole h' ops (.term bits nm))
  | .nt n => fun w ns cs ds =>
    match h.nts[n]? with
    | none => False
    | some x =>
      if x.ephemeral then ∃ r ∈ x.rules, RuleVal h' ops r w ns cs ds
      else unpack (Whole h' ops (.nt n)) w ns cs ds

/-- The same when it is used in `*`. -/
def Once (h h' : Heap V C) (ops : ParseOps V) : Sym → SV V C
  | .term bits nm => unpack (Whole h' ops (.term bits nm))
  | .nt n => fun w ns cs ds =>
    match h.nts[n]? with
    | none => False
    | some x =>
      match x.ephemeral, x.rules with
      | true, [r] => RuleVal h' ops r w ns cs ds
      | _, _ => unpack (Whole h' ops (.nt n)) w ns cs ds

theorem collapses_one {ops : ParseOps V} {node node' : Node V} : Collapses ops [node] node' ↔ node' = node := by
  constructor
  · intro h
    cases node with
    | skip =>
      cases h with
      | nothing => rfl
      | single h => cases h
      | several h => cases h
    | val v =>
      cases h with
      | nothing h => cases h
      | single h => cases h; rfl
      | several h => cases h
  · rintro rfl
    cases node' with
    | skip => exact .nothing rfl
    | val v => exact .single rfl

theorem pack_unpack {ops : ParseOps V} {W : WV V C} {w : Str} {node : Node V} {cs : List C} :
    pack ops (unpack W) w node cs ↔ W w node cs := by
  constructor
  · rintro ⟨_, c, _, ⟨node0, rfl, h, rfl⟩, h1, rfl⟩
    rw [collapses_one.mp h1, List.append_nil]
    exact h
  · intro h
    exact ⟨[node], cs, [], ⟨node, rfl, h, rfl⟩, collapses_one.mpr rfl, by simp⟩

theorem acts_iff {a : Option (Action V C)} {ns ms : List (Node V)} {ds : List C} :
    Acts a ns ms ds ↔ (ms, ds) = runAction a ns := by
  constructor
  · intro h
    cases h <;> rfl
  · intro h
    cases a with
    | none => cases h; exact .none
    | some f =>
      have h1 : ms = (f ns).1 := congrArg Prod.fst h
      have h2 : ds = (f ns).2 := congrArg Prod.snd h
      rw [h1, h2]
      exact .some

theorem whole_nt' {h : Heap V C} (hw : WF h) {ops : ParseOps V} {n : Nat} {x : NtObj}
    (hx : h.nts[n]? = some x)
    (hr : x.repeated = true → ∀ r ∈ x.rules, (h.grammar.symbolsOf r).head? ≠ some (.nt n))
    {w : Str} {node : Node V} {cs : List C} :
    Whole h ops (.nt n) w node cs ↔
      pack ops (fun w ns c d => ∃ r ∈ x.rules, RuleVal h ops r w ns c d) w node cs := by
  constructor
  · intro hv
    unfold Whole at hv
    simp only [Sym.g] at hv
    cases hv with
    | @rule _ _ r ru _ u _ ns _ ms _ cs _ ds h1 h2 h3 h4 h5 h6 h7 h8 =>
      cases h8
      rw [grammar_nt hx] at h1
      cases h1
      refine ⟨ms, cs, ds, ⟨r, h2, ns, ?_, ?_⟩, h7, ?_⟩
      · rw [symbolsOf_of h3, List.append_nil]; exact h5
      · rw [actionOf_of h3]; exact h6
      · rw [List.append_nil]
    | repetition h1 h2 h3 h4 h5 h6 h7 =>
      rw [grammar_nt hx] at h1
      cases h1
      have := hr h4 _ h2
      rw [symbolsOf_of h3, h5] at this
      exact absurd rfl this
  · rintro ⟨ns, c, d, ⟨r, h1, ms, h2, h3⟩, h4, rfl⟩
    obtain ⟨ru, hru⟩ := lt_rls (hw.rules n x hx r h1)
    rw [symbolsOf_of (g := h.grammar) hru] at h2
    rw [actionOf_of (g := h.grammar) hru] at h3
    have := ValSeq.rule (ops := ops) (grammar_nt hx) h1 (g := h.grammar) hru (by
      rintro ⟨h5, h6⟩
      have := hr h5 _ h1
      rw [symbolsOf_of (g := h.grammar) hru] at this
      exact this h6) h2 h3 h4 .nil
    show ValSeq h.grammar ops [.nt n] w [node] (c ++ d)
    simpa only [List.append_nil] using this

theorem whole_nt {h : Heap V C} (hw : WF h) {ops : ParseOps V} {n : Nat} {x : NtObj}
    (hx : h.nts[n]? = some x) (hr : x.repeated = false) {w : Str} {node : Node V} {cs : List C} :
    Whole h ops (.nt n) w node cs ↔
      pack ops (fun w ns c d => ∃ r ∈ x.rules, RuleVal h ops r w ns c d) w node cs :=
  whole_nt' hw hx (by rw [hr]; nofun)

theorem Ext.spread_rules {h h' : Heap V C} (e : Ext h h') {n : Nat} {x : NtObj}
    (hx : h.nts[n]? = some x) (hh : x.hole = false) :
    ∃ x' : NtObj, h'.nts[n]? = some x' ∧ x'.rules = x.rules ∧ x'.repeated = x.repeated := by
  obtain ⟨x', h1, h2, _, _, h5⟩ := e.nts n x hx
  exact ⟨x', h1, (h5 hh).1, h2⟩

/-- However a symbol is used, as one node it is the same. -/
theorem whole_spread {h h' : Heap V C} (hf : Full h) (e : Ext h h') (hw : WF h') {ops : ParseOps V} {s : Sym}
    (hs : Usable h s) {w : Str} {node : Node V} {cs : List C} :
    Whole h' ops s w node cs ↔ pack ops (Spread h h' ops s) w node cs := by
  cases s with
  | term bits nm => exact pack_unpack.symm
  | nt n =>
    obtain ⟨x, hx, hh⟩ := hs
    simp only [Spread, hx]
    cases he : x.ephemeral with
    | false =>
      simp only [Bool.false_eq_true, if_false]
      exact pack_unpack.symm
    | true =>
      simp only [if_true]
      have hxh : x.hole = false := by
        cases hxh : x.hole with
        | false => rfl
        | true => rw [hh hxh] at he; cases he
      have hxr : x.repeated = false := by
        cases hxr : x.repeated with
        | false => rfl
        | true =>
          have := (hf n x hx).2.1 hxr
          unfold NtObj.ephemeral at he
          rw [this] at he
          cases he
      obtain ⟨x', h1, h2, h3⟩ := e.spread_rules hx hxh
      rw [whole_nt hw h1 (h3.trans hxr), h2]

theorem whole_once {h h' : Heap V C} (hf : Full h) (e : Ext h h') (hw : WF h') {ops : ParseOps V} {s : Sym}
    (hs : Usable h s) {w : Str} {node : Node V} {cs : List C} :
    Whole h' ops s w node cs ↔ pack ops (Once h h' ops s) w node cs := by
  cases s with
  | term bits nm => exact pack_unpack.symm
  | nt n =>
    obtain ⟨x, hx, hh⟩ := id hs
    simp only [Once, hx]
    split
    · rename_i r he hr
      rw [whole_spread hf e hw hs]
      simp only [Spread, hx, he, if_true, hr, List.mem_singleton, exists_eq_left]
    · exact pack_unpack.symm

/-! ## Status does not change while objects are kept -/

/-- The symbol exists. -/
def Exists (h : Heap V C) : Sym → Prop
  | .term _ _ => True
  | .nt n => ∃ x : NtObj, h.nts[n]? = some x

theorem Usable.exists {h : Heap V C} {s : Sym} (hu : Usable h s) : Exists h s := by
  cases s with
  | term => trivial
  | nt n =>
    obtain ⟨x, hx, _⟩ := hu
    exact ⟨x, hx⟩

theorem HKeeps.spread {h h1 h' : Heap V C} (k : HKeeps h h1) {ops : ParseOps V} {s : Sym}
    (hs : Usable h s) : Spread h1 h' ops s = Spread h h' ops s := by
  cases s with
  | term => rfl
  | nt n =>
    obtain ⟨x, hx, _⟩ := hs
    simp only [Spread, hx, k.nts n x hx]

theorem HKeeps.once {h h1 h' : Heap V C} (k : HKeeps h h1) {ops : ParseOps V} {s : Sym}
    (hs : Usable h s) : Once h1 h' ops s = Once h h' ops s := by
  cases s with
  | term => rfl
  | nt n =>
    obtain ⟨x, hx, _⟩ := hs
    simp only [Once, hx, k.nts n x hx]

/-! ## Sequence -/

/-- One after another. -/
def seqV (S T : SV V C) : SV V C := fun w ns cs ds =>
  ∃ u v ns1 ns2 c1 c2 d1 d2, w = u ++ v ∧ ns = ns1 ++ ns2 ∧ cs = c1 ++ c2 ∧ ds = d1 ++ d2 ∧
    S u ns1 c1 d1 ∧ T v ns2 c2 d2

theorem ruleVal_single {h h' : Heap V C} (s : Sym) (e : Ext (h.newRule ⟨[s.g], none⟩).2 h')
    {ops : ParseOps V} {w : Str} {ns : List (Node V)} {cs ds : List C} :
    RuleVal h' ops (h.newRule ⟨[s.g], none⟩).1 w ns cs ds ↔ unpack (Whole h' ops s) w ns cs ds := by
  have hr := e.rls _ _ (newRule_get h ⟨[s.g], none⟩)
  unfold RuleVal unpack Whole
  rw [symbolsOf_of (g := h'.grammar) hr, actionOf_of (g := h'.grammar) hr]
  constructor
  · rintro ⟨ms, h1, h2⟩
    cases h2
    have := valSeq_length h1
    match ns, this with
    | [node], _ => exact ⟨node, rfl, h1, rfl⟩
  · rintro ⟨node, rfl, h1, rfl⟩
    exact ⟨_, h1, .none⟩

theorem asRule_val {b : Bool} {h : Heap V C} (_hg : Good b h) {s : Sym} (hs : Usable h s) {h' : Heap V C}
    (e : Ext (h.asRule s).2 h') {ops : ParseOps V} {w : Str} {ns : List (Node V)} {cs ds : List C} :
    RuleVal h' ops (h.asRule s).1 w ns cs ds ↔ Once h h' ops s w ns cs ds := by
  cases s with
  | term bits nm => exact ruleVal_single (.term bits nm) e
  | nt n =>
    obtain ⟨x, hx, hh⟩ := hs
    simp only [Heap.asRule, Once, hx] at e ⊢
    split at e
    · rename_i r he hr
      simp only [he, hr]
    · rename_i hne
      split
      · rename_i r he hr
        exact absurd hr (hne r he)
      · exact ruleVal_single (.nt n) e

theorem concatAction_run {len : Nat} {a1 a2 : Option (Action V C)} {ms1 ms2 : List (Node V)}
    (hl : ms1.length = len) : runAction (concatAction len a1 a2) (ms1 ++ ms2) =
      ((runAction a1 ms1).1 ++ (runAction a2 ms2).1, (runAction a1 ms1).2 ++ (runAction a2 ms2).2) := by
  subst hl
  cases a1 <;> cases a2 <;> simp [concatAction, runAction]

theorem concat_val {h h' : Heap V C} {r1 r2 : Nat} (h1 : r1 < h.rls.length) (h2 : r2 < h.rls.length)
    (e : Ext (h.concat r1 r2).2 h') {ops : ParseOps V} {w : Str} {ns : List (Node V)} {cs ds : List C} :
    RuleVal h' ops (h.concat r1 r2).1 w ns cs ds ↔
      seqV (RuleVal h' ops r1) (RuleVal h' ops r2) w ns cs ds := by
  unfold Heap.concat at e ⊢
  have hr := e.rls _ _ (newRule_get ..)
  have e0 := (newRule_ext ..).trans e
  unfold seqV RuleVal
  rw [symbolsOf_of (g := h'.grammar) hr, actionOf_of (g := h'.grammar) hr]
  simp only [e0.symbols h1, e0.symbols h2, e0.action h1, e0.action h2, acts_iff]
  constructor
  · rintro ⟨ms, hv, ha⟩
    obtain ⟨u, v, ns1, ns2, c1, c2, rfl, rfl, rfl, k1, k2⟩ := valSeq_split hv
    rw [concatAction_run (valSeq_length k1)] at ha
    refine ⟨u, v, _, _, c1, c2, _, _, rfl, congrArg Prod.fst ha, rfl, congrArg Prod.snd ha, ⟨ns1, k1, rfl⟩,
      ns2, k2, rfl⟩
  · rintro ⟨u, v, ns1, ns2, c1, c2, d1, d2, rfl, rfl, rfl, rfl, ⟨m1, k1, k2⟩, m2, k3, k4⟩
    refine ⟨m1 ++ m2, valSeq_append k1 k3, ?_⟩
    rw [concatAction_run (valSeq_length k1), ← k2, ← k4]

/-- A new symbol, made of rules, that is inlined. -/
theorem simple_spread {h h' : Heap V C} {rs : List Nat} {ops : ParseOps V} {w : Str}
    {ns : List (Node V)} {cs ds : List C} :
    Spread (h.simple rs none).2 h' ops (h.simple rs none).1 w ns cs ds ↔
      ∃ r ∈ rs, RuleVal h' ops r w ns cs ds := by
  have := newNt_get h { rules := rs, repeated := false, pivot := false, named := false, eph := none, hole := false }
  show (match (h.simple rs none).2.nts[h.nts.length]? with
    | none => False
    | some x => if x.ephemeral then ∃ r ∈ x.rules, RuleVal h' ops r w ns cs ds
        else unpack (Whole h' ops (.nt h.nts.length)) w ns cs ds) ↔ _
  rw [show (h.simple rs none).2.nts[h.nts.length]? = some _ from this]
  simp [NtObj.ephemeral]

theorem simple_once {h h' : Heap V C} {r : Nat} {ops : ParseOps V} {w : Str}
    {ns : List (Node V)} {cs ds : List C} :
    Once (h.simple [r] none).2 h' ops (h.simple [r] none).1 w ns cs ds ↔ RuleVal h' ops r w ns cs ds := by
  have := newNt_get h { rules := [r], repeated := false, pivot := false, named := false, eph := none, hole := false }
  show (match (h.simple [r] none).2.nts[h.nts.length]? with
    | none => False
    | some x => match x.ephemeral, x.rules with
      | true, [r] => RuleVal h' ops r w ns cs ds
      | _, _ => unpack (Whole h' ops (.nt h.nts.length)) w ns cs ds) ↔ _
  rw [show (h.simple [r] none).2.nts[h.nts.length]? = some _ from this]
  simp [NtObj.ephemeral]

theorem mul_rule {b : Bool} {h : Heap V C} (hg : Good b h) {s t : Sym} (hs : Usable h s)
    (ht : Usable h t) {h' : Heap V C} (e : Ext (h.mul s t).2 h') {ops : ParseOps V} {w : Str}
    {ns : List (Node V)} {cs ds : List C} :
    RuleVal h' ops ((((h.asRule s).2.asRule t).2.concat (h.asRule s).1 ((h.asRule s).2.asRule t).1)).1
      w ns cs ds ↔ seqV (Once h h' ops s) (Once h h' ops t) w ns cs ds := by
  have h1 := asRule_for hg hs
  have h2 := asRule_for h1.good (h1.ext.usable ht)
  have r1 : (h.asRule s).1 < (h.asRule s).2.rls.length := h1.lt _ (List.mem_singleton.mpr rfl)
  have r2 : ((h.asRule s).2.asRule t).1 < ((h.asRule s).2.asRule t).2.rls.length :=
    h2.lt _ (List.mem_singleton.mpr rfl)
  have e1 : Ext (((h.asRule s).2.asRule t).2.concat (h.asRule s).1 ((h.asRule s).2.asRule t).1).2 h' :=
    (newNt_ext ..).trans e
  have e2 : Ext ((h.asRule s).2.asRule t).2 h' := (newRule_ext ..).trans e1
  rw [concat_val (h2.ext.lt_rls r1) r2 e1]
  unfold seqV
  simp only [asRule_val hg hs (h2.ext.trans e2), asRule_val h1.good (h1.ext.usable ht) e2,
    (asRule_keeps h s).once ht]

theorem mul_spread {b : Bool} {h : Heap V C} (hg : Good b h) {s t : Sym} (hs : Usable h s)
    (ht : Usable h t) {h' : Heap V C} (e : Ext (h.mul s t).2 h') {ops : ParseOps V} {w : Str}
    {ns : List (Node V)} {cs ds : List C} :
    Spread (h.mul s t).2 h' ops (h.mul s t).1 w ns cs ds ↔
      seqV (Once h h' ops s) (Once h h' ops t) w ns cs ds := by
  rw [← mul_rule hg hs ht e]
  exact simple_spread.trans (by simp only [List.mem_singleton, exists_eq_left])

theorem mul_once {b : Bool} {h : Heap V C} (hg : Good b h) {s t : Sym} (hs : Usable h s)
    (ht : Usable h t) {h' : Heap V C} (e : Ext (h.mul s t).2 h') {ops : ParseOps V} {w : Str}
    {ns : List (Node V)} {cs ds : List C} :
    Once (h.mul s t).2 h' ops (h.mul s t).1 w ns cs ds ↔
      seqV (Once h h' ops s) (Once h h' ops t) w ns cs ds := by
  rw [← mul_rule hg hs ht e]
  exact simple_once

/-! ## Alternatives and functions -/

theorem asRules_val {b : Bool} {h : Heap V C} (_hg : Good b h) {s : Sym} (hs : Usable h s) {h' : Heap V C}
    (e : Ext (h.asRules s).2 h') {ops : ParseOps V} {w : Str} {ns : List (Node V)} {cs ds : List C} :
    (∃ r ∈ (h.asRules s).1, RuleVal h' ops r w ns cs ds) ↔ Spread h h' ops s w ns cs ds := by
  cases s with
  | term bits nm =>
    simp only [Heap.asRules, List.mem_singleton, exists_eq_left]
    exact ruleVal_single (.term bits nm) e
  | nt n =>
    obtain ⟨x, hx, hh⟩ := hs
    simp only [Heap.asRules, Spread, hx] at e ⊢
    cases he : x.ephemeral with
    | true => simp
    | false =>
      simp only [he, Bool.false_eq_true, if_false, List.mem_singleton, exists_eq_left] at e ⊢
      exact ruleVal_single (.nt n) e

theorem or_spread {b : Bool} {h : Heap V C} (hg : Good b h) {s t : Sym} (hs : Usable h s)
    (ht : Usable h t) {h' : Heap V C} (e : Ext (h.or s t).2 h') {ops : ParseOps V} {w : Str}
    {ns : List (Node V)} {cs ds : List C} :
    Spread (h.or s t).2 h' ops (h.or s t).1 w ns cs ds ↔
      Spread h h' ops s w ns cs ds ∨ Spread h h' ops t w ns cs ds := by
  have key : Ext (((h.asRules s).2.asRules t).2.simple ((h.asRules s).1 ++ ((h.asRules s).2.asRules t).1)
      none).2 h' → (Spread (((h.asRules s).2.asRules t).2.simple ((h.asRules s).1 ++
        ((h.asRules s).2.asRules t).1) none).2 h' ops (((h.asRules s).2.asRules t).2.simple
        ((h.asRules s).1 ++ ((h.asRules s).2.asRules t).1) none).1 w ns cs ds ↔
      Spread h h' ops s w ns cs ds ∨ Spread h h' ops t w ns cs ds) := by
    intro e
    have h1 := asRules_for hg hs
    have h2 := asRules_for h1.good (h1.ext.usable ht)
    have e2 : Ext ((h.asRules s).2.asRules t).2 h' := (newNt_ext ..).trans e
    rw [simple_spread, ← asRules_val hg hs (h2.ext.trans e2), ← (asRules_keeps h s).spread ht,
      ← asRules_val h1.good (h1.ext.usable ht) e2]
    simp only [List.mem_append, or_and_right, exists_or]
  cases s with
  | nt n => exact key e
  | term bits nm =>
    cases t with
    | nt n => exact key e
    | term bits' nm' =>
      simp only [Heap.or, Spread, unpack, Whole, Sym.g]
      constructor
      · rintro ⟨node, rfl, h1, rfl⟩
        cases h1 with
        | term hc hv =>
          rcases Bool.or_eq_true_iff.mp hc with hc | hc
          · exact .inl ⟨_, rfl, .term hc hv, rfl⟩
          · exact .inr ⟨_, rfl, .term hc hv, rfl⟩
      · rintro (⟨node, rfl, h1, rfl⟩ | ⟨node, rfl, h1, rfl⟩)
        · cases h1 with
          | term hc hv => exact ⟨_, rfl, .term (by simp [hc]) hv, rfl⟩
        · cases h1 with
          | term hc hv => exact ⟨_, rfl, .term (by simp [hc]) hv, rfl⟩

/-- A function applied to what is not skipped. -/
def applyV (f : Func V C) (S : SV V C) : SV V C := fun w ns cs ds =>
  ∃ ms d, S w ms cs d ∧ ds = d ++ (f (kept ms)).2 ∧
    ns = (match (f (kept ms)).1 with | .skip => [] | .val v => [.val v])

theorem noSkips_kept (ns : List (Node V)) : noSkips ns = kept ns := by
  induction ns with
  | nil => rfl
  | cons a ns ih =>
    cases a with
    | skip => simp only [noSkips, ih]; rfl
    | val v => simp only [noSkips, ih]; rfl

theorem wrapRule_val {h h' : Heap V C} {f : Func V C} {r : Nat} (hr : r < h.rls.length)
    (e : Ext (h.newRule ⟨h.grammar.symbolsOf r, some (wrapAction f (h.grammar.actionOf r))⟩).2 h')
    {ops : ParseOps V} {w : Str} {ns : List (Node V)} {cs ds : List C} :
    RuleVal h' ops (h.newRule ⟨h.grammar.symbolsOf r, some (wrapAction f (h.grammar.actionOf r))⟩).1 w ns cs ds ↔
      applyV f (RuleVal h' ops r) w ns cs ds := by
  have hru := e.rls _ _ (newRule_get ..)
  have e0 := (newRule_ext ..).trans e
  unfold applyV RuleVal
  rw [symbolsOf_of (g := h'.grammar) hru, actionOf_of (g := h'.grammar) hru]
  simp only [e0.symbols hr, e0.action hr, acts_iff]
  constructor
  · rintro ⟨ms, hv, ha⟩
    refine ⟨(runAction (h.grammar.actionOf r) ms).1, (runAction (h.grammar.actionOf r) ms).2, ⟨ms, hv, rfl⟩,
      ?_, ?_⟩
    · rw [← noSkips_kept]; exact congrArg Prod.snd ha
    · rw [← noSkips_kept]; exact congrArg Prod.fst ha
  · rintro ⟨ms, d, ⟨ms', hv, ha⟩, rfl, rfl⟩
    refine ⟨ms', hv, ?_⟩
    have h1 := congrArg Prod.fst ha
    have h2 := congrArg Prod.snd ha
    simp only at h1 h2
    rw [h1, h2, ← noSkips_kept]
    rfl

theorem wrapAll_val {h h' : Heap V C} {f : Func V C} {rs : List Nat}
    (hr : ∀ r ∈ rs, r < h.rls.length) (e : Ext (h.wrapAll f rs).2 h') {ops : ParseOps V} {w : Str}
    {ns : List (Node V)} {cs ds : List C} :
    (∃ r ∈ (h.wrapAll f rs).1, RuleVal h' ops r w ns cs ds) ↔
      ∃ r ∈ rs, applyV f (RuleVal h' ops r) w ns cs ds := by
  induction rs generalizing h with
  | nil => simp [Heap.wrapAll]
  | cons r rs ih =>
    have e0 : Ext (h.newRule ⟨h.grammar.symbolsOf r, some (wrapAction f (h.grammar.actionOf r))⟩).2 h' := by
      have : HKeeps (h.newRule ⟨h.grammar.symbolsOf r, some (wrapAction f (h.grammar.actionOf r))⟩).2
        (h.wrapAll f (r :: rs)).2 := wrapAll_keeps ..
      exact this.ext.trans e
    have hlt : ∀ r' ∈ rs, r' < (h.newRule ⟨h.grammar.symbolsOf r, some (wrapAction f (h.grammar.actionOf r))⟩).2.rls.length :=
      fun r' hr' => (newRule_ext ..).lt_rls (hr r' (List.mem_cons_of_mem _ hr'))
    have := ih (h := (h.newRule ⟨h.grammar.symbolsOf r, some (wrapAction f (h.grammar.actionOf r))⟩).2) hlt e
    simp only [Heap.wrapAll, List.mem_cons, exists_eq_or_imp, this,
      wrapRule_val (hr r List.mem_cons_self) e0]

theorem applyV_exists {f : Func V C} {rs : List Nat} {S : Nat → SV V C} {w : Str} {ns : List (Node V)}
    {cs ds : List C} : applyV f (fun w ns cs ds => ∃ r ∈ rs, S r w ns cs ds) w ns cs ds ↔
      ∃ r ∈ rs, applyV f (S r) w ns cs ds := by
  unfold applyV
  constructor
  · rintro ⟨ms, d, ⟨r, hr, h1⟩, h2, h3⟩
    exact ⟨r, hr, ms, d, h1, h2, h3⟩
  · rintro ⟨r, hr, ms, d, h1, h2, h3⟩
    exact ⟨ms, d, ⟨r, hr, h1⟩, h2, h3⟩

theorem applyV_congr {f : Func V C} {S T : SV V C} (hst : ∀ w ns cs ds, S w ns cs ds ↔ T w ns cs ds)
    {w : Str} {ns : List (Node V)} {cs ds : List C} : applyV f S w ns cs ds ↔ applyV f T w ns cs ds := by
  unfold applyV
  simp only [hst]

theorem wrap_rules {b : Bool} {h : Heap V C} (hg : Good b h) {s : Sym} (hs : Usable h s) (f : Func V C)
    {c : Bool} {h' : Heap V C} (e : Ext (h.wrap f s c).2 h') {ops : ParseOps V} {w : Str}
    {ns : List (Node V)} {cs ds : List C} :
    (∃ r ∈ ((h.asRules s).2.wrapAll f (h.asRules s).1).1, RuleVal h' ops r w ns cs ds) ↔
      applyV f (Spread h h' ops s) w ns cs ds := by
  have h1 := asRules_for hg hs
  have e1 : Ext ((h.asRules s).2.wrapAll f (h.asRules s).1).2 h' := (newNt_ext ..).trans e
  have e0 : Ext (h.asRules s).2 h' := (wrapAll_keeps ..).ext.trans e1
  rw [wrapAll_val h1.lt e1, ← applyV_exists]
  exact applyV_congr fun w ns cs ds => asRules_val hg hs e0

theorem wrap_spread {b : Bool} {h : Heap V C} (hg : Good b h) {s : Sym} (hs : Usable h s) (f : Func V C)
    {h' : Heap V C} (e : Ext (h.wrap f s).2 h') {ops : ParseOps V} {w : Str}
    {ns : List (Node V)} {cs ds : List C} :
    Spread (h.wrap f s).2 h' ops (h.wrap f s).1 w ns cs ds ↔ applyV f (Spread h h' ops s) w ns cs ds := by
  rw [← wrap_rules hg hs f e]
  exact simple_spread

/-- When there was one rule, there is one. -/
theorem wrap_once {b : Bool} {h : Heap V C} (hg : Good b h) {s : Sym} (hs : Usable h s) (f : Func V C)
    (h1 : ∃ r, (h.asRules s).1 = [r])
    {h' : Heap V C} (e : Ext (h.wrap f s).2 h') {ops : ParseOps V} {w : Str}
    {ns : List (Node V)} {cs ds : List C} :
    Once (h.wrap f s).2 h' ops (h.wrap f s).1 w ns cs ds ↔ applyV f (Spread h h' ops s) w ns cs ds := by
  rw [← wrap_rules hg hs f e]
  obtain ⟨r, hr⟩ := h1
  have : ∃ r', ((h.asRules s).2.wrapAll f (h.asRules s).1).1 = [r'] := by
    rw [hr]
    exact ⟨_, rfl⟩
  obtain ⟨r', hr'⟩ := this
  have hw : h.wrap f s = ((h.asRules s).2.wrapAll f (h.asRules s).1).2.simple
      ((h.asRules s).2.wrapAll f (h.asRules s).1).1 none := rfl
  rw [hw, hr', simple_once]
  simp only [List.mem_singleton, exists_eq_left]

theorem group_whole {b : Bool} {h : Heap V C} (hg : Good b h) (hf : Full h) {s : Sym} (hs : Usable h s)
    {h' : Heap V C} (e : Ext (h.group s).2 h') (hw : WF h') {ops : ParseOps V} {w : Str} {node : Node V}
    {cs : List C} : Whole h' ops (h.group s).1 w node cs ↔ Whole h' ops s w node cs := by
  obtain ⟨g1, e1, u1, _⟩ := group_step hg hs
  rw [whole_spread hf (e1.trans e) hw hs, whole_spread (group_full hf hs) e hw u1]
  cases s with
  | term => exact Iff.rfl
  | nt n =>
    obtain ⟨x, hx, hh⟩ := id hs
    cases he : x.ephemeral with
    | false =>
      have : h.group (.nt n) = (.nt n, h) := by simp [Heap.group, hx, he]
      rw [this]
    | true =>
      have : h.group (.nt n) = h.simple x.rules (some false) := by simp [Heap.group, hx, he]
      rw [this] at e u1 ⊢
      have hget := newNt_get h { rules := x.rules, repeated := false, pivot := false, named := false, eph := some false, hole := false }
      have hsp : ∀ w ns cs ds, Spread (h.simple x.rules (some false)).2 h' ops
          (h.simple x.rules (some false)).1 w ns cs ds ↔
          unpack (Whole h' ops (.nt h.nts.length)) w ns cs ds := by
        intro w ns cs ds
        show (match (h.simple x.rules (some false)).2.nts[h.nts.length]? with
          | none => False
          | some x => if x.ephemeral then ∃ r ∈ x.rules, RuleVal h' ops r w ns cs ds
            else unpack (Whole h' ops (.nt h.nts.length)) w ns cs ds) ↔ _
        rw [show (h.simple x.rules (some false)).2.nts[h.nts.length]? = some _ from hget]
        simp [NtObj.ephemeral]
      obtain ⟨x', k1, k2, k3⟩ := e.spread_rules hget rfl
      have h1 : pack ops (Spread (h.simple x.rules (some false)).2 h' ops
          (h.simple x.rules (some false)).1) w node cs ↔
          pack ops (unpack (Whole h' ops (.nt h.nts.length))) w node cs := by
        unfold pack
        simp only [hsp]
      rw [h1, pack_unpack, whole_nt hw k1 k3, k2]
      simp only [Spread, hx, he, if_true]

end Httpolice.Lemmas
