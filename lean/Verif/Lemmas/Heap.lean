import Verif.Spec.Construction
import Verif.Lemmas.Nullable

/-!
# Invariants of grammar construction
-/

namespace Httpolice.Lemmas

open Httpolice.Model Httpolice.Spec

variable {V C : Type}

/-- What stays the same from one heap to a later one. -/
structure Ext (h h' : Heap V C) : Prop where
  nts : ∀ (n : Nat) (x : NtObj), h.nts[n]? = some x → ∃ x' : NtObj, h'.nts[n]? = some x' ∧ x'.repeated = x.repeated ∧
    x'.eph = x.eph ∧ (x.named = true → x'.named = true) ∧
    (x.hole = false → x'.rules = x.rules ∧ x'.hole = false)
  rls : ∀ (r : Nat) (ru : GRule V C), h.rls[r]? = some ru → h'.rls[r]? = some ru

theorem Ext.refl (h : Heap V C) : Ext h h :=
  ⟨fun _ x hx => ⟨x, hx, rfl, rfl, id, fun hh => ⟨rfl, hh⟩⟩, fun _ _ h => h⟩

theorem Ext.trans {h h' h'' : Heap V C} (a : Ext h h') (b : Ext h' h'') : Ext h h'' := by
  refine ⟨fun n x hx => ?_, fun r ru hr => b.rls r ru (a.rls r ru hr)⟩
  obtain ⟨x', h1, h2, h3, h4, h5⟩ := a.nts n x hx
  obtain ⟨x'', k1, k2, k3, k4, k5⟩ := b.nts n x' h1
  refine ⟨x'', k1, k2.trans h2, k3.trans h3, fun h => k4 (h4 h), fun h => ?_⟩
  obtain ⟨e1, e2⟩ := h5 h
  obtain ⟨e3, e4⟩ := k5 e2
  exact ⟨e3.trans e1, e4⟩

/-- Leading nonterminals of a rule, up to the first terminal. -/
def leading : List GSym → List Nat
  | [] => []
  | .term _ :: _ => []
  | .nt n :: l => n :: leading l

/-- References go to things that exist, and `RepeatedNonterminal`s have the rules they should have. -/
structure WF (h : Heap V C) : Prop where
  rules : ∀ (n : Nat) (x : NtObj), h.nts[n]? = some x → ∀ r ∈ x.rules, r < h.rls.length
  syms : ∀ (r : Nat) (ru : GRule V C), h.rls[r]? = some ru → ∀ m, GSym.nt m ∈ ru.symbols → m < h.nts.length
  empty : ∃ x : NtObj, h.nts[0]? = some x ∧ x.rules = [0] ∧ x.hole = false ∧ x.eph = some true
  empty_rule : h.rls[0]? = some ⟨[], none⟩
  shape : ∀ (n : Nat) (x : NtObj), h.nts[n]? = some x → x.repeated = true →
    (∀ r ∈ x.rules, ∀ ru : GRule V C, h.rls[r]? = some ru → ru.symbols.head? ≠ some (.nt n)) ∨
    (∃ y : GSym, (∃ r ∈ x.rules, ∃ ru : GRule V C, h.rls[r]? = some ru ∧ ru.symbols = []) ∧
      ∀ r ∈ x.rules, ∀ ru : GRule V C, h.rls[r]? = some ru → ru.symbols = [] ∨ ru.symbols = [.nt n, y])

/-- Leading nonterminals are older, unless the first rule is empty. -/
def Ord (h : Heap V C) : Prop := ∀ (n : Nat) (x : NtObj), h.nts[n]? = some x →
  (∀ r ∈ x.rules, ∀ ru : GRule V C, h.rls[r]? = some ru → ∀ m ∈ leading ru.symbols, m < n) ∨
  (∃ (e : Nat) (rest : List Nat) (ru : GRule V C), x.rules = e :: rest ∧ h.rls[e]? = some ru ∧ ru.symbols = [])

theorem leading_mem {l : List GSym} {m : Nat} (h : m ∈ leading l) : .nt m ∈ l := by
  induction l with
  | nil => cases h
  | cons a l ih =>
    cases a with
    | term bits => cases h
    | nt n =>
      rcases List.mem_cons.mp h with rfl | h
      · exact List.mem_cons_self
      · exact List.mem_cons_of_mem _ (ih h)

theorem grammar_nt {h : Heap V C} {n : Nat} {x : NtObj} (hx : h.nts[n]? = some x) :
    h.grammar.nts[n]? = some x.plain := by
  simp [Heap.grammar, hx]

theorem grammar_nt_inv {h : Heap V C} {n : Nat} {y : Nonterm} (hy : h.grammar.nts[n]? = some y) :
    ∃ x, h.nts[n]? = some x ∧ y = x.plain := by
  simp only [Heap.grammar, List.getElem?_map, Option.map_eq_some_iff] at hy
  obtain ⟨x, hx, rfl⟩ := hy
  exact ⟨x, hx, rfl⟩

theorem lt_rls {h : Heap V C} {r : Nat} (hr : r < h.rls.length) : ∃ ru, h.rls[r]? = some ru :=
  ⟨_, List.getElem?_eq_getElem hr⟩

theorem rls_lt {h : Heap V C} {r : Nat} {ru : GRule V C} (hr : h.rls[r]? = some ru) :
    r < h.rls.length := (List.getElem?_eq_some_iff.mp hr).1

theorem nts_lt {h : Heap V C} {r : Nat} {x : NtObj} (hr : h.nts[r]? = some x) :
    r < h.nts.length := (List.getElem?_eq_some_iff.mp hr).1

theorem wf_sane {h : Heap V C} (hw : WF h) : Sane h.grammar where
  rules_exist := by
    intro n x r hx hr
    obtain ⟨x, hx', rfl⟩ := grammar_nt_inv hx
    exact lt_rls (hw.rules n x hx' r hr)
  repeated_shape := by
    intro n x hx hr
    obtain ⟨x, hx', rfl⟩ := grammar_nt_inv hx
    exact hw.shape n x hx' hr

theorem Ext.lt_rls {h h' : Heap V C} (e : Ext h h') {r : Nat} (hr : r < h.rls.length) :
    r < h'.rls.length := by
  obtain ⟨ru, hru⟩ := Lemmas.lt_rls hr
  exact rls_lt (e.rls r ru hru)

theorem Ext.symbols {h h' : Heap V C} (e : Ext h h') {r : Nat} (hr : r < h.rls.length) :
    h'.grammar.symbolsOf r = h.grammar.symbolsOf r := by
  obtain ⟨ru, hru⟩ := Lemmas.lt_rls hr
  rw [symbolsOf_of (g := h.grammar) hru, symbolsOf_of (g := h'.grammar) (e.rls r ru hru)]

theorem Ext.action {h h' : Heap V C} (e : Ext h h') {r : Nat} (hr : r < h.rls.length) :
    h'.grammar.actionOf r = h.grammar.actionOf r := by
  obtain ⟨ru, hru⟩ := Lemmas.lt_rls hr
  rw [actionOf_of (g := h.grammar) hru, actionOf_of (g := h'.grammar) (e.rls r ru hru)]

theorem ephemeral_mono {x x' : NtObj} (he : x'.eph = x.eph) (hn : x.named = true → x'.named = true)
    (h : x.ephemeral = false) : x'.ephemeral = false := by
  unfold NtObj.ephemeral at h ⊢
  rw [he]
  cases hx : x.eph with
  | some b => rw [hx] at h; exact h
  | none =>
    rw [hx] at h
    simp only [Bool.not_eq_eq_eq_not, Bool.not_false] at h ⊢
    exact hn h

theorem Ext.usable {h h' : Heap V C} (e : Ext h h') {s : Sym} (hu : Usable h s) : Usable h' s := by
  cases s with
  | term => trivial
  | nt n =>
    obtain ⟨x, hx, hh⟩ := hu
    obtain ⟨x', h1, _, h3, h4, h5⟩ := e.nts n x hx
    refine ⟨x', h1, fun hx' => ?_⟩
    cases hxh : x.hole with
    | true => exact ephemeral_mono h3 h4 (hh hxh)
    | false => rw [(h5 hxh).2] at hx'; cases hx'

/-! ## Allocation -/

theorem newRule_ext (h : Heap V C) (ru : GRule V C) : Ext h (h.newRule ru).2 := by
  refine ⟨fun _ x hx => ⟨x, hx, rfl, rfl, id, fun hh => ⟨rfl, hh⟩⟩, fun r ru' hr => ?_⟩
  simp only [Heap.newRule]
  rw [List.getElem?_append_left (rls_lt hr)]
  exact hr

theorem newRule_get (h : Heap V C) (ru : GRule V C) :
    (h.newRule ru).2.rls[(h.newRule ru).1]? = some ru := by
  simp [Heap.newRule]

theorem newRule_inv {h : Heap V C} {ru ru' : GRule V C} {r : Nat}
    (hr : (h.newRule ru).2.rls[r]? = some ru') : h.rls[r]? = some ru' ∨ (r = h.rls.length ∧ ru' = ru) := by
  simp only [Heap.newRule] at hr
  by_cases hlt : r < h.rls.length
  · rw [List.getElem?_append_left hlt] at hr
    exact .inl hr
  · rw [List.getElem?_append_right (Nat.le_of_not_lt hlt)] at hr
    obtain ⟨h1, h2⟩ := List.getElem?_eq_some_iff.mp hr
    simp only [List.length_singleton] at h1
    have : r = h.rls.length := by omega
    subst this
    simp only [Nat.sub_self, List.getElem_cons_zero] at h2
    exact .inr ⟨rfl, h2.symm⟩

theorem newRule_wf {h : Heap V C} {ru : GRule V C} (hw : WF h)
    (hs : ∀ m, .nt m ∈ ru.symbols → m < h.nts.length) : WF (h.newRule ru).2 where
  rules n x hx r hr := (newRule_ext h ru).lt_rls (hw.rules n x hx r hr)
  syms r ru' hr m hm := by
    rcases newRule_inv hr with hr | ⟨_, rfl⟩
    · exact hw.syms r ru' hr m hm
    · exact hs m hm
  empty := hw.empty
  empty_rule := (newRule_ext h ru).rls _ _ hw.empty_rule
  shape n x hx hr := by
    have key : ∀ r ∈ x.rules, ∀ ru' : GRule V C, (h.newRule ru).2.rls[r]? = some ru' →
        h.rls[r]? = some ru' := by
      intro r hr ru' hru'
      rcases newRule_inv hru' with h' | ⟨rfl, _⟩
      · exact h'
      · exact absurd (hw.rules n x hx _ hr) (Nat.lt_irrefl _)
    rcases hw.shape n x hx hr with h1 | ⟨y, ⟨r, hr, ru', hru', he⟩, h2⟩
    · exact .inl fun r hr ru' hru' => h1 r hr ru' (key r hr ru' hru')
    · exact .inr ⟨y, ⟨r, hr, ru', (newRule_ext h ru).rls _ _ hru', he⟩,
        fun r hr ru' hru' => h2 r hr ru' (key r hr ru' hru')⟩

theorem newRule_ord {h : Heap V C} {ru : GRule V C} (hw : WF h) (ho : Ord h) :
    Ord (h.newRule ru).2 := by
  intro n x hx
  have key : ∀ r ∈ x.rules, ∀ ru' : GRule V C, (h.newRule ru).2.rls[r]? = some ru' →
      h.rls[r]? = some ru' := by
    intro r hr ru' hru'
    rcases newRule_inv hru' with h' | ⟨rfl, _⟩
    · exact h'
    · exact absurd (hw.rules n x hx _ hr) (Nat.lt_irrefl _)
  rcases ho n x hx with h1 | ⟨e, rest, ru', h1, h2, h3⟩
  · exact .inl fun r hr ru' hru' => h1 r hr ru' (key r hr ru' hru')
  · exact .inr ⟨e, rest, ru', h1, (newRule_ext h ru).rls _ _ h2, h3⟩

theorem newNt_ext (h : Heap V C) (x : NtObj) : Ext h (h.newNt x).2 := by
  refine ⟨fun n x' hx => ⟨x', ?_, rfl, rfl, id, fun hh => ⟨rfl, hh⟩⟩, fun r ru' hr => hr⟩
  simp only [Heap.newNt]
  rw [List.getElem?_append_left (nts_lt hx)]
  exact hx

theorem newNt_get (h : Heap V C) (x : NtObj) :
    (h.newNt x).2.nts[h.nts.length]? = some x := by
  simp [Heap.newNt]

theorem newNt_inv {h : Heap V C} {x x' : NtObj} {r : Nat}
    (hr : (h.newNt x).2.nts[r]? = some x') : h.nts[r]? = some x' ∨ (r = h.nts.length ∧ x' = x) := by
  simp only [Heap.newNt] at hr
  by_cases hlt : r < h.nts.length
  · rw [List.getElem?_append_left hlt] at hr
    exact .inl hr
  · rw [List.getElem?_append_right (Nat.le_of_not_lt hlt)] at hr
    obtain ⟨h1, h2⟩ := List.getElem?_eq_some_iff.mp hr
    simp only [List.length_singleton] at h1
    have : r = h.nts.length := by omega
    subst this
    simp only [Nat.sub_self, List.getElem_cons_zero] at h2
    exact .inr ⟨rfl, h2.symm⟩

theorem newNt_wf {h : Heap V C} {x : NtObj} (hw : WF h)
    (hs : ∀ r ∈ x.rules, r < h.rls.length) : WF (h.newNt x).2 where
  rules n x' hx r hr := by
    rcases newNt_inv hx with hx | ⟨_, rfl⟩
    · exact hw.rules n x' hx r hr
    · exact hs r hr
  syms r ru' hr m hm := by
    have := hw.syms r ru' hr m hm
    simp only [Heap.newNt, List.length_append]
    omega
  empty := by
    obtain ⟨x', h1, h2, h3⟩ := hw.empty
    refine ⟨x', ?_, h2, h3⟩
    simp only [Heap.newNt]
    rw [List.getElem?_append_left (nts_lt h1)]
    exact h1
  empty_rule := hw.empty_rule
  shape n x' hx hr := by
    rcases newNt_inv hx with hx | ⟨rfl, rfl⟩
    · exact hw.shape n x' hx hr
    · left
      intro r hr ru hru hh
      have := hw.syms r ru hru _ (List.mem_of_mem_head? hh)
      exact Nat.lt_irrefl _ this

theorem newNt_ord {h : Heap V C} {x : NtObj} (hw : WF h) (ho : Ord h) : Ord (h.newNt x).2 := by
  intro n x' hx
  rcases newNt_inv hx with hx | ⟨rfl, rfl⟩
  · exact ho n x' hx
  · left
    intro r hr ru hru m hm
    exact hw.syms r ru hru m (leading_mem hm)

/-- Everything that is kept by the combinators. -/
structure Good (guarded : Bool) (h : Heap V C) : Prop where
  wf : WF h
  ord : guarded = true → Ord h

theorem newRule_good {b : Bool} {h : Heap V C} {ru : GRule V C} (hg : Good b h)
    (hs : ∀ m, .nt m ∈ ru.symbols → m < h.nts.length) : Good b (h.newRule ru).2 :=
  ⟨newRule_wf hg.wf hs, fun hb => newRule_ord hg.wf (hg.ord hb)⟩

theorem newNt_good {b : Bool} {h : Heap V C} {x : NtObj} (hg : Good b h)
    (hs : ∀ r ∈ x.rules, r < h.rls.length) : Good b (h.newNt x).2 :=
  ⟨newNt_wf hg.wf hs, fun hb => newNt_ord hg.wf (hg.ord hb)⟩

theorem init_good {b : Bool} : Good b (Heap.init : Heap V C) where
  wf := {
    rules := by
      intro n x hx r hr
      match n, hx with
      | 0, hx => cases hx; simp at hr; subst hr; exact Nat.zero_lt_one
    syms := by
      intro r ru hr m hm
      match r, hr with
      | 0, hr => cases hr; cases hm
    empty := ⟨_, rfl, rfl, rfl, rfl⟩
    empty_rule := rfl
    shape := by
      intro n x hx hr
      match n, hx with
      | 0, hx => cases hx; cases hr }
  ord := by
    intro _ n x hx
    match n, hx with
    | 0, hx => cases hx; exact .inr ⟨_, _, _, rfl, rfl, rfl⟩

/-! ## The language of a rule -/

/-- What a rule derives. -/
def RuleLang (h : Heap V C) (r : Nat) (w : Str) : Prop := GenSeq h.grammar (h.grammar.symbolsOf r) w

theorem accepts_nt {h : Heap V C} (hw : WF h) {n : Nat} {x : NtObj} (hx : h.nts[n]? = some x) {w : Str} :
    Accepts h (.nt n) w ↔ ∃ r ∈ x.rules, RuleLang h r w := by
  have hr : h.grammar.rulesOf n = x.rules := rulesOf_of (grammar_nt hx)
  constructor
  · intro hg
    obtain ⟨r, h1, h2⟩ := gen_nt_inv hg
    exact ⟨r, by rwa [hr] at h1, h2⟩
  · rintro ⟨r, h1, h2⟩
    exact gen_nt (wf_sane hw) (by rw [hr]; exact h1) h2

/-- The same for a nonterminal that was there, and defined, earlier. -/
theorem accepts_old {h h' : Heap V C} (hw' : WF h') (e : Ext h h') {n : Nat} {x : NtObj}
    (hx : h.nts[n]? = some x) (hh : x.hole = false) {w : Str} :
    Accepts h' (.nt n) w ↔ ∃ r ∈ x.rules, RuleLang h' r w := by
  obtain ⟨x', h1, _, _, _, h5⟩ := e.nts n x hx
  rw [accepts_nt hw' h1, (h5 hh).1]

theorem ruleLang_one {h : Heap V C} {r : Nat} {s : Sym} (hr : h.grammar.symbolsOf r = [s.g]) {w : Str} :
    RuleLang h r w ↔ Accepts h s w := by
  unfold RuleLang Accepts Gen
  rw [hr]

theorem accepts_empty {h h' : Heap V C} (hw : WF h) (hw' : WF h') (e : Ext h h') {w : Str} :
    Accepts h' emptySym w ↔ w = [] := by
  obtain ⟨x, hx, hr, hh, _⟩ := hw.empty
  rw [emptySym, accepts_old hw' e hx hh, hr]
  simp only [List.mem_singleton, exists_eq_left, RuleLang]
  rw [symbolsOf_of (g := h'.grammar) hw'.empty_rule]
  constructor
  · intro h; cases h; rfl
  · rintro rfl; exact .nil

theorem accepts_term {h : Heap V C} {bits : Nat → Bool} {b : Bool} {w : Str} :
    Accepts h (.term bits b) w ↔ OneOf bits w := by
  constructor
  · intro hg
    obtain ⟨c, h1, h2⟩ := gen_term_inv hg
    exact ⟨c, h2, h1⟩
  · rintro ⟨c, h1, rfl⟩
    exact .term h1 .nil

/-! ## `as_rule` and `as_rules` -/

theorem usable_lt {h : Heap V C} {s : Sym} (hu : Usable h s) : ∀ m, .nt m ∈ [s.g] → m < h.nts.length := by
  intro m hm
  cases s with
  | term => simp [Sym.g] at hm
  | nt n =>
    simp only [Sym.g, List.mem_singleton, GSym.nt.injEq] at hm
    subst hm
    obtain ⟨x, hx, _⟩ := hu
    exact nts_lt hx

/-- What is known of the rules that stand for a symbol. -/
structure RulesFor (b : Bool) (h : Heap V C) (s : Sym) (rs : List Nat) (h1 : Heap V C) : Prop where
  good : Good b h1
  ext : Ext h h1
  lt : ∀ r ∈ rs, r < h1.rls.length
  lang : ∀ h', Ext h1 h' → WF h' → ∀ w, (∃ r ∈ rs, RuleLang h' r w) ↔ Accepts h' s w

theorem single_for {b : Bool} {h : Heap V C} (hg : Good b h) {s : Sym} (hu : Usable h s) :
    RulesFor b h s [h.rls.length] (h.newRule ⟨[s.g], none⟩).2 where
  good := newRule_good hg (usable_lt hu)
  ext := newRule_ext ..
  lt r hr := by
    rw [List.mem_singleton.mp hr]
    simp [Heap.newRule]
  lang h' e _ w := by
    simp only [List.mem_singleton, exists_eq_left]
    refine ruleLang_one ?_
    exact symbolsOf_of (g := h'.grammar) (e.rls _ _ (newRule_get h ⟨[s.g], none⟩))

theorem inline_for {b : Bool} {h : Heap V C} (hg : Good b h) {n : Nat} {x : NtObj}
    (hx : h.nts[n]? = some x) (hh : x.hole = false) : RulesFor b h (.nt n) x.rules h where
  good := hg
  ext := Ext.refl _
  lt := hg.wf.rules n x hx
  lang h' e hw' w := (accepts_old hw' e hx hh).symm

theorem asRules_for {b : Bool} {h : Heap V C} (hg : Good b h) {s : Sym} (hu : Usable h s) :
    RulesFor b h s (h.asRules s).1 (h.asRules s).2 := by
  cases s with
  | term bits nm => exact single_for hg hu
  | nt n =>
    obtain ⟨x, hx, hh⟩ := hu
    simp only [Heap.asRules, hx]
    cases he : x.ephemeral with
    | true =>
      have : x.hole = false := by
        cases hxh : x.hole with
        | false => rfl
        | true => rw [hh hxh] at he; cases he
      simpa using inline_for hg hx this
    | false => exact single_for hg (s := .nt n) ⟨x, hx, hh⟩

theorem asRule_for {b : Bool} {h : Heap V C} (hg : Good b h) {s : Sym} (hu : Usable h s) :
    RulesFor b h s [(h.asRule s).1] (h.asRule s).2 := by
  cases s with
  | term bits nm => exact single_for hg hu
  | nt n =>
    obtain ⟨x, hx, hh⟩ := hu
    simp only [Heap.asRule, hx]
    split
    · rename_i r he hr
      have : x.hole = false := by
        cases hxh : x.hole with
        | false => rfl
        | true => rw [hh hxh] at he; cases he
      have := inline_for hg hx this
      rwa [hr] at this
    · exact single_for hg (s := .nt n) ⟨x, hx, hh⟩

/-! ## The operations -/

/-- What is known of the result of an operation: the symbol may be used, and from now on it stands for
a language that depends on the languages of other symbols in this way. -/
structure Makes (b : Bool) (h : Heap V C) (out : Sym × Heap V C)
    (lang : Heap V C → Str → Prop) : Prop where
  good : Good b out.2
  ext : Ext h out.2
  usable : Usable out.2 out.1
  defined : ∀ n, out.1 = .nt n → Defined out.2 n
  lang : ∀ h', Ext out.2 h' → WF h' → ∀ w, Accepts h' out.1 w ↔ lang h' w

theorem simple_makes {b : Bool} {h : Heap V C} (hg : Good b h) {rs : List Nat}
    (hr : ∀ r ∈ rs, r < h.rls.length) (eph : Option Bool) :
    Makes b h (h.simple rs eph) (fun h' w => ∃ r ∈ rs, RuleLang h' r w) where
  good := newNt_good hg hr
  ext := newNt_ext ..
  usable := ⟨_, newNt_get .., nofun⟩
  defined n hn := by
    cases hn
    exact ⟨_, newNt_get .., rfl⟩
  lang h' e hw w := accepts_old hw e (newNt_get ..) rfl

theorem Makes.conv {b : Bool} {h : Heap V C} {out : Sym × Heap V C}
    {l l' : Heap V C → Str → Prop} (m : Makes b h out l)
    (hc : ∀ h', Ext out.2 h' → WF h' → ∀ w, l h' w ↔ l' h' w) : Makes b h out l' :=
  ⟨m.good, m.ext, m.usable, m.defined, fun h' e hw w => (m.lang h' e hw w).trans (hc h' e hw w)⟩

theorem Makes.after {b : Bool} {h h1 : Heap V C} {out : Sym × Heap V C}
    {l : Heap V C → Str → Prop} (m : Makes b h1 out l) (e : Ext h h1) : Makes b h out l :=
  ⟨m.good, e.trans m.ext, m.usable, m.defined, m.lang⟩

theorem or_rules {b : Bool} {h : Heap V C} (hg : Good b h) {s t : Sym} (hs : Usable h s)
    (ht : Usable h t) :
    Makes b h (((h.asRules s).2.asRules t).2.simple ((h.asRules s).1 ++ ((h.asRules s).2.asRules t).1)
      none) (fun h' w => Accepts h' s w ∨ Accepts h' t w) := by
  have h1 := asRules_for hg hs
  have h2 := asRules_for h1.good (h1.ext.usable ht)
  have h3 := simple_makes h2.good (rs := (h.asRules s).1 ++ ((h.asRules s).2.asRules t).1) (by
    intro r hr
    rcases List.mem_append.mp hr with hr | hr
    · exact h2.ext.lt_rls (h1.lt r hr)
    · exact h2.lt r hr) none
  refine (h3.after (h1.ext.trans h2.ext)).conv fun h' e hw w => ?_
  rw [← h1.lang h' ((h2.ext.trans h3.ext).trans e) hw, ← h2.lang h' (h3.ext.trans e) hw]
  simp only [List.mem_append]
  constructor
  · rintro ⟨r, hr | hr, hl⟩
    · exact .inl ⟨r, hr, hl⟩
    · exact .inr ⟨r, hr, hl⟩
  · rintro (⟨r, hr, hl⟩ | ⟨r, hr, hl⟩)
    · exact ⟨r, .inl hr, hl⟩
    · exact ⟨r, .inr hr, hl⟩

theorem or_makes {b : Bool} {h : Heap V C} (hg : Good b h) {s t : Sym} (hs : Usable h s)
    (ht : Usable h t) :
    Makes b h (h.or s t) (fun h' w => Accepts h' s w ∨ Accepts h' t w) := by
  cases s with
  | nt n => simpa only [Heap.or] using or_rules hg hs ht
  | term bits nm =>
    cases t with
    | nt n => simpa only [Heap.or] using or_rules hg hs ht
    | term bits' nm' =>
      refine ⟨hg, Ext.refl _, trivial, nofun, fun h' e hw w => ?_⟩
      simp only [Heap.or, accepts_term, OneOf]
      constructor
      · rintro ⟨c, hc, rfl⟩
        rcases Bool.or_eq_true_iff.mp hc with hc | hc
        · exact .inl ⟨c, hc, rfl⟩
        · exact .inr ⟨c, hc, rfl⟩
      · rintro (⟨c, hc, rfl⟩ | ⟨c, hc, rfl⟩)
        · exact ⟨c, by simp [hc], rfl⟩
        · exact ⟨c, by simp [hc], rfl⟩

theorem concat_lt {h : Heap V C} (hw : WF h) {r1 r2 : Nat} {m : Nat}
    (hm : .nt m ∈ h.grammar.symbolsOf r1 ++ h.grammar.symbolsOf r2) : m < h.nts.length := by
  have key : ∀ r, .nt m ∈ h.grammar.symbolsOf r → m < h.nts.length := by
    intro r hr
    unfold Grammar.symbolsOf at hr
    split at hr
    · rename_i ru hru
      exact hw.syms r ru hru m hr
    · cases hr
  rcases List.mem_append.mp hm with hm | hm
  · exact key r1 hm
  · exact key r2 hm

theorem mul_makes {b : Bool} {h : Heap V C} (hg : Good b h) {s t : Sym} (hs : Usable h s)
    (ht : Usable h t) :
    Makes b h (h.mul s t) (fun h' => Cat (Accepts h' s) (Accepts h' t)) := by
  have h1 := asRule_for hg hs
  have h2 := asRule_for h1.good (h1.ext.usable ht)
  have r1 : (h.asRule s).1 < (h.asRule s).2.rls.length := h1.lt _ (List.mem_singleton.mpr rfl)
  have r2 : ((h.asRule s).2.asRule t).1 < ((h.asRule s).2.asRule t).2.rls.length :=
    h2.lt _ (List.mem_singleton.mpr rfl)
  have hc := newRule_good h2.good (ru := ⟨((h.asRule s).2.asRule t).2.grammar.symbolsOf (h.asRule s).1 ++
    ((h.asRule s).2.asRule t).2.grammar.symbolsOf ((h.asRule s).2.asRule t).1, concatAction
      (((h.asRule s).2.asRule t).2.grammar.symbolsOf (h.asRule s).1).length
      (((h.asRule s).2.asRule t).2.grammar.actionOf (h.asRule s).1)
      (((h.asRule s).2.asRule t).2.grammar.actionOf ((h.asRule s).2.asRule t).1)⟩)
    (fun m hm => concat_lt h2.good.wf hm)
  have hce := newRule_ext ((h.asRule s).2.asRule t).2 ⟨((h.asRule s).2.asRule t).2.grammar.symbolsOf (h.asRule s).1 ++
    ((h.asRule s).2.asRule t).2.grammar.symbolsOf ((h.asRule s).2.asRule t).1, concatAction
      (((h.asRule s).2.asRule t).2.grammar.symbolsOf (h.asRule s).1).length
      (((h.asRule s).2.asRule t).2.grammar.actionOf (h.asRule s).1)
      (((h.asRule s).2.asRule t).2.grammar.actionOf ((h.asRule s).2.asRule t).1)⟩
  have h3 := simple_makes hc (rs := [((h.asRule s).2.asRule t).2.rls.length]) (by
    intro r hr
    rw [List.mem_singleton.mp hr]
    simp [Heap.newRule]) none
  refine (h3.after ((h1.ext.trans h2.ext).trans hce)).conv fun h' e hw w => ?_
  have e3 := h3.ext.trans e
  have e2 := hce.trans e3
  simp only [List.mem_singleton, exists_eq_left, RuleLang]
  have hsy := symbolsOf_of (g := h'.grammar) (e3.rls _ _ (newRule_get ..))
  simp only [Heap.newRule] at hsy
  rw [hsy]
  rw [← e2.symbols (h2.ext.lt_rls r1), ← e2.symbols r2]
  have l1 : ∀ u, RuleLang h' (h.asRule s).1 u ↔ Accepts h' s u := fun u => by
    rw [← h1.lang h' (h2.ext.trans e2) hw u]
    simp
  have l2 : ∀ u, RuleLang h' ((h.asRule s).2.asRule t).1 u ↔ Accepts h' t u := fun u => by
    rw [← h2.lang h' e2 hw u]
    simp
  constructor
  · intro hl
    obtain ⟨u, v, h1, h2, h3⟩ := genSeq_split hl
    exact ⟨u, v, h1, (l1 u).mp h2, (l2 v).mp h3⟩
  · rintro ⟨u, v, rfl, h2, h3⟩
    exact genSeq_append ((l1 u).mpr h2) ((l2 v).mpr h3)

theorem wrapAll_for {b : Bool} {h : Heap V C} (hg : Good b h) (f : Func V C) {rs : List Nat}
    (hr : ∀ r ∈ rs, r < h.rls.length) :
    Good b (h.wrapAll f rs).2 ∧ Ext h (h.wrapAll f rs).2 ∧
    (∀ r ∈ (h.wrapAll f rs).1, r < (h.wrapAll f rs).2.rls.length) ∧
    ∀ h', Ext (h.wrapAll f rs).2 h' → WF h' → ∀ w,
      (∃ r ∈ (h.wrapAll f rs).1, RuleLang h' r w) ↔ ∃ r ∈ rs, RuleLang h' r w := by
  induction rs generalizing h with
  | nil => exact ⟨hg, Ext.refl _, nofun, fun h' _ _ w => (Iff.rfl : _ ↔ _)⟩
  | cons r rs ih =>
    have hru := newRule_good hg (ru := ⟨h.grammar.symbolsOf r,
      some (wrapAction f (h.grammar.actionOf r))⟩)
      (fun m hm => concat_lt (r2 := r) hg.wf (List.mem_append_left _ hm))
    have hre := newRule_ext h ⟨h.grammar.symbolsOf r, some (wrapAction f (h.grammar.actionOf r))⟩
    obtain ⟨i1, i2, i3, i4⟩ := ih hru (fun r' hr' => hre.lt_rls (hr r' (List.mem_cons_of_mem _ hr')))
    refine ⟨i1, hre.trans i2, ?_, ?_⟩
    · intro r' hr'
      rcases List.mem_cons.mp hr' with rfl | hr'
      · exact i2.lt_rls (rls_lt (newRule_get ..))
      · exact i3 r' hr'
    · intro h' e hw w
      have key : RuleLang h' (h.newRule ⟨h.grammar.symbolsOf r,
          some (wrapAction f (h.grammar.actionOf r))⟩).1 w ↔ RuleLang h' r w := by
        unfold RuleLang
        rw [symbolsOf_of (g := h'.grammar) ((i2.trans e).rls _ _ (newRule_get ..)),
          ((hre.trans i2).trans e).symbols (hr r List.mem_cons_self)]
      have := i4 h' e hw w
      simp only [Heap.wrapAll, List.mem_cons, exists_eq_or_imp, key, this]

theorem wrap_makes {b : Bool} {h : Heap V C} (hg : Good b h) {s : Sym} (hs : Usable h s)
    (f : Func V C) (c : Bool) : Makes b h (h.wrap f s c) (fun h' => Accepts h' s) := by
  have h1 := asRules_for hg hs
  obtain ⟨i1, i2, i3, i4⟩ := wrapAll_for h1.good f h1.lt
  have h3 := simple_makes i1 i3 (if c then some false else none)
  refine (h3.after (h1.ext.trans i2)).conv fun h' e hw w => ?_
  rw [i4 h' (h3.ext.trans e) hw, h1.lang h' (i2.trans (h3.ext.trans e)) hw]

/-- A nonterminal object changed, but not in its rules. -/
theorem set_good {b : Bool} {h : Heap V C} (hg : Good b h) {n : Nat} {x x' : NtObj}
    (hx : h.nts[n]? = some x) (h1 : x'.rules = x.rules) (h2 : x'.repeated = x.repeated)
    (h3 : x'.eph = x.eph) (h4 : x.named = true → x'.named = true) (h5 : x'.hole = x.hole) :
    Good b { h with nts := h.nts.set n x' } ∧ Ext h { h with nts := h.nts.set n x' } := by
  have hn := nts_lt hx
  have key : ∀ (k : Nat) (y : NtObj), (h.nts.set n x')[k]? = some y → ∃ z : NtObj, h.nts[k]? = some z ∧ y.rules = z.rules ∧
      y.repeated = z.repeated := by
    intro k y hy
    rw [List.getElem?_set] at hy
    split at hy
    · rename_i hk
      subst hk
      cases hy
      exact ⟨x, hx, h1, h2⟩
    · exact ⟨y, hy, rfl, rfl⟩
  refine ⟨⟨⟨?_, ?_, ?_, hg.wf.empty_rule, ?_⟩, ?_⟩, ⟨?_, fun _ _ h => h⟩⟩
  · intro k y hy
    obtain ⟨z, hz, e1, _⟩ := key k y hy
    rw [e1]
    exact hg.wf.rules k z hz
  · intro r ru hr m hm
    simp only [List.length_set]
    exact hg.wf.syms r ru hr m hm
  · obtain ⟨z, hz, e1, e2⟩ := hg.wf.empty
    by_cases hk : n = 0
    · subst hk
      rw [hx] at hz
      cases hz
      exact ⟨x', by simp only [List.getElem?_set, if_pos hn, if_true], h1.trans e1, h5.trans e2.1, h3.trans e2.2⟩
    · exact ⟨z, by simp only [List.getElem?_set, if_neg hk]; exact hz, e1, e2⟩
  · intro k y hy
    obtain ⟨z, hz, e1, e2⟩ := key k y hy
    rw [e1, e2]
    exact hg.wf.shape k z hz
  · intro hb k y hy
    obtain ⟨z, hz, e1, _⟩ := key k y hy
    rw [e1]
    exact hg.ord hb k z hz
  · intro k y hy
    by_cases hk : n = k
    · subst hk
      rw [hx] at hy
      cases hy
      exact ⟨x', by simp only [List.getElem?_set, if_pos hn, if_true], h2, h3, h4,
        fun hh => ⟨h1, h5.trans hh⟩⟩
    · exact ⟨y, by simp only [List.getElem?_set, if_neg hk]; exact hy, rfl, rfl, id,
        fun hh => ⟨rfl, hh⟩⟩

theorem seal_new {b : Bool} {h : Heap V C} (hg : Good b h) {s : Sym} (hs : Usable h s) (x : NtObj)
    (hxr : x.rules = [h.rls.length]) (hxh : x.hole = false) :
    Makes b h ((h.newRule ⟨[s.g], none⟩).2.newNt x) (fun h' => Accepts h' s) := by
  have h1 := single_for hg hs
  refine ⟨newNt_good h1.good (by rw [hxr]; exact h1.lt), h1.ext.trans (newNt_ext ..),
    ⟨_, newNt_get .., by rw [hxh]; nofun⟩, ?_, fun h' e hw w => ?_⟩
  · intro n hn
    cases hn
    exact ⟨_, newNt_get .., hxh⟩
  · rw [← h1.lang h' ((newNt_ext ..).trans e) hw, ← hxr]
    exact accepts_old hw e (newNt_get ..) hxh

/-- Sealing, also of an undefined symbol. -/
theorem seal_step {b : Bool} {h : Heap V C} (hg : Good b h) (s : Sym) (p : Bool) :
    Good b (h.seal s p).2 ∧ Ext h (h.seal s p).2 ∧
    (Usable h s → ∀ h', Ext (h.seal s p).2 h' → WF h' → ∀ w,
      Accepts h' (h.seal s p).1 w ↔ Accepts h' s w) := by
  have term_new : ∀ (bits : Nat → Bool) (x : NtObj), x.rules = [h.rls.length] → x.hole = false →
      Makes b h ((h.newRule ⟨[.term bits], none⟩).2.newNt x) (fun h' => Accepts h' (.term bits true)) :=
    fun bits x h1 h2 => seal_new hg (s := .term bits true) trivial x h1 h2
  cases s with
  | term bits nm =>
    cases nm with
    | false =>
      exact ⟨hg, Ext.refl _, fun _ h' _ _ w => by simp only [Heap.seal, accepts_term]⟩
    | true =>
      have := term_new bits { rules := [h.rls.length], repeated := false, pivot := p, named := true, eph := none, hole := false } rfl rfl
      exact ⟨this.good, this.ext, fun _ => this.lang⟩
  | nt n =>
    simp only [Heap.seal]
    cases hx : h.nts[n]? with
    | none => exact ⟨hg, Ext.refl _, by intros; first | trivial | exact Iff.rfl⟩
    | some x =>
      simp only
      cases hn : x.named with
      | false =>
        simp only [Bool.false_eq_true, if_false]
        obtain ⟨h1, h2⟩ := set_good hg (x' := { x with named := true, pivot := p }) hx rfl rfl rfl
          (fun _ => rfl) rfl
        exact ⟨h1, h2, by intros; first | trivial | exact Iff.rfl⟩
      | true =>
        simp only [if_true]
        by_cases hu : Usable h (.nt n)
        · have := seal_new hg hu { rules := [h.rls.length], repeated := false, pivot := p, named := true, eph := none, hole := false } rfl rfl
          exact ⟨this.good, this.ext, fun _ => this.lang⟩
        · have h1 := newRule_good hg (ru := ⟨[.nt n], none⟩) (by
            intro m hm
            simp only [List.mem_singleton, GSym.nt.injEq] at hm
            subst hm
            exact nts_lt hx)
          exact ⟨newNt_good h1 (by
              intro r hr
              rw [List.mem_singleton.mp hr]
              simp [Heap.newRule]), (newRule_ext ..).trans (newNt_ext ..), fun hu' => absurd hu' hu⟩

theorem seal_usable {h : Heap V C} {s : Sym} (p : Bool) (hs : match s with
      | .term _ _ => True
      | .nt n => ∃ x : NtObj, h.nts[n]? = some x ∧ (x.hole = true → x.eph ≠ some true)) :
    Usable (h.seal s p).2 (h.seal s p).1 := by
  cases s with
  | term bits nm =>
    cases nm with
    | false => trivial
    | true => exact ⟨_, newNt_get .., nofun⟩
  | nt n =>
    obtain ⟨x, hx, hh⟩ := hs
    simp only [Heap.seal, hx]
    cases hn : x.named with
    | true => exact ⟨_, newNt_get .., nofun⟩
    | false =>
      refine ⟨{ x with named := true, pivot := p }, ?_, ?_⟩
      · simp [nts_lt hx]
      · intro hx'
        have := hh hx'
        unfold NtObj.ephemeral
        simp only
        cases he : x.eph with
        | none => rfl
        | some b =>
          cases b with
          | false => rfl
          | true => exact absurd he this

/-- Sealing a symbol that may be used. -/
theorem seal_makes {b : Bool} {h : Heap V C} (hg : Good b h) {s : Sym} (hs : Usable h s) (p : Bool)
    (hd : ∀ n, s = .nt n → Defined h n) : Makes b h (h.seal s p) (fun h' => Accepts h' s) := by
  obtain ⟨h1, h2, h3⟩ := seal_step hg s p
  refine ⟨h1, h2, seal_usable p ?_, ?_, h3 hs⟩
  · cases s with
    | term => trivial
    | nt n =>
      obtain ⟨x, hx, hh⟩ := hd n rfl
      exact ⟨x, hx, by rw [hh]; nofun⟩
  · intro n hn
    cases s with
    | term bits nm =>
      cases nm with
      | false => simp [Heap.seal] at hn
      | true => cases hn; exact ⟨_, newNt_get .., rfl⟩
    | nt m =>
      obtain ⟨x, hx, hh⟩ := hd m rfl
      simp only [Heap.seal, hx] at hn ⊢
      cases hnm : x.named with
      | true =>
        simp only [hnm, if_true] at hn ⊢
        cases hn
        exact ⟨_, newNt_get .., rfl⟩
      | false =>
        simp only [hnm, Bool.false_eq_true, if_false] at hn ⊢
        cases hn
        exact ⟨{ x with named := true, pivot := p }, by simp [nts_lt hx], hh⟩

theorem group_step {b : Bool} {h : Heap V C} (hg : Good b h) {s : Sym} (hs : Usable h s) :
    Good b (h.group s).2 ∧ Ext h (h.group s).2 ∧ Usable (h.group s).2 (h.group s).1 ∧
    ∀ h', Ext (h.group s).2 h' → WF h' → ∀ w, Accepts h' (h.group s).1 w ↔ Accepts h' s w := by
  cases s with
  | term bits nm => exact ⟨hg, Ext.refl _, trivial, fun h' _ _ w => (Iff.rfl : _ ↔ _)⟩
  | nt n =>
    obtain ⟨x, hx, hh⟩ := hs
    simp only [Heap.group, hx]
    cases he : x.ephemeral with
    | false =>
      simp only [Bool.false_eq_true, if_false]
      exact ⟨hg, Ext.refl _, ⟨x, hx, hh⟩, by intros; first | trivial | exact Iff.rfl⟩
    | true =>
      have hxh : x.hole = false := by
        cases hxh : x.hole with
        | false => rfl
        | true => rw [hh hxh] at he; cases he
      simp only [if_true]
      have := simple_makes hg (hg.wf.rules n x hx) (some false)
      refine ⟨this.good, this.ext, this.usable, fun h' e hw w => ?_⟩
      rw [this.lang h' e hw, accepts_old hw (this.ext.trans e) hx hxh]

theorem recursive_step {b : Bool} {h : Heap V C} (hg : Good b h) :
    Good b h.recursive.2 ∧ Ext h h.recursive.2 :=
  ⟨newNt_good hg nofun, newNt_ext ..⟩

/-- Setting the rules of a symbol that has none yet. -/
theorem setRules_step {b : Bool} {h : Heap V C} (hg : Good b h) {n m : Nat} {x y : NtObj}
    (hx : h.nts[n]? = some x) (hh : x.hole = true) (hy : h.nts[m]? = some y) (hyh : y.hole = false)
    (hshape : x.repeated = true →
      (∃ z : GSym, (∃ r ∈ y.rules, ∃ ru : GRule V C, h.rls[r]? = some ru ∧ ru.symbols = []) ∧
        ∀ r ∈ y.rules, ∀ ru : GRule V C, h.rls[r]? = some ru →
          ru.symbols = [] ∨ ru.symbols = [.nt n, z]))
    (hord : b = true →
      (∀ r ∈ y.rules, ∀ ru : GRule V C, h.rls[r]? = some ru → ∀ m ∈ leading ru.symbols, m < n) ∨
      (∃ (e : Nat) (rest : List Nat) (ru : GRule V C), y.rules = e :: rest ∧ h.rls[e]? = some ru ∧ ru.symbols = [])) :
    Good b (h.setRules n (.nt m)) ∧ Ext h (h.setRules n (.nt m)) ∧
    (h.setRules n (.nt m)).nts[n]? = some { x with rules := y.rules, hole := false } ∧
    ∀ h', Ext (h.setRules n (.nt m)) h' → WF h' → ∀ w, Accepts h' (.nt n) w ↔ Accepts h' (.nt m) w := by
  have hn := nts_lt hx
  have hset : h.setRules n (.nt m) =
      { h with nts := h.nts.set n { x with rules := y.rules, hole := false } } := by
    simp only [Heap.setRules, hx, Heap.rulesOf, hy]
  rw [hset]
  have key : ∀ (k : Nat) (z : NtObj), (h.nts.set n { x with rules := y.rules, hole := false })[k]? = some z →
      (k = n ∧ z = { x with rules := y.rules, hole := false }) ∨ (h.nts[k]? = some z ∧ k ≠ n) := by
    intro k z hz
    rw [List.getElem?_set] at hz
    split at hz
    · rename_i hk
      subst hk
      exact .inl ⟨rfl, (Option.some.inj hz).symm⟩
    · rename_i hk
      exact .inr ⟨hz, Ne.symm hk⟩
  have hget : (h.nts.set n { x with rules := y.rules, hole := false })[n]? =
      some { x with rules := y.rules, hole := false } := by
    simp only [List.getElem?_set, if_pos hn, if_true]
  have hext : Ext h { h with nts := h.nts.set n { x with rules := y.rules, hole := false } } := by
    refine ⟨fun k z hz => ?_, fun _ _ h => h⟩
    by_cases hk : n = k
    · subst hk
      rw [hx] at hz
      cases hz
      exact ⟨_, hget, rfl, rfl, id, fun hh' => by rw [hh] at hh'; cases hh'⟩
    · exact ⟨z, by simp only [List.getElem?_set, if_neg hk]; exact hz, rfl, rfl, id,
        fun hh => ⟨rfl, hh⟩⟩
  have hwf : WF { h with nts := h.nts.set n { x with rules := y.rules, hole := false } } := by
    refine ⟨?_, ?_, ?_, hg.wf.empty_rule, ?_⟩
    · intro k z hz
      rcases key k z hz with ⟨_, rfl⟩ | ⟨hz, _⟩
      · exact hg.wf.rules m y hy
      · exact hg.wf.rules k z hz
    · intro r ru hr m hm
      simp only [List.length_set]
      exact hg.wf.syms r ru hr m hm
    · obtain ⟨z, hz, e1, e2⟩ := hg.wf.empty
      have hk : n ≠ 0 := by
        rintro rfl
        rw [hx] at hz
        cases hz
        rw [hh] at e2
        cases e2.1
      exact ⟨z, by simp only [List.getElem?_set, if_neg hk]; exact hz, e1, e2⟩
    · intro k z hz hr
      rcases key k z hz with ⟨rfl, rfl⟩ | ⟨hz, _⟩
      · exact .inr (hshape hr)
      · exact hg.wf.shape k z hz hr
  refine ⟨⟨hwf, ?_⟩, hext, hget, ?_⟩
  · intro hb k z hz
    rcases key k z hz with ⟨rfl, rfl⟩ | ⟨hz, _⟩
    · exact hord hb
    · exact hg.ord hb k z hz
  · intro h' e hw w
    rw [accepts_old hw e hget rfl, accepts_old hw (hext.trans e) hy hyh]

end Httpolice.Lemmas
