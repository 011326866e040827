import Verif.Lemmas.Dens

/-!
# Definitions of symbols by expressions
-/

namespace Httpolice.Lemmas

open Httpolice.Model Httpolice.Spec

section
variable {b : Bool} {ann : GVal → Bool} {h h' : PyHeap}

/-- What any symbol comes to in `|` and `<<`. -/
def spreadD (h h' : PyHeap) (ann : GVal → Bool) (s : Sym) : Den := fun w vs cs =>
  ∃ ns c d, Spread h h' (pyOps ann) s w ns c d ∧ vs = kept ns ∧ (c ++ d).Perm cs

/-- The same in `*`. -/
def onceD (h h' : PyHeap) (ann : GVal → Bool) (s : Sym) : Den := fun w vs cs =>
  ∃ ns c d, Once h h' (pyOps ann) s w ns c d ∧ vs = kept ns ∧ (c ++ d).Perm cs

theorem any_denotes {s : Sym} (hs : Usable h s) :
    Denotes ann h s (fun h' => spreadD h h' ann s) (fun h' => onceD h h' ann s) := by
  refine ⟨hs, fun h' _ _ => ⟨?_, ?_⟩, fun h' _ _ => ⟨?_, ?_⟩⟩
  · exact fun w ns c d hv => ⟨_, .refl _, ns, c, d, hv, rfl, .refl _⟩
  · rintro w vs cs ⟨ns, c, d, h1, rfl, p⟩
    exact ⟨ns, c, d, h1, rfl, p⟩
  · exact fun w ns c d hv => ⟨_, .refl _, ns, c, d, hv, rfl, .refl _⟩
  · rintro w vs cs ⟨ns, c, d, h1, rfl, p⟩
    exact ⟨ns, c, d, h1, rfl, p⟩

theorem one_spread (hf : Full h) (e : Ext h h') (hw : WF h') {s : Sym} (hs : Usable h s) :
    oneD (spreadD h h' ann s) = symbolD h' (pyOps ann) s := by
  funext w vs cs
  refine propext ⟨?_, ?_⟩
  · rintro ⟨_, ⟨ns, c, d, h1, rfl, p⟩, rfl⟩
    exact ⟨_, c ++ d, value_iff.mpr ((whole_spread hf e hw hs).mpr ⟨ns, c, d, h1, collapses_iff.mpr rfl, rfl⟩), rfl,
      p.symm⟩
  · rintro ⟨node, c, h1, rfl, p⟩
    obtain ⟨ns, c, d, h2, h3, rfl⟩ := (whole_spread hf e hw hs).mp (value_iff.mp h1)
    exact ⟨_, ⟨ns, c, d, h2, rfl, p.symm⟩, by rw [collapses_iff.mp h3]⟩

theorem oneD_idem (D : Den) : oneD (oneD D) = oneD D := by
  funext w vs cs
  exact propext (few_one (few_oneD D))

theorem one_once (hf : Full h) (e : Ext h h') (hw : WF h') {s : Sym} (hs : Usable h s) :
    oneD (onceD h h' ann s) = symbolD h' (pyOps ann) s := by
  rw [← one_spread hf e hw hs]
  rcases once_cases hf e hw hs (pyOps ann) with hc | hc
  · unfold onceD spreadD
    simp only [hc]
  · rw [← oneD_idem (spreadD h h' ann s)]
    congr 1
    funext w vs cs
    unfold onceD
    simp only [hc]
    refine propext ⟨?_, ?_⟩
    · rintro ⟨_, c, _, ⟨node, rfl, ⟨ns, c, d, h1, h2, rfl⟩, rfl⟩, rfl, p⟩
      rw [List.append_nil] at p
      exact ⟨_, ⟨ns, c, d, h1, rfl, p⟩, by rw [collapses_iff.mp h2, kept_one]⟩
    · rintro ⟨_, ⟨ns, c, d, h1, rfl, p⟩, rfl⟩
      exact ⟨[nodeOf (kept ns)], _, [], ⟨_, rfl, ⟨ns, c, d, h1, collapses_iff.mpr rfl, rfl⟩, rfl⟩,
        (kept_one _).symm, by rw [List.append_nil]; exact p⟩

theorem spread_plain {s : Sym} (hp : Plain h s) :
    spreadD h h' ann s = symbolD h' (pyOps ann) s := by
  have key : ∀ w ns c d, Spread h h' (pyOps ann) s w ns c d ↔ unpack (Whole h' (pyOps ann) s) w ns c d := by
    intro w ns c d
    cases s with
    | term => exact Iff.rfl
    | nt n =>
      obtain ⟨x, hx, he⟩ := hp
      simp only [Spread, hx, he, Bool.false_eq_true, if_false]
  funext w vs cs
  unfold spreadD
  simp only [key]
  refine propext ⟨?_, ?_⟩
  · rintro ⟨_, c, _, ⟨node, rfl, h1, rfl⟩, rfl, p⟩
    rw [List.append_nil] at p
    exact ⟨node, c, value_iff.mpr h1, kept_one _, p.symm⟩
  · rintro ⟨node, c, h1, rfl, p⟩
    exact ⟨[node], c, [], ⟨node, rfl, value_iff.mp h1, rfl⟩, (kept_one _).symm, by rw [List.append_nil]; exact p.symm⟩

theorem once_plain {s : Sym} (hp : Plain h s) :
    onceD h h' ann s = symbolD h' (pyOps ann) s := by
  rw [← spread_plain hp]
  unfold onceD spreadD
  cases s with
  | term => rfl
  | nt n =>
    obtain ⟨x, hx, he⟩ := hp
    simp only [Once, Spread, hx, he, Bool.false_eq_true, if_false]

/-- All symbols mentioned are usable. -/
def AllUsable (h : PyHeap) : Expr → Prop
  | .sym s => Usable h s
  | .empty => True
  | .lit _ _ => True
  | .seq a b => AllUsable h a ∧ AllUsable h b
  | .alt a b => AllUsable h a ∧ AllUsable h b
  | .app _ _ a => AllUsable h a
  | .group a => AllUsable h a
  | .times _ _ a => AllUsable h a

theorem given_of_usable {e : Expr} (hu : AllUsable h e) :
    Given ann h (fun h' => spreadD h h' ann) (fun h' => onceD h h' ann) e := by
  induction e with
  | sym s => exact any_denotes hu
  | empty => trivial
  | lit => trivial
  | seq a c ih1 ih2 => exact ⟨ih1 hu.1, ih2 hu.2⟩
  | alt a c ih1 ih2 => exact ⟨ih1 hu.1, ih2 hu.2⟩
  | app f c a ih => exact ih hu
  | group a ih => exact ih hu
  | times min max a ih => exact ih hu

/-- Complaints in any order. -/
def permD (D : Den) : Den := fun w vs cs => ∃ c, D w vs c ∧ cs.Perm c

theorem symbol_of_denotes (hf : Full h) {s : Sym} {D P : PyHeap → Den} (m : Denotes ann h s D P)
    (e : Ext h h') (hw : WF h') : symbolD h' (pyOps ann) s = permD (oneD (D h')) := by
  funext w vs cs
  refine propext ⟨?_, ?_⟩
  · rintro ⟨node, c, h1, rfl, p⟩
    obtain ⟨xs, c', h2, rfl, p'⟩ := (m.value hf e hw (w := w) (node := node) (cs := cs)).mp ⟨c, h1, p⟩
    exact ⟨c', ⟨xs, h2, rfl⟩, p'⟩
  · rintro ⟨c', ⟨xs, h2, rfl⟩, p'⟩
    obtain ⟨c, h1, p⟩ := (m.value hf e hw (w := w) (node := nodeOf xs) (cs := cs)).mpr ⟨xs, c', h2, rfl, p'⟩
    exact ⟨_, c, h1, rfl, p⟩

theorem define_builds (hb : Builds b Heap.init h) {e : Expr} (hu : AllUsable h e) (p : Bool) :
    Builds b h (e.define h p).2 :=
  .seal (expr_built (ann := fun _ => false) (builds_good hb init_good).1 (builds_full hb init_good init_full)
    (given_of_usable hu)).builds

/-- What a symbol that has been defined by an expression evaluates to. -/
theorem define_symbol (hb : Builds b Heap.init h) {e : Expr} (hu : AllUsable h e) (p : Bool)
    (later : Builds b (e.define h p).2 h') (ann : GVal → Bool) :
    symbolD h' (pyOps ann) (e.define h p).1 =
      permD (oneD (e.den (spreadD h h' ann) (onceD h h' ann))) := by
  have m := expr_built (b := b) (ann := ann) (builds_good hb init_good).1 (builds_full hb init_good init_full)
    (given_of_usable hu)
  have hb1 := builds_trans hb m.builds
  have g1 := (builds_good hb1 init_good).1
  obtain ⟨g2, e2⟩ := builds_good (.seal (a := (e.build h).1) (pivot := p) .refl) g1
  obtain ⟨g, ex⟩ := builds_good later g2
  rw [← symbol_of_denotes (builds_full hb1 init_good init_full) m.toDenotes (e2.trans ex) g.wf]
  funext w vs cs
  unfold symbolD
  simp only [value_iff]
  exact propext (exists_congr fun _ => exists_congr fun _ => and_congr_left' (seal_whole g1 m.usable p ex g.wf))

theorem define_plain (hb : Builds b Heap.init h) {e : Expr} (hu : AllUsable h e) (p : Bool) :
    Plain (e.define h p).2 (e.define h p).1 := by
  have m := expr_built (b := b) (ann := fun _ => false) (builds_good hb init_good).1
    (builds_full hb init_good init_full) (given_of_usable hu)
  exact seal_plain (builds_full (builds_trans hb m.builds) init_good init_full) m.usable p

theorem Plain.usable {s : Sym} (hp : Plain h s) : Usable h s := by
  cases s with
  | term => trivial
  | nt n =>
    obtain ⟨x, hx, he⟩ := hp
    exact ⟨x, hx, fun _ => he⟩

/-- A symbol that is not inlined and that comes to this, whatever is built later. -/
structure Is (b : Bool) (ann : GVal → Bool) (h : PyHeap) (s : Sym) (D : Den) : Prop where
  plain : Plain h s
  means : ∀ h', Builds b h h' → symbolD h' (pyOps ann) s = D

theorem Is.usable {s : Sym} {D : Den} (i : Is b ann h s D) : Usable h s := Plain.usable i.plain

theorem Is.later {s : Sym} {D : Den} (hb : Builds b Heap.init h) (i : Is b ann h s D) (l : Builds b h h') :
    Is b ann h' s D :=
  ⟨(builds_good l (builds_good hb init_good).1).2.plain i.plain, fun _ l' => i.means _ (builds_trans l l')⟩

theorem Is.spread {s : Sym} {D : Den} (i : Is b ann h s D) (l : Builds b h h') : spreadD h h' ann s = D :=
  (spread_plain i.plain).trans (i.means _ l)

theorem Is.once {s : Sym} {D : Den} (i : Is b ann h s D) (l : Builds b h h') : onceD h h' ann s = D :=
  (once_plain i.plain).trans (i.means _ l)

theorem is_term (bits : Nat → Bool) (nm : Bool) : Is b ann h (.term bits nm) (charD bits) := by
  refine ⟨trivial, fun h' _ => ?_⟩
  funext w vs cs
  unfold symbolD charD
  refine propext ⟨?_, ?_⟩
  · rintro ⟨node, c, hv, rfl, p⟩
    have := value_iff.mp hv
    cases this with
    | term h1 h2 =>
      cases h2
      rw [List.Perm.eq_nil p]
      exact ⟨_, h1, rfl, rfl, rfl⟩
  · rintro ⟨c, hc, rfl, rfl, rfl⟩
    exact ⟨.val (.text [c]), [], value_iff.mpr (.term hc .nil), rfl, .refl _⟩

/-- A definition by an expression. -/
theorem is_define (hb : Builds b Heap.init h) {e : Expr} (hu : AllUsable h e) (p : Bool) {D : Den}
    (hd : ∀ h', Builds b h h' → permD (oneD (e.den (spreadD h h' ann) (onceD h h' ann))) = D) :
    Is b ann (e.define h p).2 (e.define h p).1 D :=
  ⟨define_plain hb hu p, fun _ later =>
    (define_symbol hb hu p later ann).trans (hd _ (builds_trans (define_builds hb hu p) later))⟩

/-- Nothing to be put in order. -/
theorem permD_quiet {D : Den} (hq : ∀ w vs cs, D w vs cs → cs = []) : permD D = D := by
  funext w vs cs
  refine propext ⟨?_, fun hd => ⟨cs, hd, .refl _⟩⟩
  rintro ⟨c, hd, p⟩
  have := hq _ _ _ hd
  subst this
  rw [List.Perm.eq_nil p]
  exact hd

end

end Httpolice.Lemmas
