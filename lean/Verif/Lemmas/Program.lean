import Verif.Lemmas.CommaList
import Verif.Spec.Program

/-!
# What the definitions of a module come to
-/

namespace Httpolice.Lemmas

open Httpolice.Model Httpolice.Spec

/-! ## `string_excluding` as an expression -/

theorem excludeLoopE_build {rec : List Str → Expr} {rec' : PyHeap → List Str → Sym × PyHeap} {xs : List Str}
    (cs : List Nat) (hrec : ∀ c ∈ cs, ∀ h, (rec (continuations c xs)).build h = rec' h (continuations c xs))
    (h : PyHeap) (r : Expr) :
    (excludeLoopE rec xs r cs).build h = Heap.excludeLoop rec' xs (r.build h).2 (r.build h).1 cs := by
  induction cs generalizing r with
  | nil => rfl
  | cons c cs ih =>
    rw [excludeLoopE, ih fun c hc => hrec c (List.mem_cons_of_mem _ hc)]
    simp only [Expr.build, hrec c List.mem_cons_self]
    rfl

theorem excludeEndE_build (xs : List Str) (h : PyHeap) (r : Expr) :
    (excludeEndE xs r).build h = (r.build h).2.excludeEnd xs (r.build h).1 := by
  unfold excludeEndE Heap.excludeEnd
  by_cases hx : [] ∈ xs
  · rw [if_pos hx, if_pos hx]
  · rw [if_neg hx, if_neg hx]
    rfl

theorem addE_build (h : PyHeap) (bits bits' : Nat → Bool) (nm nm' : Bool) :
    (Expr.add (.sym (.term bits' nm')) (.string (.sym (.term bits nm)))).build h =
      (h.string (.term bits nm)).2.add (.term bits' nm') (h.string (.term bits nm)).1 := rfl

theorem excludingToE_build (order : List Nat → List Nat) (bits : Nat → Bool) (nm : Bool) (n : Nat) (h : PyHeap)
    (xs : List Str) : (excludingToE order bits nm n xs).build h = stringExcludingTo order bits nm n h xs := by
  induction n generalizing h xs with
  | zero => rw [excludingToE, excludeEndE_build, addE_build]; rfl
  | succ n ih =>
    rw [excludingToE, excludeEndE_build,
      excludeLoopE_build (rec' := stringExcludingTo order bits nm n) _ (fun c _ h => ih h _), addE_build]
    rfl

/-- The expression runs as the function does. -/
theorem excludingE_build (order : List Nat → List Nat) (bits : Nat → Bool) (nm : Bool) (h : PyHeap) (xs : List Str) :
    (excludingE order bits nm xs).build h = h.stringExcluding order bits nm xs := excludingToE_build ..

section
variable {b : Bool} {ann : GVal → Bool} {h h' : PyHeap}

theorem excludingToE_usable (order : List Nat → List Nat) (bits : Nat → Bool) (nm : Bool) (n : Nat)
    (xs : List Str) : AllUsable h (excludingToE order bits nm n xs) := by
  have hend : ∀ xs r, AllUsable h r → AllUsable h (excludeEndE xs r) := by
    intro xs r hr
    unfold excludeEndE
    split
    · exact hr
    · exact ⟨hr, trivial⟩
  have hloop : ∀ (rec : List Str → Expr) (_ : ∀ xs, AllUsable h (rec xs)) (xs : List Str) (cs : List Nat) (r : Expr),
      AllUsable h r → AllUsable h (excludeLoopE rec xs r cs) := by
    intro rec hrec xs cs
    induction cs with
    | nil => exact fun r hr => hr
    | cons c cs ih => exact fun r hr => ih _ ⟨hr, trivial, hrec _⟩
  induction n generalizing xs with
  | zero => exact hend _ _ ⟨trivial, trivial⟩
  | succ n ih => exact hend _ _ (hloop _ ih _ _ _ ⟨trivial, trivial⟩)

theorem excludingE_usable (order : List Nat → List Nat) (bits : Nat → Bool) (nm : Bool) (xs : List Str) :
    AllUsable h (excludingE order bits nm xs) := excludingToE_usable ..

theorem add_echo {A B : Den} (ha : Echo A) (hb : Echo B) : Echo (appD addF (thenD A B)) := by
  rintro w vs cs ⟨_, _, ⟨u, v, _, _, _, _, rfl, rfl, rfl, h1, h2⟩, rfl, rfl⟩
  obtain ⟨rfl, rfl⟩ := ha _ _ _ h1
  obtain ⟨rfl, rfl⟩ := hb _ _ _ h2
  exact ⟨rfl, rfl⟩

theorem string_is_echo {A : Den} (ha : Echo A) : Echo (appD joinF (timesD A A 0 none)) :=
  fun _ _ _ hd => ((string_echo ha).mp hd).2

theorem excludingToE_echo {σ : Sym → Den} (hσ : ∀ bits nm, Echo (σ (.term bits nm))) (order : List Nat → List Nat)
    (bits : Nat → Bool) (nm : Bool) (n : Nat) (xs : List Str) :
    Echo ((excludingToE order bits nm n xs).den σ σ) := by
  have hend : ∀ xs (r : Expr), Echo (r.den σ σ) → Echo ((excludeEndE xs r).den σ σ) := by
    intro xs r hr
    unfold excludeEndE
    split
    · exact hr
    · refine orD_echo hr fun w vs cs hd => ?_
      obtain ⟨rfl, rfl, rfl⟩ := subst_empty.mp hd
      exact ⟨rfl, rfl⟩
  have hpart : ∀ e : Expr, Echo (e.den σ σ) → Echo (e.part σ (e.den σ σ)) := by
    intro e he
    rw [part_same he.single]
    exact he
  have hloop : ∀ (rec : List Str → Expr) (_ : ∀ xs, Echo ((rec xs).den σ σ)) (xs : List Str) (cs : List Nat) (r : Expr),
      Echo (r.den σ σ) → Echo ((excludeLoopE rec xs r cs).den σ σ) := by
    intro rec hrec xs cs
    induction cs with
    | nil => exact fun r hr => hr
    | cons c cs ih => exact fun r hr => ih _ (orD_echo hr (add_echo (hσ _ _) (hpart _ (hrec _))))
  induction n generalizing xs with
  | zero => exact hend _ _ (add_echo (hσ _ _) (string_is_echo (hσ _ _)))
  | succ n ih => exact hend _ _ (hloop _ ih _ _ _ (add_echo (hσ _ _) (string_is_echo (hσ _ _))))

/-- A symbol that is a terminal stands for its octets. -/
theorem spread_term (bits : Nat → Bool) (nm : Bool) : spreadD h h' ann (.term bits nm) = charD bits :=
  (is_term (b := true) (h := h') bits nm).spread .refl

theorem once_term (bits : Nat → Bool) (nm : Bool) : onceD h h' ann (.term bits nm) = charD bits :=
  (is_term (b := true) (h := h') bits nm).once .refl

/-- Symbols for terminals only. -/
def termD : Sym → Den
  | .term bits _ => charD bits
  | .nt _ => nothingD

theorem termD_echo (bits : Nat → Bool) (nm : Bool) : Echo (termD (.term bits nm)) := charD_echo bits

/-- Only terminals are used. -/
def OnlyTerms : Expr → Prop
  | .sym (.term _ _) => True
  | .sym (.nt _) => False
  | .empty => True
  | .lit _ _ => True
  | .seq a b => OnlyTerms a ∧ OnlyTerms b
  | .alt a b => OnlyTerms a ∧ OnlyTerms b
  | .app _ _ a => OnlyTerms a
  | .group a => OnlyTerms a
  | .times _ _ a => OnlyTerms a

theorem terms_den {σ π : Sym → Den} (hσ : ∀ bits nm, σ (.term bits nm) = charD bits)
    (hπ : ∀ bits nm, π (.term bits nm) = charD bits) {e : Expr} (he : OnlyTerms e) :
    e.den σ π = e.den termD termD ∧ e.part π (e.den σ π) = e.part termD (e.den termD termD) := by
  induction e with
  | sym s =>
    cases s with
    | term bits nm => exact ⟨hσ .., hπ ..⟩
    | nt n => exact he.elim
  | empty => exact ⟨rfl, rfl⟩
  | lit => exact ⟨rfl, rfl⟩
  | seq a b ih1 ih2 =>
    have : Expr.den σ π (.seq a b) = Expr.den termD termD (.seq a b) := by
      simp only [Expr.den, (ih1 he.1).2, (ih2 he.2).2]
    exact ⟨this, this⟩
  | alt a b ih1 ih2 =>
    have : Expr.den σ π (.alt a b) = Expr.den termD termD (.alt a b) := by
      simp only [Expr.den, (ih1 he.1).1, (ih2 he.2).1]
    exact ⟨this, by simp only [Expr.part, this]⟩
  | app f c a ih =>
    have : Expr.den σ π (.app f c a) = Expr.den termD termD (.app f c a) := by
      simp only [Expr.den, (ih he).1]
    exact ⟨this, this⟩
  | group a ih =>
    have : Expr.den σ π (.group a) = Expr.den termD termD (.group a) := by
      simp only [Expr.den, (ih he).1]
    exact ⟨this, this⟩
  | times min max a ih =>
    have : Expr.den σ π (.times min max a) = Expr.den termD termD (.times min max a) := by
      simp only [Expr.den]
      rw [(ih he).2, (ih he).1]
    exact ⟨this, this⟩

theorem excludingToE_terms (order : List Nat → List Nat) (bits : Nat → Bool) (nm : Bool) (n : Nat)
    (xs : List Str) : OnlyTerms (excludingToE order bits nm n xs) := by
  have hend : ∀ xs r, OnlyTerms r → OnlyTerms (excludeEndE xs r) := by
    intro xs r hr
    unfold excludeEndE
    split
    · exact hr
    · exact ⟨hr, trivial⟩
  have hloop : ∀ (rec : List Str → Expr) (_ : ∀ xs, OnlyTerms (rec xs)) (xs : List Str) (cs : List Nat) (r : Expr),
      OnlyTerms r → OnlyTerms (excludeLoopE rec xs r cs) := by
    intro rec hrec xs cs
    induction cs with
    | nil => exact fun r hr => hr
    | cons c cs ih => exact fun r hr => ih _ ⟨hr, trivial, hrec _⟩
  induction n generalizing xs with
  | zero => exact hend _ _ ⟨trivial, trivial⟩
  | succ n ih => exact hend _ _ (hloop _ ih _ _ _ ⟨trivial, trivial⟩)

/-- What `string_excluding` evaluates to. -/
theorem excluding_termD {order : List Nat → List Nat} (horder : ∀ l c, c ∈ order l ↔ c ∈ l) (bits : Nat → Bool)
    (nm : Bool) {xs : List Str} (hxs : ∀ x ∈ xs, ∀ c ∈ x, ∀ d, SameLetter d c → bits d = true) :
    (excludingE order bits nm xs).den termD termD = exclD bits xs := by
  have hterms : OnlyTerms (excludingE order bits nm xs) := excludingToE_terms ..
  have m := stringExcluding_made (b := true) horder bits nm init_good xs hxs
  rw [← excludingE_build] at m
  have d := expr_built (b := true) (ann := fun _ => false) init_good init_full
    (given_of_usable (excludingE_usable order bits nm xs))
  have hf := builds_full d.builds init_good init_full
  have hval := fun w node cs => d.toDenotes.value hf (Ext.refl _) m.good.wf (w := w) (node := node) (cs := cs)
  simp only [(terms_den spread_term once_term hterms).1] at hval
  have hlang : ∀ w, langD ((excludingE order bits nm xs).den termD termD) w ↔ Excluded bits xs w := by
    intro w
    rw [← m.lang _ (Ext.refl _) m.good.wf w, accepts_value m.good.wf (pyOps fun _ => false)]
    constructor
    · rintro ⟨vs, c, hd⟩
      obtain ⟨c, hv, _⟩ := (hval w (nodeOf vs) c).mpr ⟨vs, c, hd, rfl, .refl _⟩
      exact ⟨_, _, hv⟩
    · rintro ⟨node, cs, hv⟩
      obtain ⟨vs, c, hd, _⟩ := (hval w node cs).mp ⟨cs, hv, .refl _⟩
      exact ⟨vs, c, hd⟩
  have hecho : Echo ((excludingE order bits nm xs).den termD termD) :=
    excludingToE_echo termD_echo order bits nm _ xs
  funext w vs cs
  refine propext ⟨fun hd => ?_, ?_⟩
  · obtain ⟨h1, h2⟩ := (hlang w).mp ⟨_, _, hd⟩
    exact ⟨⟨h1, fun x hx hs => h2 ⟨x, hx, hs⟩⟩, hecho _ _ _ hd⟩
  · rintro ⟨⟨h1, h2⟩, rfl, rfl⟩
    obtain ⟨vs, cs, hd⟩ := (hlang w).mpr ⟨h1, fun ⟨x, hx, hs⟩ => h2 x hx hs⟩
    obtain ⟨rfl, rfl⟩ := hecho _ _ _ hd
    exact hd

theorem part_few {π : Sym → Den} {D : Den} (hD : Few D) {e : Expr} (he : ∀ s, e ≠ .sym s) : e.part π D = D := by
  cases e with
  | sym s => exact absurd rfl (he s)
  | alt a c => funext w vs cs; exact propext (few_one hD)
  | _ => rfl

theorem excludingE_notSym (order : List Nat → List Nat) (bits : Nat → Bool) (nm : Bool) (xs : List Str) (s : Sym) :
    excludingE order bits nm xs ≠ .sym s := by
  have hend : ∀ xs r, (∀ s, r ≠ Expr.sym s) → ∀ s, excludeEndE xs r ≠ .sym s := by
    intro xs r hr s
    unfold excludeEndE
    split
    · exact hr s
    · exact nofun
  have hloop : ∀ (rec : List Str → Expr) (xs : List Str) (cs : List Nat) (r : Expr),
      (∀ s, r ≠ Expr.sym s) → ∀ s, excludeLoopE rec xs r cs ≠ .sym s := by
    intro rec xs cs
    induction cs with
    | nil => exact fun r hr => hr
    | cons c cs ih => exact fun r hr => ih _ (fun _ he => nomatch he)
  unfold excludingE
  cases maxLength xs with
  | zero =>
    refine hend _ _ ?_ _
    intro _ he
    cases he
  | succ n =>
    refine hend _ _ (hloop _ _ _ _ ?_) _
    intro _ he
    cases he

/-! ## Expressions with names -/

variable {N : Type} {env : N → Sym} {δ : N → Den} {known : List N}

theorem Ext.defined {n : Nat} (e : Ext h h') (hd : Defined h n) : Defined h' n := by
  obtain ⟨x, hx, hh⟩ := hd
  obtain ⟨x', h1, _, _, _, h2⟩ := e.nts n x hx
  exact ⟨x', h1, (h2 hh).2⟩

/-- The names stand for their denotations in these objects. -/
def Knows (b : Bool) (ann : GVal → Bool) (h : PyHeap) (env : N → Sym) (δ : N → Den) (known : List N) : Prop :=
  ∀ n ∈ known, Is b ann h (env n) (δ n) ∧ ∀ k, env n = .nt k → Defined h k

theorem usable_fine {env : N → Sym} {known : List N} (hk : ∀ n ∈ known, Usable h (env n)) {e : GExpr N} (he : e.Fine known) :
    AllUsable h (e.expr env) := by
  induction e with
  | ref n => exact hk n he
  | chars => trivial
  | empty => trivial
  | lit => trivial
  | seq a c ih1 ih2 => exact ⟨ih1 he.1, ih2 he.2⟩
  | alt a c ih1 ih2 => exact ⟨ih1 he.1, ih2 he.2⟩
  | app f c a ih => exact ih he
  | group a ih => exact ih he
  | times min max a ih => exact ih he.2
  | excl order bits nm xs => exact excludingE_usable ..

theorem fine_usable (hk : Knows b ann h env δ known) {e : GExpr N} (he : e.Fine known) : AllUsable h (e.expr env) :=
  usable_fine (fun n hn => (hk n hn).1.usable) he

theorem den_fine {env : N → Sym} {δ : N → Den} {known : List N}
    (hk : ∀ n ∈ known, spreadD h h' ann (env n) = δ n ∧ onceD h h' ann (env n) = δ n) {e : GExpr N} (he : e.Fine known) :
    (e.expr env).den (spreadD h h' ann) (onceD h h' ann) = e.den δ ∧
    (e.expr env).part (onceD h h' ann) ((e.expr env).den (spreadD h h' ann) (onceD h h' ann)) = e.part (e.den δ) := by
  induction e with
  | ref n => exact hk n he
  | chars bits nm => exact ⟨spread_term .., once_term ..⟩
  | empty => exact ⟨rfl, rfl⟩
  | lit => exact ⟨rfl, rfl⟩
  | seq a c ih1 ih2 =>
    have : ((GExpr.seq a c).expr env).den (spreadD h h' ann) (onceD h h' ann) = (GExpr.seq a c).den δ := by
      simp only [GExpr.expr, Expr.den, GExpr.den, (ih1 he.1).2, (ih2 he.2).2]
    exact ⟨this, this⟩
  | alt a c ih1 ih2 =>
    have : ((GExpr.alt a c).expr env).den (spreadD h h' ann) (onceD h h' ann) = (GExpr.alt a c).den δ := by
      simp only [GExpr.expr, Expr.den, GExpr.den, (ih1 he.1).1, (ih2 he.2).1]
    exact ⟨this, by rw [this]; rfl⟩
  | app f c a ih =>
    have : ((GExpr.app f c a).expr env).den (spreadD h h' ann) (onceD h h' ann) = (GExpr.app f c a).den δ := by
      simp only [GExpr.expr, Expr.den, GExpr.den, (ih he).1]
    exact ⟨this, this⟩
  | group a ih =>
    have : ((GExpr.group a).expr env).den (spreadD h h' ann) (onceD h h' ann) = (GExpr.group a).den δ := by
      simp only [GExpr.expr, Expr.den, GExpr.den, (ih he).1]
    exact ⟨this, this⟩
  | times min max a ih =>
    have : ((GExpr.times min max a).expr env).den (spreadD h h' ann) (onceD h h' ann) =
        (GExpr.times min max a).den δ := by
      simp only [GExpr.expr, Expr.den, GExpr.den]
      rw [(ih he.2).2, (ih he.2).1]
    exact ⟨this, this⟩
  | excl order bits nm xs =>
    have : ((GExpr.excl order bits nm xs).expr env).den (spreadD h h' ann) (onceD h h' ann) =
        (GExpr.excl order bits nm xs).den δ := by
      simp only [GExpr.expr, GExpr.den]
      have ht : OnlyTerms (excludingE order bits nm xs) := excludingToE_terms ..
      rw [(terms_den spread_term once_term ht).1, excluding_termD he.1 bits nm he.2]
    refine ⟨this, ?_⟩
    rw [this, GExpr.expr, part_few _ (excludingE_notSym order bits nm xs)]
    · rfl
    · rintro w vs cs ⟨_, rfl, _⟩
      simp

theorem gexpr_den (hk : Knows b ann h env δ known) (l : Builds b h h') {e : GExpr N} (he : e.Fine known) :
    (e.expr env).den (spreadD h h' ann) (onceD h h' ann) = e.den δ ∧
    (e.expr env).part (onceD h h' ann) ((e.expr env).den (spreadD h h' ann) (onceD h h' ann)) = e.part (e.den δ) :=
  den_fine (fun n hn => ⟨(hk n hn).1.spread l, (hk n hn).1.once l⟩) he

theorem group_defined {s : Sym} (hd : ∀ n, s = .nt n → Defined h n) {n : Nat} (hn : (h.group s).1 = .nt n) :
    Defined (h.group s).2 n := by
  cases s with
  | term => cases hn
  | nt m =>
    obtain ⟨x, hx, hh⟩ := hd m rfl
    simp only [Heap.group, hx] at hn ⊢
    by_cases he : x.ephemeral = true
    · rw [if_pos he] at hn ⊢
      cases hn
      exact ⟨_, List.getElem?_concat_length .., rfl⟩
    · rw [if_neg he] at hn ⊢
      cases hn
      exact ⟨x, hx, hh⟩

theorem gexpr_defined (hb : Builds b Heap.init h) (hk : Knows b ann h env δ known) {e : GExpr N}
    (he : e.Fine known) {n : Nat} (hn : ((e.expr env).build h).1 = .nt n) : Defined ((e.expr env).build h).2 n := by
  have key : ∀ (e : GExpr N), e.Fine known → ∀ h1, Builds b h h1 → Built b ann h1 ((e.expr env).build h1)
      (fun h' => (e.expr env).den (spreadD h1 h' ann) (onceD h1 h' ann))
      (fun h' => (e.expr env).part (onceD h1 h' ann) ((e.expr env).den (spreadD h1 h' ann) (onceD h1 h' ann))) := by
    intro e he h1 l
    have hb1 := builds_trans hb l
    exact expr_built (builds_good hb1 init_good).1 (builds_full hb1 init_good init_full) (given_of_usable
      (fine_usable (fun n hn => ⟨(hk n hn).1.later hb l, fun k hk' =>
        (builds_good l (builds_good hb init_good).1).2.defined ((hk n hn).2 k hk')⟩) he))
  suffices ∀ (e : GExpr N), e.Fine known → ∀ h1, Builds b h h1 → ∀ n, ((e.expr env).build h1).1 = .nt n →
      Defined ((e.expr env).build h1).2 n from this e he h .refl n hn
  clear hn he e n
  intro e he
  have good : ∀ h1, Builds b h h1 → Good b h1 := fun h1 l => (builds_good (builds_trans hb l) init_good).1
  induction e with
  | ref m =>
    intro h1 l n hn
    exact (builds_good l (builds_good hb init_good).1).2.defined ((hk m he).2 n hn)
  | chars => intro h1 l n hn; cases hn
  | empty =>
    intro h1 l n hn
    exact empty_defined (good h1 l) n hn
  | lit s cs =>
    intro h1 l n hn
    exact (literal_made (good h1 l) s cs).defined n hn
  | seq a c ih1 ih2 =>
    intro h1 l n hn
    have m1 := key a he.1 h1 l
    have m2 := key c he.2 _ (builds_trans l m1.builds)
    exact (mul_made (good _ (builds_trans (builds_trans l m1.builds) m2.builds))
      (m2.keeps.ext.usable m1.usable) m2.usable).defined n hn
  | alt a c ih1 ih2 =>
    intro h1 l n hn
    have m1 := key a he.1 h1 l
    have m2 := key c he.2 _ (builds_trans l m1.builds)
    exact (or_made (good _ (builds_trans (builds_trans l m1.builds) m2.builds))
      (m2.keeps.ext.usable m1.usable) m2.usable).defined n hn
  | app f c a ih =>
    intro h1 l n hn
    have m1 := key a he h1 l
    exact (wrap_made (good _ (builds_trans l m1.builds)) m1.usable f c).defined n hn
  | group a ih =>
    intro h1 l n hn
    have m1 := key a he h1 l
    exact group_defined (ih he h1 l) hn
  | times min max a ih =>
    intro h1 l n hn
    have m1 := key a he.2 h1 l
    exact (times_made (good _ (builds_trans l m1.builds)) m1.usable min max he.1).defined n hn
  | excl order bits nm xs =>
    intro h1 l n hn
    have m := stringExcluding_made he.1 bits nm (good h1 l) xs he.2
    rw [← excludingE_build] at m
    exact m.defined n hn

/-! ## Definitions -/

theorem elements_of_den {D : Den} (hD : ∀ w cs, ¬ D w [] cs) : permD (oneD D) = elemsD (elementsD D) := by
  funext w vs cs
  refine propext ⟨?_, ?_⟩
  · rintro ⟨c, ⟨xs, h1, rfl⟩, p⟩
    match xs, h1 with
    | [], h1 => exact absurd h1 (hD _ _)
    | [v], h1 => exact ⟨v, rfl, c, ⟨[v], h1, rfl⟩, p⟩
    | v :: v' :: vs, h1 => exact ⟨_, rfl, c, ⟨_, h1, rfl⟩, p⟩
  · rintro ⟨x, rfl, h⟩
    exact h

theorem spread_built {s : Sym} {D P : PyHeap → Den} (m : Denotes ann h s D P) (hf : Full h) (e : Ext h h')
    (hw : WF h') : oneD (spreadD h h' ann s) = permD (oneD (D h')) :=
  (one_spread hf e hw m.usable).trans (symbol_of_denotes hf m e hw)

theorem once_built {s : Sym} {D P : PyHeap → Den} (m : Denotes ann h s D P) (hf : Full h) (e : Ext h h')
    (hw : WF h') : oneD (onceD h h' ann s) = permD (oneD (D h')) :=
  (one_once hf e hw m.usable).trans (symbol_of_denotes hf m e hw)

theorem lists_den {A : Den} {S : Str → List GVal → List PyComplaint → Prop}
    (hA : ∀ w vs cs, A w vs cs ↔ ∃ l r c d, S w l c ∧ Collected l r d ∧ vs = [.list r] ∧ cs = c ++ d) :
    permD (oneD A) = fun w vs cs =>
      ∃ xs r c d, S w xs c ∧ Collected xs r d ∧ vs = [.list r] ∧ cs.Perm (c ++ d) := by
  rw [single_oneD]
  · funext w vs cs
    unfold permD
    simp only [hA]
    refine propext ⟨?_, ?_⟩
    · rintro ⟨_, ⟨l, r, c, d, h1, h2, rfl, rfl⟩, p⟩
      exact ⟨l, r, c, d, h1, h2, rfl, p⟩
    · rintro ⟨l, r, c, d, h1, h2, rfl, p⟩
      exact ⟨_, ⟨l, r, c, d, h1, h2, rfl, rfl⟩, p⟩
  · intro w vs cs hv
    obtain ⟨l, r, c, d, _, _, rfl, _⟩ := (hA ..).mp hv
    exact ⟨_, rfl⟩

theorem Knows.later (hb : Builds b Heap.init h) (hk : Knows b ann h env δ known) (l : Builds b h h') :
    Knows b ann h' env δ known := fun n hn =>
  ⟨(hk n hn).1.later hb l, fun k hk' => (builds_good l (builds_good hb init_good).1).2.defined ((hk n hn).2 k hk')⟩

section
attribute [local irreducible] Expr.define

theorem define_defined (hb : Builds b Heap.init h) {e : Expr} (hu : AllUsable h e) (p : Bool)
    (hd : ∀ n, (e.build h).1 = .nt n → Defined (e.build h).2 n) {n : Nat} (hn : (e.define h p).1 = .nt n) :
    Defined (e.define h p).2 n := by
  have m := expr_built (b := b) (ann := fun _ => false) (builds_good hb init_good).1
    (builds_full hb init_good init_full) (given_of_usable hu)
  unfold Expr.define at hn ⊢
  exact (seal_made (builds_good (builds_trans hb m.builds) init_good).1 m.usable p hd).defined n hn

theorem collect_defined (hb : Builds b Heap.init h) {e : Expr} (hu : AllUsable h (.app collectF false e)) (p : Bool)
    {n : Nat} (hn : ((Expr.app collectF false e).define h p).1 = .nt n) :
    Defined ((Expr.app collectF false e).define h p).2 n := by
  refine define_defined hb hu p (fun n hn => ?_) hn
  have m := expr_built (b := b) (e := e) (ann := fun _ => false) (builds_good hb init_good).1
    (builds_full hb init_good init_full) (given_of_usable hu)
  exact (wrap_made (builds_good (builds_trans hb m.builds) init_good).1 m.usable collectF false).defined n hn

/-! ### Recursion -/

/-- One denotation within another, for texts up to a length. -/
def Within (k : Nat) (A B : Den) : Prop := ∀ w vs cs, w.length ≤ k → A w vs cs → B w vs cs

theorem Within.refl (k : Nat) (A : Den) : Within k A A := fun _ _ _ _ h => h

theorem within_then {k : Nat} {A A' B B' : Den} (h1 : Within k A A') (h2 : Within k B B') : Within k (thenD A B) (thenD A' B') := by
  rintro w vs cs hw ⟨u, v, xs, ys, c, d, rfl, rfl, rfl, k1, k2⟩
  rw [List.length_append] at hw
  exact ⟨u, v, xs, ys, c, d, rfl, rfl, rfl, h1 _ _ _ (by omega) k1, h2 _ _ _ (by omega) k2⟩

theorem within_or {k : Nat} {A A' B B' : Den} (h1 : Within k A A') (h2 : Within k B B') : Within k (orD A B) (orD A' B') := by
  rintro w vs cs hw (h | h)
  · exact .inl (h1 _ _ _ hw h)
  · exact .inr (h2 _ _ _ hw h)

theorem within_app {k : Nat} {f : Func GVal PyComplaint} {A A' : Den} (h1 : Within k A A') : Within k (appD f A) (appD f A') := by
  rintro w vs cs hw ⟨xs, c, h, rfl, rfl⟩
  exact ⟨xs, c, h1 _ _ _ hw h, rfl, rfl⟩

theorem within_one {k : Nat} {A A' : Den} (h1 : Within k A A') : Within k (oneD A) (oneD A') := by
  rintro w vs cs hw ⟨xs, h, rfl⟩
  exact ⟨xs, h1 _ _ _ hw h, rfl⟩

theorem within_any {k : Nat} {A A' : Den} (h1 : Within k A A') : Within k (anyOrder A) (anyOrder A') := by
  rintro w vs cs hw ⟨c, h, p⟩
  exact ⟨c, h1 _ _ _ hw h, p⟩

theorem within_many {k : Nat} {A A' : Den} (h1 : Within k A A') : Within k (manyD A) (manyD A') := by
  rintro w vs cs hw ⟨l, h, rfl⟩
  refine ⟨l, ?_, rfl⟩
  induction h with
  | nil => exact .nil
  | cons h _ ih =>
    rw [List.length_append] at hw
    exact .cons (h1 _ _ _ (by omega) h) (ih (by omega))

theorem within_upTo {k : Nat} {A A' P P' : Den} (h1 : Within k A A') (h2 : Within k P P') (n : Nat) :
    Within k (upToD A P n) (upToD A' P' n) := by
  induction n with
  | zero => exact within_or (.refl _ _) (within_app h1)
  | succ n ih => exact within_or (.refl _ _) (within_app (within_then h2 ih))

theorem within_copies {k : Nat} {A A' R R' : Den} (h1 : Within k A A') (h2 : Within k R R') (n : Nat) :
    Within k (copiesD A R n) (copiesD A' R' n) := by
  induction n generalizing R R' with
  | zero => exact h2
  | succ n ih => exact ih (within_then h2 (within_one h1))

theorem within_repeated {k : Nat} {A A' P P' : Den} (h1 : Within k A A') (h2 : Within k P P') (max : Option Int) :
    Within k (repeatedD A P max) (repeatedD A' P' max) := by
  cases max with
  | none => exact within_many h1
  | some n => exact within_upTo h1 h2 _

theorem within_times {k : Nat} {A A' P P' : Den} (h1 : Within k A A') (h2 : Within k P P') (min : Nat) (max : Option Nat) :
    Within k (timesD A P min max) (timesD A' P' min max) := by
  unfold timesD
  split
  · exact within_repeated h1 h2 _
  · split
    · exact within_app (within_copies h1 (.refl _ _) _)
    · exact within_app (within_then (within_app (within_copies h1 (.refl _ _) _)) (within_repeated h1 h2 _))

theorem within_den {M : Type} {k : Nat} {δ δ' : M → Den} (h : ∀ n, Within k (δ n) (δ' n)) (e : GExpr M) :
    Within k (e.den δ) (e.den δ') ∧ Within k (e.part (e.den δ)) (e.part (e.den δ')) := by
  induction e with
  | ref n => exact ⟨h n, h n⟩
  | chars => exact ⟨.refl _ _, .refl _ _⟩
  | empty => exact ⟨.refl _ _, .refl _ _⟩
  | lit => exact ⟨.refl _ _, .refl _ _⟩
  | seq a c ih1 ih2 => exact ⟨within_then ih1.2 ih2.2, within_then ih1.2 ih2.2⟩
  | alt a c ih1 ih2 => exact ⟨within_or ih1.1 ih2.1, within_one (within_or ih1.1 ih2.1)⟩
  | app f c a ih => exact ⟨within_app ih.1, within_app ih.1⟩
  | group a ih => exact ⟨within_one ih.1, within_one ih.1⟩
  | times min max a ih => exact ⟨within_times ih.1 ih.2 _ _, within_times ih.1 ih.2 _ _⟩
  | excl => exact ⟨.refl _ _, .refl _ _⟩

theorem within_self {k : Nat} {X Y : Den} (h : Within k X Y) : ∀ n : Option N, Within k (withSelf δ X n) (withSelf δ Y n)
  | none => h
  | some _ => .refl _ _

theorem lit_length {c : Nat} {w : Str} {vs : List GVal} {cs : List PyComplaint} (h : litD [c] false w vs cs) : w.length = 1 := by
  obtain ⟨h, _, _⟩ := h
  simp only [Bool.false_eq_true, if_false] at h
  cases h with
  | cons _ h => cases h; rfl

/-- The characters take some room. -/
theorem within_between {k : Nat} {X Y : Den} (h : Within k X Y) (first last : Nat) (e : GExpr (Option N)) :
    Within (k + 1) (betweenD δ first last e X) (betweenD δ first last e Y) := by
  rintro w vs cs hw ⟨c, ⟨xs, h1, rfl⟩, p⟩
  refine ⟨c, ⟨xs, ?_, rfl⟩, p⟩
  obtain ⟨ys, d, h1, rfl, rfl⟩ := h1
  refine ⟨ys, d, ?_, rfl, rfl⟩
  obtain ⟨u, v, xs, ys, c, d, rfl, rfl, rfl, h1, h2⟩ := h1
  refine ⟨u, v, xs, ys, c, d, rfl, rfl, rfl, ?_, h2⟩
  obtain ⟨ys, d, h1, rfl, rfl⟩ := h1
  refine ⟨ys, d, ?_, rfl, rfl⟩
  obtain ⟨u', v', xs, ys, c, d, rfl, rfl, rfl, h3, h4⟩ := h1
  have h3' : litD [first] false u' xs c := h3
  have := lit_length h3'
  refine ⟨u', v', xs, ys, c, d, rfl, rfl, rfl, h3, (within_den (within_self h) e).2 _ _ _ ?_ h4⟩
  simp only [List.length_append] at hw
  omega

/-- There is no other solution. -/
theorem over_unique {first last : Nat} {e : GExpr (Option N)} {X : Den} (h : X = betweenD δ first last e X) :
    X = overAndOver (betweenD δ first last e) := by
  have key : ∀ k, Within k X (timesOver (betweenD δ first last e) (k + 1)) ∧ Within k (timesOver (betweenD δ first last e) (k + 1)) X := by
    intro k
    induction k with
    | zero =>
      have no : ∀ Y w vs cs, w.length ≤ 0 → ¬ betweenD δ first last e Y w vs cs := by
        rintro Y w vs cs hw ⟨c, ⟨xs, ⟨ys, d, ⟨u, v, _, _, _, _, rfl, rfl, rfl, _, h2⟩, _, _⟩, _⟩, _⟩
        have h2' : litD [last] false v _ _ := h2
        have := lit_length h2'
        rw [List.length_append] at hw
        omega
      refine ⟨fun w vs cs hw hx => ?_, fun w vs cs hw hx => (no _ _ _ _ hw hx).elim⟩
      rw [h] at hx
      exact (no _ _ _ _ hw hx).elim
    | succ k ih =>
      constructor
      · intro w vs cs hw hx
        rw [h] at hx
        exact within_between ih.1 first last e w vs cs hw hx
      · intro w vs cs hw hx
        rw [h]
        exact within_between ih.2 first last e w vs cs hw hx
  funext w vs cs
  exact propext ⟨(key w.length).1 w vs cs (Nat.le_refl _), (key w.length).2 w vs cs (Nat.le_refl _)⟩


/-- A symbol that is inlined as one rule, which starts with a terminal. -/
def Heads (h : PyHeap) : Sym → Prop
  | .term _ _ => True
  | .nt n => ∃ (x : NtObj) (r : Nat) (bits : Nat → Bool) (l : List GSym), h.nts[n]? = some x ∧ x.ephemeral = true ∧
      x.repeated = false ∧ x.hole = false ∧ x.rules = [r] ∧ r < h.rls.length ∧ h.grammar.symbolsOf r = .term bits :: l

theorem HKeeps.symbols {h h1 : PyHeap} (k : HKeeps h h1) {r : Nat} (hr : r < h.rls.length) :
    h1.grammar.symbolsOf r = h.grammar.symbolsOf r := by
  obtain ⟨ru, hru⟩ := lt_rls hr
  rw [symbolsOf_of (g := h.grammar) hru, symbolsOf_of (g := h1.grammar) (k.rls _ _ hru)]

theorem HKeeps.lt {h h1 : PyHeap} (k : HKeeps h h1) {r : Nat} (hr : r < h.rls.length) : r < h1.rls.length := by
  obtain ⟨ru, hru⟩ := lt_rls hr
  exact (List.getElem?_eq_some_iff.mp (k.rls _ _ hru)).1

theorem heads_rule {h : PyHeap} {s : Sym} (hs : Heads h s) : ∃ bits l,
    (h.asRule s).1 < (h.asRule s).2.rls.length ∧ (h.asRule s).2.grammar.symbolsOf (h.asRule s).1 = .term bits :: l := by
  cases s with
  | term bits nm =>
    refine ⟨bits, [], ?_, ?_⟩
    · simp [Heap.asRule, Heap.newRule]
    · exact symbolsOf_of (g := (h.newRule ⟨[.term bits], none⟩).2.grammar) (newRule_get ..)
  | nt n =>
    obtain ⟨x, r, bits, l, h1, h2, _, _, h3, h4, h5⟩ := hs
    have : h.asRule (.nt n) = (r, h) := by simp only [Heap.asRule, h1, h2, h3]
    rw [this]
    exact ⟨bits, l, h4, h5⟩

theorem mul_heads {h : PyHeap} {s : Sym} (hs : Heads h s) (t : Sym) : Heads (h.mul s t).2 (h.mul s t).1 := by
  obtain ⟨bits, l, h1, h2⟩ := heads_rule hs
  have k := asRule_keeps (h.asRule s).2 t
  have h3 := k.symbols h1
  refine ⟨_, _, bits, l ++ ((h.asRule s).2.asRule t).2.grammar.symbolsOf ((h.asRule s).2.asRule t).1, newNt_get ..,
    rfl, rfl, rfl, rfl, ?_, ?_⟩
  · simp [Heap.mul, Heap.concat, Heap.newRule, Heap.simple, Heap.newNt]
  · refine (symbolsOf_of (g := (h.mul s t).2.grammar) (newRule_get ..)).trans ?_
    show Grammar.symbolsOf _ _ ++ _ = _
    rw [h3, h2]
    rfl

theorem wrap_heads {h : PyHeap} {n : Nat} (hs : Heads h (.nt n)) (f : Func GVal PyComplaint) :
    Heads (h.wrap f (.nt n) false).2 (h.wrap f (.nt n) false).1 := by
  obtain ⟨x, r, bits, l, h1, h2, _, _, h3, h4, h5⟩ := hs
  have : h.asRules (.nt n) = ([r], h) := by simp only [Heap.asRules, h1, h2, h3, if_true]
  unfold Heap.wrap
  simp only [this, Heap.wrapAll, Bool.false_eq_true, if_false]
  refine ⟨_, _, bits, l, newNt_get .., rfl, rfl, rfl, rfl, ?_, ?_⟩
  · simp [Heap.newRule, Heap.simple, Heap.newNt]
  · refine (symbolsOf_of (g := Heap.grammar _) (newRule_get ..)).trans ?_
    exact h5

theorem between_heads (first last : Nat) (e : Expr) (h : PyHeap) : ∃ n,
    ((Expr.add (.add (.lit [first] false) e) (.lit [last] false)).build h).1 = .nt n ∧
    Heads ((Expr.add (.add (.lit [first] false) e) (.lit [last] false)).build h).2 (.nt n) := by
  refine ⟨_, rfl, ?_⟩
  refine wrap_heads (n := _) (mul_heads ?_ _) _
  exact wrap_heads (n := _) (mul_heads (s := .term (charBits first false) false) trivial _) _

theorem Heads.starts {h : PyHeap} {n : Nat} (hs : Heads h (.nt n)) : StartsWithTerminals h n := by
  obtain ⟨x, r, bits, l, h1, _, _, _, h3, h4, h5⟩ := hs
  intro y hy r' hr ru hru
  rw [h1] at hy
  cases hy
  rw [h3, List.mem_singleton] at hr
  subst hr
  exact ⟨bits, l, (symbolsOf_of (g := h.grammar) hru).symm.trans h5⟩

theorem between_fine {M : Type} {known : List M} {e : GExpr M} (he : e.Fine known) (first last : Nat) : (e.between first last).Fine known :=
  ⟨⟨trivial, he⟩, trivial⟩

theorem nested_is (hb : Builds b Heap.init h) (hk : Knows b ann h env δ known) {first last : Nat} {e : GExpr (Option N)}
    (hd : e.Fine (none :: known.map some)) : 
    Is b ann ((Defn.nested first last e).run env h).2 ((Defn.nested first last e).run env h).1
      ((Defn.nested first last e).den δ) ∧ Builds b h ((Defn.nested first last e).run env h).2 ∧
      ∀ n, ((Defn.nested first last e).run env h).1 = .nt n → Defined ((Defn.nested first last e).run env h).2 n := by
  let x1 : NtObj := { rules := [], repeated := false, pivot := false, named := true, eph := none, hole := true }
  have hget : h.recursive.2.nts[h.nts.length]? =
      some { rules := [], repeated := false, pivot := false, named := false, eph := none, hole := true } := newNt_get ..
  have hs1 : (h.recursive.2.seal h.recursive.1).1 = .nt h.nts.length := by
    show (h.recursive.2.seal (.nt h.nts.length)).1 = _
    simp [Heap.seal, hget]
  have hx1 : (h.recursive.2.seal h.recursive.1).2.nts[h.nts.length]? = some x1 := by
    show (h.recursive.2.seal (.nt h.nts.length)).2.nts[h.nts.length]? = _
    simp only [Heap.seal, hget, Bool.false_eq_true, if_false]
    exact List.getElem?_set_self (nts_lt hget)
  have l1 : Builds b h (h.recursive.2.seal h.recursive.1).2 := .seal (.recursive .refl)
  have hrun : (Defn.nested first last e).run env h =
      (.nt h.nts.length, (((e.between first last).expr (withSelf env (.nt h.nts.length))).build
        (h.recursive.2.seal h.recursive.1).2).2.setRules h.nts.length
        (((e.between first last).expr (withSelf env (.nt h.nts.length))).build (h.recursive.2.seal h.recursive.1).2).1) := by
    simp only [Defn.run, hs1]
  rw [hrun]
  generalize (h.recursive.2.seal h.recursive.1).2 = h1 at hx1 l1
  have hb1 := builds_trans hb l1
  have hk1 := hk.later hb l1
  have plain1 : Plain h1 (.nt h.nts.length) := ⟨x1, hx1, rfl⟩
  have hu : AllUsable h1 ((e.between first last).expr (withSelf env (.nt h.nts.length))) := by
    refine usable_fine (known := none :: known.map some) ?_ (between_fine hd _ _)
    intro n hn
    rcases List.mem_cons.mp hn with rfl | hn
    · exact plain1.usable
    · obtain ⟨m, hm, rfl⟩ := List.mem_map.mp hn
      exact (hk1 m hm).1.usable
  have m := expr_built (b := b) (ann := ann) (builds_good hb1 init_good).1 (builds_full hb1 init_good init_full)
    (given_of_usable hu)
  obtain ⟨k, hk2, heads⟩ := between_heads first last (e.expr (withSelf env (.nt h.nts.length))) h1
  have hk2' : (((e.between first last).expr (withSelf env (.nt h.nts.length))).build h1).1 = .nt k := hk2
  have heads' : Heads (((e.between first last).expr (withSelf env (.nt h.nts.length))).build h1).2 (.nt k) := heads
  rw [hk2']
  have md := m.toDenotes
  rw [hk2'] at md
  have l2 := m.builds
  have hx2 := m.keeps.nts _ _ hx1
  clear m
  generalize (((e.between first last).expr (withSelf env (.nt h.nts.length))).build h1).2 = h2 at *
  have hb2 := builds_trans hb1 l2
  have starts := heads'.starts
  obtain ⟨y, _, _, _, hy, _, hyr, hyh, _⟩ := heads'
  have und : Undefined h2 h.nts.length := ⟨x1, hx2, rfl, rfl⟩
  have l3 : Builds b h (h2.setRules h.nts.length (.nt k)) :=
    .define (builds_trans l1 l2) und ⟨y, hy, hyh⟩ fun _ => starts
  have l3' : Builds b h2 (h2.setRules h.nts.length (.nt k)) :=
    .define .refl und ⟨y, hy, hyh⟩ fun _ => starts
  have hx3 : (h2.setRules h.nts.length (.nt k)).nts[h.nts.length]? = some { x1 with rules := y.rules, hole := false } := by
    simp only [Heap.setRules, hx2, Heap.rulesOf, hy]
    exact List.getElem?_set_self (nts_lt hx2)
  refine ⟨⟨⟨_, hx3, rfl⟩, fun h' l => ?_⟩, l3, fun n hn => ?_⟩
  · obtain ⟨g, ex⟩ := builds_good l (builds_good (builds_trans hb l3) init_good).1
    have ex2 := (builds_good l3' (builds_good hb2 init_good).1).2
    refine over_unique ?_
    have e1 : symbolD h' (pyOps ann) (.nt h.nts.length) = symbolD h' (pyOps ann) (.nt k) := by
      have iff : ∀ w node c, Value h' (pyOps ann) (.nt h.nts.length) w node c ↔ Value h' (pyOps ann) (.nt k) w node c :=
        fun w node c => value_iff.trans ((define_whole (builds_good hb2 init_good).1 und hy hyh hyr
          (fun _ => starts) ex g.wf).trans value_iff.symm)
      unfold symbolD
      simp only [iff]
    have e2 := symbol_of_denotes (builds_full hb2 init_good init_full) md (ex2.trans ex) g.wf
    refine e1.trans (e2.trans ?_)
    have e3 := (den_fine (h := h1) (h' := h') (ann := ann) (δ := withSelf δ (symbolD h' (pyOps ann) (.nt h.nts.length))) (env := withSelf env (.nt h.nts.length)) (known := none :: known.map some) ?_
      (between_fine hd first last)).1
    · rw [e3]
      rfl
    · intro n hn
      rcases List.mem_cons.mp hn with rfl | hn
      · exact ⟨spread_plain plain1, once_plain plain1⟩
      · obtain ⟨m, hm, rfl⟩ := List.mem_map.mp hn
        have l4 := builds_trans (builds_trans l2 l3') l
        exact ⟨(hk1 m hm).1.spread l4, (hk1 m hm).1.once l4⟩
  · cases hn
    exact ⟨_, hx3, rfl⟩

/-- What a definition comes to. -/
theorem defn_is (hb : Builds b Heap.init h) (hk : Knows b ann h env δ known) {d : Defn N} (hd : d.Fine known δ) :
    Is b ann (d.run env h).2 (d.run env h).1 (d.den δ) ∧ Builds b h (d.run env h).2 ∧
      ∀ n, (d.run env h).1 = .nt n → Defined (d.run env h).2 n := by
  cases d with
  | named p e =>
    have hu := fine_usable hk hd
    refine ⟨is_define hb hu p fun h' l => ?_, define_builds hb hu p, fun n hn => ?_⟩
    · rw [(gexpr_den hk l hd).1]
      rfl
    · exact define_defined hb hu p (fun n hn => gexpr_defined hb hk hd hn) hn
  | list ows e =>
    obtain ⟨h1, h2, h3, h4⟩ := hd
    have m := expr_built (b := b) (ann := ann) (builds_good hb init_good).1 (builds_full hb init_good init_full)
      (given_of_usable (fine_usable hk h3))
    have hb1 := builds_trans hb m.builds
    have hk1 := hk.later hb m.builds
    have iows : Is b ann _ (env ows) owsD := h2 ▸ (hk1 ows h1).1
    have hu := comma_usable iows.usable m.usable
    refine ⟨is_define hb1 hu false fun h' l => ?_, builds_trans m.builds (define_builds hb1 hu false),
      fun n hn => collect_defined hb1 hu false hn⟩
    obtain ⟨g, ex⟩ := builds_good l (builds_good hb1 init_good).1
    have hone : oneD (spreadD ((e.expr env).build h).2 h' ann ((e.expr env).build h).1) = elemsD (elementsD (e.den δ)) := by
      rw [spread_built m.toDenotes (builds_full hb1 init_good init_full) ex g.wf,
        (gexpr_den hk (builds_trans m.builds l) h3).1, elements_of_den h4]
    exact lists_den (S := Slots _) fun w vs cs => comma_list_den (l := l) iows hone
  | list1 ows e =>
    obtain ⟨h1, h2, h3, h4⟩ := hd
    have m := expr_built (b := b) (ann := ann) (builds_good hb init_good).1 (builds_full hb init_good init_full)
      (given_of_usable (fine_usable hk h3))
    have hb1 := builds_trans hb m.builds
    have hk1 := hk.later hb m.builds
    have iows : Is b ann _ (env ows) owsD := h2 ▸ (hk1 ows h1).1
    have hu := comma1_usable iows.usable m.usable
    refine ⟨is_define hb1 hu false fun h' l => ?_, builds_trans m.builds (define_builds hb1 hu false),
      fun n hn => collect_defined hb1 hu false hn⟩
    obtain ⟨g, ex⟩ := builds_good l (builds_good hb1 init_good).1
    have hone : oneD (spreadD ((e.expr env).build h).2 h' ann ((e.expr env).build h).1) = elemsD (elementsD (e.den δ)) := by
      rw [spread_built m.toDenotes (builds_full hb1 init_good init_full) ex g.wf,
        (gexpr_den hk (builds_trans m.builds l) h3).1, elements_of_den h4]
    have hone' : oneD (onceD ((e.expr env).build h).2 h' ann ((e.expr env).build h).1) = elemsD (elementsD (e.den δ)) := by
      rw [once_built m.toDenotes (builds_full hb1 init_good init_full) ex g.wf,
        (gexpr_den hk (builds_trans m.builds l) h3).1, elements_of_den h4]
    exact lists_den (S := NonemptyList _) fun w vs cs => comma_list1_den (l := l) iows hone hone'
  | nested first last e => exact nested_is hb hk hd

end

/-! ## The order of complaints -/

theorem anyOrder_iff {A B : Den} : anyOrder A = anyOrder B ↔
    (∀ w vs c, A w vs c → anyOrder B w vs c) ∧ ∀ w vs c, B w vs c → anyOrder A w vs c := by
  constructor
  · intro e
    exact ⟨fun w vs c h => e ▸ ⟨c, h, .refl _⟩, fun w vs c h => e ▸ ⟨c, h, .refl _⟩⟩
  · rintro ⟨h1, h2⟩
    funext w vs cs
    refine propext ⟨?_, ?_⟩
    · rintro ⟨c, h, p⟩
      obtain ⟨c', h', p'⟩ := h1 _ _ _ h
      exact ⟨c', h', p.trans p'⟩
    · rintro ⟨c, h, p⟩
      obtain ⟨c', h', p'⟩ := h2 _ _ _ h
      exact ⟨c', h', p.trans p'⟩

theorem anyOrder_idem (A : Den) : anyOrder (anyOrder A) = anyOrder A :=
  anyOrder_iff.mpr ⟨fun _ _ _ h => h, fun _ _ c h => ⟨c, ⟨c, h, .refl _⟩, .refl _⟩⟩

/-- The same but for the order of complaints. -/
def Alike (A B : Den) : Prop := anyOrder A = anyOrder B

theorem half {A B : Den} (e : Alike A B) {w : Str} {vs : List GVal} {c : List PyComplaint} (h : A w vs c) :
    ∃ c', B w vs c' ∧ c.Perm c' := (anyOrder_iff.mp e).1 _ _ _ h

theorem alike_of {A B : Den} (h1 : ∀ w vs c, A w vs c → ∃ c', B w vs c' ∧ c.Perm c')
    (h2 : ∀ w vs c, B w vs c → ∃ c', A w vs c' ∧ c.Perm c') : Alike A B := anyOrder_iff.mpr ⟨h1, h2⟩

theorem Alike.of_eq {A B : Den} (e : A = B) : Alike A B := congrArg anyOrder e

theorem Alike.refl (A : Den) : Alike A A := rfl

theorem then_half {A A' B B' : Den} (e1 : Alike A A') (e2 : Alike B B') {w : Str} {vs : List GVal}
    {c : List PyComplaint} (h : thenD A B w vs c) : ∃ c', thenD A' B' w vs c' ∧ c.Perm c' := by
  obtain ⟨u, v, xs, ys, c, d, rfl, rfl, rfl, h1, h2⟩ := h
  obtain ⟨c', h1, p1⟩ := half e1 h1
  obtain ⟨d', h2, p2⟩ := half e2 h2
  exact ⟨_, ⟨u, v, xs, ys, c', d', rfl, rfl, rfl, h1, h2⟩, p1.append p2⟩

theorem alike_then {A A' B B' : Den} (e1 : Alike A A') (e2 : Alike B B') : Alike (thenD A B) (thenD A' B') :=
  alike_of (fun _ _ _ => then_half e1 e2) (fun _ _ _ => then_half e1.symm e2.symm)

theorem or_half {A A' B B' : Den} (e1 : Alike A A') (e2 : Alike B B') {w : Str} {vs : List GVal}
    {c : List PyComplaint} (h : orD A B w vs c) : ∃ c', orD A' B' w vs c' ∧ c.Perm c' := by
  rcases h with h | h
  · obtain ⟨c', h, p⟩ := half e1 h
    exact ⟨c', .inl h, p⟩
  · obtain ⟨c', h, p⟩ := half e2 h
    exact ⟨c', .inr h, p⟩

theorem alike_or {A A' B B' : Den} (e1 : Alike A A') (e2 : Alike B B') : Alike (orD A B) (orD A' B') :=
  alike_of (fun _ _ _ => or_half e1 e2) (fun _ _ _ => or_half e1.symm e2.symm)

theorem app_half {f : Func GVal PyComplaint} {A A' : Den} (e : Alike A A') {w : Str} {vs : List GVal}
    {c : List PyComplaint} (h : appD f A w vs c) : ∃ c', appD f A' w vs c' ∧ c.Perm c' := by
  obtain ⟨xs, c, h, rfl, rfl⟩ := h
  obtain ⟨c', h, p⟩ := half e h
  exact ⟨_, ⟨xs, c', h, rfl, rfl⟩, p.append_right _⟩

theorem alike_app {f : Func GVal PyComplaint} {A A' : Den} (e : Alike A A') : Alike (appD f A) (appD f A') :=
  alike_of (fun _ _ _ => app_half e) (fun _ _ _ => app_half e.symm)

theorem one_half {A A' : Den} (e : Alike A A') {w : Str} {vs : List GVal}
    {c : List PyComplaint} (h : oneD A w vs c) : ∃ c', oneD A' w vs c' ∧ c.Perm c' := by
  obtain ⟨xs, h, rfl⟩ := h
  obtain ⟨c', h, p⟩ := half e h
  exact ⟨_, ⟨xs, h, rfl⟩, p⟩

theorem alike_one {A A' : Den} (e : Alike A A') : Alike (oneD A) (oneD A') :=
  alike_of (fun _ _ _ => one_half e) (fun _ _ _ => one_half e.symm)

theorem many_half {A A' : Den} (e : Alike A A') {w : Str} {vs : List GVal}
    {c : List PyComplaint} (h : manyD A w vs c) : ∃ c', manyD A' w vs c' ∧ c.Perm c' := by
  obtain ⟨l, h, rfl⟩ := h
  suffices ∃ c', EachD A' w l c' ∧ c.Perm c' by
    obtain ⟨c', h, p⟩ := this
    exact ⟨c', ⟨l, h, rfl⟩, p⟩
  induction h with
  | nil => exact ⟨[], .nil, .refl _⟩
  | cons h _ ih =>
    obtain ⟨c', h, p⟩ := half e h
    obtain ⟨d', h', p'⟩ := ih
    exact ⟨_, .cons h h', p.append p'⟩

theorem alike_many {A A' : Den} (e : Alike A A') : Alike (manyD A) (manyD A') :=
  alike_of (fun _ _ _ => many_half e) (fun _ _ _ => many_half e.symm)

theorem alike_upTo {A A' P P' : Den} (e : Alike A A') (e' : Alike P P') (k : Nat) :
    Alike (upToD A P k) (upToD A' P' k) := by
  induction k with
  | zero => exact alike_or (.refl _) (alike_app e)
  | succ k ih => exact alike_or (.refl _) (alike_app (alike_then e' ih))

theorem alike_copies {A A' R R' : Den} (e : Alike A A') (e' : Alike R R') (k : Nat) :
    Alike (copiesD A R k) (copiesD A' R' k) := by
  induction k generalizing R R' with
  | zero => exact e'
  | succ k ih => exact ih (alike_then e' (alike_one e))

theorem alike_repeated {A A' P P' : Den} (e : Alike A A') (e' : Alike P P') (max : Option Int) :
    Alike (repeatedD A P max) (repeatedD A' P' max) := by
  cases max with
  | none => exact alike_many e
  | some k => exact alike_upTo e e' _

theorem alike_times {A A' P P' : Den} (e : Alike A A') (e' : Alike P P') (min : Nat) (max : Option Nat) :
    Alike (timesD A P min max) (timesD A' P' min max) := by
  unfold timesD
  split
  · exact alike_repeated e e' _
  · split
    · exact alike_app (alike_copies e (.refl _) _)
    · exact alike_app (alike_then (alike_app (alike_copies e (.refl _) _)) (alike_repeated e e' _))

theorem alike_den {δ δ' : N → Den} (hδ : ∀ n, Alike (δ n) (δ' n)) (e : GExpr N) :
    Alike (e.den δ) (e.den δ') ∧ Alike (e.part (e.den δ)) (e.part (e.den δ')) := by
  induction e with
  | ref n => exact ⟨hδ n, hδ n⟩
  | chars => exact ⟨.refl _, .refl _⟩
  | empty => exact ⟨.refl _, .refl _⟩
  | lit => exact ⟨.refl _, .refl _⟩
  | seq a c ih1 ih2 =>
    have := alike_then ih1.2 ih2.2
    exact ⟨this, this⟩
  | alt a c ih1 ih2 =>
    have := alike_or ih1.1 ih2.1
    exact ⟨this, alike_one this⟩
  | app f c a ih =>
    have := alike_app (f := f) ih.1
    exact ⟨this, this⟩
  | group a ih =>
    have := alike_one ih.1
    exact ⟨this, this⟩
  | times min max a ih =>
    have := alike_times ih.1 ih.2 min max
    exact ⟨this, this⟩
  | excl => exact ⟨.refl _, .refl _⟩

theorem alike_elements {A A' : Den} (e : Alike A A') : elementsD A = elementsD A' := by
  funext w x cs
  have : anyOrder (oneD A) = anyOrder (oneD A') := alike_one e
  unfold elementsD
  rw [this]

theorem alike_defn {δ δ' : N → Den} (hδ : ∀ n, Alike (δ n) (δ' n)) (d : Defn N) : Alike (d.den δ) (d.den δ') := by
  cases d with
  | named p e =>
    have : anyOrder (oneD (e.den δ)) = anyOrder (oneD (e.den δ')) := alike_one (alike_den hδ e).1
    show anyOrder (anyOrder _) = anyOrder (anyOrder _)
    rw [this]
  | list o e => show anyOrder (listD _) = anyOrder (listD _); unfold listD; rw [alike_elements (alike_den hδ e).1]
  | list1 o e => show anyOrder (list1D _) = anyOrder (list1D _); unfold list1D; rw [alike_elements (alike_den hδ e).1]
  | nested first last e =>
    have step : ∀ X Y : Den, Alike X Y → Alike (betweenD δ first last e X) (betweenD δ' first last e Y) := by
      intro X Y hXY
      refine (anyOrder_idem _).trans (Eq.trans ?_ (anyOrder_idem _).symm)
      refine alike_one (alike_den (fun n => ?_) _).1
      cases n with
      | none => exact hXY
      | some n => exact hδ n
    have all : ∀ k, Alike (timesOver (betweenD δ first last e) k) (timesOver (betweenD δ' first last e) k) := by
      intro k
      induction k with
      | zero => rfl
      | succ k ih => exact step _ _ ih
    exact alike_of (fun w _ _ hw => half (all (w.length + 1)) hw) (fun w _ _ hw => half (all (w.length + 1)).symm hw)

theorem defn_closed (δ : N → Den) (d : Defn N) : anyOrder (d.den δ) = d.den δ := by
  cases d with
  | named p e => exact anyOrder_idem _
  | list o e =>
    funext w vs cs
    refine propext ⟨?_, fun h => ⟨cs, h, .refl _⟩⟩
    rintro ⟨_, ⟨xs, r, c, d, h1, h2, h3, p⟩, q⟩
    exact ⟨xs, r, c, d, h1, h2, h3, q.trans p⟩
  | list1 o e =>
    funext w vs cs
    refine propext ⟨?_, fun h => ⟨cs, h, .refl _⟩⟩
    rintro ⟨_, ⟨xs, r, c, d, h1, h2, h3, p⟩, q⟩
    exact ⟨xs, r, c, d, h1, h2, h3, q.trans p⟩

  | nested first last e =>
    funext w vs cs
    exact congrFun (congrFun (congrFun (anyOrder_idem (oneD _)) w) vs) cs

theorem spaces_closed : anyOrder spacesD = spacesD := by
  funext w vs cs
  refine propext ⟨?_, fun h => ⟨cs, h, .refl _⟩⟩
  rintro ⟨_, ⟨h1, h2, rfl⟩, p⟩
  exact ⟨h1, h2, p.eq_nil⟩

theorem fine_closed {d : Defn N} (hd : d.Fine known δ) : d.Fine known (fun n => anyOrder (δ n)) := by
  have key : ∀ e : GExpr N, (∀ w cs, ¬ e.den δ w [] cs) → ∀ w cs, ¬ e.den (fun n => anyOrder (δ n)) w [] cs := by
    intro e he w cs hw
    obtain ⟨c', h, _⟩ := half (alike_den (fun n => anyOrder_idem (δ n)) e).1 hw
    exact he _ _ h
  cases d with
  | named p e => exact hd
  | list o e => exact ⟨hd.1, (congrArg anyOrder hd.2.1).trans spaces_closed, hd.2.2.1, key e hd.2.2.2⟩
  | list1 o e => exact ⟨hd.1, (congrArg anyOrder hd.2.1).trans spaces_closed, hd.2.2.1, key e hd.2.2.2⟩
  | nested first last e => exact hd

/-- What solves the equation of a recursive definition is what it comes to. -/
theorem solve_nested {first last : Nat} {e : GExpr (Option N)} {X : Den}
    (hX : Alike X (oneD ((e.between first last).den (withSelf δ X)))) :
    anyOrder ((Defn.nested first last e).den δ) = anyOrder X := by
  have : anyOrder X = betweenD δ first last e (anyOrder X) := by
    refine hX.trans ?_
    refine alike_one (alike_den (fun n => ?_) _).1
    cases n with
    | none => exact (anyOrder_idem X).symm
    | some n => rfl
  refine Eq.trans ?_ (anyOrder_idem X)
  exact congrArg anyOrder (over_unique this).symm

/-- What the names of a module come to. -/
theorem defs_know [DecidableEq N] (hb : Builds b Heap.init h)
    (hk : Knows b ann h env (fun n => anyOrder (δ n)) known)
    {ds : List (N × Defn N)} (hs : Solves known δ ds) :
    Builds b h (runDefs env h ds).2 ∧ Knows b ann (runDefs env h ds).2 (runDefs env h ds).1
      (fun n => anyOrder (δ n)) (ds.map Prod.fst ++ known) := by
  induction ds generalizing env h known with
  | nil => exact ⟨.refl, hk⟩
  | cons q ds ih =>
    obtain ⟨n, d⟩ := q
    obtain ⟨h1, h2, h3⟩ := hs
    obtain ⟨i, l, hdef⟩ := defn_is hb hk (fine_closed h1)
    have h4 : d.den (fun n => anyOrder (δ n)) = anyOrder (δ n) := by
      rw [← defn_closed, ← h2]
      exact alike_defn (fun n => anyOrder_idem (δ n)) d
    rw [h4] at i
    have hk' : Knows b ann (d.run env h).2 (assignSym env n (d.run env h).1) (fun n => anyOrder (δ n))
        (n :: known) := by
      intro m hm
      unfold assignSym
      by_cases e : m = n
      · subst e
        rw [if_pos rfl]
        exact ⟨i, hdef⟩
      · rw [if_neg e]
        rcases List.mem_cons.mp hm with hm | hm
        · exact absurd hm e
        · exact hk.later hb l m hm
    obtain ⟨l', hk''⟩ := ih (builds_trans hb l) hk' h3
    refine ⟨builds_trans l l', fun m hm => hk'' m ?_⟩
    simp only [List.map_cons, List.cons_append, List.mem_cons, List.mem_append] at hm ⊢
    rcases hm with hm | hm | hm
    · exact .inr (.inl hm)
    · exact .inl hm
    · exact .inr (.inr hm)

end

end Httpolice.Lemmas
