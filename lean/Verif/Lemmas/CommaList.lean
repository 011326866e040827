import Verif.Lemmas.Defs
import Verif.Model.Rfc7230
import Verif.Spec.CommaList

/-!
# Comma-separated lists
-/

namespace Httpolice.Lemmas

open Httpolice.Model Httpolice.Spec

section
variable {b : Bool} {ann : GVal → Bool} {h h' : PyHeap}

/-- Optional whitespace. -/
def owsD : Den := fun w vs cs => IsOws w ∧ vs = [.text w] ∧ cs = []

theorem charD_echo (bits : Nat → Bool) : Echo (charD bits) := by
  rintro w vs cs ⟨c, _, rfl, rfl, rfl⟩
  exact ⟨rfl, rfl⟩

theorem orD_echo {A B : Den} (ha : Echo A) (hb : Echo B) : Echo (orD A B) := by
  rintro w vs cs (k | k)
  · exact ha _ _ _ k
  · exact hb _ _ _ k

theorem string_echo {A : Den} (ha : Echo A) {w : Str} {vs : List GVal} {cs : List PyComplaint} :
    appD joinF (timesD A A 0 none) w vs cs ↔ (∃ j, Rep (langD A) j w) ∧ vs = [.text w] ∧ cs = [] := by
  rw [stringTimes_echo ha 0 none nofun]
  simp

theorem string1_echo {A : Den} (ha : Echo A) {w : Str} {vs : List GVal} {cs : List PyComplaint} :
    appD joinF (timesD A A 1 none) w vs cs ↔ (∃ j, 1 ≤ j ∧ Rep (langD A) j w) ∧ vs = [.text w] ∧ cs = [] := by
  rw [stringTimes_echo ha 1 none nofun]
  simp

theorem rep_chars {A : Str → Prop} {p : Nat → Prop} (hA : ∀ w, A w ↔ ∃ c, w = [c] ∧ p c) {j : Nat} {w : Str} :
    Rep A j w ↔ w.length = j ∧ ∀ c ∈ w, p c := by
  induction j generalizing w with
  | zero =>
    rw [rep_zero]
    constructor
    · rintro rfl; simp
    · rintro ⟨h, _⟩; exact List.length_eq_zero_iff.mp h
  | succ j ih =>
    rw [rep_succ]
    constructor
    · rintro ⟨u, v, rfl, h1, h2⟩
      obtain ⟨c, rfl, hc⟩ := (hA u).mp h1
      obtain ⟨h3, h4⟩ := ih.mp h2
      exact ⟨by simp [h3], by simpa using ⟨hc, h4⟩⟩
    · rintro ⟨h1, h2⟩
      match w, h1 with
      | c :: w, h1 =>
        simp only [List.mem_cons, forall_eq_or_imp] at h2
        exact ⟨[c], w, rfl, (hA _).mpr ⟨c, rfl, h2.1⟩, ih.mpr ⟨by simpa using h1, h2.2⟩⟩

theorem langD_charD {bits : Nat → Bool} {w : Str} : langD (charD bits) w ↔ ∃ c, w = [c] ∧ bits c = true := by
  constructor
  · rintro ⟨_, _, c, h1, rfl, _⟩
    exact ⟨c, rfl, h1⟩
  · rintro ⟨c, rfl, h1⟩
    exact ⟨_, _, c, h1, rfl, rfl, rfl⟩

theorem langD_or {A B : Den} {w : Str} : langD (orD A B) w ↔ langD A w ∨ langD B w := by
  constructor
  · rintro ⟨vs, cs, k | k⟩
    · exact .inl ⟨_, _, k⟩
    · exact .inr ⟨_, _, k⟩
  · rintro (⟨vs, cs, k⟩ | ⟨vs, cs, k⟩)
    · exact ⟨_, _, .inl k⟩
    · exact ⟨_, _, .inr k⟩

theorem ows_usable : AllUsable h owsE := ⟨trivial, trivial⟩

theorem is_ows (hb : Builds b Heap.init h) (p : Bool) : Is b ann (owsE.define h p).2 (owsE.define h p).1 owsD := by
  refine is_define hb ows_usable p fun h' l => ?_
  have e : owsE.den (spreadD h h' ann) (onceD h h' ann) = owsD := by
    have hA : Echo (orD (charD fun c => decide (32 ≤ c ∧ c ≤ 32)) (charD fun c => decide (9 ≤ c ∧ c ≤ 9))) :=
      orD_echo (charD_echo _) (charD_echo _)
    funext w vs cs
    simp only [owsE, Expr.string, Expr.many, Expr.den, Expr.part, spSym, htabSym,
      (is_term (b := b) (ann := ann) (h := h) _ _).spread l]
    rw [single_oneD hA.single, string_echo hA]
    unfold owsD IsOws
    refine propext (and_congr_left' ?_)
    have := fun w => (langD_or (A := charD fun c => decide (32 ≤ c ∧ c ≤ 32))
      (B := charD fun c => decide (9 ≤ c ∧ c ≤ 9)) (w := w))
    simp only [langD_charD, decide_eq_true_eq] at this
    have key : ∀ w, langD (orD (charD fun c => decide (32 ≤ c ∧ c ≤ 32)) (charD fun c => decide (9 ≤ c ∧ c ≤ 9))) w ↔
        ∃ c, w = [c] ∧ (c = 32 ∨ c = 9) := by
      intro w
      rw [this]
      constructor
      · rintro (⟨c, rfl, h⟩ | ⟨c, rfl, h⟩)
        · exact ⟨c, rfl, by omega⟩
        · exact ⟨c, rfl, by omega⟩
      · rintro ⟨c, rfl, h | h⟩
        · exact .inl ⟨c, rfl, by omega⟩
        · exact .inr ⟨c, rfl, by omega⟩
    simp only [rep_chars key]
    constructor
    · rintro ⟨j, _, h⟩; exact h
    · intro h; exact ⟨_, rfl, h⟩
  rw [e, single_oneD (D := owsD) (by rintro w vs cs ⟨_, rfl, _⟩; exact ⟨_, rfl⟩),
    permD_quiet (by rintro w vs cs ⟨_, _, rfl⟩; rfl)]

/-! ## The places of a list -/

theorem skip_iff {A : Den} {w : Str} {vs : List GVal} {cs : List PyComplaint} :
    appD skipF A w vs cs ↔ vs = [] ∧ ∃ xs, A w xs cs := by
  constructor
  · rintro ⟨xs, c, h1, rfl, rfl⟩
    exact ⟨rfl, xs, by simpa [skipF] using h1⟩
  · rintro ⟨rfl, xs, h1⟩
    exact ⟨xs, cs, h1, rfl, by simp [skipF]⟩

theorem skip_ows {w : Str} {vs : List GVal} {cs : List PyComplaint} :
    appD skipF owsD w vs cs ↔ IsOws w ∧ vs = [] ∧ cs = [] := by
  rw [skip_iff]
  constructor
  · rintro ⟨rfl, _, h1, _, rfl⟩
    exact ⟨h1, rfl, rfl⟩
  · rintro ⟨h1, rfl, rfl⟩
    exact ⟨rfl, _, h1, rfl, rfl⟩

theorem subst_empty {x : GVal} {w : Str} {vs : List GVal} {cs : List PyComplaint} :
    appD (substF x) nothingD w vs cs ↔ w = [] ∧ vs = [x] ∧ cs = [] := by
  constructor
  · rintro ⟨_, _, ⟨rfl, rfl, rfl⟩, rfl, rfl⟩
    exact ⟨rfl, rfl, rfl⟩
  · rintro ⟨rfl, rfl, rfl⟩
    exact ⟨[], [], ⟨rfl, rfl, rfl⟩, rfl, rfl⟩

theorem same_comma {w : Str} {c : Nat} (hc : ¬ (65 ≤ c ∧ c ≤ 90 ∨ 97 ≤ c ∧ c ≤ 122)) :
    SameWord w [c] ↔ w = [c] := by
  constructor
  · intro h
    cases h with
    | cons h1 h2 =>
      cases h2
      unfold SameLetter at h1
      congr 1
      omega
  · rintro rfl
    exact .cons (.inl rfl) .nil

theorem lit_char {w : Str} {c : Nat} (hc : ¬ (65 ≤ c ∧ c ≤ 90 ∨ 97 ≤ c ∧ c ≤ 122)) {vs : List GVal}
    {cs : List PyComplaint} : litD [c] false w vs cs ↔ w = [c] ∧ vs = [.text w] ∧ cs = [] := by
  unfold litD
  simp only [Bool.false_eq_true, if_false, same_comma hc]

/-- Elements as denotations and the other way round. -/
def elemsD (E : Elements) : Den := fun w vs cs => ∃ x, vs = [x] ∧ E w x cs

theorem elemsD_single (E : Elements) : Single (elemsD E) := by
  rintro w vs cs ⟨x, rfl, _⟩
  exact ⟨x, rfl⟩

theorem slot_den {E : Elements} : oneD (orD (thenD (elemsD E) (appD skipF owsD)) (appD (substF .none) nothingD)) =
    elemsD (Slot E) := by
  rw [single_oneD]
  · funext w vs cs
    refine propext ⟨?_, ?_⟩
    · rintro (⟨u, v, _, ys, c, d, rfl, rfl, rfl, ⟨x, rfl, h1⟩, h2⟩ | h1)
      · obtain ⟨h3, rfl, rfl⟩ := skip_ows.mp h2
        exact ⟨x, rfl, by rw [List.append_nil]; exact .present h1 h3⟩
      · obtain ⟨rfl, rfl, rfl⟩ := subst_empty.mp h1
        exact ⟨_, rfl, .missing⟩
    · rintro ⟨x, rfl, h1⟩
      cases h1 with
      | missing => exact .inr (subst_empty.mpr ⟨rfl, rfl, rfl⟩)
      | @present u s x cs h1 h2 =>
        exact .inl ⟨u, s, [x], [], cs, [], rfl, rfl, by simp, ⟨x, rfl, h1⟩, skip_ows.mpr ⟨h2, rfl, rfl⟩⟩
  · rintro w vs cs (⟨u, v, _, ys, c, d, rfl, rfl, rfl, ⟨x, rfl, h1⟩, h2⟩ | h1)
    · obtain ⟨h2, rfl, rfl⟩ := skip_ows.mp h2
      exact ⟨x, rfl⟩
    · obtain ⟨rfl, rfl, rfl⟩ := subst_empty.mp h1
      exact ⟨_, rfl⟩

theorem comma_ows {w : Str} {vs : List GVal} {cs : List PyComplaint} :
    thenD (litD [44] false) owsD w vs cs ↔ ∃ s, IsOws s ∧ w = 44 :: s ∧ vs = [.text [44], .text s] ∧ cs = [] := by
  constructor
  · rintro ⟨u, v, _, _, _, _, rfl, rfl, rfl, h1, h2, rfl, rfl⟩
    obtain ⟨rfl, rfl, rfl⟩ := (lit_char (by decide)).mp h1
    exact ⟨v, h2, rfl, rfl, rfl⟩
  · rintro ⟨s, h1, rfl, rfl, rfl⟩
    exact ⟨[44], s, [.text [44]], [.text s], [], [], rfl, rfl, rfl, (lit_char (by decide)).mpr ⟨rfl, rfl, rfl⟩, h1, rfl, rfl⟩

theorem ows_comma {w : Str} {vs : List GVal} {cs : List PyComplaint} :
    thenD owsD (litD [44] false) w vs cs ↔ ∃ s, IsOws s ∧ w = s ++ [44] ∧ vs = [.text s, .text [44]] ∧ cs = [] := by
  constructor
  · rintro ⟨u, v, _, _, _, _, rfl, rfl, rfl, ⟨h2, rfl, rfl⟩, h1⟩
    obtain ⟨rfl, rfl, rfl⟩ := (lit_char (by decide)).mp h1
    exact ⟨u, h2, rfl, rfl, rfl⟩
  · rintro ⟨s, h1, rfl, rfl, rfl⟩
    exact ⟨s, [44], [.text s], [.text [44]], [], [], rfl, rfl, rfl, ⟨h1, rfl, rfl⟩, (lit_char (by decide)).mpr ⟨rfl, rfl, rfl⟩⟩

/-- A comma and a place. -/
theorem next_slot {E : Elements} {w : Str} {vs : List GVal} {cs : List PyComplaint} :
    thenD (appD skipF (thenD (litD [44] false) owsD)) (elemsD (Slot E)) w vs cs ↔
      ∃ s v x, w = (44 :: s) ++ v ∧ vs = [x] ∧ IsOws s ∧ Slot E v x cs := by
  constructor
  · rintro ⟨u, v, _, _, c, d, rfl, rfl, rfl, h1, x, rfl, h2⟩
    obtain ⟨rfl, _, h1⟩ := skip_iff.mp h1
    obtain ⟨s, h3, rfl, rfl, rfl⟩ := comma_ows.mp h1
    exact ⟨s, v, x, rfl, rfl, h3, h2⟩
  · rintro ⟨s, v, x, rfl, rfl, h1, h2⟩
    exact ⟨44 :: s, v, [], [x], [], cs, rfl, rfl, rfl, skip_iff.mpr ⟨rfl, _, comma_ows.mpr ⟨s, h1, rfl, rfl, rfl⟩⟩, x, rfl, h2⟩

/-- The places after the first one. -/
theorem each_slot {E : Elements} {u w : Str} {x : GVal} {l : List GVal} {c cs : List PyComplaint} (hs : Slot E u x c) :
    EachD (thenD (appD skipF (thenD (litD [44] false) owsD)) (elemsD (Slot E))) w l cs →
      Slots E (u ++ w) (x :: l) (c ++ cs) := by
  intro h
  induction h generalizing u x c with
  | nil => rw [List.append_nil, List.append_nil]; exact .last hs
  | cons h1 _ ih =>
    obtain ⟨s, v, y, rfl, rfl, h2, h3⟩ := next_slot.mp h1
    have := Slots.more hs h2 (ih h3)
    simpa [elementOf] using this

theorem slots_each {E : Elements} {w : Str} {l : List GVal} {cs : List PyComplaint} (hs : Slots E w l cs) :
    ∃ u v x xs c d, w = u ++ v ∧ l = x :: xs ∧ cs = c ++ d ∧ Slot E u x c ∧
      EachD (thenD (appD skipF (thenD (litD [44] false) owsD)) (elemsD (Slot E))) v xs d := by
  induction hs with
  | last h => exact ⟨_, [], _, [], _, [], by simp, rfl, by simp, h, .nil⟩
  | @more u s v x xs cs ds h1 h2 _ ih =>
    obtain ⟨u', v', x', xs', c, d, rfl, rfl, rfl, h3, h4⟩ := ih
    refine ⟨u, (44 :: s) ++ u' ++ v', x, _, cs, c ++ d, by simp, rfl, rfl, h1, ?_⟩
    exact EachD.cons (next_slot.mpr ⟨s, u', x', rfl, rfl, h2, h3⟩) h4

theorem slots_den {E : Elements} {w : Str} {vs : List GVal} {cs : List PyComplaint} :
    appD continueRightListF (thenD (elemsD (Slot E))
      (manyD (thenD (appD skipF (thenD (litD [44] false) owsD)) (elemsD (Slot E))))) w vs cs ↔
      ∃ l, Slots E w l cs ∧ vs = [.list l] := by
  constructor
  · rintro ⟨_, _, ⟨u, v, _, _, c, d, rfl, rfl, rfl, ⟨x, rfl, h1⟩, l, h2, rfl⟩, rfl, rfl⟩
    refine ⟨x :: l, ?_, rfl⟩
    simpa [continueRightListF, pureFunc] using each_slot h1 h2
  · rintro ⟨l, h1, rfl⟩
    obtain ⟨u, v, x, xs, c, d, rfl, rfl, rfl, h2, h3⟩ := slots_each h1
    exact ⟨[x, .list xs], c ++ d, ⟨u, v, [x], [.list xs], c, d, rfl, rfl, rfl, ⟨x, rfl, h2⟩, xs, h3, rfl⟩, rfl,
      by simp [continueRightListF, pureFunc]⟩

theorem filter_same {α : Type} (p : α → Bool) (l : List α) : (l.filter p).length ≠ l.length ↔ ∃ x ∈ l, p x = false := by
  induction l with
  | nil => simp
  | cons a l ih =>
    have := List.length_filter_le p l
    cases hp : p a with
    | true =>
      rw [List.filter_cons_of_pos hp]
      simp only [List.length_cons, List.mem_cons, exists_eq_or_imp, hp]
      rw [← ih]
      simp
    | false =>
      rw [List.filter_cons_of_neg (by simp [hp])]
      simp only [List.length_cons, List.mem_cons, exists_eq_or_imp, hp]
      simp
      omega

theorem collect_iff {xs : List GVal} {r : List GVal} {d : List PyComplaint} :
    collectF [.list xs] = (.val (.list r), d) ↔ Collected xs r d := by
  have hf : notNone = isThere := by
    funext x; cases x <;> rfl
  have hn : (xs.filter isThere).length ≠ xs.length ↔ GVal.none ∈ xs := by
    rw [filter_same]
    constructor
    · rintro ⟨x, h1, h2⟩
      cases x <;> first | exact h1 | cases h2
    · intro h; exact ⟨_, h, rfl⟩
  unfold Collected
  show (_, _) = (_, _) ↔ _
  rw [Prod.mk.injEq]
  have hv : (Node.val (GVal.list (xs.filter notNone)) = Node.val (GVal.list r)) ↔
      r = xs.filter isThere := by
    rw [hf, Node.val.injEq, GVal.list.injEq]
    exact ⟨fun h => h.symm, fun h => h.symm⟩
  rw [hv, hf]
  refine and_congr_right' ?_
  by_cases hc : GVal.none ∈ xs ∧ 1 < xs.length
  · rw [if_pos ⟨hn.mpr hc.1, hc.2⟩]
    have h2 : 2 ≤ xs.length := hc.2
    simp only [hc.1, h2, true_and, not_true, false_and, or_false]
    exact ⟨fun h => h.symm, fun h => h.symm⟩
  · rw [if_neg fun h => hc ⟨hn.mp h.1, h.2⟩]
    have : ¬ (2 ≤ xs.length ∧ GVal.none ∈ xs) := fun h => hc ⟨h.2, h.1⟩
    simp only [this, not_false_iff, true_and]
    constructor
    · rintro rfl; exact .inr rfl
    · rintro (⟨h1, h2, _⟩ | h)
      · exact absurd ⟨h1, h2⟩ this
      · exact h.symm

theorem collect_den {A : Den} {S : Str → List GVal → List PyComplaint → Prop}
    (hA : ∀ w vs cs, A w vs cs ↔ ∃ l, S w l cs ∧ vs = [.list l]) {w : Str} {vs : List GVal} {cs : List PyComplaint} :
    appD collectF A w vs cs ↔ ∃ l r c d, S w l c ∧ Collected l r d ∧ vs = [.list r] ∧ cs = c ++ d := by
  constructor
  · rintro ⟨xs, c, h1, rfl, rfl⟩
    obtain ⟨l, h2, rfl⟩ := (hA ..).mp h1
    exact ⟨l, _, c, _, h2, collect_iff.mp rfl, rfl, rfl⟩
  · rintro ⟨l, r, c, d, h1, h2, rfl, rfl⟩
    have := collect_iff.mpr h2
    exact ⟨[.list l], c, (hA ..).mpr ⟨l, h1, rfl⟩, by rw [this]; rfl, by rw [this]⟩

/-! ## Nonempty lists -/

theorem each_commas {w : Str} {l : List GVal} {cs : List PyComplaint} :
    EachD (appD (substF .none) (thenD (litD [44] false) owsD)) w l cs ↔ Commas w l ∧ cs = [] := by
  constructor
  · intro h
    induction h with
    | nil => exact ⟨.nil, rfl⟩
    | cons h1 _ ih =>
      obtain ⟨xs, c, h1, rfl, rfl⟩ := h1
      obtain ⟨s, h2, rfl, rfl, rfl⟩ := comma_ows.mp h1
      obtain ⟨h3, rfl⟩ := ih
      exact ⟨.cons h2 h3, rfl⟩
  · rintro ⟨h, rfl⟩
    induction h with
    | nil => exact .nil
    | cons h1 _ ih =>
      exact EachD.cons (xs := [.none]) (c := []) ⟨_, [], comma_ows.mpr ⟨_, h1, rfl, rfl, rfl⟩, rfl, rfl⟩ ih

/-- After a comma. -/
theorem opt_den {E : Elements} {P : Den} (hP : oneD P = elemsD E) {w : Str} {vs : List GVal} {cs : List PyComplaint} :
    oneD (orD (thenD (appD skipF owsD) P) (appD (substF .none) nothingD)) w vs cs ↔
      (w = [] ∧ vs = [.none] ∧ cs = []) ∨ ∃ t u x, w = t ++ u ∧ vs = [x] ∧ IsOws t ∧ E u x cs := by
  constructor
  · rintro ⟨xs, ⟨t, u, _, ys, c, d, rfl, rfl, rfl, h1, h2⟩ | h1, rfl⟩
    · obtain ⟨h5, rfl, rfl⟩ := skip_ows.mp h1
      obtain ⟨x, h3, h4⟩ : elemsD E u (argsOf (nodeOf ys)) d := hP ▸ ⟨ys, h2, rfl⟩
      exact .inr ⟨t, u, x, rfl, h3, h5, h4⟩
    · obtain ⟨rfl, rfl, rfl⟩ := subst_empty.mp h1
      exact .inl ⟨rfl, rfl, rfl⟩
  · rintro (⟨rfl, rfl, rfl⟩ | ⟨t, u, x, rfl, rfl, h1, h2⟩)
    · exact ⟨[.none], .inr (subst_empty.mpr ⟨rfl, rfl, rfl⟩), rfl⟩
    · obtain ⟨ys, h3, h4⟩ : oneD P u [x] cs := hP ▸ ⟨x, rfl, h2⟩
      exact ⟨ys, .inl ⟨t, u, [], ys, [], cs, rfl, rfl, rfl, skip_ows.mpr ⟨h1, rfl, rfl⟩, h3⟩, h4⟩

theorem each_more {E : Elements} {P : Den} (hP : oneD P = elemsD E) {w : Str} {l : List GVal} {cs : List PyComplaint} :
    EachD (thenD (appD skipF (thenD owsD (litD [44] false)))
      (oneD (orD (thenD (appD skipF owsD) P) (appD (substF .none) nothingD)))) w l cs ↔ MoreElements E w l cs := by
  constructor
  · intro h
    induction h with
    | nil => exact .nil
    | cons h1 _ ih =>
      obtain ⟨u, v, _, _, c, d, rfl, rfl, rfl, h1, h2⟩ := h1
      obtain ⟨rfl, _, h1⟩ := skip_iff.mp h1
      obtain ⟨s, h3, rfl, rfl, rfl⟩ := ows_comma.mp h1
      rcases (opt_den hP).mp h2 with ⟨rfl, rfl, rfl⟩ | ⟨t, u, x, rfl, rfl, h4, h5⟩
      · have := MoreElements.missing h3 ih
        simpa [elementOf] using this
      · have := MoreElements.present h3 h4 h5 ih
        simpa [elementOf] using this
  · intro h
    induction h with
    | nil => exact .nil
    | @missing s v xs cs h1 _ ih =>
      have : EachD (thenD (appD skipF (thenD owsD (litD [44] false)))
          (oneD (orD (thenD (appD skipF owsD) P) (appD (substF .none) nothingD)))) (((s ++ [44]) ++ []) ++ v)
          (elementOf [.none] :: xs) ([] ++ cs) :=
        EachD.cons ⟨s ++ [44], [], [], [.none], [], [], rfl, rfl, rfl, skip_iff.mpr ⟨rfl, _, ows_comma.mpr ⟨s, h1, rfl, rfl, rfl⟩⟩,
          (opt_den hP).mpr (.inl ⟨rfl, rfl, rfl⟩)⟩ ih
      simpa [elementOf] using this
    | @present s t u v x xs cs ds h1 h2 h3 _ ih =>
      have : EachD (thenD (appD skipF (thenD owsD (litD [44] false)))
          (oneD (orD (thenD (appD skipF owsD) P) (appD (substF .none) nothingD)))) (((s ++ [44]) ++ (t ++ u)) ++ v)
          (elementOf [x] :: xs) (cs ++ ds) :=
        EachD.cons ⟨s ++ [44], t ++ u, [], [x], [], cs, rfl, rfl, rfl, skip_iff.mpr ⟨rfl, _, ows_comma.mpr ⟨s, h1, rfl, rfl, rfl⟩⟩,
          (opt_den hP).mpr (.inr ⟨t, u, x, rfl, rfl, h2, h3⟩)⟩ ih
      simpa [elementOf] using this

theorem nonempty_den {E : Elements} {P : Den} (hP : oneD P = elemsD E) {w : Str} {vs : List GVal}
    {cs : List PyComplaint} :
    appD addF (thenD (appD addF (thenD (manyD (appD (substF .none) (thenD (litD [44] false) owsD)))
        (appD singletonF (elemsD E))))
      (manyD (thenD (appD skipF (thenD owsD (litD [44] false)))
        (oneD (orD (thenD (appD skipF owsD) P) (appD (substF .none) nothingD)))))) w vs cs ↔
      ∃ l, NonemptyList E w l cs ∧ vs = [.list l] := by
  constructor
  · rintro ⟨_, _, ⟨_, v, _, _, _, d, rfl, rfl, rfl, ⟨_, _, ⟨a, u, _, _, c1, c2, rfl, rfl, rfl, ⟨xs, h1, rfl⟩,
      ⟨_, c3, ⟨x, rfl, h2⟩, rfl, rfl⟩⟩, rfl, rfl⟩, ⟨ys, h3, rfl⟩⟩, rfl, rfl⟩
    obtain ⟨h4, rfl⟩ := each_commas.mp h1
    refine ⟨xs ++ x :: ys, ⟨a, u, v, xs, x, ys, c3, d, rfl, rfl, ?_, h4, h2, (each_more hP).mp h3⟩, ?_⟩
    · simp [addF, singletonF, pureFunc, argsOf]
    · simp [addF, singletonF, pureFunc, argsOf]
  · rintro ⟨_, ⟨a, u, v, xs, x, ys, c, d, rfl, rfl, rfl, h1, h2, h3⟩, rfl⟩
    refine ⟨[.list (xs ++ [x]), .list ys], c ++ d, ⟨a ++ u, v, [.list (xs ++ [x])], [.list ys], c, d, rfl, rfl, rfl,
      ⟨[.list xs, .list [x]], c, ⟨a, u, [.list xs], [.list [x]], [], c, rfl, rfl, rfl,
        ⟨xs, each_commas.mpr ⟨h1, rfl⟩, rfl⟩, ⟨[x], c, ⟨x, rfl, h2⟩, rfl, ?_⟩⟩, rfl, ?_⟩,
      ⟨ys, (each_more hP).mpr h3, rfl⟩⟩, ?_, ?_⟩ <;> simp [addF, singletonF, pureFunc, argsOf]

theorem comma_usable {ows el : Sym} (h1 : Usable h ows) (h2 : Usable h el) : AllUsable h (commaListE ows el) :=
  ⟨⟨⟨h2, h1⟩, trivial⟩, ⟨trivial, h1⟩, ⟨h2, h1⟩, trivial⟩

theorem comma1_usable {ows el : Sym} (h1 : Usable h ows) (h2 : Usable h el) : AllUsable h (commaList1E ows el) :=
  ⟨⟨⟨trivial, h1⟩, h2⟩, ⟨h1, trivial⟩, ⟨h1, h2⟩, trivial⟩

theorem comma_list_den {ows el : Sym} {E : Elements} {l : Builds b h h'} (i : Is b ann h ows owsD)
    (hone : oneD (spreadD h h' ann el) = elemsD E) {w : Str} {vs : List GVal} {cs : List PyComplaint} :
    (commaListE ows el).den (spreadD h h' ann) (onceD h h' ann) w vs cs ↔
      ∃ l r c d, Slots E w l c ∧ Collected l r d ∧ vs = [.list r] ∧ cs = c ++ d := by
  rw [← collect_den (S := Slots E) fun w vs cs => slots_den]
  simp only [commaListE, Expr.mod, Expr.maybe, Expr.many, Expr.skip, Expr.den, Expr.part, hone, i.spread l, i.once l,
    slot_den, timesD, repeatedD, Option.map_none, if_true]

theorem comma_list1_den {ows el : Sym} {E : Elements} {l : Builds b h h'} (i : Is b ann h ows owsD)
    (hone : oneD (spreadD h h' ann el) = elemsD E) (hone' : oneD (onceD h h' ann el) = elemsD E)
    {w : Str} {vs : List GVal} {cs : List PyComplaint} :
    (commaList1E ows el).den (spreadD h h' ann) (onceD h h' ann) w vs cs ↔
      ∃ l r c d, NonemptyList E w l c ∧ Collected l r d ∧ vs = [.list r] ∧ cs = c ++ d := by
  rw [← collect_den (S := NonemptyList E) fun w vs cs => nonempty_den hone']
  simp only [commaList1E, Expr.add, Expr.maybe, Expr.many, Expr.skip, Expr.den, Expr.part, hone, i.spread l, i.once l,
    timesD, repeatedD, Option.map_none, if_true]

/-! ## The rules of the RFC -/

theorem slots_rfc {E : Elements} {w : Str} {l : List GVal} {cs : List PyComplaint} (hs : Slots E w l cs) :
    ∃ u v t, w = u ++ v ++ t ∧ OptElement E u ∧ ListTail E v ∧ IsOws t := by
  have slot : ∀ {u x c}, Slot E u x c → ∃ u' s, u = u' ++ s ∧ OptElement E u' ∧ IsOws s := by
    intro u x c h
    cases h with
    | missing => exact ⟨[], [], rfl, .missing, nofun⟩
    | present h1 h2 => exact ⟨_, _, rfl, .present h1, h2⟩
  induction hs with
  | last h =>
    obtain ⟨u, s, rfl, h1, h2⟩ := slot h
    exact ⟨u, [], s, by simp, h1, .nil, h2⟩
  | @more u s v x xs cs ds h1 h2 _ ih =>
    obtain ⟨u', s', rfl, h3, h4⟩ := slot h1
    obtain ⟨u2, v2, t, rfl, k1, k2, k3⟩ := ih
    exact ⟨u', s' ++ 44 :: s ++ u2 ++ v2, t, by simp, h3, .cons h4 h2 k1 k2, k3⟩

theorem tail_slots {E : Elements} {v : Str} (hv : ListTail E v) :
    (∀ u x c, E u x c → ∃ l cs, Slots E (u ++ v) l cs) ∧
    ∀ t u, IsOws t → OptElement E u → ∃ s w l cs, t ++ u ++ v = s ++ w ∧ IsOws s ∧ Slots E w l cs := by
  induction hv with
  | nil =>
    refine ⟨fun u x c h => ⟨_, _, .last (.present (s := []) h nofun)⟩, ?_⟩
    rintro t u ht (_ | h)
    · exact ⟨t, [], _, _, by simp, ht, .last .missing⟩
    · exact ⟨t, u ++ [], _, _, by simp, ht, .last (.present (s := []) h nofun)⟩
  | @cons s t u v h1 h2 h3 _ ih =>
    obtain ⟨s', w', l', cs', e', k1, k2⟩ := ih.2 t u h2 h3
    have a : ∀ u0 x c, E u0 x c → ∃ l cs, Slots E (u0 ++ (s ++ 44 :: t ++ u ++ v)) l cs := by
      intro u0 x c h
      refine ⟨x :: l', c ++ cs', ?_⟩
      have e : u0 ++ (s ++ 44 :: t ++ u ++ v) = (u0 ++ s) ++ (44 :: s') ++ w' := by
        have := congrArg (fun z => u0 ++ (s ++ 44 :: z)) e'
        simpa using this
      rw [e]
      exact .more (.present h h1) k1 k2
    refine ⟨a, ?_⟩
    rintro t0 u0 ht (_ | h)
    · refine ⟨t0 ++ s, [] ++ (44 :: s') ++ w', _, _, ?_, ?_, .more .missing k1 k2⟩
      · have := congrArg (fun z => t0 ++ (s ++ 44 :: z)) e'
        simpa using this
      · intro c hc
        rcases List.mem_append.mp hc with hc | hc
        · exact ht c hc
        · exact h1 c hc
    · obtain ⟨l, cs, k⟩ := a u0 _ _ h
      exact ⟨t0, _, l, cs, by simp, ht, k⟩

theorem rfc_slots {E : Elements} {w : Str} (hw : RfcList E w) (hows : ∀ c u, w = c :: u → ¬ (c = 32 ∨ c = 9)) :
    ∃ l cs, Slots E w l cs := by
  obtain ⟨u, v, rfl, h1, h2⟩ := hw
  obtain ⟨s, w', l, cs, e, k1, k2⟩ := (tail_slots h2).2 [] u nofun h1
  rw [List.nil_append] at e
  match s, k1 with
  | [], _ =>
    rw [e]
    exact ⟨l, cs, k2⟩
  | c :: s, k1 => exact absurd (k1 c (by simp)) (hows c (s ++ w') e)

end

end Httpolice.Lemmas
