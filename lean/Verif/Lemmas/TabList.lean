import Verif.Lemmas.Words

/-!
# Comma-separated lists of what is given by abstract syntax
-/

namespace Httpolice.Lemmas

open Httpolice.Model Httpolice.Spec

section
variable {α : Type} {P : α → Prop} {t : α → Str} {x : α → GVal} {c : α → List PyComplaint}

theorem ex_cons {β : Type} {p : β → Prop} {a : β} {l : List β} : (∃ y ∈ a :: l, p y) ↔ p a ∨ ∃ y ∈ l, p y := by simp

theorem elements_tab {w : Str} {y : GVal} {cs : List PyComplaint} :
    elementsD (tabD P t (fun a => [x a]) c) w y cs ↔ ∃ a, P a ∧ w = t a ∧ y = x a ∧ cs.Perm (c a) := by
  unfold elementsD
  rw [tab_one, anyOrder_tab]
  constructor
  · rintro ⟨a, h1, h2, h3, h4⟩
    cases h3
    exact ⟨a, h1, h2, rfl, h4⟩
  · rintro ⟨a, h1, h2, rfl, h4⟩
    exact ⟨a, h1, h2, rfl, h4⟩

theorem commas_iff {w : Str} {l : List GVal} :
    Commas w l ↔ ∃ ss : List Str, (∀ s ∈ ss, IsOws s) ∧ w = ss.flatMap (fun s => 44 :: s) ∧ l = ss.map fun _ => .none := by
  constructor
  · intro h
    induction h with
    | nil => exact ⟨[], nofun, rfl, rfl⟩
    | cons hs _ ih =>
      obtain ⟨ss, h1, rfl, rfl⟩ := ih
      exact ⟨_ :: ss, List.forall_mem_cons.mpr ⟨hs, h1⟩, rfl, rfl⟩
  · rintro ⟨ss, h1, rfl, rfl⟩
    induction ss with
    | nil => exact .nil
    | cons s ss ih =>
      obtain ⟨h2, h3⟩ := List.forall_mem_cons.mp h1
      exact .cons h2 (ih h3)

/-- The value of what follows a comma. -/
def slotVal (x : α → GVal) : Option (Str × α) → GVal
  | none => .none
  | some (_, a) => x a

/-- The complaints about what follows a comma. -/
def slotNotes (c : α → List PyComplaint) : Option (Str × α) → List PyComplaint
  | none => []
  | some (_, a) => c a

theorem more_iff {w : Str} {l : List GVal} {cs : List PyComplaint} :
    (∃ d, MoreElements (elementsD (tabD P t (fun a => [x a]) c)) w l d ∧ cs.Perm d) ↔
      ∃ tl : List (Str × Option (Str × α)), (∀ y ∈ tl, IsOws y.1 ∧ slotOk P y.2) ∧
        w = tl.flatMap (fun y => y.1 ++ 44 :: slotText t y.2) ∧ l = tl.map (fun y => slotVal x y.2) ∧
        cs.Perm (tl.flatMap fun y => slotNotes c y.2) := by
  constructor
  · rintro ⟨d, h, hp⟩
    induction h generalizing cs with
    | nil => exact ⟨[], nofun, rfl, rfl, hp⟩
    | missing hs _ ih =>
      obtain ⟨tl, h1, rfl, rfl, h4⟩ := ih hp
      exact ⟨(_, none) :: tl, List.forall_mem_cons.mpr ⟨⟨hs, trivial⟩, h1⟩, by simp [slotText], rfl, h4⟩
    | present hs ht he _ ih =>
      obtain ⟨tl, h1, rfl, rfl, h4⟩ := ih (.refl _)
      obtain ⟨a, k1, rfl, rfl, k4⟩ := elements_tab.mp he
      exact ⟨(_, some (_, a)) :: tl, List.forall_mem_cons.mpr ⟨⟨hs, ht, k1⟩, h1⟩, by simp [slotText], rfl,
        hp.trans (k4.append h4)⟩
  · rintro ⟨tl, h1, rfl, rfl, h4⟩
    refine ⟨_, ?_, h4⟩
    clear h4
    induction tl with
    | nil => exact .nil
    | cons y tl ih =>
      obtain ⟨⟨hs, h2⟩, h3⟩ := List.forall_mem_cons.mp h1
      obtain ⟨s, _ | ⟨s', a⟩⟩ := y
      · have := MoreElements.missing hs (ih h3)
        simpa [slotText, slotVal, slotNotes] using this
      · have := MoreElements.present hs h2.1 (elements_tab.mpr ⟨a, h2.2, rfl, rfl, .refl _⟩) (ih h3)
        simpa [slotText, slotVal, slotNotes] using this

/-- The values in all places. -/
def List1Syn.vals (x : α → GVal) (l : List1Syn α) : List GVal :=
  (l.lead.map fun _ => .none) ++ x l.head :: l.tail.map fun y => slotVal x y.2

theorem nonempty_iff {w : Str} {l : List GVal} {cs : List PyComplaint} :
    (∃ d, NonemptyList (elementsD (tabD P t (fun a => [x a]) c)) w l d ∧ cs.Perm d) ↔
      ∃ s : List1Syn α, s.Ok P ∧ w = s.text t ∧ l = List1Syn.vals x s ∧
        cs.Perm (s.elems.flatMap c) := by
  have hn : ∀ s : List1Syn α, s.elems.flatMap c = c s.head ++ s.tail.flatMap fun y => slotNotes c y.2 := by
    intro s
    obtain ⟨ld, hd, tl⟩ := s
    show (hd :: tl.filterMap fun y => y.2.map Prod.snd).flatMap c = _
    rw [List.flatMap_cons]
    congr 1
    show _ = tl.flatMap _
    induction tl with
    | nil => rfl
    | cons y tl ih =>
      obtain ⟨s, _ | ⟨s', a⟩⟩ := y
      · simpa [slotNotes] using ih
      · simp only [List.filterMap_cons, Option.map_some, List.flatMap_cons, ih, slotNotes]
  constructor
  · rintro ⟨d, ⟨a, u, v, xs, y, ys, c1, d1, rfl, rfl, rfl, ha, hu, hv⟩, hp⟩
    obtain ⟨ld, h1, rfl, rfl⟩ := commas_iff.mp ha
    obtain ⟨a, k1, rfl, rfl, k4⟩ := elements_tab.mp hu
    obtain ⟨tl, h2, rfl, rfl, h5⟩ := more_iff.mp ⟨d1, hv, .refl _⟩
    refine ⟨⟨ld, a, tl⟩, ⟨h1, k1, h2⟩, rfl, rfl, ?_⟩
    rw [hn]
    exact hp.trans (k4.append h5)
  · rintro ⟨⟨ld, a, tl⟩, ⟨h1, h2, h3⟩, rfl, rfl, h4⟩
    rw [hn] at h4
    obtain ⟨d, h5, h6⟩ := more_iff.mpr ⟨tl, h3, rfl, rfl, .refl _⟩
    exact ⟨_, ⟨_, _, _, _, _, _, _, _, rfl, rfl, rfl, commas_iff.mpr ⟨ld, h1, rfl, rfl⟩,
      elements_tab.mpr ⟨a, h2, rfl, rfl, .refl _⟩, h5⟩, h4.trans (List.Perm.append_left _ h6)⟩

theorem there_of_ne {v : GVal} (h : v ≠ .none) : isThere v = true := by
  cases v with
  | none => exact absurd rfl h
  | _ => rfl

theorem slot_filter (hx : ∀ a, P a → x a ≠ .none) (tl : List (Str × Option (Str × α)))
    (h : ∀ y ∈ tl, IsOws y.1 ∧ slotOk P y.2) :
    (tl.map fun y => slotVal x y.2).filter isThere = (tl.filterMap fun y => y.2.map Prod.snd).map x ∧
    (GVal.none ∈ (tl.map fun y => slotVal x y.2) ↔ ∃ y ∈ tl, y.2.isNone = true) := by
  induction tl with
  | nil => exact ⟨rfl, by simp⟩
  | cons y tl ih =>
    obtain ⟨⟨_, h2⟩, h3⟩ := List.forall_mem_cons.mp h
    obtain ⟨k1, k2⟩ := ih h3
    obtain ⟨s, _ | ⟨s', a⟩⟩ := y
    · refine ⟨?_, ?_⟩
      · rw [List.map_cons]
        show List.filter isThere (GVal.none :: _) = _
        rw [List.filter_cons_of_neg (by simp [isThere]), k1]
        rfl
      · simp [slotVal]
    · have hne := hx a h2.2
      refine ⟨?_, ?_⟩
      · rw [List.map_cons]
        show List.filter isThere (x a :: _) = _
        rw [List.filter_cons_of_pos (there_of_ne hne), k1]
        rfl
      · rw [List.map_cons, List.mem_cons, k2]
        simp only [slotVal, ex_cons, Option.isNone_some, Bool.false_eq_true, false_or]
        exact ⟨fun h => h.resolve_left fun e => hne e.symm, .inr⟩

theorem collected_if {xs r : List GVal} {d : List PyComplaint} {gaps : Prop} [Decidable gaps]
    (hg : gaps ↔ 2 ≤ xs.length ∧ GVal.none ∈ xs) :
    Collected xs r d ↔ r = xs.filter isThere ∧ d = gapNotes gaps := by
  unfold Collected gapNotes
  refine and_congr_right fun _ => ?_
  by_cases h : gaps
  · rw [if_pos h]
    have h' := hg.mp h
    constructor
    · rintro (⟨_, _, h⟩ | ⟨hn, _⟩)
      · exact h
      · exact absurd h' hn
    · exact fun e => .inl ⟨h'.1, h'.2, e⟩
  · rw [if_neg h]
    constructor
    · rintro (⟨h1, h2, _⟩ | ⟨_, h3⟩)
      · exact absurd (hg.mpr ⟨h1, h2⟩) h
      · exact h3
    · exact fun e => .inr ⟨fun k => h (hg.mpr k), e⟩

/-- `comma_list1`. -/
theorem tab_list1 (hx : ∀ a, P a → x a ≠ .none) : Alike (list1D (tabD P t (fun a => [x a]) c))
    (tabD (fun s : List1Syn α => s.Ok P) (fun s => s.text t) (fun s => [.list (s.elems.map x)])
      (fun s => s.elems.flatMap c ++ gapNotes s.Gaps)) := by
  have hv : ∀ s : List1Syn α, s.Ok P → (List1Syn.vals x s).filter isThere = s.elems.map x ∧
      (s.Gaps ↔ 2 ≤ (List1Syn.vals x s).length ∧ GVal.none ∈ List1Syn.vals x s) := by
    rintro ⟨ld, a, tl⟩ ⟨_, h2, h3⟩
    obtain ⟨k1, k2⟩ := slot_filter hx tl h3
    have hl : ∀ ld : List Str, (ld.map fun _ => GVal.none).filter isThere = [] := by
      intro ld
      induction ld with
      | nil => rfl
      | cons s ld ih => exact ih
    refine ⟨?_, ?_⟩
    · unfold List1Syn.vals
      rw [List.filter_append, hl, List.nil_append, List.filter_cons_of_pos (there_of_ne (hx a h2)), k1]
      rfl
    · unfold List1Syn.vals List1Syn.Gaps
      simp only [List.mem_append, List.mem_cons, k2]
      constructor
      · rintro (h | h)
        · refine ⟨?_, .inl ?_⟩
          · cases ld with
            | nil => exact absurd rfl h
            | cons _ _ => simp only [List.map_cons, List.length_append, List.length_cons]; omega
          · cases ld with
            | nil => exact absurd rfl h
            | cons _ _ => exact .head _
        · refine ⟨?_, .inr (.inr h)⟩
          obtain ⟨y, hy, _⟩ := h
          cases tl with
          | nil => cases hy
          | cons _ _ => simp only [List.map_cons, List.length_append, List.length_cons]; omega
      · rintro ⟨_, h | h | h⟩
        · left
          rintro rfl
          cases h
        · exact absurd h.symm (hx a h2)
        · exact .inr h
  refine alike_of ?_ ?_
  · rintro w vs cs ⟨xs, r, e, d, h1, h2, rfl, h4⟩
    obtain ⟨s, k1, rfl, rfl, k4⟩ := nonempty_iff.mp ⟨e, h1, .refl _⟩
    obtain ⟨j1, j2⟩ := hv s k1
    obtain ⟨rfl, rfl⟩ := (collected_if j2).mp h2
    refine ⟨_, ⟨s, k1, rfl, ?_, rfl⟩, h4.trans (k4.append (.refl _))⟩
    rw [j1]
  · rintro w vs cs ⟨s, k1, rfl, rfl, rfl⟩
    obtain ⟨j1, j2⟩ := hv s k1
    obtain ⟨e, h1, h2⟩ := nonempty_iff.mpr ⟨s, k1, rfl, rfl, .refl _⟩
    exact ⟨_, ⟨_, _, e, _, h1, (collected_if j2).mpr ⟨rfl, rfl⟩, by rw [j1], h2.append (.refl _)⟩, .refl _⟩

/-! ## Lists that may be empty -/

/-- The value in a place. -/
def placeVal (x : α → GVal) : Option (α × Str) → GVal
  | none => .none
  | some (a, _) => x a

/-- The complaints about a place. -/
def placeNotes (c : α → List PyComplaint) : Option (α × Str) → List PyComplaint
  | none => []
  | some (a, _) => c a

theorem place_iff {w : Str} {y : GVal} {cs : List PyComplaint} :
    Slot (elementsD (tabD P t (fun a => [x a]) c)) w y cs ↔
      ∃ o, placeOk P o ∧ w = placeText t o ∧ y = placeVal x o ∧ cs.Perm (placeNotes c o) := by
  constructor
  · rintro (_ | ⟨he, hs⟩)
    · exact ⟨none, trivial, rfl, rfl, .refl _⟩
    · obtain ⟨a, k1, rfl, rfl, k4⟩ := elements_tab.mp he
      exact ⟨some (a, _), ⟨k1, hs⟩, rfl, rfl, k4⟩
  · rintro ⟨_ | ⟨a, s⟩, h1, rfl, rfl, h4⟩
    · cases h4.eq_nil
      exact .missing
    · exact .present (elements_tab.mpr ⟨a, h1.1, rfl, rfl, h4⟩) h1.2

theorem slots_iff {w : Str} {l : List GVal} {cs : List PyComplaint} :
    (∃ d, Slots (elementsD (tabD P t (fun a => [x a]) c)) w l d ∧ cs.Perm d) ↔
      ∃ s : ListSyn α, s.Ok P ∧ w = s.text t ∧ l = placeVal x s.first :: s.rest.map (fun y => placeVal x y.2) ∧
        cs.Perm (placeNotes c s.first ++ s.rest.flatMap fun y => placeNotes c y.2) := by
  constructor
  · rintro ⟨d, h, hp⟩
    induction h generalizing cs with
    | last h =>
      obtain ⟨o, h1, rfl, rfl, h4⟩ := place_iff.mp h
      refine ⟨⟨o, []⟩, ⟨h1, nofun⟩, by simp [ListSyn.text], rfl, ?_⟩
      simpa using hp.trans h4
    | more h hs _ ih =>
      obtain ⟨o, h1, rfl, rfl, h4⟩ := place_iff.mp h
      obtain ⟨⟨o', rs⟩, ⟨k1, k2⟩, rfl, rfl, k4⟩ := ih (.refl _)
      refine ⟨⟨o, (_, o') :: rs⟩, ⟨h1, List.forall_mem_cons.mpr ⟨⟨hs, k1⟩, k2⟩⟩, by simp [ListSyn.text], rfl, ?_⟩
      refine hp.trans (h4.append ?_)
      simpa using k4
  · rintro ⟨⟨o, rs⟩, ⟨h1, h2⟩, rfl, rfl, h4⟩
    refine ⟨_, ?_, h4⟩
    clear h4
    induction rs generalizing o with
    | nil =>
      have := Slots.last (place_iff.mpr ⟨o, h1, rfl, rfl, .refl _⟩) (E := elementsD (tabD P t (fun a => [x a]) c))
      simpa [ListSyn.text] using this
    | cons y rs ih =>
      obtain ⟨⟨hs, h3⟩, h5⟩ := List.forall_mem_cons.mp h2
      obtain ⟨s, o'⟩ := y
      have := Slots.more (place_iff.mpr ⟨o, h1, rfl, rfl, .refl _⟩) hs (ih o' h3 h5)
      simpa [ListSyn.text] using this

theorem place_filter (hx : ∀ a, P a → x a ≠ .none) (l : List (Option (α × Str))) (h : ∀ o ∈ l, placeOk P o) :
    (l.map (placeVal x)).filter isThere = (l.filterMap fun o => o.map Prod.fst).map x ∧
    (GVal.none ∈ l.map (placeVal x) ↔ ∃ o ∈ l, o.isNone = true) := by
  induction l with
  | nil => exact ⟨rfl, by simp⟩
  | cons o l ih =>
    obtain ⟨h2, h3⟩ := List.forall_mem_cons.mp h
    obtain ⟨k1, k2⟩ := ih h3
    rcases o with _ | ⟨a, s⟩
    · refine ⟨?_, ?_⟩
      · rw [List.map_cons]
        show List.filter isThere (GVal.none :: _) = _
        rw [List.filter_cons_of_neg (by simp [isThere]), k1]
        rfl
      · simp [placeVal]
    · have hne := hx a h2.1
      refine ⟨?_, ?_⟩
      · rw [List.map_cons]
        show List.filter isThere (x a :: _) = _
        rw [List.filter_cons_of_pos (there_of_ne hne), k1]
        rfl
      · rw [List.map_cons, List.mem_cons, k2]
        simp only [placeVal, ex_cons, Option.isNone_some, Bool.false_eq_true, false_or]
        exact ⟨fun h => h.resolve_left fun e => hne e.symm, .inr⟩

/-- `comma_list`. -/
theorem tab_list (hx : ∀ a, P a → x a ≠ .none) : Alike (listD (tabD P t (fun a => [x a]) c))
    (tabD (fun s : ListSyn α => s.Ok P) (fun s => s.text t) (fun s => [.list (s.elems.map x)])
      (fun s => s.elems.flatMap c ++ gapNotes s.Gaps)) := by
  have hc : ∀ l : List (Option (α × Str)), (l.filterMap fun o => o.map Prod.fst).flatMap c = l.flatMap (placeNotes c) := by
    intro l
    induction l with
    | nil => rfl
    | cons o l ih =>
      rcases o with _ | ⟨a, s⟩
      · simpa [placeNotes] using ih
      · simp only [List.filterMap_cons, Option.map_some, List.flatMap_cons, ih, placeNotes]
  have hn : ∀ s : ListSyn α, s.elems.flatMap c = placeNotes c s.first ++ s.rest.flatMap fun y => placeNotes c y.2 := by
    rintro ⟨o, rs⟩
    refine (hc (o :: rs.map Prod.snd)).trans ?_
    rw [List.flatMap_cons, List.flatMap_map]
  have hv : ∀ s : ListSyn α, s.Ok P →
      (placeVal x s.first :: s.rest.map (fun y => placeVal x y.2)).filter isThere = s.elems.map x ∧
      (s.Gaps ↔ 2 ≤ (placeVal x s.first :: s.rest.map (fun y => placeVal x y.2)).length ∧
        GVal.none ∈ placeVal x s.first :: s.rest.map (fun y => placeVal x y.2)) := by
    rintro ⟨o, rs⟩ ⟨h1, h2⟩
    have hr : rs.map (fun y => placeVal x y.2) = (rs.map Prod.snd).map (placeVal x) := by rw [List.map_map]; rfl
    obtain ⟨k1, k2⟩ := place_filter hx (o :: rs.map Prod.snd) (List.forall_mem_cons.mpr ⟨h1, fun o' ho => by
      obtain ⟨y, hy, rfl⟩ := List.mem_map.mp ho
      exact (h2 y hy).2⟩)
    simp only [hr]
    refine ⟨k1, ?_⟩
    have : GVal.none ∈ placeVal x o :: (rs.map Prod.snd).map (placeVal x) ↔ _ := k2
    rw [this]
    unfold ListSyn.Gaps
    simp only [ex_cons, List.length_cons, List.length_map]
    have h3 : rs ≠ [] ↔ 2 ≤ rs.length + 1 := by cases rs <;> simp
    have h4 : (∃ y ∈ rs, y.2.isNone = true) ↔ ∃ o ∈ rs.map Prod.snd, o.isNone = true := by
      constructor
      · rintro ⟨y, hy, e⟩
        exact ⟨_, List.mem_map.mpr ⟨y, hy, rfl⟩, e⟩
      · rintro ⟨_, ho, e⟩
        obtain ⟨y, hy, rfl⟩ := List.mem_map.mp ho
        exact ⟨y, hy, e⟩
    rw [h3, h4]
  refine alike_of ?_ ?_
  · rintro w vs cs ⟨xs, r, e, d, h1, h2, rfl, h4⟩
    obtain ⟨s, k1, rfl, rfl, k4⟩ := slots_iff.mp ⟨e, h1, .refl _⟩
    obtain ⟨j1, j2⟩ := hv s k1
    obtain ⟨rfl, rfl⟩ := (collected_if j2).mp h2
    refine ⟨_, ⟨s, k1, rfl, ?_, rfl⟩, ?_⟩
    · rw [j1]
    · simp only [hn]
      exact h4.trans (k4.append (.refl _))
  · rintro w vs cs ⟨s, k1, rfl, rfl, rfl⟩
    obtain ⟨j1, j2⟩ := hv s k1
    obtain ⟨e, h1, h2⟩ := slots_iff.mpr ⟨s, k1, rfl, rfl, .refl _⟩
    refine ⟨_, ⟨_, _, e, _, h1, (collected_if j2).mpr ⟨rfl, rfl⟩, by rw [j1], ?_⟩, .refl _⟩
    simp only [hn]
    exact h2.append (.refl _)

end

end Httpolice.Lemmas
