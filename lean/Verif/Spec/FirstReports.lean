/-!
# Specification: the distinct members of a list in order of first appearance
-/

namespace Httpolice.Spec

/-- `l` lists the members of `hist`, each once, ordered by first appearance in `hist`.
(The three conditions determine `l` uniquely.) -/
structure FirstReports {α : Type} [DecidableEq α] (hist l : List α) : Prop where
  nodup : l.Nodup
  mem : ∀ a, a ∈ l ↔ a ∈ hist
  order : l.Pairwise fun a b => hist.idxOf a < hist.idxOf b

theorem FirstReports.snoc_old {α : Type} [DecidableEq α] {hist l : List α} {c : α}
    (h : FirstReports hist l) (hc : c ∈ l) : FirstReports (hist ++ [c]) l := by
  refine ⟨h.nodup, ?_, ?_⟩
  · intro a
    have := h.mem a
    have hc' := (h.mem c).1 hc
    simp only [List.mem_append, List.mem_singleton, this]
    constructor
    · exact Or.inl
    · rintro (h | rfl)
      · exact h
      · exact hc'
  · refine h.order.imp_of_mem ?_
    intro a b ha hb hab
    have ha' := (h.mem a).1 ha
    have hb' := (h.mem b).1 hb
    simpa [List.idxOf_append, ha', hb'] using hab

theorem FirstReports.snoc_new {α : Type} [DecidableEq α] {hist l : List α} {c : α}
    (h : FirstReports hist l) (hc : c ∉ l) : FirstReports (hist ++ [c]) (l ++ [c]) := by
  have hc' : c ∉ hist := fun hh => hc ((h.mem c).2 hh)
  refine ⟨?_, ?_, ?_⟩
  · rw [List.nodup_append]
    refine ⟨h.nodup, by simp, ?_⟩
    intro a ha b hb
    simp only [List.mem_singleton] at hb
    subst hb
    rintro rfl
    exact hc ha
  · intro a
    simp [h.mem a]
  · rw [List.pairwise_append]
    refine ⟨?_, by simp, ?_⟩
    · refine h.order.imp_of_mem ?_
      intro a b ha hb hab
      have ha' := (h.mem a).1 ha
      have hb' := (h.mem b).1 hb
      simpa [List.idxOf_append, ha', hb'] using hab
    · intro a ha b hb
      simp only [List.mem_singleton] at hb
      subst hb
      have ha' := (h.mem a).1 ha
      simpa [List.idxOf_append, ha', hc'] using List.idxOf_lt_length_of_mem ha'


/-- Two lists sorted by the same strict measure with the same members are equal. -/
theorem eq_of_pairwise_lt {α : Type} (f : α → Nat) {l l' : List α}
    (h : l.Pairwise fun a b => f a < f b) (h' : l'.Pairwise fun a b => f a < f b)
    (hm : ∀ a, a ∈ l ↔ a ∈ l') : l = l' := by
  induction l generalizing l' with
  | nil =>
    cases l' with
    | nil => rfl
    | cons a t => exact absurd ((hm a).2 (by simp)) (by simp)
  | cons a t ih =>
    cases l' with
    | nil => exact absurd ((hm a).1 (by simp)) (by simp)
    | cons b t' =>
      have p1 := List.pairwise_cons.1 h
      have p2 := List.pairwise_cons.1 h'
      have hab : a = b := by
        rcases List.mem_cons.1 ((hm a).1 (by simp)) with e | ha'
        · exact e
        rcases List.mem_cons.1 ((hm b).2 (by simp)) with e | hb'
        · exact e.symm
        have h1 := p2.1 a ha'
        have h2 := p1.1 b hb'
        omega
      subst hab
      congr 1
      refine ih p1.2 p2.2 ?_
      intro x
      have e := hm x
      constructor
      · intro hx
        rcases List.mem_cons.1 (e.1 (List.mem_cons_of_mem _ hx)) with rfl | h
        · exact absurd (p1.1 _ hx) (by omega)
        · exact h
      · intro hx
        rcases List.mem_cons.1 (e.2 (List.mem_cons_of_mem _ hx)) with rfl | h
        · exact absurd (p2.1 _ hx) (by omega)
        · exact h

/-- The three conditions determine the list. -/
theorem FirstReports.unique {α : Type} [DecidableEq α] {hist l l' : List α}
    (h : FirstReports hist l) (h' : FirstReports hist l') : l = l' :=
  eq_of_pairwise_lt (hist.idxOf ·) h.order h'.order fun a => (h.mem a).trans (h'.mem a).symm

end Httpolice.Spec
