import Verif.Lemmas.Program
import Verif.Spec.Tab

/-!
# Denotations given by abstract syntax
-/

namespace Httpolice.Lemmas

open Httpolice.Model Httpolice.Spec

section
variable {α β : Type} {P : α → Prop} {t : α → Str} {v : α → List GVal} {c : α → List PyComplaint}
  {Q : β → Prop} {t' : β → Str} {v' : β → List GVal} {c' : β → List PyComplaint}

theorem tab_then : thenD (tabD P t v c) (tabD Q t' v' c') =
    tabD (fun x : α × β => P x.1 ∧ Q x.2) (fun x => t x.1 ++ t' x.2) (fun x => v x.1 ++ v' x.2)
      (fun x => c x.1 ++ c' x.2) := by
  funext w vs cs
  refine propext ⟨?_, ?_⟩
  · rintro ⟨_, _, _, _, _, _, rfl, rfl, rfl, ⟨a, h1, rfl, rfl, rfl⟩, ⟨b, h2, rfl, rfl, rfl⟩⟩
    exact ⟨(a, b), ⟨h1, h2⟩, rfl, rfl, rfl⟩
  · rintro ⟨⟨a, b⟩, ⟨h1, h2⟩, rfl, rfl, rfl⟩
    exact ⟨_, _, _, _, _, _, rfl, rfl, rfl, ⟨a, h1, rfl, rfl, rfl⟩, ⟨b, h2, rfl, rfl, rfl⟩⟩

theorem tab_app (f : Func GVal PyComplaint) : appD f (tabD P t v c) =
    tabD P t (fun a => argsOf (f (v a)).1) (fun a => c a ++ (f (v a)).2) := by
  funext w vs cs
  refine propext ⟨?_, ?_⟩
  · rintro ⟨_, _, ⟨a, h1, rfl, rfl, rfl⟩, rfl, rfl⟩
    exact ⟨a, h1, rfl, rfl, rfl⟩
  · rintro ⟨a, h1, rfl, rfl, rfl⟩
    exact ⟨_, _, ⟨a, h1, rfl, rfl, rfl⟩, rfl, rfl⟩

theorem tab_one : oneD (tabD P t v c) = tabD P t (fun a => argsOf (nodeOf (v a))) c := by
  funext w vs cs
  refine propext ⟨?_, ?_⟩
  · rintro ⟨_, ⟨a, h1, rfl, rfl, rfl⟩, rfl⟩
    exact ⟨a, h1, rfl, rfl, rfl⟩
  · rintro ⟨a, h1, rfl, rfl, rfl⟩
    exact ⟨_, ⟨a, h1, rfl, rfl, rfl⟩, rfl⟩

theorem tab_or : orD (tabD P t v c) (tabD Q t' v' c') =
    tabD (Sum.elim P Q) (Sum.elim t t') (Sum.elim v v') (Sum.elim c c') := by
  funext w vs cs
  refine propext ⟨?_, ?_⟩
  · rintro (⟨a, h⟩ | ⟨a, h⟩)
    · exact ⟨.inl a, h⟩
    · exact ⟨.inr a, h⟩
  · rintro ⟨a | a, h⟩
    · exact .inl ⟨a, h⟩
    · exact .inr ⟨a, h⟩

/-- What is there or not. -/
def optT {γ : Type} (d : γ) (f : α → γ) : Option α → γ
  | none => d
  | some a => f a

theorem tab_maybe (d : GVal) : orD (tabD P t v c) (appD (substF d) nothingD) =
    tabD (optT True P) (optT [] t) (optT [d] v) (optT [] c) := by
  funext w vs cs
  refine propext ⟨?_, ?_⟩
  · rintro (⟨a, h⟩ | h)
    · exact ⟨some a, h⟩
    · obtain ⟨rfl, rfl, rfl⟩ := subst_empty.mp h
      exact ⟨none, trivial, rfl, rfl, rfl⟩
  · rintro ⟨_ | a, h⟩
    · obtain ⟨_, rfl, rfl, rfl⟩ := h
      exact .inr (subst_empty.mpr ⟨rfl, rfl, rfl⟩)
    · exact .inl ⟨a, h⟩

theorem tab_each {w : Str} {l : List GVal} {cs : List PyComplaint} : EachD (tabD P t v c) w l cs ↔
    ∃ as : List α, (∀ a ∈ as, P a) ∧ w = as.flatMap t ∧ l = as.map (fun a => elementOf (v a)) ∧ cs = as.flatMap c := by
  constructor
  · intro h
    induction h with
    | nil => exact ⟨[], nofun, rfl, rfl, rfl⟩
    | cons h _ ih =>
      obtain ⟨a, h1, rfl, rfl, rfl⟩ := h
      obtain ⟨as, h2, rfl, rfl, rfl⟩ := ih
      exact ⟨a :: as, by simpa using ⟨h1, h2⟩, rfl, rfl, rfl⟩
  · rintro ⟨as, h, rfl, rfl, rfl⟩
    induction as with
    | nil => exact .nil
    | cons a as ih =>
      simp only [List.mem_cons, forall_eq_or_imp] at h
      exact .cons ⟨a, h.1, rfl, rfl, rfl⟩ (ih h.2)

theorem tab_many : manyD (tabD P t v c) =
    tabD (fun as : List α => ∀ a ∈ as, P a) (fun as => as.flatMap t)
      (fun as => [.list (as.map fun a => elementOf (v a))]) (fun as => as.flatMap c) := by
  funext w vs cs
  refine propext ⟨?_, ?_⟩
  · rintro ⟨l, h, rfl⟩
    obtain ⟨as, h1, h2, rfl, h3⟩ := tab_each.mp h
    exact ⟨as, h1, h2, rfl, h3⟩
  · rintro ⟨as, h1, h2, rfl, h3⟩
    exact ⟨_, tab_each.mpr ⟨as, h1, h2, rfl, h3⟩, rfl⟩

theorem tab_times (hv : ∀ a, P a → ∃ x, v a = [x]) (min : Nat) (max : Option Nat)
    (hm : ∀ k, max = some k → min ≤ k ∧ 1 ≤ k) : timesD (tabD P t v c) (tabD P t v c) min max =
    tabD (fun as : List α => (∀ a ∈ as, P a) ∧ min ≤ as.length ∧ ∀ k, max = some k → as.length ≤ k)
      (fun as => as.flatMap t) (fun as => [.list (as.map fun a => elementOf (v a))]) (fun as => as.flatMap c) := by
  have hs : Single (tabD P t v c) := by
    rintro w vs cs ⟨a, h1, rfl, rfl, rfl⟩
    exact hv a h1
  funext w vs cs
  rw [times_single hs min max hm]
  refine propext ⟨?_, ?_⟩
  · rintro ⟨l, h1, h2, h3, rfl⟩
    obtain ⟨as, k1, k2, rfl, k3⟩ := tab_each.mp h3
    rw [List.length_map] at h1 h2
    exact ⟨as, ⟨k1, h1, h2⟩, k2, rfl, k3⟩
  · rintro ⟨as, ⟨k1, h1, h2⟩, k2, rfl, k3⟩
    refine ⟨as.map fun a => elementOf (v a), ?_, ?_, tab_each.mpr ⟨as, k1, k2, rfl, k3⟩, rfl⟩
    · rw [List.length_map]; exact h1
    · rw [List.length_map]; exact h2

/-- The same texts by another syntax. -/
theorem tab_eq (f : α → β) (g : β → α) (h1 : ∀ a, P a → Q (f a) ∧ t a = t' (f a) ∧ v a = v' (f a) ∧ c a = c' (f a))
    (h2 : ∀ b, Q b → P (g b) ∧ t' b = t (g b) ∧ v' b = v (g b) ∧ c' b = c (g b)) :
    tabD P t v c = tabD Q t' v' c' := by
  funext w vs cs
  refine propext ⟨?_, ?_⟩
  · rintro ⟨a, h, rfl, rfl, rfl⟩
    exact ⟨f a, h1 a h⟩
  · rintro ⟨b, h, rfl, rfl, rfl⟩
    exact ⟨g b, h2 b h⟩

theorem tab_alike (f : α → β) (g : β → α)
    (h1 : ∀ a, P a → Q (f a) ∧ t a = t' (f a) ∧ v a = v' (f a) ∧ (c a).Perm (c' (f a)))
    (h2 : ∀ b, Q b → P (g b) ∧ t' b = t (g b) ∧ v' b = v (g b) ∧ (c' b).Perm (c (g b))) :
    Alike (tabD P t v c) (tabD Q t' v' c') := by
  refine alike_of ?_ ?_
  · rintro w vs cs ⟨a, h, rfl, rfl, rfl⟩
    obtain ⟨k1, k2, k3, k4⟩ := h1 a h
    exact ⟨_, ⟨f a, k1, k2, k3, rfl⟩, k4⟩
  · rintro w vs cs ⟨b, h, rfl, rfl, rfl⟩
    obtain ⟨k1, k2, k3, k4⟩ := h2 b h
    exact ⟨_, ⟨g b, k1, k2, k3, rfl⟩, k4⟩

end

/-! ## Pieces -/

/-- A fixed text. -/
abbrev fixedD (s : Str) : Den := tabD (fun _ : Unit => True) (fun _ => s) (fun _ => [.text s]) (fun _ => [])

/-- One octet. -/
theorem tab_chars (bits : Nat → Bool) :
    octetD bits = tabD (fun c => bits c = true) (fun c => [c]) (fun c => [.text [c]]) (fun _ => []) := by
  funext w vs cs
  exact propext Iff.rfl

theorem tab_octet {bits : Nat → Bool} {k : Nat} (hb : ∀ c, bits c = true ↔ c = k) : octetD bits = fixedD [k] := by
  rw [tab_chars]
  refine tab_eq (fun _ => ()) (fun _ => k) ?_ ?_
  · intro c hc
    rw [(hb c).mp hc]
    exact ⟨trivial, rfl, rfl, rfl⟩
  · intro _ _
    exact ⟨(hb k).mpr rfl, rfl, rfl, rfl⟩

/-- A literal without letters. -/
theorem tab_lit_char {k : Nat} (hk : ¬ (65 ≤ k ∧ k ≤ 90 ∨ 97 ≤ k ∧ k ≤ 122)) : litD [k] false = fixedD [k] := by
  funext w vs cs
  rw [lit_char hk]
  refine propext ⟨?_, ?_⟩
  · rintro ⟨rfl, rfl, rfl⟩
    exact ⟨(), trivial, rfl, rfl, rfl⟩
  · rintro ⟨_, _, rfl, rfl, rfl⟩
    exact ⟨rfl, rfl, rfl⟩

/-- A literal. -/
theorem tab_lit (s : Str) :
    litD s false = tabD (fun w => SameWord w s) (fun w => w) (fun w => [.text w]) (fun _ => []) := by
  funext w vs cs
  unfold litD tabD
  simp only [Bool.false_eq_true, if_false]
  refine propext ⟨?_, ?_⟩
  · rintro ⟨h, rfl, rfl⟩
    exact ⟨w, h, rfl, rfl, rfl⟩
  · rintro ⟨_, h, rfl, rfl, rfl⟩
    exact ⟨h, rfl, rfl⟩

theorem tab_nothing : nothingD = tabD (fun _ : Unit => True) (fun _ => []) (fun _ => []) (fun _ => []) := by
  funext w vs cs
  refine propext ⟨?_, ?_⟩
  · rintro ⟨rfl, rfl, rfl⟩
    exact ⟨(), trivial, rfl, rfl, rfl⟩
  · rintro ⟨_, _, rfl, rfl, rfl⟩
    exact ⟨rfl, rfl, rfl⟩

theorem tab_excl (bits : Nat → Bool) (xs : List Str) : exclD bits xs =
    tabD (fun w : Str => (∀ c ∈ w, bits c = true) ∧ ∀ x ∈ xs, ¬ SameWord w x) (fun w => w) (fun w => [.text w])
      (fun _ => []) := by
  funext w vs cs
  refine propext ⟨?_, ?_⟩
  · rintro ⟨h, rfl, rfl⟩
    exact ⟨w, h, rfl, rfl, rfl⟩
  · rintro ⟨_, h, rfl, rfl, rfl⟩
    exact ⟨h, rfl, rfl⟩

theorem flatMap_single (w : Str) : w.flatMap (fun c => [c]) = w := by
  induction w with
  | nil => rfl
  | cons c w ih => rw [List.flatMap_cons, ih]; rfl

theorem join_chars (w : Str) : joinTexts (w.map fun c => GVal.text [c]) = w := by
  unfold joinTexts
  induction w with
  | nil => rfl
  | cons c w ih => rw [List.map_cons, List.flatMap_cons, ih]; rfl

/-- `string_times` of octets. -/
theorem tab_stringTimes (bits : Nat → Bool) (min : Nat) (max : Option Nat) (hm : ∀ k, max = some k → min ≤ k ∧ 1 ≤ k) :
    appD joinF (timesD (octetD bits) (octetD bits) min max) =
      tabD (fun w : Str => (∀ c ∈ w, bits c = true) ∧ min ≤ w.length ∧ ∀ k, max = some k → w.length ≤ k) (fun w => w)
        (fun w => [.text w]) (fun _ => []) := by
  rw [tab_chars, tab_times (fun a _ => ⟨_, rfl⟩) min max hm, tab_app]
  refine tab_eq (fun w => w) (fun w => w) ?_ ?_
  · intro w hw
    refine ⟨hw, flatMap_single w, ?_, ?_⟩
    · simp only [joinF, pureFunc, elementOf, join_chars, argsOf]
    · simp [joinF, pureFunc]
  · intro w hw
    refine ⟨hw, (flatMap_single w).symm, ?_, ?_⟩
    · simp only [joinF, pureFunc, elementOf, join_chars, argsOf]
    · simp [joinF, pureFunc]

theorem quiet_flatMap {α : Type} (l : List α) : l.flatMap (fun _ => ([] : List PyComplaint)) = [] := by simp

/-! ## Only the order of complaints -/

theorem anyOrder_tab {α : Type} {P : α → Prop} {t : α → Str} {v : α → List GVal} {c : α → List PyComplaint} {w : Str}
    {vs : List GVal} {cs : List PyComplaint} :
    anyOrder (tabD P t v c) w vs cs ↔ ∃ a, P a ∧ w = t a ∧ vs = v a ∧ cs.Perm (c a) := by
  constructor
  · rintro ⟨_, ⟨a, h1, h2, h3, rfl⟩, p⟩
    exact ⟨a, h1, h2, h3, p⟩
  · rintro ⟨a, h1, h2, h3, p⟩
    exact ⟨_, ⟨a, h1, h2, h3, rfl⟩, p⟩

theorem named_alike {N : Type} {δ : N → Den} {p : Bool} {e : GExpr N} {D : Den} (h : Alike (oneD (e.den δ)) D) :
    anyOrder ((Defn.named p e).den δ) = anyOrder D := (anyOrder_idem _).trans h

end Httpolice.Lemmas
