import Verif.Model.Rfc7231
import Verif.Lemmas.Tab

/-!
# Words, numbers and separators in grammars
-/

namespace Httpolice.Lemmas

open Httpolice.Model Httpolice.Spec

section
variable {N : Type} {α β : Type} {δ : N → Den} {P : α → Prop} {t : α → Str} {v : α → List GVal} {c : α → List PyComplaint}

/-- A text without value. -/
abbrev silentD (s : Str) : Den := tabD (fun _ : Unit => True) (fun _ => s) (fun _ => []) (fun _ => [])

theorem then_silent (s : Str) : thenD (tabD P t v c) (silentD s) = tabD P (fun a => t a ++ s) v c := by
  rw [tab_then]
  refine tab_eq (fun a => a.1) (fun a => (a, ())) ?_ ?_
  · intro a h
    exact ⟨h.1, rfl, List.append_nil _, List.append_nil _⟩
  · intro a h
    exact ⟨⟨h, trivial⟩, rfl, (List.append_nil _).symm, (List.append_nil _).symm⟩

theorem silent_then (s : Str) : thenD (silentD s) (tabD P t v c) = tabD P (fun a => s ++ t a) v c := by
  rw [tab_then]
  refine tab_eq (fun a => a.2) (fun a => ((), a)) ?_ ?_
  · intro a h
    exact ⟨h.2, rfl, rfl, rfl⟩
  · intro a h
    exact ⟨⟨trivial, h⟩, rfl, rfl, rfl⟩

/-- `skip`. -/
theorem tab_skip : appD skipF (tabD P t v c) = tabD P t (fun _ => []) c := by
  rw [tab_app]
  exact tab_eq (fun a => a) (fun a => a) (fun a h => ⟨h, rfl, rfl, List.append_nil _⟩)
    (fun a h => ⟨h, rfl, rfl, (List.append_nil _).symm⟩)

theorem skip_fixed (s : Str) : appD skipF (fixedD s) = silentD s := tab_skip

theorem skip_char {k : Nat} (hk : ¬ (65 ≤ k ∧ k ≤ 90 ∨ 97 ≤ k ∧ k ≤ 122)) : appD skipF (litD [k] false) = silentD [k] := by
  rw [tab_lit_char hk, skip_fixed]

theorem octet_is (k : Nat) : octetD (fun x => decide (k ≤ x ∧ x ≤ k)) = fixedD [k] :=
  tab_octet fun c => by rw [decide_eq_true_eq]; omega

theorem sp_is : octetD spBits = fixedD [32] := octet_is 32

/-- A sequence of octets. -/
abbrev wordD (w : Str) : Den :=
  tabD (fun _ : Unit => True) (fun _ => w) (fun _ => w.map fun k => .text [k]) (fun _ => [])

theorem word_then (w : Str) (k : Nat) : thenD (wordD w) (fixedD [k]) = wordD (w ++ [k]) := by
  rw [tab_then]
  refine tab_eq (fun _ => ()) (fun _ => ((), ())) ?_ ?_
  · intro a _
    exact ⟨trivial, rfl, by simp, rfl⟩
  · intro a _
    exact ⟨⟨trivial, trivial⟩, rfl, by simp, rfl⟩

theorem foldl_octets (w : Str) (e : GExpr N) (he : ∀ D, e.part D = D) (u : Str) (h : e.den δ = wordD u) :
    (w.foldl (fun e c => GExpr.seq e (.octet c)) e).den δ = wordD (u ++ w) := by
  induction w generalizing e u with
  | nil => rw [List.append_nil]; exact h
  | cons k w ih =>
    rw [List.foldl_cons, ih (.seq e (.octet k)) (fun _ => rfl) (u ++ [k])]
    · rw [List.append_assoc]; rfl
    · show thenD (e.part (e.den δ)) (octetD _) = _
      rw [he, h, octet_is, word_then]

theorem octets_den (k : Nat) (w : Str) : (GExpr.octets k w : GExpr N).den δ = wordD (k :: w) :=
  foldl_octets w (.octet k) (fun _ => rfl) [k] (octet_is k)

theorem word_den (w : Str) : (GExpr.word w : GExpr N).den δ = wordD w := by
  cases w with
  | nil => exact tab_nothing
  | cons k w => exact octets_den k w

/-- Words with numbers. -/
abbrev numbersD (k : Nat) (ws : List Str) : Den :=
  tabD (fun i => k ≤ i ∧ i < k + ws.length) (fun i => ws.getD (i - k) []) (fun i => [.int i]) (fun _ => [])

theorem subst_word (i : Nat) (w : Str) : (GExpr.subst (.int i) (.word w) : GExpr N).den δ = numbersD i [w] := by
  show appD (substF (.int i)) ((GExpr.word w).den δ) = _
  rw [word_den, tab_app]
  refine tab_eq (fun _ => i) (fun _ => ()) ?_ ?_
  · intro _ _
    refine ⟨⟨Nat.le_refl _, by simp⟩, ?_, rfl, rfl⟩
    simp
  · intro j hj
    obtain ⟨h1, h2⟩ := hj
    have : j = i := by simp only [List.length_singleton] at h2; omega
    subst this
    exact ⟨trivial, by simp, rfl, rfl⟩

theorem getD_left {ws vs : List Str} {i : Nat} (h : i < ws.length) : (ws ++ vs).getD i [] = ws.getD i [] := by
  simp [List.getD_eq_getElem?_getD, List.getElem?_append_left h]

theorem getD_right {ws vs : List Str} {i : Nat} (h : ws.length ≤ i) :
    (ws ++ vs).getD i [] = vs.getD (i - ws.length) [] := by
  simp [List.getD_eq_getElem?_getD, List.getElem?_append_right h]

theorem numbers_or (k : Nat) (ws : List Str) (w : Str) :
    orD (numbersD k ws) (numbersD (k + ws.length) [w]) = numbersD k (ws ++ [w]) := by
  rw [tab_or]
  refine tab_eq (Sum.elim id id) (fun i => if i < k + ws.length then .inl i else .inr i) ?_ ?_
  · rintro (i | i) ⟨h1, h2⟩
    · refine ⟨⟨h1, ?_⟩, ?_, rfl, rfl⟩
      · simp only [Sum.elim_inl, id_eq, List.length_append, List.length_singleton]; omega
      · simp only [Sum.elim_inl, id_eq]
        rw [getD_left (by omega)]
    · simp only [List.length_singleton] at h2
      have : i = k + ws.length := by omega
      subst this
      refine ⟨⟨?_, ?_⟩, ?_, rfl, rfl⟩
      · simp only [Sum.elim_inr, id_eq]; omega
      · simp only [Sum.elim_inr, id_eq, List.length_append, List.length_singleton]; omega
      · simp only [Sum.elim_inr, id_eq, Nat.sub_self]
        rw [getD_right (by omega)]
        congr 1
        omega
  · rintro i ⟨h1, h2⟩
    simp only [List.length_append, List.length_singleton] at h2
    by_cases h : i < k + ws.length
    · simp only [h, if_true, Sum.elim_inl, and_true]
      exact ⟨h1, getD_left (by omega)⟩
    · have : i = k + ws.length := by omega
      subst this
      simp only [Nat.lt_irrefl, if_false, Sum.elim_inr, List.length_singleton, Nat.le_refl, true_and, and_true]
      refine ⟨by omega, ?_⟩
      rw [getD_right (by omega)]
      congr 1
      omega

theorem numbered_den (ws : List Str) (e : GExpr N) (k : Nat) (us : List Str) (h : e.den δ = numbersD k us) :
    (GExpr.numbered e (k + us.length) ws).den δ = numbersD k (us ++ ws) := by
  induction ws generalizing e us with
  | nil => rw [List.append_nil]; exact h
  | cons w ws ih =>
    rw [GExpr.numbered]
    have := ih (.alt e (.subst (.int ((k + us.length : Nat) : Int)) (.word w))) (us ++ [w]) (by
      show orD (e.den δ) ((GExpr.subst (.int ((k + us.length : Nat) : Int)) (.word w)).den δ) = _
      rw [h, subst_word, numbers_or])
    rw [List.length_append, List.length_singleton, ← Nat.add_assoc, List.append_assoc] at this
    exact this

theorem numberedFrom_den (k : Nat) {ws : List Str} (hw : ws ≠ []) :
    (GExpr.numberedFrom k ws : GExpr N).den δ = numbersD k ws := by
  cases ws with
  | nil => exact absurd rfl hw
  | cons w ws => exact numbered_den ws (.subst (.int (k : Int)) (.word w)) k [w] (subst_word k w)

/-! ## Numbers -/

/-- Digits. -/
theorem digit_iff (c : Nat) : digitBits c = true ↔ 48 ≤ c ∧ c ≤ 57 := decide_eq_true_iff

theorem digits_den (k : Nat) (hk : 1 ≤ k) (f : Func GVal PyComplaint) :
    appD f (appD joinF (timesD (octetD digitBits) (octetD digitBits) k (some k))) =
      tabD (fun w : Str => (∀ c ∈ w, 48 ≤ c ∧ c ≤ 57) ∧ w.length = k) (fun w => w)
        (fun w => argsOf (f [.text w]).1) (fun w => (f [.text w]).2) := by
  rw [tab_stringTimes digitBits k (some k) (fun j hj => by cases hj; exact ⟨Nat.le_refl _, hk⟩), tab_app]
  refine tab_eq (fun w => w) (fun w => w) ?_ ?_
  · rintro w ⟨h1, h2, h3⟩
    exact ⟨⟨fun c hc => (digit_iff c).mp (h1 c hc), Nat.le_antisymm (h3 k rfl) h2⟩, rfl, rfl, rfl⟩
  · rintro w ⟨h1, h2⟩
    exact ⟨⟨fun c hc => (digit_iff c).mpr (h1 c hc), by omega, fun j hj => by cases hj; omega⟩, rfl, rfl, rfl⟩

end

end Httpolice.Lemmas
