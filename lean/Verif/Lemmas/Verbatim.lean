import Verif.Lemmas.Ranges

/-!
# Expressions whose value is the text itself
-/

namespace Httpolice.Lemmas

open Httpolice.Model Httpolice.Spec

/-- The texts of a language, as they are. -/
abbrev verbD (L : Str → Prop) : Den := tabD L (fun w => w) (fun w => [.text w]) (fun _ => [])

/-- One octet. -/
def oneL (bits : Nat → Bool) : Str → Prop := fun w => ∃ c, bits c = true ∧ w = [c]

/-- One after the other. -/
def catL (L M : Str → Prop) : Str → Prop := fun w => ∃ u v, L u ∧ M v ∧ w = u ++ v

/-- One or the other. -/
def orL (L M : Str → Prop) : Str → Prop := fun w => L w ∨ M w

/-- There or not. -/
def optL (L : Str → Prop) : Str → Prop := fun w => L w ∨ w = []

/-- From `min` to `max` times. -/
def timesL (L : Str → Prop) (min : Nat) (max : Option Nat) : Str → Prop := fun w =>
  ∃ ws : List Str, (∀ u ∈ ws, L u) ∧ (min ≤ ws.length ∧ ∀ k, max = some k → ws.length ≤ k) ∧ w = ws.flatten

theorem verb_congr {L M : Str → Prop} (h : ∀ w, L w ↔ M w) : verbD L = verbD M :=
  congrArg verbD (funext fun w => propext (h w))

theorem verb_chars (bits : Nat → Bool) : octetD bits = verbD (oneL bits) := by
  rw [tab_chars]
  refine tab_iff ?_ ?_
  · intro c hc
    exact ⟨[c], ⟨c, hc, rfl⟩, rfl, rfl, rfl⟩
  · rintro _ ⟨c, hc, rfl⟩
    exact ⟨c, hc, rfl, rfl, rfl⟩

theorem verb_lit (s : Str) : litD s false = verbD (fun w => SameWord w s) := tab_lit s

theorem verb_one (L : Str → Prop) : oneD (verbD L) = verbD L := tab_one

theorem verb_or (L M : Str → Prop) : orD (verbD L) (verbD M) = verbD (orL L M) := by
  rw [tab_or]
  refine tab_iff ?_ ?_
  · rintro (w | w) h
    · exact ⟨w, .inl h, rfl, rfl, rfl⟩
    · exact ⟨w, .inr h, rfl, rfl, rfl⟩
  · rintro w (h | h)
    · exact ⟨.inl w, h, rfl, rfl, rfl⟩
    · exact ⟨.inr w, h, rfl, rfl, rfl⟩

theorem verb_add (L M : Str → Prop) : appD addF (thenD (verbD L) (verbD M)) = verbD (catL L M) := by
  rw [tab_then, tab_app]
  refine tab_iff ?_ ?_
  · rintro ⟨u, v⟩ ⟨h1, h2⟩
    exact ⟨u ++ v, ⟨u, v, h1, h2, rfl⟩, rfl, rfl, rfl⟩
  · rintro _ ⟨u, v, h1, h2, rfl⟩
    exact ⟨(u, v), ⟨h1, h2⟩, rfl, rfl, rfl⟩

theorem verb_maybe (L : Str → Prop) : orD (verbD L) (appD (substF (.text [])) nothingD) = verbD (optL L) := by
  rw [tab_maybe]
  refine tab_iff ?_ ?_
  · rintro (_ | w) h
    · exact ⟨[], .inr rfl, rfl, rfl, rfl⟩
    · exact ⟨w, .inl h, rfl, rfl, rfl⟩
  · rintro w (h | rfl)
    · exact ⟨some w, h, rfl, rfl, rfl⟩
    · exact ⟨none, trivial, rfl, rfl, rfl⟩

theorem join_texts (ws : List Str) : joinTexts (ws.map GVal.text) = ws.flatten := by
  unfold joinTexts
  induction ws with
  | nil => rfl
  | cons c w ih => rw [List.map_cons, List.flatMap_cons, ih]; rfl

theorem verb_times (L : Str → Prop) (min : Nat) (max : Option Nat) (hm : ∀ k, max = some k → min ≤ k ∧ 1 ≤ k) :
    appD joinF (timesD (verbD L) (verbD L) min max) = verbD (timesL L min max) := by
  rw [tab_times (fun a _ => ⟨_, rfl⟩) min max hm, tab_app]
  have e : ∀ ws : List Str, argsOf (joinF [.list (ws.map fun a => elementOf [GVal.text a])]).1 = [.text ws.flatten] := by
    intro ws
    have := join_texts ws
    simp only [joinF, pureFunc, elementOf, argsOf, this]
  have e' : ∀ ws : List Str, ws.flatMap (fun w => w) = ws.flatten := fun _ => List.flatMap_id'
  refine tab_iff ?_ ?_
  · intro ws h
    refine ⟨ws.flatten, ⟨ws, h.1, h.2, rfl⟩, e' ws, e ws, ?_⟩
    simp [joinF, pureFunc]
  · rintro _ ⟨ws, h1, h2, rfl⟩
    refine ⟨ws, ⟨h1, h2⟩, (e' ws).symm, (e ws).symm, ?_⟩
    simp [joinF, pureFunc]

theorem verb_many (L : Str → Prop) : appD joinF (timesD (verbD L) (verbD L) 0 none) = verbD (timesL L 0 none) :=
  verb_times L 0 none nofun

theorem verb_many1 (L : Str → Prop) : appD joinF (timesD (verbD L) (verbD L) 1 none) = verbD (timesL L 1 none) :=
  verb_times L 1 none nofun

end Httpolice.Lemmas
