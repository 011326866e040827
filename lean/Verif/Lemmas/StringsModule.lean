import Verif.Lemmas.Strings
import Verif.Lemmas.Import
import Verif.Model.StringsModule

/-!
# What the names for strings come to
-/

namespace Httpolice.Lemmas

open Httpolice.Model Httpolice.Spec

/-- Spaces and tabs. -/
theorem blank_bits (c : Nat) : spHtabBits c = true ↔ c = 32 ∨ c = 9 := by
  unfold spHtabBits
  simp only [Bool.or_eq_true, decide_eq_true_eq]
  omega

/-- Whitespace that should not be there. -/
abbrev badSpacesD : Den := tabD IsOws (fun w => w) (fun w => [.text w]) (fun w => badSpaceNotes w)

/-- Whitespace that should be a space. -/
abbrev requiredSpacesD : Den := tabD IsRws (fun w => w) (fun w => [.text w]) (fun w => wideSpaceNotes w)

/-- What the names come to. -/
def strD : StrName → Den
  | .token => tokenD
  | .pair => pairD
  | .quoted => quotedD
  | .ows => spacesD
  | .rws => requiredSpacesD
  | .bws => badSpacesD

theorem spaces_tab : spacesD = tabD IsOws (fun w => w) (fun w => [.text w]) (fun _ => []) := by
  funext w vs cs
  refine propext ⟨?_, ?_⟩
  · rintro ⟨h, rfl, rfl⟩
    exact ⟨w, h, rfl, rfl, rfl⟩
  · rintro ⟨w, h, rfl, rfl, rfl⟩
    exact ⟨h, rfl, rfl⟩

theorem rws_den : oneD ((GExpr.app oneSpaceF false (.string1 (.chars spHtabBits false))).den strD) = strD .rws := by
  show oneD (appD oneSpaceF (appD joinF (timesD (octetD spHtabBits) (octetD spHtabBits) 1 none))) = _
  rw [string1_den, tab_app, tab_one]
  exact tab_iff (fun w h => ⟨w, ⟨h.1, fun c hc => (blank_bits c).mp (h.2 c hc)⟩, rfl, rfl, rfl⟩)
    (fun w h => ⟨w, ⟨h.1, fun c hc => (blank_bits c).mpr (h.2 c hc)⟩, rfl, rfl, rfl⟩)

theorem bws_den : oneD ((GExpr.app badWhitespaceF false (.ref .ows)).den strD) = strD .bws := by
  show oneD (appD badWhitespaceF spacesD) = _
  rw [spaces_tab, tab_app, tab_one]
  exact tab_iff (fun w h => ⟨w, h, rfl, rfl, rfl⟩) (fun w h => ⟨w, h, rfl, rfl, rfl⟩)

local macro "fine" : tactic => `(tactic| simp [Defn.Fine, GExpr.Fine, GExpr.ows, GExpr.token, GExpr.quotedPair,
  GExpr.quotedString])

/-- Strings. -/
theorem strings_solve : Solves [] strD stringDefs := by
  refine ⟨by fine, named_alike (.of_eq token_one), ?_⟩
  refine ⟨by fine, named_alike (.of_eq pair_den), ?_⟩
  refine ⟨by fine, named_alike (.of_eq (quoted_one rfl)), ?_⟩
  refine ⟨by fine, named_alike (.of_eq ows_one), ?_⟩
  refine ⟨by fine, named_alike (.of_eq rws_den), ?_⟩
  refine ⟨by fine, named_alike (.of_eq bws_den), ?_⟩
  trivial

end Httpolice.Lemmas
