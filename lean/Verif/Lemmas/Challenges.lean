import Verif.Lemmas.Settings
import Verif.Model.Rfc7235
import Verif.Spec.Challenges

/-!
# What the names for authentication come to
-/

namespace Httpolice.Lemmas

open Httpolice.Model Httpolice.Spec

theorem token68_signs : str "-._~+/" = [45, 46, 95, 126, 43, 47] := by decide +kernel

theorem charBits_sign {k : Nat} (hk : ¬ (65 ≤ k ∧ k ≤ 90 ∨ 97 ≤ k ∧ k ≤ 122)) (c : Nat) : charBits k false c = true ↔ c = k := by
  have h1 : litLower k = k := if_neg fun h => hk (.inl h)
  have h2 : litUpper k = k := if_neg fun h => hk (.inr h)
  show (decide (litLower k ≤ c ∧ c ≤ litLower k) || decide (litUpper k ≤ c ∧ c ≤ litUpper k)) = true ↔ _
  rw [h1, h2, Bool.or_self, decide_eq_true_eq]
  omega

theorem token68_iff (c : Nat) : token68Bits c = true ↔ IsToken68Char c := by
  unfold token68Bits IsToken68Char
  rw [Bool.or_eq_true, Bool.or_eq_true, Bool.or_eq_true, Bool.or_eq_true, Bool.or_eq_true, Bool.or_eq_true, Bool.or_eq_true,
    charBits_sign (by decide), charBits_sign (by decide), charBits_sign (by decide), charBits_sign (by decide),
    charBits_sign (by decide), charBits_sign (by decide), token68_signs]
  simp only [alphaBits, digitBits, Bool.or_eq_true, decide_eq_true_eq, List.mem_cons, List.not_mem_nil, or_false]
  omega

theorem spaces1_den : appD skipF (appD joinF (timesD (octetD spBits) (octetD spBits) 1 none)) =
    tabD IsSpaces (fun w => w) (fun _ => []) (fun _ => []) := by
  have hb : ∀ c, spBits c = true ↔ c = 32 := fun c => by unfold spBits; rw [decide_eq_true_eq]; omega
  rw [tab_stringTimes _ 1 none nofun, tab_skip]
  refine tab_iff ?_ ?_
  · rintro w ⟨h1, h2, _⟩
    exact ⟨w, ⟨List.ne_nil_of_length_pos h2, fun c hc => (hb c).mp (h1 c hc)⟩, rfl, rfl, rfl⟩
  · rintro w ⟨h1, h2⟩
    exact ⟨w, ⟨fun c hc => (hb c).mpr (h2 c hc), List.length_pos_iff.mpr h1, nofun⟩, rfl, rfl, rfl⟩

theorem all_equals {w : Str} (h : ∀ c ∈ w, c = 61) : w = List.replicate w.length 61 := List.eq_replicate_iff.mpr ⟨rfl, h⟩

/-- `token68` -/
abbrev token68D : Den := tabD Token68.Ok Token68.text (fun x => [.text x.text]) (fun _ => [])

theorem token68_den {N : Type} {δ : N → Den} :
    oneD ((GExpr.add (.string1 (.chars token68Bits false)) (.string (.lit (str "=") false)) : GExpr N).den δ) = token68D := by
  show oneD (appD addF (thenD (appD joinF (timesD (octetD token68Bits) (octetD token68Bits) 1 none))
    (appD joinF (timesD (litD (str "=") false) (litD (str "=") false) 0 none)))) = _
  have : litD (str "=") false = octetD (fun x => decide (61 ≤ x ∧ x ≤ 61)) := by
    rw [octet_is]
    exact tab_lit_char (k := 61) (by decide)
  have hb : ∀ c : Nat, decide (61 ≤ c ∧ c ≤ 61) = true ↔ c = 61 := fun c => by rw [decide_eq_true_eq]; omega
  rw [this, tab_stringTimes _ 1 none nofun, tab_stringTimes _ 0 none nofun, tab_then, tab_app, tab_one]
  refine tab_iff ?_ ?_
  · rintro ⟨a, b⟩ ⟨⟨h1, h2, _⟩, h3, _⟩
    have e := all_equals fun c hc => (hb c).mp (h3 c hc)
    refine ⟨⟨a, b.length⟩, ⟨List.ne_nil_of_length_pos h2, fun c hc => (token68_iff c).mp (h1 c hc)⟩, ?_, ?_, rfl⟩
    · show a ++ b = a ++ List.replicate b.length 61
      rw [← e]
    · show [GVal.text (a ++ b)] = [.text (a ++ List.replicate b.length 61)]
      rw [← e]
  · rintro ⟨a, n⟩ ⟨h1, h2⟩
    refine ⟨(a, List.replicate n 61), ⟨⟨fun c hc => (token68_iff c).mpr (h2 c hc), List.length_pos_iff.mpr h1, nofun⟩,
      fun c hc => (hb c).mpr (List.eq_of_mem_replicate hc), Nat.zero_le _, nofun⟩, rfl, rfl, rfl⟩

/-- `auth_param` -/
abbrev authParamD : Den := tabD (Param.Ok IsToken) Param.text (fun x => [x.entry]) Param.authNotes

theorem realm_word : (str "realm").map litLower = str "realm" := by decide +kernel

theorem realm_tokens (n : Str) : (if n.map litLower = str "realm" ∧ str "token" ≠ str "quoted_string" then [(1196, [])] else [] : List PyComplaint) =
    if SameWord n (str "realm") then [(1196, [])] else [] := by
  have h : str "token" ≠ str "quoted_string" := by decide +kernel
  have : SameWord n (str "realm") ↔ n.map litLower = str "realm" := by rw [sameWord_iff, realm_word]
  simp only [this, h, ne_eq, not_false_eq_true, and_true]

theorem authParam_den : oneD (appD checkRealmF (thenD (thenD (appD (classF (str "CaseInsensitive")) tokenD)
    (appD skipF (thenD (thenD badSpacesD (litD (str "=") false)) badSpacesD)))
    (oneD (orD (appD (markF (str "token")) tokenD) (appD (markF (str "quoted_string")) quotedD))))) = authParamD := by
  rw [bwsEquals_den, marked_den, tab_class, tab_then, tab_then, tab_app, tab_one]
  refine tab_iff ?_ ?_
  · rintro ⟨⟨n, a, b⟩, w⟩ ⟨⟨h1, h2⟩, h3⟩
    refine ⟨⟨n, a, b, w⟩, ⟨h1, h2.1, h2.2, h3⟩, by simp [Param.text], ?_, ?_⟩
    · cases w <;> rfl
    · cases w with
      | token w =>
        show _ ++ _ ++ _ ++ (if _ then _ else _) = _
        rw [realm_tokens]
        simp [Param.authNotes, Param.notes]
      | quoted q => simp [Param.authNotes, Param.notes, checkRealmF, Word.marked]
  · rintro ⟨n, a, b, w⟩ ⟨h1, h2, h3, h4⟩
    refine ⟨((n, a, b), w), ⟨⟨h1, h2, h3⟩, h4⟩, by simp [Param.text], ?_, ?_⟩
    · cases w <;> rfl
    · cases w with
      | token w =>
        refine Eq.symm ?_
        show _ ++ _ ++ _ ++ (if _ then _ else _) = _
        rw [realm_tokens]
        simp [Param.authNotes, Param.notes]
      | quoted q => simp [Param.authNotes, Param.notes, checkRealmF, Word.marked]

/-- What the names come to. -/
def authD : AuthName → Den
  | .str n => strD n
  | .authScheme => nameD (str "AuthScheme")
  | .token68 => token68D
  | .authParam => authParamD
  | .authParams | .authParams2 => listsD (Param.Ok IsToken) Param.text Param.entry Param.authNotes
  | .challenge | .credentials | .authorization | .proxyAuthorization =>
      tabD AuthSyn.Ok AuthSyn.text (fun x => [x.value]) AuthSyn.notes
  | .challenges | .wwwAuthenticate | .challenges2 | .proxyAuthenticate =>
      list1sD AuthSyn.Ok AuthSyn.text AuthSyn.value AuthSyn.notes

theorem scheme_den : oneD (appD (classF (str "Parametrized")) (thenD (nameD (str "AuthScheme"))
    (oneD (orD (thenD (appD skipF (appD joinF (timesD (octetD spBits) (octetD spBits) 1 none)))
      (oneD (orD token68D (appD (classF (str "MultiDict")) (listsD (Param.Ok IsToken) Param.text Param.entry Param.authNotes)))))
      (appD (substF (.obj (str "MultiDict") [.list []])) nothingD))))) = authD .challenge := by
  rw [spaces1_den, tab_class, tab_or, tab_one, tab_then, tab_maybe, tab_one, tab_then, tab_class, tab_one_single]
  refine tab_iff ?_ ?_
  · rintro ⟨n, _ | ⟨s, x | l⟩⟩ h
    · exact ⟨⟨n, .nothing⟩, ⟨h.1, trivial⟩, rfl, rfl, rfl⟩
    · exact ⟨⟨n, .token s x⟩, h, rfl, rfl, rfl⟩
    · exact ⟨⟨n, .params s l⟩, h, rfl, rfl, rfl⟩
  · rintro ⟨n, _ | ⟨s, x⟩ | ⟨s, l⟩⟩ h
    · exact ⟨(n, none), ⟨h.1, trivial⟩, rfl, rfl, rfl⟩
    · exact ⟨(n, some (s, .inl x)), h, rfl, rfl, rfl⟩
    · exact ⟨(n, some (s, .inr l)), h, rfl, rfl, rfl⟩

local macro "fine" : tactic => `(tactic| simp_all [Defn.Fine, GExpr.Fine, GExpr.mark, schemeE])

local macro "one" : tactic => `(tactic| exact named_alike (.of_eq tab_one_single))

/-- Authentication. -/
theorem auths_solve : Solves [] authD authDefs := by
  refine solves_import (known := []) (δ' := strD) nofun (fun _ => rfl) strings_solve ?_
  have hk : ∀ n ∈ [AuthName.str .token, .str .quoted, .str .ows, .str .bws],
      n ∈ (stringDefs.map fun x => AuthName.str x.1).reverse ++ [] := of_decide_eq_true (Eq.refl true)
  generalize (stringDefs.map fun x => AuthName.str x.1).reverse ++ [] = known at hk
  refine ⟨by fine, named_alike (.of_eq (name_den _)), ?_⟩
  refine ⟨by fine, named_alike (.of_eq token68_den), ?_⟩
  refine ⟨by fine, named_alike (.of_eq authParam_den), ?_⟩
  refine ⟨⟨by simp_all, rfl, by fine, fun w cs => tab_never w cs⟩, tab_list (fun _ _ => nofun), ?_⟩
  refine ⟨by fine, named_alike (.of_eq scheme_den), ?_⟩
  refine ⟨⟨by simp_all, rfl, by fine, fun w cs => tab_never w cs⟩, tab_list1 (fun _ _ => nofun), ?_⟩
  refine ⟨by fine, by one, ?_⟩
  refine ⟨⟨by simp_all, rfl, by fine, fun w cs => tab_never w cs⟩, tab_list1 (fun _ _ => nofun), ?_⟩
  refine ⟨by fine, by one, ?_⟩
  refine ⟨⟨by simp_all, rfl, by fine, fun w cs => tab_never w cs⟩, tab_list (fun _ _ => nofun), ?_⟩
  refine ⟨by fine, named_alike (.of_eq scheme_den), ?_⟩
  refine ⟨by fine, by one, ?_⟩
  refine ⟨by fine, by one, ?_⟩
  trivial

end Httpolice.Lemmas
