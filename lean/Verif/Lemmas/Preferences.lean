import Verif.Lemmas.NegotiationText
import Verif.Lemmas.Challenges
import Verif.Model.SmallModules
import Verif.Spec.Preferences

/-!
# What the names in small modules come to
-/

namespace Httpolice.Lemmas

open Httpolice.Model Httpolice.Spec

/-- Names with a value, with a class for the name. -/
abbrev namedAttrD (cls : Str) : Den :=
  tabD (Attr.Ok IsToken) Attr.text (fun x => [.tuple [nameValue cls x.name, .text x.value.content]]) Attr.notes

/-- Names, perhaps with a value. -/
abbrev prefD (cls : Str) : Den := tabD (Setting.Ok IsToken) Setting.text (fun x => [x.preference cls]) Setting.notes

/-- What a directive comes to, if it is there. -/
def optDirValue : Option DirSyn → GVal
  | none => .none
  | some d => d.result

def optDirNotes : Option DirSyn → List PyComplaint
  | none => []
  | some d => d.notes

/-- Ranges without restrictions on names. -/
abbrev freeRangesD : Den := tabD (fun x : MediaSyn × Bool => x.1.Ok IsToken ∧ (x.2 = true → x.1.subtype = str "*"))
  (fun x => x.1.text) (fun x => [rangeValue x]) (fun x => x.1.notes)

/-- What the names come to. -/
def smallD : SmallName → Den
  | .sem n => semD n
  | .attr1 | .attr3 => namedAttrD (str "Preference")
  | .attr2 => namedAttrD (str "CaseInsensitive")
  | .attr4 => attrD IsToken
  | .head | .head2 => prefD (str "Preference")
  | .param => prefD (str "CaseInsensitive")
  | .preference => tabD PrefSyn.Ok PrefSyn.text (fun x => [x.value]) PrefSyn.notes
  | .prefers | .prefer => list1sD PrefSyn.Ok PrefSyn.text PrefSyn.value PrefSyn.notes
  | .applieds | .preferenceApplied =>
      list1sD (Setting.Ok IsToken) Setting.text (Setting.preference (str "Preference")) Setting.notes
  | .return_ => tabD (fun w => SameWord w (str "representation") ∨ SameWord w (str "minimal")) (fun w => w)
      (fun w => [nameValue (str "CaseInsensitive") w]) (fun _ => [])
  | .handling => tabD (fun w => SameWord w (str "strict") ∨ SameWord w (str "lenient")) (fun w => w)
      (fun w => [nameValue (str "CaseInsensitive") w]) (fun _ => [])
  | .wait | .maxAge | .noticeId => numberD
  | .directiveName => nameD (str "HSTSDirective")
  | .directiveValue => wordsD
  | .directive => tabD DirSyn.Ok DirSyn.text (fun x => [x.result]) DirSyn.notes
  | .hsts => tabD HstsSyn.Ok HstsSyn.text (fun x => [x.value]) HstsSyn.notes
  | .resp => tabD (fun w => SameWord w (str "resp")) (fun w => w) (fun _ => [.obj (str "True") []]) (fun _ => [])
  | .silences | .silence => listsD SilenceSyn.Ok SilenceSyn.text SilenceSyn.value SilenceSyn.notes
  | .patches | .acceptPatch => list1sD (MediaSyn.Ok IsToken) MediaSyn.text MediaSyn.value MediaSyn.notes
  | .mediaRange => freeRangesD
  | .posts | .acceptPost => listsD (fun x : MediaSyn × Bool => x.1.Ok IsToken ∧ (x.2 = true → x.1.subtype = str "*"))
      (fun x => x.1.text) rangeValue (fun x => x.1.notes)

/-! ## Preferences -/

theorem namedAttr_den {order : List Nat → List Nat} {cls : Str} : oneD ((attrE order cls).den smallD) = namedAttrD cls := by
  show oneD (thenD (thenD (appD (classF cls) (exclD tcharBits ([] :: [])))
    (appD skipF (litD (str "=") false))) (oneD (orD tokenD quotedD))) = _
  rw [tokenExcl_den, words_den, tab_one_single, skip_equals, tab_class, then_silent, tab_then, tab_one]
  refine tab_iff ?_ ?_
  · rintro ⟨n, w⟩ ⟨h1, h2⟩
    exact ⟨⟨n, w⟩, ⟨h1.1, h2⟩, rfl, rfl, rfl⟩
  · rintro ⟨n, w⟩ ⟨h1, h2⟩
    exact ⟨(n, w), ⟨⟨h1, nofun⟩, h2⟩, rfl, rfl, rfl⟩

theorem normalize_eq (n : GVal) (w : Str) : normalizeEmptyF [.tuple [n, .text w]] =
    (.val (.obj (str "Parametrized") [n, if w = [] then .none else .text w]), []) := by
  cases w <;> rfl

theorem prefParam_den {attr : SmallName} {cls : Str} (ha : smallD attr = namedAttrD cls) :
    oneD ((prefParamE attr cls).den smallD) = prefD cls := by
  show oneD (appD normalizeEmptyF (orD (smallD attr) (appD (classF cls) tokenD))) = _
  rw [ha, tab_class, tab_or, tab_app, tab_one]
  refine tab_iff ?_ ?_
  · rintro (⟨n, w⟩ | n) h
    · refine ⟨⟨n, some w⟩, ⟨h.1, fun _ e => by cases e; exact h.2⟩, ?_, ?_, ?_⟩
      · exact (List.append_assoc _ _ _)
      · show argsOf (nodeOf (argsOf (normalizeEmptyF [.tuple [nameValue cls n, .text w.content]]).1)) = _
        rw [normalize_eq]
        rfl
      · show _ ++ (normalizeEmptyF [.tuple [nameValue cls n, .text w.content]]).2 = _
        rw [normalize_eq]
        exact List.append_nil _
    · exact ⟨⟨n, none⟩, ⟨h, nofun⟩, (List.append_nil _).symm, rfl, rfl⟩
  · rintro ⟨n, _ | w⟩ ⟨h1, h2⟩
    · exact ⟨.inr n, h1, List.append_nil _, rfl, rfl⟩
    · refine ⟨.inl ⟨n, w⟩, ⟨h1, h2 w rfl⟩, ?_, ?_, ?_⟩
      · exact (List.append_assoc _ _ _).symm
      · show _ = argsOf (nodeOf (argsOf (normalizeEmptyF [.tuple [nameValue cls n, .text w.content]]).1))
        rw [normalize_eq]
        rfl
      · show _ = _ ++ (normalizeEmptyF [.tuple [nameValue cls n, .text w.content]]).2
        rw [normalize_eq]
        exact (List.append_nil _).symm

/-- What is after a semicolon. -/
def paramOk (p : Str × Option (Str × Setting)) : Prop := IsOws p.1 ∧ ∀ s y, p.2 = some (s, y) → IsOws s ∧ y.Ok IsToken

def paramValue : Option (Str × Setting) → GVal
  | none => .none
  | some (_, y) => y.preference (str "CaseInsensitive")

def paramNotes : Option (Str × Setting) → List PyComplaint
  | none => []
  | some (_, y) => y.notes

theorem prefRest_den : thenD (appD skipF (thenD spacesD (litD (str ";") false))) (oneD (orD (thenD (appD skipF spacesD)
    (prefD (str "CaseInsensitive"))) (appD (substF .none) nothingD))) =
    tabD paramOk (fun p => p.1 ++ 59 :: paramText p.2) (fun p => [paramValue p.2]) (fun p => paramNotes p.2) := by
  rw [spaces_tab, semi_char, tab_then, tab_skip, tab_skip, tab_then, tab_maybe, tab_one, tab_then]
  refine tab_iff ?_ ?_
  · rintro ⟨⟨a, _⟩, _ | ⟨b, y⟩⟩ ⟨⟨h1, _⟩, h2⟩
    · exact ⟨(a, none), ⟨h1, nofun⟩, by simp [optT, paramText], rfl, rfl⟩
    · exact ⟨(a, some (b, y)), ⟨h1, fun _ _ e => by cases e; exact h2⟩, by simp [optT, paramText], rfl, rfl⟩
  · rintro ⟨a, _ | ⟨b, y⟩⟩ ⟨h1, h2⟩
    · exact ⟨((a, ()), none), ⟨⟨h1, trivial⟩, trivial⟩, by simp [optT, paramText], rfl, rfl⟩
    · exact ⟨((a, ()), some (b, y)), ⟨⟨h1, trivial⟩, h2 b y rfl⟩, by simp [optT, paramText], rfl, rfl⟩

theorem pref_value (x : PrefSyn) : x.value =
    .obj (str "Parametrized") [x.head.preference (str "Preference"), .list (x.params.map fun p => paramValue p.2)] := rfl

theorem pref_notes (x : PrefSyn) : x.notes = x.head.notes ++ x.params.flatMap fun p => paramNotes p.2 := rfl

theorem preference_den : oneD ((GExpr.app (classF (str "Parametrized")) true (.seq (.ref .head)
    (.many (.seq (.skip (.seq (.ms .ows) (.lit (str ";") false))) (.maybe (.seq (.skip (.ms .ows)) (.ref .param))))))).den
    smallD) = smallD .preference := by
  show oneD (appD (classF (str "Parametrized")) (thenD (prefD (str "Preference"))
    (timesD (thenD (appD skipF (thenD spacesD (litD (str ";") false))) (oneD (orD (thenD (appD skipF spacesD)
      (prefD (str "CaseInsensitive"))) (appD (substF .none) nothingD))))
      (thenD (appD skipF (thenD spacesD (litD (str ";") false))) (oneD (orD (thenD (appD skipF spacesD)
      (prefD (str "CaseInsensitive"))) (appD (substF .none) nothingD)))) 0 none))) = _
  rw [prefRest_den, tab_times (fun a _ => ⟨_, rfl⟩) 0 none nofun, tab_then, tab_class, tab_one_single]
  refine tab_iff ?_ ?_
  · rintro ⟨x, l⟩ ⟨h1, h2⟩
    exact ⟨⟨x, l⟩, ⟨h1, h2.1⟩, rfl, rfl, rfl⟩
  · rintro ⟨x, l⟩ ⟨h1, h2⟩
    exact ⟨(x, l), ⟨h1, h2, Nat.zero_le _, nofun⟩, rfl, rfl, rfl⟩

theorem twoWords_den {a b : Str} : oneD ((GExpr.app (classF (str "CaseInsensitive")) true
    (.alt (.lit a false) (.lit b false))).den smallD) =
    tabD (fun w => SameWord w a ∨ SameWord w b) (fun w => w) (fun w => [nameValue (str "CaseInsensitive") w]) (fun _ => []) := by
  show oneD (appD (classF (str "CaseInsensitive")) (orD (litD a false) (litD b false))) = _
  rw [tab_lit, tab_lit, tab_or, tab_class, tab_one_single]
  refine tab_iff ?_ ?_
  · rintro (w | w) h
    · exact ⟨w, .inl h, rfl, rfl, rfl⟩
    · exact ⟨w, .inr h, rfl, rfl, rfl⟩
  · rintro w (h | h)
    · exact ⟨.inl w, h, rfl, rfl, rfl⟩
    · exact ⟨.inr w, h, rfl, rfl, rfl⟩

/-! ## Strict-Transport-Security -/

theorem directive_den : oneD ((GExpr.app (classF (str "Parametrized")) true (.seq (.ref .directiveName)
    (.maybe (.seq (.skip (.seq (.seq (.ms .ows) (.lit (str "=") false)) (.ms .ows))) (.ref .directiveValue))))).den smallD) =
    smallD .directive := by
  show oneD (appD (classF (str "Parametrized")) (thenD (nameD (str "HSTSDirective")) (oneD (orD (thenD (appD skipF (thenD
    (thenD spacesD (litD (str "=") false)) spacesD)) wordsD) (appD (substF .none) nothingD))))) = _
  rw [spaces_tab, equals_char, tab_then, tab_then, tab_skip, tab_then, tab_maybe, tab_one, tab_then, tab_class, tab_one_single]
  refine tab_iff ?_ ?_
  · rintro ⟨n, _ | ⟨⟨⟨a, _⟩, b⟩, w⟩⟩ ⟨h1, h2⟩
    · exact ⟨⟨n, none⟩, ⟨h1, nofun⟩, rfl, rfl, rfl⟩
    · exact ⟨⟨n, some ((a, b), w)⟩, ⟨h1, fun _ _ _ e => by cases e; exact ⟨h2.1.1.1, h2.1.2, h2.2⟩⟩,
        by simp [optT, DirSyn.text], rfl, rfl⟩
  · rintro ⟨n, _ | ⟨⟨a, b⟩, w⟩⟩ ⟨h1, h2⟩
    · exact ⟨(n, none), ⟨h1, trivial⟩, rfl, rfl, rfl⟩
    · obtain ⟨k1, k2, k3⟩ := h2 a b w rfl
      exact ⟨(n, some (((a, ()), b), w)), ⟨h1, ⟨⟨⟨k1, trivial⟩, k2⟩, k3⟩⟩, by simp [optT, DirSyn.text], rfl, rfl⟩

theorem optDir_den : oneD (orD (smallD .directive) (appD (substF .none) nothingD)) =
    tabD optDirOk optDirText (fun o => [optDirValue o]) optDirNotes := by
  show oneD (orD (tabD DirSyn.Ok DirSyn.text (fun x => [x.result]) DirSyn.notes) _) = _
  rw [tab_maybe, tab_one]
  refine tab_iff ?_ ?_
  · rintro (_ | d) h
    · exact ⟨none, nofun, rfl, rfl, rfl⟩
    · exact ⟨some d, fun _ e => by cases e; exact h, rfl, rfl, rfl⟩
  · rintro (_ | d) h
    · exact ⟨none, trivial, rfl, rfl, rfl⟩
    · exact ⟨some d, h d rfl, rfl, rfl, rfl⟩

theorem dirs_value (l : List (Option DirSyn)) : ((l.map optDirValue).filter fun | GVal.none => false | _ => true) =
    (l.filterMap fun o => o).map DirSyn.result := by
  induction l with
  | nil => rfl
  | cons o l ih =>
    cases o with
    | none => exact ih
    | some d =>
      show d.result :: _ = _
      rw [ih]
      rfl

theorem dirs_notes (l : List (Option DirSyn)) : l.flatMap optDirNotes = (l.filterMap fun o => o).flatMap DirSyn.notes := by
  induction l with
  | nil => rfl
  | cons o l ih =>
    cases o with
    | none => exact ih
    | some d =>
      rw [List.flatMap_cons, ih]
      rfl

theorem hsts_den : oneD ((GExpr.app collectElementsF false (.mod (.maybe (.ref .directive))
    (.many (.seq (.semicolon (.sem (.hop (.str .ows)))) (.maybe (.ref .directive)))))).den smallD) = smallD .hsts := by
  show oneD (appD collectElementsF (appD continueRightListF (thenD (oneD (orD (smallD .directive) (appD (substF .none) nothingD)))
    (timesD (thenD (appD skipF (thenD (thenD spacesD (litD (str ";") false)) spacesD))
      (oneD (orD (smallD .directive) (appD (substF .none) nothingD))))
      (thenD (appD skipF (thenD (thenD spacesD (litD (str ";") false)) spacesD))
      (oneD (orD (smallD .directive) (appD (substF .none) nothingD)))) 0 none)))) = _
  rw [optDir_den, semi_den, semis_den, tab_then, tab_app, tab_app, tab_one]
  refine tab_iff ?_ ?_
  · rintro ⟨o, l⟩ h
    refine ⟨⟨o, l⟩, h, rfl, ?_, ?_⟩
    · show [GVal.list (((o :: l.elems).map optDirValue).filter fun | GVal.none => false | _ => true)] = _
      rw [dirs_value]
      rfl
    · show optDirNotes o ++ l.elems.flatMap optDirNotes ++ [] ++ [] = _
      rw [List.append_nil, List.append_nil, ← List.flatMap_cons, dirs_notes]
      rfl
  · rintro ⟨o, l⟩ h
    refine ⟨(o, l), h, rfl, ?_, ?_⟩
    · show _ = [GVal.list (((o :: l.elems).map optDirValue).filter fun | GVal.none => false | _ => true)]
      rw [dirs_value]
      rfl
    · show _ = optDirNotes o ++ l.elems.flatMap optDirNotes ++ [] ++ []
      rw [List.append_nil, List.append_nil, ← List.flatMap_cons, dirs_notes]
      rfl

/-! ## Other headers -/

theorem silenceResp_den : oneD ((GExpr.subst (pyBool true) (.lit (str "resp") false)).den smallD) = smallD .resp := by
  show oneD (appD (substF (pyBool true)) (litD (str "resp") false)) = _
  rw [tab_lit, tab_app, tab_one]
  refine tab_iff ?_ ?_
  · exact fun w h => ⟨w, h, rfl, rfl, rfl⟩
  · exact fun w h => ⟨w, h, rfl, rfl, rfl⟩

theorem silenceElem_den : oneD ((GExpr.seq (.ref .noticeId) (.maybe (.seq (.skip (.ms .rws)) (.ref .resp)))).den smallD) =
    tabD SilenceSyn.Ok SilenceSyn.text (fun x => [x.value]) SilenceSyn.notes := by
  show oneD (thenD numberD (oneD (orD (thenD (appD skipF requiredSpacesD) (smallD .resp)) (appD (substF .none) nothingD)))) = _
  show oneD (thenD numberD (oneD (orD (thenD (appD skipF requiredSpacesD) (tabD (fun w => SameWord w (str "resp"))
    (fun w => w) (fun _ => [.obj (str "True") []]) (fun _ => []))) (appD (substF .none) nothingD)))) = _
  rw [tab_skip, tab_then, tab_maybe, tab_one, tab_then, tab_one]
  refine tab_iff ?_ ?_
  · rintro ⟨n, _ | ⟨s, w⟩⟩ ⟨h1, h2⟩
    · exact ⟨⟨n, none⟩, ⟨h1, nofun⟩, rfl, rfl, rfl⟩
    · exact ⟨⟨n, some (s, w)⟩, ⟨h1, fun _ _ e => by cases e; exact h2⟩, rfl, rfl, List.append_nil _⟩
  · rintro ⟨n, _ | ⟨s, w⟩⟩ ⟨h1, h2⟩
    · exact ⟨(n, none), ⟨h1, trivial⟩, rfl, rfl, rfl⟩
    · exact ⟨(n, some (s, w)), ⟨h1, h2 s w rfl⟩, rfl, rfl, (List.append_nil _).symm⟩

theorem silences_alike : Alike (listD ((GExpr.seq (.ref .noticeId) (.maybe (.seq (.skip (.ms .rws)) (.ref .resp)))).den smallD))
    (smallD .silences) := by
  have : ∀ D : Den, listD D = listD (oneD D) := by
    intro D
    unfold listD elementsD
    rw [oneD_idem]
  rw [this, silenceElem_den]
  exact tab_list fun _ _ => nofun

theorem freeRange_den : oneD ((GExpr.app (classF (str "Parametrized")) true (.seq
    (.alt (.alt (.lit (str "*/*") false) (.add (.add (.ref (.sem .type_)) (.lit (str "/") false)) (.lit (str "*") false)))
      (mediaNameE.rename SmallName.sem))
    (.app (classF (str "MultiDict")) true (.many (.seq (.semicolon (.sem (.hop (.str .ows)))) (.ref .attr4)))))).den smallD) =
    smallD .mediaRange := by
  show oneD (appD (classF (str "Parametrized")) (thenD (oneD (orD (orD (litD (str "*/*") false) (appD addF (thenD (appD addF
    (thenD tokenD (litD (str "/") false))) (litD (str "*") false)))) ((mediaNameE.rename SmallName.sem).den smallD)))
    (appD (classF (str "MultiDict")) (timesD (thenD (appD skipF (thenD (thenD spacesD (litD (str ";") false)) spacesD))
      (attrD IsToken)) (thenD (appD skipF (thenD (thenD spacesD (litD (str ";") false)) spacesD)) (attrD IsToken)) 0 none)))) = _
  rw [rename_den (f := SmallName.sem) (δ := smallD) (δ' := semD) (fun _ => rfl), rangeName_den, semi_den, semis_den, tab_class, tab_then, tab_class, tab_one_single]
  refine tab_iff ?_ ?_
  · rintro ⟨⟨⟨a, b⟩, f⟩, l⟩ ⟨⟨h1, h2⟩, h3⟩
    exact ⟨(⟨a, b, l⟩, f), ⟨⟨h1.1, h1.2, h3⟩, h2⟩, rfl, rfl, rfl⟩
  · rintro ⟨⟨a, b, l⟩, f⟩ ⟨⟨h1, h2, h3⟩, h4⟩
    exact ⟨(((a, b), f), l), ⟨⟨⟨h1, h2⟩, h4⟩, h3⟩, rfl, rfl, rfl⟩

local macro "fine" : tactic => `(tactic| simp_all [Defn.Fine, GExpr.Fine, GExpr.number, GExpr.semicolon, attrE, prefParamE,
  mediaNameE, GExpr.rename])

local macro "one" : tactic => `(tactic| exact named_alike (.of_eq tab_one_single))

theorem smalls_solve {order : List Nat → List Nat} (ho : ∀ l c, c ∈ order l ↔ c ∈ l) : Solves [] smallD (smallDefs order) := by
  refine solves_import (known := []) (δ' := semD) nofun (fun _ => rfl) (sems_solve ho) ?_
  have hk : ∀ n ∈ [SmallName.sem (.hop (.str .token)), .sem (.hop (.str .quoted)), .sem (.hop (.str .ows)),
      .sem (.hop (.str .rws)), .sem .type_, .sem .subtype, .sem .mediaType, .sem .delaySeconds],
      n ∈ ((semDefs order).map fun x => SmallName.sem x.1).reverse ++ [] := of_decide_eq_true (Eq.refl true)
  generalize ((semDefs order).map fun x => SmallName.sem x.1).reverse ++ [] = known at hk
  have t0 : ∀ known, (GExpr.tokenExcluding order [] : GExpr SmallName).Fine known :=
    fun known => tokenExcl_fine ho (by decide +kernel) known
  have a0 : ∀ cls known, SmallName.sem (.hop (.str .token)) ∈ known → SmallName.sem (.hop (.str .quoted)) ∈ known →
      (attrE order cls).Fine known := by
    intro cls known h1 h2
    unfold attrE
    generalize ([] : List Str) = xs at t0 ⊢
    simp_all [GExpr.Fine]
  clear t0
  refine ⟨a0 _ _ (by simp_all) (by simp_all), named_alike (.of_eq namedAttr_den), ?_⟩
  refine ⟨by fine, named_alike (.of_eq (prefParam_den rfl)), ?_⟩
  refine ⟨a0 _ _ (by simp_all) (by simp_all), named_alike (.of_eq namedAttr_den), ?_⟩
  refine ⟨by fine, named_alike (.of_eq (prefParam_den rfl)), ?_⟩
  refine ⟨by fine, named_alike (.of_eq preference_den), ?_⟩
  refine ⟨⟨by simp_all, rfl, by fine, fun w cs => tab_never w cs⟩, tab_list1 (fun _ _ => nofun), ?_⟩
  refine ⟨by fine, by one, ?_⟩
  refine ⟨a0 _ _ (by simp_all) (by simp_all), named_alike (.of_eq namedAttr_den), ?_⟩
  refine ⟨by fine, named_alike (.of_eq (prefParam_den rfl)), ?_⟩
  refine ⟨⟨by simp_all, rfl, by fine, fun w cs => tab_never w cs⟩, tab_list1 (fun _ _ => nofun), ?_⟩
  refine ⟨by fine, by one, ?_⟩
  refine ⟨by fine, named_alike (.of_eq twoWords_den), ?_⟩
  refine ⟨by fine, by one, ?_⟩
  refine ⟨by fine, named_alike (.of_eq twoWords_den), ?_⟩
  refine ⟨by fine, named_alike (.of_eq (name_den _)), ?_⟩
  refine ⟨by fine, named_alike (.of_eq ((congrArg oneD words_den).trans tab_one_single)), ?_⟩
  refine ⟨by fine, named_alike (.of_eq directive_den), ?_⟩
  refine ⟨by fine, named_alike (.of_eq hsts_den), ?_⟩
  refine ⟨by fine, named_alike (.of_eq number_one'), ?_⟩
  refine ⟨by fine, named_alike (.of_eq number_one'), ?_⟩
  refine ⟨by fine, named_alike (.of_eq silenceResp_den), ?_⟩
  refine ⟨⟨by simp_all, rfl, by fine, ?_⟩, silences_alike, ?_⟩
  · intro w cs h
    have : oneD (GExpr.den smallD (.seq (.ref .noticeId) (.maybe (.seq (.skip (.ms .rws)) (.ref .resp))))) w [] cs :=
      ⟨[], h, rfl⟩
    rw [silenceElem_den] at this
    exact tab_never w cs this
  refine ⟨by fine, by one, ?_⟩
  refine ⟨⟨by simp_all, rfl, by fine, fun w cs => tab_never w cs⟩, tab_list1 (fun _ _ => nofun), ?_⟩
  refine ⟨by fine, by one, ?_⟩
  refine ⟨a0 _ _ (by simp_all) (by simp_all), named_alike (.of_eq namedAttr_den), ?_⟩
  refine ⟨by fine, named_alike (.of_eq freeRange_den), ?_⟩
  refine ⟨⟨by simp_all, rfl, by fine, fun w cs => tab_never w cs⟩, tab_list (fun _ _ => nofun), ?_⟩
  refine ⟨by fine, by one, ?_⟩
  trivial

/-- What the names come to. -/
def http2D : Http2Name → Den
  | .auth n => authD n
  | .http2Settings => token68D

theorem http2_solve : Solves [] http2D http2Defs := by
  refine solves_import (known := []) (δ' := authD) nofun (fun _ => rfl) auths_solve ?_
  have hk : Http2Name.auth .token68 ∈ (authDefs.map fun x => Http2Name.auth x.1).reverse ++ [] := of_decide_eq_true (Eq.refl true)
  exact ⟨hk, named_alike (.of_eq tab_one_single), trivial⟩

/-! ## Texts determine what is written -/

theorem AtComma.not_semi {l : Str} (h : AtComma l) : ¬ AtSemi l := fun k => k.not_atComma h

theorem uniq_pref : Uniq PrefSyn.Ok PrefSyn.text AtComma := by
  have setting : Uniq (Setting.Ok IsToken) Setting.text (fun l => AtSemi l ∨ AtComma l) :=
    (uniq_setting fun _ h => h).mono (fun _ h => h) fun _ h => h.elim AtSemi.unset fun h => end_unset h.atEnd
  have blank : ∀ (y : Setting) l, y.Ok IsToken → Stops Blank (y.text ++ l) := fun _ _ h =>
    not_blank (Q := IsTchar) (fun _ hc => ⟨(tchar_ne hc).2.2.1, (tchar_ne hc).2.2.2.1⟩) (token_begins h.1).append
  have full : Uniq (fun x : Str × Setting => IsOws x.1 ∧ x.2.Ok IsToken) (fun x => x.1 ++ x.2.text)
      (fun l => AtSemi l ∨ AtComma l) := Uniq.seq uniq_ows setting fun y l h _ => blank y l h
  have opt := full.opt (fun x l l' hx _ hl' e => by
    have hb : Begins IsTchar x.2.text := (token_begins hx.2.1).append
    rcases hl' with ⟨s, r, hs, rfl⟩ | hl'
    · obtain ⟨_, e⟩ := span_unique (Q := Blank) hx.1 hs (blank _ l hx.2) (blank_semi r) (by rw [← e]; simp)
      obtain ⟨c, w, hw, hc⟩ := hb
      rw [hw] at e
      obtain rfl := (List.cons.inj e).1
      exact (tchar_ne hc).2.2.2.2.2.1 rfl
    · exact atComma_unlike hx.1 (setting_begins hx.2) (l := l) (by rw [← List.append_assoc, e]; exact hl'))
  have item : Uniq (fun x : Str × Option (Str × Setting) => IsOws x.1 ∧ optT True (fun x : Str × Setting => IsOws x.1 ∧ x.2.Ok IsToken) x.2)
      (fun x => x.1 ++ ([59] ++ optT [] (fun x : Str × Setting => x.1 ++ x.2.text) x.2)) (fun l => AtSemi l ∨ AtComma l) :=
    Uniq.seq uniq_ows (opt.after [59]) (fun _ _ _ _ => blank_semi _)
  have many := Uniq.many item (G := AtComma) (fun l hl => .inr hl)
    (fun x l hx _ => .inl ⟨x.1, _, hx.1, by rw [List.append_assoc, List.append_assoc]; rfl⟩)
    (fun x l l' hx hl hl' e => hl'.not_semi (by
      rw [← e]
      exact ⟨x.1, optT [] (fun x : Str × Setting => x.1 ++ x.2.text) x.2 ++ l, hx.1, by simp⟩))
  have rest : ∀ (ps : List (Str × Option (Str × Setting))) l, (∀ p ∈ ps, IsOws p.1 ∧ optT True (fun x : Str × Setting => IsOws x.1 ∧ x.2.Ok IsToken) p.2) →
      AtComma l → AtSemi ((ps.flatMap fun x => x.1 ++ ([59] ++ optT [] (fun x : Str × Setting => x.1 ++ x.2.text) x.2)) ++ l) ∨
        AtComma ((ps.flatMap fun x => x.1 ++ ([59] ++ optT [] (fun x : Str × Setting => x.1 ++ x.2.text) x.2)) ++ l) := by
    rintro (_ | ⟨p, ps⟩) l h hl
    · exact .inr hl
    · refine .inl ⟨p.1, optT [] (fun x : Str × Setting => x.1 ++ x.2.text) p.2 ++ ((ps.flatMap fun x => x.1 ++ ([59] ++ optT [] (fun x : Str × Setting => x.1 ++ x.2.text) x.2)) ++ l), (h p (.head _)).1, ?_⟩
      simp
  refine (Uniq.seq setting many rest).map (fun x : PrefSyn => (x.head, x.params)) ?_ ?_ ?_
  · rintro ⟨x, l⟩ h
    refine ⟨h.1, fun p hp => ⟨(h.2 p hp).1, ?_⟩⟩
    have := (h.2 p hp).2
    rcases hq : p.2 with _ | ⟨s, y⟩
    · trivial
    · exact this s y hq
  · rintro ⟨x, l⟩ h
    show x.text ++ _ = x.text ++ _
    congr 1
    show l.flatMap _ = l.flatMap _
    congr 1
    funext ⟨s, o⟩
    rcases o with _ | ⟨s', y⟩ <;> rfl
  · rintro ⟨a, b⟩ ⟨a', b'⟩ _ _ e
    simp only [Prod.mk.injEq] at e
    obtain ⟨rfl, rfl⟩ := e
    rfl

theorem prefs_inj (x y : List1Syn PrefSyn) (hx : x.Ok PrefSyn.Ok) (hy : y.Ok PrefSyn.Ok)
    (e : x.text PrefSyn.text = y.text PrefSyn.text) : x = y :=
  (uniq_list1 uniq_pref (fun _ h => h) (fun _ h => (setting_begins h.1).append)).inj rfl hx hy e

theorem uniq_silence : Uniq SilenceSyn.Ok SilenceSyn.text AtEnd := by
  have digits : Uniq IsNumeral (fun w => w) (Stops fun c => 48 ≤ c ∧ c ≤ 57) :=
    uniq_span.mono (fun _ h => h.2) (fun _ h => h)
  have letter : ∀ {w : Str}, SameWord w (str "resp") → Begins (fun c => c = 114 ∨ c = 82) w := by
    intro w h
    have hs : str "resp" = [114, 101, 115, 112] := by decide +kernel
    rw [hs] at h
    obtain _ | ⟨h1, _⟩ := h
    unfold SameLetter at h1
    exact ⟨_, _, rfl, by omega⟩
  have word : Uniq (fun w => SameWord w (str "resp")) (fun w => w) AtEnd := (uniq_sameWord _).mono (fun _ h => h) (fun _ _ => trivial)
  have full : Uniq (fun x : Str × Str => IsRws x.1 ∧ SameWord x.2 (str "resp")) (fun x => x.1 ++ x.2) AtEnd :=
    Uniq.seq (uniq_ows.mono (fun _ h => h.2) (fun _ h => h)) word
      (fun w l h _ => not_blank (fun c hc => by omega) (letter h))
  have opt := full.opt (fun x l l' hx _ hl' e => by
    obtain ⟨s, r, hs, hr, rfl⟩ := hl'
    have hb : Stops Blank r := by
      rcases hr with rfl | hr
      · exact .nil
      · exact hr.stops fun c hc => by subst hc; unfold Blank; decide
    obtain ⟨_, e⟩ := span_unique (Q := Blank) hx.1.2 hs (not_blank (l := l) (fun c hc => by omega) (letter hx.2)) hb
      (by rw [← List.append_assoc, e])
    obtain ⟨c, w, hw, hc⟩ := letter hx.2
    rw [hw] at e
    rcases hr with rfl | ⟨d, w', rfl, hd⟩
    · cases e
    · have := (List.cons.inj e).1
      omega)
  refine (Uniq.seq digits opt ?_).map (fun x => (x.number, x.resp)) ?_ ?_ ?_
  · rintro (_ | ⟨s, w⟩) l h hl
    · refine hl.stops.mono fun c hc => ?_
      unfold Unbroken
      omega
    · refine Stops.mono (R := fun c => 48 ≤ c ∧ c ≤ 57) ?_ fun _ h => h
      refine (begins_of_all h.1.1 h.1.2).append.append.stops fun c hc => ?_
      rcases hc with rfl | rfl <;> decide
  · rintro ⟨n, _ | ⟨s, w⟩⟩ h
    · exact ⟨h.1, trivial⟩
    · exact ⟨h.1, h.2 s w rfl⟩
  · rintro ⟨n, _ | ⟨s, w⟩⟩ h <;> rfl
  · rintro ⟨a, b⟩ ⟨a', b'⟩ _ _ e
    simp only [Prod.mk.injEq] at e
    obtain ⟨rfl, rfl⟩ := e
    rfl

theorem silences_inj (x y : ListSyn SilenceSyn) (hx : x.Ok SilenceSyn.Ok) (hy : y.Ok SilenceSyn.Ok)
    (e : x.text SilenceSyn.text = y.text SilenceSyn.text) : x = y :=
  (uniq_list uniq_silence (fun _ h => h) (fun _ h => ((begins_of_all h.1.1 h.1.2).mono fun c hc => by
    unfold Unbroken; omega).append)).inj rfl hx hy e

theorem uniq_mediaElem : Uniq (MediaSyn.Ok IsToken) MediaSyn.text AtEnd :=
  uniq_media (fun _ => end_stops) (uniq_semis_end (uniq_param fun _ h => h)
    (fun _ h => h.elim AtSemi.stops end_stops) (param_blank fun _ h => h) (fun _ => end_semi))

theorem patches_inj (x y : List1Syn MediaSyn) (hx : x.Ok (MediaSyn.Ok IsToken)) (hy : y.Ok (MediaSyn.Ok IsToken))
    (e : x.text MediaSyn.text = y.text MediaSyn.text) : x = y :=
  (uniq_list1 uniq_mediaElem (fun _ h => h.atEnd) (fun _ => media_begins)).inj rfl hx hy e

theorem posts_inj (x y : ListSyn MediaSyn) (hx : x.Ok (MediaSyn.Ok IsToken)) (hy : y.Ok (MediaSyn.Ok IsToken))
    (e : x.text MediaSyn.text = y.text MediaSyn.text) : x = y :=
  (uniq_list uniq_mediaElem (fun _ h => h) (fun _ => media_begins)).inj rfl hx hy e

/-! ## Directives between semicolons -/

/-- Blanks, and then a semicolon or the end. -/
def AtSemiEnd (l : Str) : Prop := ∃ s r, IsOws s ∧ (r = [] ∨ Begins (· = 59) r) ∧ l = s ++ r

theorem semiEnd_stops {r : Str} (h : r = [] ∨ Begins (· = 59) r) : Stops Blank r := by
  rcases h with rfl | h
  · exact .nil
  · exact h.stops fun c hc => by subst hc; unfold Blank; decide

/-- Blanks, and then a semicolon, a comma or the end. -/
def AtBreak (l : Str) : Prop := ∃ s r, IsOws s ∧ (r = [] ∨ Begins (fun c => c = 59 ∨ c = 44) r) ∧ l = s ++ r

theorem AtSemiEnd.atBreak {l : Str} (h : AtSemiEnd l) : AtBreak l := by
  obtain ⟨s, r, hs, hr, rfl⟩ := h
  exact ⟨s, r, hs, hr.imp (fun h => h) (fun h => h.mono fun _ => .inl), rfl⟩

theorem AtSemi.atBreak {l : Str} (h : AtSemi l) : AtBreak l := by
  obtain ⟨s, r, hs, rfl⟩ := h
  exact ⟨s, 59 :: r, hs, .inr ⟨59, r, rfl, .inl rfl⟩, rfl⟩

theorem AtEnd.atBreak {l : Str} (h : AtEnd l) : AtBreak l := by
  obtain ⟨s, r, hs, hr, rfl⟩ := h
  exact ⟨s, r, hs, hr.imp (fun h => h) (fun h => h.mono fun _ => .inr), rfl⟩

theorem break_stops {r : Str} (h : r = [] ∨ Begins (fun c => c = 59 ∨ c = 44) r) : Stops Blank r := by
  rcases h with rfl | h
  · exact .nil
  · exact h.stops fun c hc => by rcases hc with rfl | rfl <;> (unfold Blank; decide)

theorem AtBreak.unset {l : Str} (h : AtBreak l) : Unset l := by
  obtain ⟨s, r, hs, hr, rfl⟩ := h
  refine .append (fun c hc k => ?_) ?_
  · rcases hs c hc with rfl | rfl
    · exact k.elim (fun k => (tchar_ne k).2.2.1 rfl) (by decide)
    · exact k.elim (fun k => (tchar_ne k).2.2.2.1 rfl) (by decide)
  · rcases hr with rfl | hr
    · exact .nil
    · refine hr.stops fun c hc k => ?_
      rcases hc with rfl | rfl
      · exact k.elim (fun k => (tchar_ne k).2.2.2.2.2.1 rfl) (by decide)
      · exact k.elim (fun k => (tchar_ne k).2.1 rfl) (by decide)

theorem uniq_dir_break : Uniq DirSyn.Ok DirSyn.text AtBreak := by
  have word : Uniq Word.Ok Word.text AtBreak := uniq_word.mono (fun _ h => h) (fun _ h => h.unset.mono fun _ => .inl)
  have tail : Uniq (fun x : Str × Word => IsOws x.1 ∧ x.2.Ok) (fun x => x.1 ++ x.2.text) AtBreak := by
    refine Uniq.seq uniq_ows word ?_
    rintro (w | q) l h _
    · exact not_blank (fun c hc => ⟨(tchar_ne hc).2.2.1, (tchar_ne hc).2.2.2.1⟩) (token_begins h)
    · exact not_blank (fun c hc => by subst hc; decide) (quoted_begins q)
  have rest : Uniq (fun x : Str × Str × Word => IsOws x.1 ∧ IsOws x.2.1 ∧ x.2.2.Ok)
      (fun x => x.1 ++ ([61] ++ (x.2.1 ++ x.2.2.text))) AtBreak :=
    Uniq.seq uniq_ows (tail.after [61]) (fun b l _ _ => .cons (by unfold Blank; decide))
  have opt := rest.opt (fun x l l' hx _ hl' e => by
    obtain ⟨s, r, hs, hr, rfl⟩ := hl'
    have h1 : Stops Blank ([61] ++ (x.2.1 ++ x.2.2.text) ++ l) := .cons (by unfold Blank; decide)
    obtain ⟨_, e⟩ := span_unique (Q := Blank) hx.1 hs h1 (break_stops hr) (by rw [← List.append_assoc, e])
    rcases hr with rfl | ⟨d, w', rfl, hd⟩
    · cases e
    · have : 61 = d := (List.cons.inj e).1
      omega)
  refine (Uniq.seq uniq_token opt ?_).map (fun x : DirSyn => (x.name, x.value.map fun v => (v.1.1, v.1.2, v.2))) ?_ ?_ ?_
  · rintro (_ | ⟨a, b, w⟩) l h hl
    · exact hl.unset.mono fun _ => .inl
    · show Stops IsTchar (a ++ ([61] ++ (b ++ w.text)) ++ l)
      rw [List.append_assoc]
      exact stops_blank_tchar h.1 (.cons fun k => (tchar_ne k).2.2.2.2.1 rfl)
  · rintro ⟨n, _ | ⟨⟨a, b⟩, w⟩⟩ h
    · exact ⟨h.1, trivial⟩
    · exact ⟨h.1, h.2 a b w rfl⟩
  · rintro ⟨n, _ | ⟨⟨a, b⟩, w⟩⟩ h
    · rfl
    · simp [DirSyn.text, optT]
  · rintro ⟨n, _ | ⟨⟨a, b⟩, w⟩⟩ ⟨n', _ | ⟨⟨a', b'⟩, w'⟩⟩ _ _ e <;> simp at e <;> simp [e]

theorem uniq_dir : Uniq DirSyn.Ok DirSyn.text AtSemiEnd := uniq_dir_break.mono (fun _ h => h) fun _ h => h.atBreak

/-- What is between two semicolons: whitespace, and perhaps a directive with whitespace after it. -/
abbrev Piece := Str × Option (DirSyn × Str)

def pieceOk (p : Piece) : Prop := IsOws p.1 ∧ optT True (fun x : DirSyn × Str => x.1.Ok ∧ IsOws x.2) p.2

def pieceText (p : Piece) : Str := p.1 ++ optT [] (fun x : DirSyn × Str => x.1.text ++ x.2) p.2

def pieces (lead : Str) : Option DirSyn → SemiSyn (Option DirSyn) → Piece × List Piece
  | o, [] => ((lead, o.map fun d => (d, [])), [])
  | none, ((a, b), o) :: l => ((lead ++ a, none), (pieces b o l).1 :: (pieces b o l).2)
  | some d, ((a, b), o) :: l => ((lead, some (d, a)), (pieces b o l).1 :: (pieces b o l).2)

def piecesText (x : Piece × List Piece) : Str := pieceText x.1 ++ x.2.flatMap fun p => [59] ++ pieceText p

theorem pieces_text (lead : Str) (o : Option DirSyn) (l : SemiSyn (Option DirSyn)) :
    lead ++ (optDirText o ++ l.text optDirText) = piecesText (pieces lead o l) := by
  induction l generalizing lead o with
  | nil => cases o <;> simp [pieces, piecesText, pieceText, optT, optDirText, SemiSyn.text]
  | cons x l ih =>
    obtain ⟨⟨a, b⟩, o'⟩ := x
    have ht : SemiSyn.text optDirText (((a, b), o') :: l) = a ++ 59 :: (b ++ (optDirText o' ++ SemiSyn.text optDirText l)) := by
      simp [SemiSyn.text]
    rw [ht, ih b o']
    cases o with
    | none => simp [pieces, piecesText, pieceText, optT, optDirText]
    | some d => simp [pieces, piecesText, pieceText, optT, optDirText]

theorem pieces_ok {lead : Str} {o : Option DirSyn} {l : SemiSyn (Option DirSyn)} (h1 : IsOws lead) (h2 : optDirOk o)
    (h3 : l.Ok optDirOk) : pieceOk (pieces lead o l).1 ∧ ∀ p ∈ (pieces lead o l).2, pieceOk p := by
  induction l generalizing lead o with
  | nil =>
    cases o with
    | none => exact ⟨⟨h1, trivial⟩, nofun⟩
    | some d => exact ⟨⟨h1, h2 d rfl, nofun⟩, nofun⟩
  | cons x l ih =>
    obtain ⟨⟨a, b⟩, o'⟩ := x
    obtain ⟨⟨ka, kb⟩, ko⟩ := h3 _ (.head _)
    obtain ⟨i1, i2⟩ := ih kb ko fun y hy => h3 y (.tail _ hy)
    cases o with
    | none =>
      refine ⟨⟨fun c hc => ?_, trivial⟩, List.forall_mem_cons.mpr ⟨i1, i2⟩⟩
      exact (List.mem_append.mp hc).elim (h1 c) (ka c)
    | some d => exact ⟨⟨h1, h2 d rfl, ka⟩, List.forall_mem_cons.mpr ⟨i1, i2⟩⟩

theorem pieces_dirs (lead : Str) (o : Option DirSyn) (l : SemiSyn (Option DirSyn)) :
    (o :: l.elems).filterMap (fun o => o) =
      ((pieces lead o l).1 :: (pieces lead o l).2).filterMap fun p => p.2.map Prod.fst := by
  induction l generalizing lead o with
  | nil => cases o <;> rfl
  | cons x l ih =>
    obtain ⟨⟨a, b⟩, o'⟩ := x
    have := ih b o'
    cases o with
    | none => exact this
    | some d =>
      show d :: (o' :: SemiSyn.elems l).filterMap _ = d :: _
      rw [this]
      rfl

theorem uniq_pieces : Uniq (fun x : Piece × List Piece => pieceOk x.1 ∧ ∀ p ∈ x.2, pieceOk p) piecesText (fun l => l = []) := by
  have dir : Uniq (fun x : DirSyn × Str => x.1.Ok ∧ IsOws x.2) (fun x => x.1.text ++ x.2) (fun l => l = [] ∨ Begins (· = 59) l) :=
    Uniq.seq uniq_dir (uniq_ows.mono (fun _ h => h) fun _ => semiEnd_stops) fun s l hs hl => ⟨s, l, hs, hl, rfl⟩
  have opt := dir.opt (fun x l l' hx _ hl' e => by
    obtain ⟨c, w, hw, hc⟩ := token_begins hx.1.1
    have hb : x.1.text ++ x.2 ++ l = l' := e
    unfold DirSyn.text at hb
    rw [hw] at hb
    rcases hl' with rfl | ⟨d, w', rfl, hd⟩
    · cases hb
    · have : c = d := (List.cons.inj hb).1
      exact (tchar_ne hc).2.2.2.2.2.1 (this.trans hd))
  have piece : Uniq pieceOk pieceText (fun l => l = [] ∨ Begins (· = 59) l) := by
    refine Uniq.seq uniq_ows opt ?_
    rintro (_ | ⟨d, s⟩) l h hl
    · exact semiEnd_stops hl
    · show Stops Blank (d.text ++ s ++ l)
      rw [List.append_assoc]
      exact not_blank (Q := IsTchar) (fun _ hc => ⟨(tchar_ne hc).2.2.1, (tchar_ne hc).2.2.2.1⟩) (token_begins h.1.1).append
  have many := Uniq.many (piece.after [59]) (G := fun l => l = []) (fun l hl => .inl hl) (fun x l _ _ => .inr ⟨59, _, rfl, rfl⟩)
    (fun x l l' _ _ hl' e => by subst hl'; cases e)
  refine Uniq.seq piece many ?_
  rintro (_ | ⟨p, ps⟩) l _ rfl
  · exact .inl rfl
  · exact .inr ⟨59, _, rfl, rfl⟩

theorem hsts_same (x y : HstsSyn) (hx : x.Ok) (hy : y.Ok) (e : x.text = y.text) : x.dirs = y.dirs := by
  have h : ∀ z : HstsSyn, z.text = piecesText (pieces [] z.first z.rest) := fun z => pieces_text [] z.first z.rest
  have := uniq_pieces.inj rfl (pieces_ok (lead := []) nofun hx.1 hx.2) (pieces_ok (lead := []) nofun hy.1 hy.2)
    ((h x).symm.trans (e.trans (h y)))
  unfold HstsSyn.dirs
  rw [pieces_dirs [], pieces_dirs [], this]

end Httpolice.Lemmas
