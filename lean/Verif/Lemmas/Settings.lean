import Verif.Lemmas.Hops
import Verif.Lemmas.Dates
import Verif.Model.Rfc7234
import Verif.Spec.Settings

/-!
# What the names for caches come to
-/

namespace Httpolice.Lemmas

open Httpolice.Model Httpolice.Spec

theorem skip_equals : appD skipF (litD (str "=") false) = silentD (str "=") := skip_char (k := 61) (by decide)

/-- A setting, with what is made of the name and the value. -/
abbrev settingD (Name : Str → Prop) (f : Str → GVal) (g : Word → GVal) : Den :=
  tabD (Setting.Ok Name) Setting.text
    (fun x => [.obj (str "Parametrized") [f x.name, match x.value with | none => .none | some w => g w]]) Setting.notes

theorem setting_den {Name : Str → Prop} {f : Str → GVal} {g : Word → GVal} :
    oneD (appD (classF (str "Parametrized")) (thenD (tabD Name (fun w => w) (fun w => [f w]) (fun _ => []))
      (oneD (orD (thenD (appD skipF (litD (str "=") false)) (tabD Word.Ok Word.text (fun w => [g w]) Word.notes))
        (appD (substF .none) nothingD))))) = settingD Name f g := by
  rw [skip_equals, silent_then, tab_maybe, tab_one, tab_then, tab_class, tab_one_single]
  refine tab_iff ?_ ?_
  · rintro ⟨n, _ | w⟩ h
    · exact ⟨⟨n, none⟩, ⟨h.1, nofun⟩, rfl, rfl, rfl⟩
    · exact ⟨⟨n, some w⟩, ⟨h.1, fun _ e => by cases e; exact h.2⟩, rfl, rfl, rfl⟩
  · rintro ⟨n, _ | w⟩ h
    · exact ⟨(n, none), ⟨h.1, trivial⟩, rfl, rfl, rfl⟩
    · exact ⟨(n, some w), ⟨h.1, h.2 w rfl⟩, rfl, rfl, rfl⟩

/-- A token or a quoted string, with what it is. -/
abbrev markedD : Den := tabD Word.Ok Word.text (fun w => [w.marked]) Word.notes

theorem marked_den : oneD (orD (appD (markF (str "token")) tokenD) (appD (markF (str "quoted_string")) quotedD)) = markedD := by
  rw [tab_app, tab_app, tab_or, tab_one]
  refine tab_iff ?_ ?_
  · rintro (w | q) h
    · exact ⟨.token w, h, rfl, rfl, rfl⟩
    · exact ⟨.quoted q, h, rfl, rfl, List.append_nil _⟩
  · rintro (w | q) h
    · exact ⟨.inl w, h, rfl, rfl, rfl⟩
    · exact ⟨.inr q, h, rfl, rfl, (List.append_nil _).symm⟩

/-- A name other than `no-cache`. -/
abbrev OtherPragma (w : Str) : Prop := IsToken w ∧ ¬ SameWord w (str "no-cache")

/-- What the names come to. -/
def cacheD : CacheName → Den
  | .hop n => hopD n
  | .date n => dateD n
  | .deltaSeconds | .age => numberD
  | .cacheDirective => tabD (Setting.Ok IsToken) Setting.text (fun x => [x.directive]) Setting.notes
  | .cacheDirectives | .cacheControl => list1sD (Setting.Ok IsToken) Setting.text Setting.directive Setting.notes
  | .noCacheNames | .noCache | .privateNames | .private_ =>
      listsD IsToken (fun w => w) (nameValue (str "FieldName")) (fun _ => [])
  | .expires => dateD .httpDate
  | .extensionPragma => settingD OtherPragma .text (fun w => .text w.content)
  | .pragmaDirective => tabD PragmaSyn.Ok PragmaSyn.text (fun x => [x.value]) PragmaSyn.notes
  | .pragmaDirectives | .pragma => list1sD PragmaSyn.Ok PragmaSyn.text PragmaSyn.value PragmaSyn.notes

theorem cacheDirective_den : oneD ((GExpr.app (classF (str "Parametrized")) true (.seq
    (.app (classF (str "CacheDirective")) true (.cs .token))
    (.maybe (.seq (.skip (.lit (str "=") false))
      (.alt (.mark (str "token") (.hop (.str .token))) (.mark (str "quoted_string") (.hop (.str .quoted)))))))).den cacheD) =
    cacheD .cacheDirective := by
  show oneD (appD (classF (str "Parametrized")) (thenD (appD (classF (str "CacheDirective")) tokenD)
    (oneD (orD (thenD (appD skipF (litD (str "=") false))
      (oneD (orD (appD (markF (str "token")) tokenD) (appD (markF (str "quoted_string")) quotedD))))
      (appD (substF .none) nothingD))))) = _
  rw [marked_den, tab_class, setting_den]
  rfl

theorem extensionPragma_den (order : List Nat → List Nat) : oneD ((GExpr.app (classF (str "Parametrized")) true (.seq
    (.tokenExcluding order [str "no-cache"])
    (.maybe (.seq (.skip (.lit (str "=") false)) (.alt (.cs .token) (.cs .quoted)))))).den cacheD) =
    cacheD .extensionPragma := by
  show oneD (appD (classF (str "Parametrized")) (thenD (exclD tcharBits ([] :: [str "no-cache"]))
    (oneD (orD (thenD (appD skipF (litD (str "=") false)) (oneD (orD tokenD quotedD)))
      (appD (substF .none) nothingD))))) = _
  rw [tokenExcl_den, words_den, tab_one_single, setting_den]
  refine tab_iff ?_ ?_
  · rintro x ⟨⟨h1, h2⟩, h⟩
    exact ⟨x, ⟨⟨h1, h2 _ (.head _)⟩, h⟩, rfl, rfl, rfl⟩
  · rintro x ⟨⟨h1, h2⟩, h⟩
    exact ⟨x, ⟨⟨h1, by simpa using h2⟩, h⟩, rfl, rfl, rfl⟩

theorem pragmaDirective_den : oneD ((GExpr.alt (.app (classF (str "CaseInsensitive")) true (.lit (str "no-cache") false))
    (.ref .extensionPragma)).den cacheD) = cacheD .pragmaDirective := by
  show oneD (orD (appD (classF (str "CaseInsensitive")) (litD (str "no-cache") false))
    (settingD OtherPragma .text (fun w => .text w.content))) = _
  rw [tab_lit, tab_class, tab_or, tab_one]
  refine tab_iff ?_ ?_
  · rintro (w | x) h
    · exact ⟨.noCache w, h, rfl, rfl, rfl⟩
    · exact ⟨.other x, h, rfl, rfl, rfl⟩
  · rintro (w | x) h
    · exact ⟨.inl w, h, rfl, rfl, rfl⟩
    · exact ⟨.inr x, h, rfl, rfl, rfl⟩

local macro "fine" : tactic => `(tactic| simp_all [Defn.Fine, GExpr.Fine, GExpr.number, GExpr.mark])

local macro "one" : tactic => `(tactic| exact named_alike (.of_eq tab_one_single))

/-- Caches. -/
theorem caches_solve {order : List Nat → List Nat} (ho : ∀ l c, c ∈ order l ↔ c ∈ l) : Solves [] cacheD (cacheDefs order) := by
  refine solves_import (known := []) (δ' := hopD) nofun (fun _ => rfl) (hops_solve ho) ?_
  refine solves_import (known := []) (δ' := dateD) nofun (fun _ => rfl) dates_solve ?_
  have hk : ∀ n ∈ [CacheName.hop (.str .token), .hop (.str .quoted), .hop (.str .ows), .hop .fieldName, .date .httpDate],
      n ∈ (dateDefs.map fun x => CacheName.date x.1).reverse ++
        (((hopDefs order).map fun x => CacheName.hop x.1).reverse ++ []) := of_decide_eq_true (Eq.refl true)
  generalize (dateDefs.map fun x => CacheName.date x.1).reverse ++
        (((hopDefs order).map fun x => CacheName.hop x.1).reverse ++ []) = known at hk
  have t1 : ∀ known, (GExpr.tokenExcluding order [str "no-cache"] : GExpr CacheName).Fine known :=
    fun known => tokenExcl_fine ho (by decide +kernel) known
  refine ⟨by fine, named_alike (.of_eq number_one'), ?_⟩
  refine ⟨by fine, by one, ?_⟩
  refine ⟨by fine, named_alike (.of_eq cacheDirective_den), ?_⟩
  refine ⟨⟨by simp_all, rfl, by fine, fun w cs => tab_never w cs⟩, tab_list1 (fun _ _ => nofun), ?_⟩
  refine ⟨by fine, by one, ?_⟩
  refine ⟨⟨by simp_all, rfl, by fine, fun w cs => tab_never w cs⟩, tab_list (fun _ _ => nofun), ?_⟩
  refine ⟨by fine, by one, ?_⟩
  refine ⟨⟨by simp_all, rfl, by fine, fun w cs => tab_never w cs⟩, tab_list (fun _ _ => nofun), ?_⟩
  refine ⟨by fine, by one, ?_⟩
  refine ⟨by fine, by one, ?_⟩
  refine ⟨?_, named_alike (.of_eq (extensionPragma_den order)), ?_⟩
  · generalize [str "no-cache"] = xs at t1 ⊢
    fine
  refine ⟨by fine, named_alike (.of_eq pragmaDirective_den), ?_⟩
  refine ⟨⟨by simp_all, rfl, by fine, fun w cs => tab_never w cs⟩, tab_list1 (fun x _ => by cases x <;> nofun), ?_⟩
  refine ⟨by fine, by one, ?_⟩
  trivial

/-! ## Texts determine what is written -/

/-- Where a setting ends. -/
abbrev Unset (l : Str) : Prop := Stops (fun c => IsTchar c ∨ c = 61) l

theorem end_unset {l : Str} (h : AtEnd l) : Unset l := h.stops.mono fun c hc => by
  rcases hc with hc | rfl
  · exact tchar_unbroken hc
  · unfold Unbroken; decide

theorem uniq_setting {Name : Str → Prop} (hn : ∀ w, Name w → IsToken w) : Uniq (Setting.Ok Name) Setting.text Unset := by
  have value : Uniq (optT True Word.Ok) (optT [] fun w => [61] ++ w.text) Unset :=
    ((uniq_word.mono (fun _ h => h) (fun _ h => h.mono fun _ => .inl)).after [61]).opt fun v l l' _ _ hl' e =>
      hl' 61 (v.text ++ l) e.symm (.inr rfl)
  refine (Uniq.seq (uniq_token.mono hn fun _ h => h) value ?_).map (fun x => (x.name, x.value)) ?_ ?_ ?_
  · rintro (_ | v) l _ hl
    · exact hl.mono fun _ => .inl
    · exact .cons fun k => (tchar_ne k).2.2.2.2.1 rfl
  · rintro ⟨n, _ | v⟩ h
    · exact ⟨h.1, trivial⟩
    · exact ⟨h.1, h.2 v rfl⟩
  · rintro ⟨n, _ | v⟩ h
    · rfl
    · simp [Setting.text, optT, equals_eq]
  · rintro ⟨n, v⟩ ⟨n', v'⟩ _ _ e
    simp only [Prod.mk.injEq] at e
    obtain ⟨rfl, rfl⟩ := e
    rfl

theorem setting_begins {x : Setting} (h : x.Ok IsToken) : Begins Unbroken x.text := (token_unbroken h.1).append

theorem settings_inj (x y : List1Syn Setting) (hx : x.Ok (Setting.Ok IsToken)) (hy : y.Ok (Setting.Ok IsToken))
    (e : x.text Setting.text = y.text Setting.text) : x = y :=
  (uniq_list1 (uniq_setting fun _ h => h) (fun _ h => end_unset h.atEnd) (fun _ => setting_begins)).inj rfl hx hy e

theorem nameList_inj (x y : ListSyn Str) (hx : x.Ok IsToken) (hy : y.Ok IsToken) (e : (x.text fun w => w) = y.text fun w => w) :
    x = y :=
  (uniq_list uniq_token (fun _ => end_stops) (fun _ => token_unbroken)).inj rfl hx hy e

/-- As a setting. -/
def pragmaSetting : PragmaSyn → Setting
  | .noCache w => ⟨w, none⟩
  | .other x => x

theorem pragmaSetting_ok {x : PragmaSyn} (h : x.Ok) : (pragmaSetting x).Ok IsToken := by
  cases x with
  | noCache w => exact ⟨sameWord_token (by decide +kernel) h, nofun⟩
  | other x => exact ⟨h.1.1, h.2⟩

theorem uniq_pragma : Uniq PragmaSyn.Ok PragmaSyn.text Unset := by
  refine (uniq_setting (fun _ h => h)).map pragmaSetting (fun _ => pragmaSetting_ok) ?_ ?_
  · rintro (w | x) _
    · exact (List.append_nil w).symm
    · rfl
  · rintro (w | x) (w' | x') h h' e
    · cases e
      rfl
    · obtain rfl : Setting.mk w none = x' := e
      exact absurd h h'.1.2
    · obtain rfl : x = Setting.mk w' none := e
      exact absurd h' h.1.2
    · obtain rfl : x = x' := e
      rfl

theorem pragmas_inj (x y : List1Syn PragmaSyn) (hx : x.Ok PragmaSyn.Ok) (hy : y.Ok PragmaSyn.Ok)
    (e : x.text PragmaSyn.text = y.text PragmaSyn.text) : x = y := by
  refine (uniq_list1 uniq_pragma (fun _ h => end_unset h.atEnd) (fun x h => ?_)).inj rfl hx hy e
  cases x with
  | noCache w => exact token_unbroken (sameWord_token (by decide +kernel) h)
  | other x => exact (token_unbroken h.1.1).append

end Httpolice.Lemmas
