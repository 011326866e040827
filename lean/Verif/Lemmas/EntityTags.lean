import Verif.Lemmas.Strings
import Verif.Lemmas.Import
import Verif.Model.Rfc7232
import Verif.Spec.EntityTags

/-!
# What the names of the grammar of entity tags come to
-/

namespace Httpolice.Lemmas

open Httpolice.Model Httpolice.Spec

/-- An HTTP date. -/
abbrev httpDateD : Den := dateD .httpDate

/-- What the names come to. -/
def tagD : TagName → Den
  | .date n => dateD n
  | .ows => spacesD
  | .weak => tabD (fun _ : Unit => True) (fun _ => str "W/") (fun _ => [pyBool true]) (fun _ => [])
  | .opaqueTag => tabD (fun w => (EntityTag.mk false w).Ok) (fun w => str "\"" ++ w ++ str "\"")
      (fun w => [.text (str "\"" ++ w ++ str "\"")]) (fun w => (EntityTag.mk false w).notes)
  | .entityTag | .etag => tabD EntityTag.Ok EntityTag.text (fun x => [x.value]) EntityTag.notes
  | .lastModified | .ifModifiedSince | .ifUnmodifiedSince => httpDateD
  | .matchTags | .noneMatchTags => tabD (fun l : List1Syn EntityTag => l.Ok EntityTag.Ok) (fun l => l.text EntityTag.text)
      (fun l => [.list (l.elems.map EntityTag.value)]) (fun l => l.elems.flatMap EntityTag.notes ++ gapNotes l.Gaps)
  | .ifMatch | .ifNoneMatch => tabD MatchSyn.Ok MatchSyn.text (fun x => [x.value]) MatchSyn.notes
  | .ifRange => tabD IfRangeSyn.Ok IfRangeSyn.text (fun x => [x.value]) IfRangeSyn.notes

theorem weak_den : oneD ((GExpr.subst (pyBool true) (.seq (.octet 0x57) (.octet 0x2F))).den tagD) = tagD .weak := by
  show oneD (appD (substF (pyBool true)) (thenD (octetD _) (octetD _))) = _
  rw [octet_is, octet_is, tab_then, tab_app, tab_one]
  exact tab_iff (fun _ _ => ⟨(), trivial, rfl, rfl, rfl⟩) (fun _ _ => ⟨((), ()), ⟨trivial, trivial⟩, rfl, rfl, rfl⟩)

theorem etagc_iff (c : Nat) : etagcBits c = true ↔ c = 33 ∨ (35 ≤ c ∧ c ≤ 126) ∨ (128 ≤ c ∧ c ≤ 255) := by
  unfold etagcBits obsTextBits
  simp only [Bool.or_eq_true, decide_eq_true_eq]
  omega

theorem backslash_notes (w : Str) :
    (if (str "\"" ++ w ++ str "\"").contains 92 then [(1119, [])] else []) = (EntityTag.mk false w).notes := by
  have hq : str "\"" = [34] := by decide +kernel
  unfold EntityTag.notes
  rw [hq]
  simp

theorem opaque_den : oneD ((GExpr.app noBackslashesF false
    (.add (.add (.chars dquoteBits true) (.string (.chars etagcBits true))) (.chars dquoteBits true))).den tagD) =
    tagD .opaqueTag := by
  show oneD (appD noBackslashesF (appD addF (thenD (appD addF (thenD (octetD dquoteBits)
    (appD joinF (timesD (octetD etagcBits) (octetD etagcBits) 0 none)))) (octetD dquoteBits)))) = _
  rw [dquote_is, string_den, tab_then, tab_app, tab_then, tab_app, tab_app, tab_one]
  refine tab_iff ?_ ?_
  · rintro ⟨⟨_, w⟩, _⟩ ⟨⟨_, h⟩, _⟩
    exact ⟨w, fun c hc => (etagc_iff c).mp (h c hc), rfl, rfl, backslash_notes w⟩
  · intro w h
    exact ⟨(((), w), ()), ⟨⟨trivial, fun c hc => (etagc_iff c).mpr (h c hc)⟩, trivial⟩, rfl, rfl, (backslash_notes w).symm⟩

theorem entityTag_den : oneD ((GExpr.app (classF (str "EntityTag")) true
    (.seq (.maybe (.ref .weak) (pyBool false)) (.ref .opaqueTag))).den tagD) = tagD .entityTag := by
  show oneD (appD (classF (str "EntityTag")) (thenD (oneD (orD (tagD .weak) (appD (substF (pyBool false)) nothingD)))
    (tagD .opaqueTag))) = _
  simp only [tagD]
  rw [tab_maybe, tab_one, tab_then, tab_class, tab_one_single]
  refine tab_iff ?_ ?_
  · rintro ⟨_ | _, w⟩ ⟨_, h⟩
    · exact ⟨⟨false, w⟩, h, rfl, rfl, rfl⟩
    · exact ⟨⟨true, w⟩, h, rfl, rfl, rfl⟩
  · rintro ⟨_ | _, w⟩ h
    · exact ⟨(none, w), ⟨trivial, h⟩, rfl, rfl, rfl⟩
    · exact ⟨(some (), w), ⟨trivial, h⟩, rfl, rfl, rfl⟩

theorem etag_den : oneD ((GExpr.ref .entityTag).den tagD) = tagD .etag := by
  show oneD (tagD .entityTag) = _
  simp only [tagD]
  rw [tab_one_single]

theorem httpDate_one : oneD httpDateD = httpDateD := tab_one_single

theorem tags_den : Alike (list1D ((GExpr.ref .entityTag).den tagD)) (tagD .matchTags) :=
  tab_list1 (fun _ _ => nofun)

theorem star_lit : litD (str "*") false = fixedD (str "*") := tab_lit_char (k := 42) (by decide)

theorem match_den : oneD ((GExpr.alt (.lit (str "*") false) (.ref .matchTags)).den tagD) = tagD .ifMatch := by
  show oneD (orD (litD (str "*") false) (tagD .matchTags)) = _
  simp only [tagD]
  rw [star_lit, tab_or, tab_one]
  refine tab_iff ?_ ?_
  · rintro (_ | l) h
    · exact ⟨.any, trivial, rfl, rfl, rfl⟩
    · exact ⟨.tags l, h, rfl, rfl, rfl⟩
  · rintro (_ | l) h
    · exact ⟨.inl (), trivial, rfl, rfl, rfl⟩
    · exact ⟨.inr l, h, rfl, rfl, rfl⟩

theorem ifRange_den : oneD ((GExpr.alt (.ref .entityTag) (.ref (.date .httpDate))).den tagD) = tagD .ifRange := by
  show oneD (orD (tagD .entityTag) httpDateD) = _
  simp only [tagD, dateD]
  rw [tab_or, tab_one]
  refine tab_iff ?_ ?_
  · rintro (x | ⟨f, x⟩) h
    · exact ⟨.tag x, h, rfl, rfl, rfl⟩
    · exact ⟨.date f x, h.2, rfl, rfl, rfl⟩
  · rintro (x | ⟨f, x⟩) h
    · exact ⟨.inl x, h, rfl, rfl, rfl⟩
    · exact ⟨.inr (f, x), ⟨trivial, h⟩, rfl, rfl, rfl⟩

local macro "fine" : tactic => `(tactic| simp [Defn.Fine, GExpr.Fine, GExpr.ows])

/-- The grammar of entity tags. -/
theorem tags_solve : Solves [] tagD tagDefs := by
  refine solves_import (known := []) (δ' := dateD) nofun (fun _ => rfl) dates_solve ?_
  have hd : TagName.date .httpDate ∈ (dateDefs.map fun x => TagName.date x.1).reverse ++ [] := by decide
  generalize (dateDefs.map fun x => TagName.date x.1).reverse ++ [] = known at hd
  refine ⟨by fine, named_alike (.of_eq ows_one), ?_⟩
  refine ⟨by fine, named_alike (.of_eq weak_den), ?_⟩
  refine ⟨by fine, named_alike (.of_eq opaque_den), ?_⟩
  refine ⟨by fine, named_alike (.of_eq entityTag_den), ?_⟩
  refine ⟨by fine, named_alike (.of_eq etag_den), ?_⟩
  refine ⟨by simp [Defn.Fine, GExpr.Fine, hd], named_alike (.of_eq httpDate_one), ?_⟩
  refine ⟨⟨by simp, rfl, by fine, fun w cs => tab_never w cs⟩, tags_den, ?_⟩
  refine ⟨by fine, named_alike (.of_eq match_den), ?_⟩
  refine ⟨⟨by simp, rfl, by fine, fun w cs => tab_never w cs⟩, tags_den, ?_⟩
  refine ⟨by fine, named_alike (.of_eq match_den), ?_⟩
  refine ⟨by simp [Defn.Fine, GExpr.Fine, hd], named_alike (.of_eq httpDate_one), ?_⟩
  refine ⟨by simp [Defn.Fine, GExpr.Fine, hd], named_alike (.of_eq httpDate_one), ?_⟩
  refine ⟨by simp [Defn.Fine, GExpr.Fine, hd], named_alike (.of_eq ifRange_den), ?_⟩
  trivial

/-! ## Texts determine what is written -/

theorem quote_eq : str "\"" = [34] := by decide +kernel
theorem weak_eq : str "W/" = [87, 47] := by decide +kernel

theorem tag_begins (x : EntityTag) : Begins (fun c => c = 87 ∨ c = 34) x.text := by
  unfold EntityTag.text
  rw [quote_eq, weak_eq]
  cases x.weak
  · exact ⟨34, x.tag ++ [34], rfl, .inr rfl⟩
  · exact ⟨87, _, rfl, .inl rfl⟩

theorem uniq_tag : Uniq EntityTag.Ok EntityTag.text (fun _ => True) := by
  have body : Uniq (fun w : Str => ∀ c ∈ w, c = 33 ∨ (35 ≤ c ∧ c ≤ 126) ∨ (128 ≤ c ∧ c ≤ 255))
      (fun w => [34] ++ (w ++ [34])) (fun _ => True) :=
    (uniq_span.before [34] (fun l _ => .cons (by decide))).after [34]
  rintro ⟨p, a⟩ ⟨q, b⟩ l l' ha hb _ _ e
  unfold EntityTag.text at e
  rw [quote_eq, weak_eq] at e
  have e : ((if p then [87, 47] else []) ++ ([34] ++ (a ++ [34]))) ++ l =
    ((if q then [87, 47] else []) ++ ([34] ++ (b ++ [34]))) ++ l' := by simpa using e
  cases p <;> cases q
  · obtain ⟨rfl, e2⟩ := body a b l l' ha hb trivial trivial e
    exact ⟨rfl, e2⟩
  · exact absurd (List.cons.inj e).1 (by decide)
  · exact absurd (List.cons.inj e).1 (by decide)
  · obtain ⟨rfl, e2⟩ := body a b l l' ha hb trivial trivial (List.cons.inj (List.cons.inj e).2).2
    exact ⟨rfl, e2⟩

theorem begins_list1 {α : Type} {P : α → Prop} {t : α → Str} {Q : Nat → Prop} (hb : ∀ a, P a → Begins Q (t a))
    {l : List1Syn α} (h : l.Ok P) : Begins (fun c => c = 44 ∨ Q c) (l.text t) := by
  obtain ⟨lead, a, tail⟩ := l
  unfold List1Syn.text
  cases lead with
  | nil => exact ((hb a h.2.1).mono fun c hc => .inr hc).append
  | cons s lead => exact ⟨44, _, rfl, .inl rfl⟩

theorem match_inj (x y : MatchSyn) (hx : x.Ok) (hy : y.Ok) (e : x.text = y.text) : x = y := by
  have hl := uniq_list1 uniq_tag (fun _ _ => trivial) (fun a _ => (tag_begins a).mono (by
    rintro c (rfl | rfl) <;> unfold Unbroken <;> decide))
  have hn : ∀ l : List1Syn EntityTag, l.Ok EntityTag.Ok → str "*" ≠ l.text EntityTag.text := by
    intro l hl e
    have hb := begins_list1 (fun a _ => tag_begins a) hl
    rw [← e] at hb
    obtain ⟨c, r, e, h⟩ := hb
    have : c = 42 := (List.cons.inj e).1.symm
    subst this
    revert h
    decide
  cases x with
  | any =>
    cases y with
    | any => rfl
    | tags l => exact absurd e (hn l hy)
  | tags l =>
    cases y with
    | any => exact absurd (Eq.symm e) (hn l hx)
    | tags l' => rw [hl.inj rfl hx hy e]

end Httpolice.Lemmas
