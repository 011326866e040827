import Verif.Lemmas.LinkParams
import Verif.Lemmas.Preferences
import Verif.Lemmas.UriChars

/-!
# What the names in the module for Link come to
-/

namespace Httpolice.Lemmas

open Httpolice.Model Httpolice.Spec

/-- A parameter as the grammar gives it. -/
def LinkParam.given (x : LinkParam) : GVal := .tuple [nameValue (str "CaseInsensitive") x.name,
  match x.value with | none => .none | some (_, w) => w.marked]

theorem linkPair_given (x : LinkParam) : linkPair (LinkParam.given x) = wire x.entry := by
  obtain ⟨n, s, _ | ⟨b, w | q⟩⟩ := x <;> rfl

/-- The dictionary, or what stands for the exception; and the complaints. -/
def made (P : LinkParser) (l : List LinkEntry) : GVal × List PyComplaint :=
  match processParams P (l.map wire) with
  | .ok r => r
  | .error e => (raisedObj e, [])

theorem processParamsF_eq (P : LinkParser) (l : List LinkParam) : processParamsF P [.list (l.map LinkParam.given)] =
    (.val (made P (l.map LinkParam.entry)).1, (made P (l.map LinkParam.entry)).2) := by
  have : (l.map LinkParam.given).map linkPair = (l.map LinkParam.entry).map wire := by
    simp only [List.map_map]
    exact List.map_congr_left fun x _ => linkPair_given x
  unfold processParamsF made
  simp only [this]
  split <;> simp_all

/-- The value of a link. -/
def LinkSyn.made (P : LinkParser) (x : LinkSyn) : GVal :=
  .obj (str "Parametrized") [.text x.target, (Lemmas.made P x.entries).1]

def LinkSyn.told (P : LinkParser) (x : LinkSyn) : List PyComplaint :=
  x.params.elems.flatMap LinkParam.notes ++ (Lemmas.made P x.entries).2

/-- What the names come to. -/
def linkD (P : LinkParser) : LinkName → Den
  | .str n => strD n
  | .uri n => uriD n
  | .linkParam => tabD LinkParam.Ok LinkParam.text (fun x => [LinkParam.given x]) LinkParam.notes
  | .linkValue => tabD LinkSyn.Ok LinkSyn.text (fun x => [LinkSyn.made P x]) (LinkSyn.told P)
  | .links | .link => listsD LinkSyn.Ok LinkSyn.text (LinkSyn.made P) (LinkSyn.told P)

theorem linkParam_den (P : LinkParser) :
    oneD ((GExpr.seq (.seq (.app (classF (str "CaseInsensitive")) true (.ref (.str .token)))
    (.skip (.ref (.str .bws))))
    (.maybe (.seq (.skip (.seq (.lit (str "=") false) (.ref (.str .bws))))
      (.alt (.mark (str "token") (.str .token)) (.mark (str "quoted_string") (.str .quoted)))))).den (linkD P)) =
    linkD P .linkParam := by
  show oneD (thenD (thenD (appD (classF (str "CaseInsensitive")) tokenD) (appD skipF badSpacesD)) (oneD (orD (thenD
    (appD skipF (thenD (litD (str "=") false) badSpacesD)) (oneD (orD (appD (markF (str "token")) tokenD)
      (appD (markF (str "quoted_string")) quotedD)))) (appD (substF .none) nothingD)))) = _
  rw [marked_den, equals_char, tab_class, tab_skip, tab_then, tab_then, tab_skip, tab_then, tab_maybe, tab_one, tab_then, tab_one]
  refine tab_iff ?_ ?_
  · rintro ⟨⟨n, s⟩, _ | ⟨⟨_, b⟩, w⟩⟩ ⟨h1, h2⟩
    · exact ⟨⟨n, s, none⟩, ⟨h1.1, h1.2, nofun⟩, by simp [optT, LinkParam.text], rfl, by simp [optT, LinkParam.notes]⟩
    · exact ⟨⟨n, s, some (b, w)⟩, ⟨h1.1, h1.2, fun _ _ e => by cases e; exact ⟨h2.1.2, h2.2⟩⟩,
        by simp [optT, LinkParam.text], rfl, by simp [optT, LinkParam.notes]⟩
  · rintro ⟨n, s, _ | ⟨b, w⟩⟩ ⟨h1, h2, h3⟩
    · exact ⟨((n, s), none), ⟨⟨h1, h2⟩, trivial⟩, by simp [optT, LinkParam.text], rfl, by simp [optT, LinkParam.notes]⟩
    · obtain ⟨k1, k2⟩ := h3 b w rfl
      exact ⟨((n, s), some (((), b), w)), ⟨⟨h1, h2⟩, ⟨⟨trivial, k1⟩, k2⟩⟩, by simp [optT, LinkParam.text], rfl,
        by simp [optT, LinkParam.notes]⟩

theorem linkValue_den (P : LinkParser) :
    oneD ((GExpr.app (classF (str "Parametrized")) true (.seq (.seq (.seq
    (.skip (.lit (str "<") false)) (.ref (.uri .uriReference))) (.skip (.lit (str ">") false)))
    (.app (processParamsF P) false (.many (.seq (.semicolon (.str .ows)) (.ref .linkParam)))))).den (linkD P)) =
    linkD P .linkValue := by
  show oneD (appD (classF (str "Parametrized")) (thenD (thenD (thenD (appD skipF (litD (str "<") false))
    (tabD IsUriReference (fun w => w) (fun w => [.text w]) (fun _ => []))) (appD skipF (litD (str ">") false)))
    (appD (processParamsF P) (timesD (thenD (appD skipF (thenD (thenD spacesD (litD (str ";") false)) spacesD)) (linkD P .linkParam))
      (thenD (appD skipF (thenD (thenD spacesD (litD (str ";") false)) spacesD)) (linkD P .linkParam)) 0 none)))) = _
  rw [semi_den, show linkD P .linkParam = tabD LinkParam.Ok LinkParam.text (fun x => [LinkParam.given x]) LinkParam.notes from rfl,
    semis_den, show litD (str "<") false = fixedD [60] from tab_lit_char (k := 60) (by decide),
    show litD (str ">") false = fixedD [62] from tab_lit_char (k := 62) (by decide), tab_skip, tab_skip, tab_then, tab_then,
    tab_app, tab_then, tab_class, tab_one]
  refine tab_iff ?_ ?_
  · rintro ⟨⟨⟨_, u⟩, _⟩, l⟩ ⟨⟨⟨_, h1⟩, _⟩, h2⟩
    refine ⟨⟨u, l⟩, ⟨h1, h2⟩, by simp [LinkSyn.text], ?_, ?_⟩
    · simp only [processParamsF_eq]
      rfl
    · simp only [processParamsF_eq]
      simp [LinkSyn.told, LinkSyn.entries]
  · rintro ⟨u, l⟩ ⟨h1, h2⟩
    refine ⟨((((), u), ()), l), ⟨⟨⟨trivial, h1⟩, trivial⟩, h2⟩, by simp [LinkSyn.text], ?_, ?_⟩
    · simp only [processParamsF_eq]
      rfl
    · simp only [processParamsF_eq]
      simp [LinkSyn.told, LinkSyn.entries]

local macro "fine" : tactic => `(tactic| simp_all [Defn.Fine, GExpr.Fine, GExpr.semicolon, GExpr.mark])

local macro "one" : tactic => `(tactic| exact named_alike (.of_eq tab_one_single))

theorem links_solve (P : LinkParser) : Solves [] (linkD P) (linkDefs P) := by
  refine solves_import (known := []) (δ' := strD) nofun (fun _ => rfl) strings_solve ?_
  refine solves_import (δ' := uriD) (by decide +kernel) (fun _ => rfl) uris_solve ?_
  have hk : ∀ n ∈ [LinkName.str .token, .str .quoted, .str .ows, .str .bws, .uri .uriReference],
      n ∈ (uriDefs.map fun x => LinkName.uri x.1).reverse ++ ((stringDefs.map fun x => LinkName.str x.1).reverse ++ []) :=
    of_decide_eq_true (Eq.refl true)
  generalize (uriDefs.map fun x => LinkName.uri x.1).reverse ++ ((stringDefs.map fun x => LinkName.str x.1).reverse ++ []) = known
    at hk
  refine ⟨by fine, named_alike (.of_eq (linkParam_den P)), ?_⟩
  refine ⟨by fine, named_alike (.of_eq (linkValue_den P)), ?_⟩
  refine ⟨⟨by simp_all, rfl, by fine, fun w cs => tab_never w cs⟩, tab_list (fun _ _ => nofun), ?_⟩
  refine ⟨by fine, by one, ?_⟩
  trivial

/-! ## Whitespace after a parameter without a value -/

/-- Without the whitespace that may belong to what follows. -/
def dirOf (x : LinkParam) : DirSyn := ⟨x.name, x.value.map fun v => ((x.space, v.1), v.2)⟩

def trailOf (x : LinkParam) : Str := match x.value with | none => x.space | some _ => []

theorem dirOf_text (x : LinkParam) : (dirOf x).text ++ trailOf x = x.text := by
  obtain ⟨n, s, _ | ⟨b, w⟩⟩ := x <;> simp [dirOf, trailOf, DirSyn.text, LinkParam.text]

theorem dirOf_ok {x : LinkParam} (h : x.Ok) : (dirOf x).Ok ∧ IsOws (trailOf x) := by
  obtain ⟨n, s, _ | ⟨b, w⟩⟩ := x
  · exact ⟨⟨h.1, nofun⟩, h.2.1⟩
  · refine ⟨⟨h.1, fun _ _ _ e => ?_⟩, nofun⟩
    cases e
    exact ⟨h.2.1, h.2.2 b w rfl⟩

def DirSyn.entry (x : DirSyn) : LinkEntry := (x.name, x.value.map Prod.snd)

theorem dirOf_entry (x : LinkParam) : DirSyn.entry (dirOf x) = x.entry := by
  obtain ⟨n, s, _ | ⟨b, w⟩⟩ := x <;> rfl

/-- The whitespace is moved on; what comes last is left over. -/
def moved (c : Str) : SemiSyn LinkParam → SemiSyn DirSyn × Str
  | [] => ([], c)
  | ((a, b), x) :: l => (((c ++ a, b), dirOf x) :: (moved (trailOf x) l).1, (moved (trailOf x) l).2)

theorem moved_text (c : Str) (l : SemiSyn LinkParam) :
    (moved c l).1.text DirSyn.text ++ (moved c l).2 = c ++ l.text LinkParam.text := by
  induction l generalizing c with
  | nil => simp [moved, SemiSyn.text]
  | cons x l ih =>
    obtain ⟨⟨a, b⟩, x⟩ := x
    have := ih (trailOf x)
    simp only [SemiSyn.text, List.append_assoc, List.cons_append] at this
    simp only [moved, SemiSyn.text, List.flatMap_cons, List.append_assoc, this, ← dirOf_text x, List.cons_append]

theorem ows_append {u v : Str} (hu : IsOws u) (hv : IsOws v) : IsOws (u ++ v) :=
  fun c hc => (List.mem_append.mp hc).elim (hu c) (hv c)

theorem moved_ok {c : Str} {l : SemiSyn LinkParam} (hc : IsOws c) (h : l.Ok LinkParam.Ok) :
    (moved c l).1.Ok DirSyn.Ok ∧ IsOws (moved c l).2 := by
  induction l generalizing c with
  | nil => exact ⟨nofun, hc⟩
  | cons x l ih =>
    obtain ⟨⟨a, b⟩, x⟩ := x
    obtain ⟨⟨ha, hb⟩, hx⟩ := h _ (.head _)
    obtain ⟨i1, i2⟩ := ih (dirOf_ok hx).2 fun y hy => h y (.tail _ hy)
    exact ⟨List.forall_mem_cons.mpr ⟨⟨⟨ows_append hc ha, hb⟩, (dirOf_ok hx).1⟩, i1⟩, i2⟩

theorem moved_entries (c : Str) (l : SemiSyn LinkParam) :
    (moved c l).1.elems.map DirSyn.entry = l.elems.map LinkParam.entry := by
  induction l generalizing c with
  | nil => rfl
  | cons x l ih =>
    obtain ⟨⟨a, b⟩, x⟩ := x
    have := ih (trailOf x)
    simp only [SemiSyn.elems, List.map_map] at this
    simp only [moved, SemiSyn.elems, List.map_cons, List.map_map, this, dirOf_entry]

/-- A link without whitespace at its end. -/
abbrev Trim := Str × SemiSyn DirSyn

def Trim.Ok (x : Trim) : Prop := IsUriReference x.1 ∧ x.2.Ok DirSyn.Ok

def Trim.text (x : Trim) : Str := [60] ++ (x.1 ++ ([62] ++ x.2.text DirSyn.text))

theorem uniq_trim : Uniq Trim.Ok Trim.text AtEnd := by
  have uri : Uniq IsUriReference (fun w => w) (Stops (· ≠ 62)) :=
    uniq_span.mono (fun w h c hc => (reference_uriChars h c hc).2.2.2.2) (fun _ h => h)
  have params : Uniq (SemiSyn.Ok DirSyn.Ok) (SemiSyn.text DirSyn.text) AtEnd := by
    refine uniq_semis_end uniq_dir_break (fun l hl => hl.elim AtSemi.atBreak AtEnd.atBreak) (fun a l ha => ?_)
      (fun l hl k => k.not_atEnd hl)
    exact not_blank (Q := IsTchar) (fun _ hc => ⟨(tchar_ne hc).2.2.1, (tchar_ne hc).2.2.2.1⟩) (token_begins ha.1).append
  exact (Uniq.seq uri (params.after [62]) fun b l _ _ => .cons fun k => k rfl).after [60]

def trimPlace : Option (LinkSyn × Str) → Option (Trim × Str)
  | none => none
  | some (x, s) => some ((x.target, (moved [] x.params).1), (moved [] x.params).2 ++ s)

theorem trimPlace_text (o : Option (LinkSyn × Str)) : placeText Trim.text (trimPlace o) = placeText LinkSyn.text o := by
  obtain _ | ⟨x, s⟩ := o
  · rfl
  · have := moved_text [] x.params
    simp only [List.nil_append] at this
    simp [trimPlace, placeText, Trim.text, LinkSyn.text, ← this]

theorem trimPlace_ok {o : Option (LinkSyn × Str)} (h : placeOk LinkSyn.Ok o) : placeOk Trim.Ok (trimPlace o) := by
  obtain _ | ⟨x, s⟩ := o
  · trivial
  · obtain ⟨k1, k2⟩ := moved_ok (c := []) nofun h.1.2
    exact ⟨⟨h.1.1, k1⟩, ows_append k2 h.2⟩

def trimList (l : ListSyn LinkSyn) : ListSyn Trim := ⟨trimPlace l.first, l.rest.map fun x => (x.1, trimPlace x.2)⟩

theorem trimList_text (l : ListSyn LinkSyn) : (trimList l).text Trim.text = l.text LinkSyn.text := by
  simp only [ListSyn.text, trimList, List.flatMap_map, trimPlace_text]

theorem trimList_ok {l : ListSyn LinkSyn} (h : l.Ok LinkSyn.Ok) : (trimList l).Ok Trim.Ok := by
  refine ⟨trimPlace_ok h.1, fun x hx => ?_⟩
  obtain ⟨y, hy, rfl⟩ := List.mem_map.mp hx
  exact ⟨(h.2 y hy).1, trimPlace_ok (h.2 y hy).2⟩

theorem trimPlaces (l : List (Option (LinkSyn × Str))) :
    ((l.map trimPlace).filterMap fun x => x.map Prod.fst).map (fun x : Trim => (x.1, x.2.elems.map DirSyn.entry)) =
      (l.filterMap fun x => x.map Prod.fst).map fun x => (x.target, x.entries) := by
  induction l with
  | nil => rfl
  | cons o l ih =>
    obtain _ | ⟨x, s⟩ := o
    · exact ih
    · simp only [List.map_cons, trimPlace, List.filterMap_cons, Option.map_some, moved_entries, ih]
      rfl

theorem trimList_elems (l : ListSyn LinkSyn) : (trimList l).elems.map (fun x : Trim => (x.1, x.2.elems.map DirSyn.entry)) =
    l.elems.map fun x => (x.target, x.entries) := by
  rw [ListSyn.elems, ListSyn.elems, ← trimPlaces]
  simp [trimList, Function.comp_def]

/-- Links with the same text are the same, but for whitespace. -/
theorem links_same {x y : ListSyn LinkSyn} (hx : x.Ok LinkSyn.Ok) (hy : y.Ok LinkSyn.Ok)
    (e : x.text LinkSyn.text = y.text LinkSyn.text) :
    (x.elems.map fun a => (a.target, a.entries)) = y.elems.map fun a => (a.target, a.entries) := by
  have := (uniq_list uniq_trim (fun _ h => h) (fun a _ => ⟨60, _, rfl, by unfold Unbroken; decide⟩)).inj rfl (trimList_ok hx) (trimList_ok hy)
    (by rw [trimList_text, trimList_text, e])
  rw [← trimList_elems, ← trimList_elems, this]

end Httpolice.Lemmas
