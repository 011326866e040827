import Verif.Lemmas.Parameters
import Verif.Spec.Hops

/-!
# What the names of headers for one connection come to
-/

namespace Httpolice.Lemmas

open Httpolice.Model Httpolice.Spec

/-! ## Words -/

theorem sameWord_iff {a b : Str} : SameWord a b ↔ a.map litLower = b.map litLower := by
  constructor
  · intro h
    induction h with
    | nil => rfl
    | cons h _ ih => simp [(sameLetter_iff _ _).mp h, ih]
  · intro h
    induction a generalizing b with
    | nil =>
      cases b with
      | nil => exact .nil
      | cons d b => cases h
    | cons c a ih =>
      cases b with
      | nil => cases h
      | cons d b =>
        obtain ⟨h1, h2⟩ := List.cons.inj h
        exact .cons ((sameLetter_iff _ _).mpr h1) (ih h2)

theorem sameWord_other {w a b : Str} (hn : ¬ SameWord a b) (h : SameWord w a) : ¬ SameWord w b := fun h' =>
  hn (sameWord_iff.mpr ((sameWord_iff.mp h).symm.trans (sameWord_iff.mp h')))

theorem sameLetter_tchars {c d : Nat} (hd : IsTchar d) (h : SameLetter c d) : IsTchar c := by
  rcases h with rfl | h | h
  · exact hd
  · exact .inl ⟨h.1, h.2.1⟩
  · exact .inr (.inl ⟨by omega, by omega⟩)

theorem sameWord_token {w v : Str} (hv : v ≠ [] ∧ ∀ c ∈ v, tcharBits c = true) (h : SameWord w v) : IsToken w := by
  obtain ⟨hne, hv⟩ := hv
  refine ⟨fun e => ?_, ?_⟩
  · subst e
    cases h
    exact hne rfl
  · clear hne
    induction h with
    | nil => nofun
    | cons h _ ih =>
      intro c hc
      rcases List.mem_cons.mp hc with rfl | hc
      · exact sameLetter_tchars ((tchar_iff _).mp (hv _ (.head _))) h
      · exact ih (fun c hc => hv c (.tail _ hc)) c hc

theorem tokenExcl_den (xs : List Str) : exclD tcharBits ([] :: xs) =
    tabD (fun w => IsToken w ∧ ∀ x ∈ xs, ¬ SameWord w x) (fun w => w) (fun w => [.text w]) (fun _ => []) := by
  rw [tab_excl]
  refine tab_iff ?_ ?_
  · rintro w ⟨h1, h2⟩
    exact ⟨w, ⟨⟨fun e => h2 [] (.head _) (sameWord_nil.mpr e), fun c hc => (tchar_iff c).mp (h1 c hc)⟩,
      fun x hx => h2 x (.tail _ hx)⟩, rfl, rfl, rfl⟩
  · rintro w ⟨h1, h2⟩
    refine ⟨w, ⟨fun c hc => (tchar_iff c).mpr (h1.2 c hc), fun x hx => ?_⟩, rfl, rfl, rfl⟩
    rcases List.mem_cons.mp hx with rfl | hx
    · exact fun e => h1.1 (sameWord_nil.mp e)
    · exact h2 x hx

theorem tokenExcl_fine {N : Type} {order : List Nat → List Nat} (ho : ∀ l c, c ∈ order l ↔ c ∈ l) {xs : List Str}
    (hx : ∀ x ∈ xs, ∀ c ∈ x, tcharBits c = true) (known : List N) :
    (GExpr.tokenExcluding order xs : GExpr N).Fine known := by
  refine ⟨ho, fun x hx' c hc d hd => (tchar_iff d).mpr ?_⟩
  rcases List.mem_cons.mp hx' with rfl | hx'
  · exact nomatch hc
  · exact sameLetter_tchars ((tchar_iff c).mp (hx x hx' c hc)) hd

/-! ## Names -/

/-- A token with its class. -/
abbrev nameD (cls : Str) : Den := tabD IsToken (fun w => w) (fun w => [nameValue cls w]) (fun _ => [])

theorem name_den (cls : Str) : oneD (appD (classF cls) tokenD) = nameD cls := by
  rw [tab_class, tab_one_single]
  rfl

/-- Lists. -/
abbrev list1sD {α : Type} (P : α → Prop) (t : α → Str) (v : α → GVal) (c : α → List PyComplaint) : Den :=
  tabD (List1Syn.Ok P) (List1Syn.text t) (fun l => [l.value v]) (List1Syn.notes c)

/-- Lists that may be empty. -/
abbrev listsD {α : Type} (P : α → Prop) (t : α → Str) (v : α → GVal) (c : α → List PyComplaint) : Den :=
  tabD (ListSyn.Ok P) (ListSyn.text t) (fun l => [l.value v]) (ListSyn.notes c)

/-- Codings, without some names of codings and of parameters. -/
abbrev codingD (X Y : Str → Prop) : Den :=
  tabD (fun x => x.Ok ∧ ¬ X x.name ∧ ∀ p ∈ x.params.elems, ¬ Y p.name) CodingSyn.text (fun x => [x.value]) CodingSyn.notes

/-- The same but for those without parameters. -/
abbrev extensionD (X Y : Str → Prop) : Den :=
  tabD (fun x => (x.Ok ∧ ¬ BuiltInCoding x.name) ∧ ¬ X x.name ∧ ∀ p ∈ x.params.elems, ¬ Y p.name) CodingSyn.text
    (fun x => [x.value]) CodingSyn.notes

/-- What the names come to. -/
def hopD : HopName → Den
  | .str n => strD n
  | .method => nameD (str "Method")
  | .fieldName => nameD (str "FieldName")
  | .transferParameter => paramD IsToken .text
  | .transferExtension => extensionD (fun _ => False) (fun _ => False)
  | .transferCoding => codingD (fun _ => False) (fun _ => False)
  | .transferCodings | .transferEncoding => list1sD CodingSyn.Ok CodingSyn.text CodingSyn.value CodingSyn.notes
  | .rank => weightD
  | .tRanking => rankingD
  | .transferParameter2 => paramD (fun w => IsToken w ∧ ¬ SameWord w (str "q")) .text
  | .transferExtension2 => extensionD (SameWord · (str "trailers")) (SameWord · (str "q"))
  | .transferCoding2 => codingD (SameWord · (str "trailers")) (SameWord · (str "q"))
  | .tCodings => tabD TeSyn.Ok TeSyn.text (fun x => [x.value]) TeSyn.notes
  | .tCodingss | .te => listsD TeSyn.Ok TeSyn.text TeSyn.value TeSyn.notes
  | .trailers | .trailer => list1sD IsToken (fun w => w) (nameValue (str "FieldName")) (fun _ => [])
  | .connectionOption => nameD (str "ConnectionOption")
  | .connectionOptions | .connection => list1sD IsToken (fun w => w) (nameValue (str "ConnectionOption")) (fun _ => [])
  | .protocolName | .protocolVersion => tokenD
  | .protocol => tabD Protocol.Ok Protocol.text (fun x => [x.value]) (fun _ => [])
  | .protocols | .upgrade => list1sD Protocol.Ok Protocol.text Protocol.value (fun _ => [])
  | .contentLength => numberD

theorem semicolon_den : (GExpr.semicolon (HopName.str .ows)).den hopD = semiD := semi_den

theorem parameter_den : oneD ((transferParameterE (.s .token)).den hopD) = hopD .transferParameter :=
  param_den (Name := IsToken) (f := .text)

theorem parameter2_den (order : List Nat → List Nat) :
    oneD ((transferParameterE (.tokenExcluding order [str "q"])).den hopD) = hopD .transferParameter2 := by
  show oneD (thenD (thenD (exclD tcharBits ([] :: [str "q"]))
      (appD skipF (thenD (thenD badSpacesD (litD (str "=") false)) badSpacesD))) (oneD (orD tokenD quotedD))) = _
  rw [tokenExcl_den, param_den]
  refine tab_iff ?_ ?_
  · rintro x ⟨⟨h1, h2⟩, h⟩
    exact ⟨x, ⟨⟨h1, h2 _ (.head _)⟩, h⟩, rfl, rfl, rfl⟩
  · rintro x ⟨⟨h1, h2⟩, h⟩
    exact ⟨x, ⟨⟨h1, by simpa using h2⟩, h⟩, rfl, rfl, rfl⟩

theorem builtIn_iff (w : Str) : BuiltInCoding w ↔ ∃ x ∈ builtInCodings, SameWord w x := by
  simp [BuiltInCoding, builtInCodings]

theorem mem_elems {α : Type} {l : SemiSyn α} {Q : α → Prop} : (∀ p ∈ l.elems, Q p) ↔ ∀ x ∈ l, Q x.2 := by
  unfold SemiSyn.elems
  simp only [List.mem_map]
  exact ⟨fun h x hx => h _ ⟨x, hx, rfl⟩, by rintro h _ ⟨x, hx, rfl⟩; exact h x hx⟩

theorem extension_den (order : List Nat → List Nat) (xs : List Str) (Name X Y : Str → Prop) (p : HopName)
    (hp : hopD p = paramD Name .text) (hn : ∀ w, Name w ↔ IsToken w ∧ ¬ Y w)
    (hx : ∀ w, (∀ x ∈ xs, ¬ SameWord w x) ↔ ¬ BuiltInCoding w ∧ ¬ X w) :
    oneD ((transferExtensionE order xs p).den hopD) = extensionD X Y := by
  show oneD (appD (classF (str "Parametrized")) (thenD (appD (classF (str "TransferCoding")) (exclD tcharBits ([] :: xs)))
    (appD (classF (str "MultiDict")) (timesD (thenD ((GExpr.semicolon (HopName.str .ows)).den hopD) (hopD p))
      (thenD ((GExpr.semicolon (HopName.str .ows)).den hopD) (hopD p)) 0 none)))) = _
  rw [semicolon_den, hp, semis_den, tokenExcl_den, tab_class, tab_class, tab_then, tab_class, tab_one_single]
  refine tab_iff ?_ ?_
  · rintro ⟨w, l⟩ ⟨⟨h1, h2⟩, h3⟩
    obtain ⟨h4, h5⟩ := (hx w).mp h2
    refine ⟨⟨w, l⟩, ⟨⟨⟨h1, fun y hy => ?_, fun e => absurd e h4⟩, h4⟩, h5, ?_⟩, rfl, rfl, rfl⟩
    · obtain ⟨k1, k2, k3⟩ := h3 y hy
      exact ⟨k1, ((hn _).mp k2).1, k3⟩
    · rw [mem_elems]
      exact fun y hy => ((hn _).mp (h3 y hy).2.1).2
  · rintro ⟨w, l⟩ ⟨⟨⟨h1, h2, _⟩, h4⟩, h5, h6⟩
    rw [mem_elems] at h6
    refine ⟨(w, l), ⟨⟨h1, (hx w).mpr ⟨h4, h5⟩⟩, fun y hy => ?_⟩, rfl, rfl, rfl⟩
    obtain ⟨k1, k2, k3⟩ := h2 y hy
    exact ⟨k1, (hn _).mpr ⟨k2, h6 y hy⟩, k3⟩

theorem extension1_den (order : List Nat → List Nat) :
    oneD ((transferExtensionE order builtInCodings .transferParameter).den hopD) = hopD .transferExtension :=
  extension_den order builtInCodings IsToken (fun _ => False) (fun _ => False) .transferParameter rfl (by simp)
    (fun w => by rw [builtIn_iff]; simp)

theorem extension2_den (order : List Nat → List Nat) :
    oneD ((transferExtensionE order (builtInCodings ++ [str "trailers"]) .transferParameter2).den hopD) =
      hopD .transferExtension2 :=
  extension_den order _ _ (SameWord · (str "trailers")) (SameWord · (str "q")) .transferParameter2 rfl (fun _ => Iff.rfl)
    (fun w => by rw [builtIn_iff]; simp only [List.mem_append, List.mem_singleton]; grind)

/-- A coding without parameters. -/
abbrev bareD (name : Str) : Den :=
  tabD (fun w => SameWord w name) (fun w => w) (fun w => [CodingSyn.value ⟨w, []⟩]) (fun _ => [])

theorem bare_den (name : Str) : appD emptyParamsF (appD (classF (str "TransferCoding")) (litD name false)) = bareD name := by
  rw [tab_lit, tab_class, tab_app]
  exact tab_iff (fun w h => ⟨w, h, rfl, rfl, rfl⟩) (fun w h => ⟨w, h, rfl, rfl, rfl⟩)

theorem coding_den (X Y : Str → Prop) (e : HopName) (he : hopD e = extensionD X Y)
    (hX : ∀ w, BuiltInCoding w → ¬ X w) : oneD ((transferCodingE e).den hopD) = codingD X Y := by
  show oneD (orD (orD (orD (orD (hopD e)
    (appD emptyParamsF (appD (classF (str "TransferCoding")) (litD (str "chunked") false))))
    (appD emptyParamsF (appD (classF (str "TransferCoding")) (litD (str "compress") false))))
    (appD emptyParamsF (appD (classF (str "TransferCoding")) (litD (str "deflate") false))))
    (appD emptyParamsF (appD (classF (str "TransferCoding")) (litD (str "gzip") false)))) = _
  rw [he, bare_den, bare_den, bare_den, bare_den, tab_or, tab_or, tab_or, tab_or, tab_one]
  have bare : ∀ {w : Str}, BuiltInCoding w → (CodingSyn.mk w []).Ok ∧ ¬ X w ∧ ∀ p ∈ (CodingSyn.mk w []).params.elems, ¬ Y p.name := by
    intro w h
    refine ⟨⟨?_, nofun, fun _ => rfl⟩, hX w h, nofun⟩
    rcases h with h | h | h | h <;> exact sameWord_token (by decide +kernel) h
  have text : ∀ w : Str, (CodingSyn.mk w []).text = w := fun w => List.append_nil w
  refine tab_iff ?_ ?_
  · rintro ((((x | w) | w) | w) | w) h
    · exact ⟨x, ⟨h.1.1, h.2⟩, rfl, rfl, rfl⟩
    · exact ⟨⟨w, []⟩, bare (.inl h), (text w).symm, rfl, rfl⟩
    · exact ⟨⟨w, []⟩, bare (.inr (.inl h)), (text w).symm, rfl, rfl⟩
    · exact ⟨⟨w, []⟩, bare (.inr (.inr (.inl h))), (text w).symm, rfl, rfl⟩
    · exact ⟨⟨w, []⟩, bare (.inr (.inr (.inr h))), (text w).symm, rfl, rfl⟩
  · rintro x ⟨h1, h2⟩
    by_cases hb : BuiltInCoding x.name
    · obtain ⟨w, l⟩ := x
      obtain rfl : l = [] := h1.2.2 hb
      rcases hb with h | h | h | h
      · exact ⟨.inl (.inl (.inl (.inr w))), h, text w, rfl, rfl⟩
      · exact ⟨.inl (.inl (.inr w)), h, text w, rfl, rfl⟩
      · exact ⟨.inl (.inr w), h, text w, rfl, rfl⟩
      · exact ⟨.inr w, h, text w, rfl, rfl⟩
    · exact ⟨.inl (.inl (.inl (.inl x))), ⟨⟨h1, hb⟩, h2⟩, rfl, rfl, rfl⟩

theorem builtIn_other {v : Str} (h1 : ¬ SameWord (str "chunked") v) (h2 : ¬ SameWord (str "compress") v)
    (h3 : ¬ SameWord (str "deflate") v) (h4 : ¬ SameWord (str "gzip") v) (w : Str) (h : BuiltInCoding w) : ¬ SameWord w v := by
  rcases h with h | h | h | h
  · exact sameWord_other h1 h
  · exact sameWord_other h2 h
  · exact sameWord_other h3 h
  · exact sameWord_other h4 h

theorem tCodings_den : oneD ((GExpr.alt (.app (classF (str "CaseInsensitive")) true (.lit (str "trailers") false))
    (.app (classF (str "Parametrized")) true (.seq (.ref .transferCoding2) (.maybe (.ref .tRanking))))).den hopD) =
    hopD .tCodings := by
  show oneD (orD (appD (classF (str "CaseInsensitive")) (litD (str "trailers") false))
    (appD (classF (str "Parametrized")) (thenD (hopD .transferCoding2)
      (oneD (orD (hopD .tRanking) (appD (substF .none) nothingD)))))) = _
  simp only [hopD]
  rw [tab_lit, tab_class, tab_maybe, tab_one, tab_then, tab_class, tab_or, tab_one]
  refine tab_iff ?_ ?_
  · rintro (w | ⟨c, _ | r⟩) h
    · exact ⟨.trailers w, h, rfl, rfl, rfl⟩
    · exact ⟨.coding c none, ⟨h.1.1, h.1.2.1, h.1.2.2, nofun⟩, rfl, rfl, List.append_nil _⟩
    · exact ⟨.coding c (some r), ⟨h.1.1, h.1.2.1, h.1.2.2, fun x e => by cases e; exact h.2⟩, rfl, rfl, List.append_nil _⟩
  · rintro (w | ⟨c, _ | r⟩) h
    · exact ⟨.inl w, h, rfl, rfl, rfl⟩
    · exact ⟨.inr (c, none), ⟨⟨h.1, h.2.1, h.2.2.1⟩, trivial⟩, rfl, rfl, (List.append_nil _).symm⟩
    · exact ⟨.inr (c, some r), ⟨⟨h.1, h.2.1, h.2.2.1⟩, h.2.2.2 r rfl⟩, rfl, rfl, (List.append_nil _).symm⟩

theorem protocol_den : oneD ((GExpr.app (classF (str "Versioned")) true (.seq
    (.app (classF (str "UpgradeToken")) true (.ref .protocolName))
    (.maybe (.seq (.skip (.lit (str "/") false)) (.ref .protocolVersion))))).den hopD) = hopD .protocol := by
  show oneD (appD (classF (str "Versioned")) (thenD (appD (classF (str "UpgradeToken")) tokenD)
    (oneD (orD (thenD (appD skipF (litD (str "/") false)) tokenD) (appD (substF .none) nothingD))))) = _
  have hs : appD skipF (litD (str "/") false) = silentD (str "/") := skip_char (k := 47) (by decide)
  rw [hs, silent_then, tab_maybe, tab_one, tab_class, tab_then, tab_class, tab_one_single]
  refine tab_iff ?_ ?_
  · rintro ⟨n, _ | v⟩ h
    · exact ⟨⟨n, none⟩, ⟨h.1, nofun⟩, rfl, rfl, rfl⟩
    · exact ⟨⟨n, some v⟩, ⟨h.1, fun x e => by cases e; exact h.2⟩, rfl, rfl, rfl⟩
  · rintro ⟨n, _ | v⟩ h
    · exact ⟨(n, none), ⟨h.1, trivial⟩, rfl, rfl, rfl⟩
    · exact ⟨(n, some v), ⟨h.1, h.2 v rfl⟩, rfl, rfl, rfl⟩

theorem codings_list : Alike (list1D (hopD .transferCoding)) (hopD .transferCodings) := by
  have : codingD (fun _ => False) (fun _ => False) = tabD CodingSyn.Ok CodingSyn.text (fun x => [x.value]) CodingSyn.notes :=
    tab_iff (fun x h => ⟨x, h.1, rfl, rfl, rfl⟩) (fun x h => ⟨x, ⟨h, nofun, fun _ _ => nofun⟩, rfl, rfl, rfl⟩)
  show Alike (list1D (codingD (fun _ => False) (fun _ => False))) _
  rw [this]
  exact tab_list1 (fun _ _ => nofun)

theorem te_list : Alike (listD (hopD .tCodings)) (hopD .tCodingss) := tab_list (fun x _ => by cases x <;> nofun)

local macro "fine" : tactic => `(tactic| simp_all [Defn.Fine, GExpr.Fine, transferParameterE, transferExtensionE,
  transferCodingE, builtInCodings, builtInE, GExpr.semicolon, rankE, GExpr.number])

local macro "one" : tactic => `(tactic| exact named_alike (.of_eq tab_one_single))

/-- Headers for one connection. -/
theorem hops_solve {order : List Nat → List Nat} (ho : ∀ l c, c ∈ order l ↔ c ∈ l) : Solves [] hopD (hopDefs order) := by
  refine solves_import (known := []) (δ' := strD) nofun (fun _ => rfl) strings_solve ?_
  have h1 : HopName.str .token ∈ (stringDefs.map fun x => HopName.str x.1).reverse ++ [] := by decide
  have h2 : HopName.str .quoted ∈ (stringDefs.map fun x => HopName.str x.1).reverse ++ [] := by decide
  have h3 : HopName.str .ows ∈ (stringDefs.map fun x => HopName.str x.1).reverse ++ [] := by decide
  have h4 : HopName.str .bws ∈ (stringDefs.map fun x => HopName.str x.1).reverse ++ [] := by decide
  generalize (stringDefs.map fun x => HopName.str x.1).reverse ++ [] = known at h1 h2 h3 h4
  have t1 : ∀ known, (GExpr.tokenExcluding order builtInCodings : GExpr HopName).Fine known :=
    fun known => tokenExcl_fine ho (by decide +kernel) known
  have t2 : ∀ known, (GExpr.tokenExcluding order (builtInCodings ++ [str "trailers"]) : GExpr HopName).Fine known :=
    fun known => tokenExcl_fine ho (by decide +kernel) known
  have t3 : ∀ known, (GExpr.tokenExcluding order [str "q"] : GExpr HopName).Fine known :=
    fun known => tokenExcl_fine ho (by decide +kernel) known
  refine ⟨by fine, named_alike (.of_eq (name_den _)), ?_⟩
  refine ⟨by fine, named_alike (.of_eq (name_den _)), ?_⟩
  refine ⟨by fine, named_alike (.of_eq parameter_den), ?_⟩
  refine ⟨?_, named_alike (.of_eq (extension1_den order)), ?_⟩
  · have := t1
    generalize builtInCodings = xs at this ⊢
    fine
  refine ⟨by fine, named_alike (.of_eq (coding_den (fun _ => False) (fun _ => False) .transferExtension rfl (fun _ _ => id))), ?_⟩
  refine ⟨⟨by simp_all, rfl, by fine, fun w cs => tab_never w cs⟩, codings_list, ?_⟩
  refine ⟨by fine, by one, ?_⟩
  refine ⟨by fine, named_alike (.of_eq rank_den), ?_⟩
  refine ⟨by fine, named_alike (.of_eq ranking_den), ?_⟩
  refine ⟨?_, named_alike (.of_eq (parameter2_den order)), ?_⟩
  · generalize [str "q"] = xs at t3 ⊢
    fine
  refine ⟨?_, named_alike (.of_eq (extension2_den order)), ?_⟩
  · generalize builtInCodings ++ [str "trailers"] = xs at t2 ⊢
    fine
  refine ⟨by fine, named_alike (.of_eq (coding_den (SameWord · (str "trailers")) (SameWord · (str "q")) .transferExtension2 rfl
    (builtIn_other (by decide +kernel) (by decide +kernel) (by decide +kernel) (by decide +kernel)))), ?_⟩
  refine ⟨by fine, named_alike (.of_eq tCodings_den), ?_⟩
  refine ⟨⟨by simp_all, rfl, by fine, fun w cs => tab_never w cs⟩, te_list, ?_⟩
  refine ⟨by fine, by one, ?_⟩
  refine ⟨⟨by simp_all, rfl, by fine, fun w cs => tab_never w cs⟩, tab_list1 (fun _ _ => nofun), ?_⟩
  refine ⟨by fine, by one, ?_⟩
  refine ⟨by fine, named_alike (.of_eq (name_den _)), ?_⟩
  refine ⟨⟨by simp_all, rfl, by fine, fun w cs => tab_never w cs⟩, tab_list1 (fun _ _ => nofun), ?_⟩
  refine ⟨by fine, by one, ?_⟩
  refine ⟨by fine, by one, ?_⟩
  refine ⟨by fine, by one, ?_⟩
  refine ⟨by fine, named_alike (.of_eq protocol_den), ?_⟩
  refine ⟨⟨by simp_all, rfl, by fine, fun w cs => tab_never w cs⟩, tab_list1 (fun _ _ => nofun), ?_⟩
  refine ⟨by fine, by one, ?_⟩
  refine ⟨by fine, named_alike (.of_eq number_one'), ?_⟩
  trivial

/-! ## Texts determine what is written -/

theorem token_unbroken {w : Str} (h : IsToken w) : Begins Unbroken w := (token_begins h).mono fun _ => tchar_unbroken

theorem end_stops {l : Str} (h : AtEnd l) : Stops IsTchar l := h.stops.mono fun _ => tchar_unbroken

theorem end_semi {l : Str} (h : AtEnd l) : ¬ AtSemi l := fun k => k.not_atEnd h

theorem names_inj (x y : List1Syn Str) (hx : x.Ok IsToken) (hy : y.Ok IsToken) (e : (x.text fun w => w) = y.text fun w => w) :
    x = y :=
  (uniq_list1 uniq_token (fun _ h => end_stops h.atEnd) (fun _ => token_unbroken)).inj rfl hx hy e

theorem param_blank {Name : Str → Prop} (hn : ∀ w, Name w → IsToken w) (a : Param) (l : Str) (h : a.Ok Name) :
    Stops Blank (a.text ++ l) := by
  refine not_blank (Q := IsTchar) (fun c hc => ⟨(tchar_ne hc).2.2.1, (tchar_ne hc).2.2.2.1⟩) ?_
  unfold Param.text
  exact (token_begins (hn _ h.1)).append.append.append.append

theorem semis_stop {α : Type} {P : α → Prop} {t : α → Str} {R : Nat → Prop} (hr : ∀ c, R c → c ≠ 32 ∧ c ≠ 9 ∧ c ≠ 59)
    {x : SemiSyn α} (h : x.Ok P) {l : Str} (hl : Stops R l) : Stops R (x.text t ++ l) := by
  cases x with
  | nil => exact hl
  | cons y x =>
    have : SemiSyn.text t (y :: x) ++ l = y.1.1 ++ 59 :: (y.1.2 ++ t y.2 ++ SemiSyn.text t x ++ l) := by simp [SemiSyn.text]
    rw [this]
    refine .append (fun c hc k => ?_) (.cons fun k => (hr _ k).2.2 rfl)
    rcases (h y (.head _)).1.1 c hc with rfl | rfl
    · exact (hr _ k).1 rfl
    · exact (hr _ k).2.1 rfl

theorem tchar_semis (c : Nat) (h : IsTchar c) : c ≠ 32 ∧ c ≠ 9 ∧ c ≠ 59 :=
  ⟨(tchar_ne h).2.2.1, (tchar_ne h).2.2.2.1, (tchar_ne h).2.2.2.2.2.1⟩

theorem coding_ext {a b : CodingSyn} (h : (a.name, a.params) = (b.name, b.params)) : a = b := by
  cases a
  cases b
  simp only [Prod.mk.injEq] at h
  obtain ⟨rfl, rfl⟩ := h
  rfl

theorem uniq_coding : Uniq CodingSyn.Ok CodingSyn.text AtEnd := by
  have params : Uniq (SemiSyn.Ok (Param.Ok IsToken)) (SemiSyn.text Param.text) AtEnd :=
    uniq_semis_end (uniq_param fun _ h => h) (fun l hl => hl.elim AtSemi.stops end_stops)
      (param_blank fun _ h => h) (fun l => end_semi)
  refine (Uniq.seq uniq_token params ?_).map (fun x => (x.name, x.params)) (fun x h => ⟨h.1, h.2.1⟩) (fun _ _ => rfl)
    (fun a b _ _ => coding_ext)
  exact fun b l hb hl => semis_stop tchar_semis hb (end_stops hl)

theorem coding_begins {x : CodingSyn} (h : x.Ok) : Begins Unbroken x.text := (token_unbroken h.1).append

theorem codings_inj (x y : List1Syn CodingSyn) (hx : x.Ok CodingSyn.Ok) (hy : y.Ok CodingSyn.Ok) (e : x.text CodingSyn.text = y.text CodingSyn.text) :
    x = y :=
  (uniq_list1 uniq_coding (fun _ h => h.atEnd) (fun _ => coding_begins)).inj rfl hx hy e

theorem protocol_inj (x y : List1Syn Protocol) (hx : x.Ok Protocol.Ok) (hy : y.Ok Protocol.Ok)
    (e : x.text Protocol.text = y.text Protocol.text) : x = y := by
  have hs : str "/" = [47] := by decide +kernel
  have version : Uniq (optT True IsToken) (optT [] fun w => [47] ++ w) AtEnd :=
    ((uniq_token.mono (fun _ h => h) (fun _ => end_stops)).after [47]).opt fun v l l' _ _ hl' e =>
      hl'.stops 47 (v ++ l) e.symm (by unfold Unbroken; decide)
  have one : Uniq Protocol.Ok Protocol.text AtEnd := by
    refine (Uniq.seq uniq_token version ?_).map (fun x => (x.name, x.version)) ?_ ?_ ?_
    · rintro (_ | v) l _ hl
      · exact end_stops hl
      · exact .cons fun k => (tchar_ne k).2.2.2.2.2.2.1 rfl
    · rintro ⟨n, _ | v⟩ h
      · exact ⟨h.1, trivial⟩
      · exact ⟨h.1, h.2 v rfl⟩
    · rintro ⟨n, _ | v⟩ h
      · rfl
      · simp [Protocol.text, optT, hs]
    · rintro ⟨n, v⟩ ⟨n', v'⟩ _ _ e
      simp only [Prod.mk.injEq] at e
      obtain ⟨rfl, rfl⟩ := e
      rfl
  exact (uniq_list1 one (fun _ h => h.atEnd) (fun x h => (token_unbroken h.1).append)).inj rfl hx hy e

/-- A weight, or the end. -/
def AtRank (l : Str) : Prop := AtEnd l ∨ ∃ s s' c r, IsOws s ∧ IsOws s' ∧ (c = 113 ∨ c = 81) ∧ l = s ++ 59 :: (s' ++ c :: 61 :: r)

theorem rank_at {x : Ranking} (h : x.Ok) (l : Str) : AtRank (x.text ++ l) := by
  have hs : str ";" = [59] := by decide +kernel
  obtain ⟨c, e, hc⟩ := q_begins h.2.2.1
  exact .inr ⟨x.before, x.after, c, x.weight.text ++ l, h.1, h.2.1, hc, by simp [Ranking.text, hs, e]⟩

theorem AtRank.stops {l : Str} (h : AtRank l) : Stops IsTchar l := by
  rcases h with h | ⟨s, s', c, r, hs, _, _, rfl⟩
  · exact end_stops h
  · exact AtSemi.stops ⟨s, _, hs, rfl⟩

theorem qChar_blank {c : Nat} (h : c = 113 ∨ c = 81) : ¬ Blank c := by
  unfold Blank
  omega

theorem qChar_token {c : Nat} (h : c = 113 ∨ c = 81) : IsTchar c := by
  unfold IsTchar
  omega

theorem q_word {c : Nat} (h : c = 113 ∨ c = 81) : SameWord [c] (str "q") := by
  rcases h with rfl | rfl <;> decide +kernel

/-- Parameters of a name other than `q`, up to a weight or the end. -/
theorem uniq_params_rank {Name : Str → Prop} (hn : ∀ w, Name w → IsToken w ∧ ¬ SameWord w (str "q")) :
    Uniq (SemiSyn.Ok (Param.Ok Name)) (SemiSyn.text Param.text) AtRank := by
  have hn1 : ∀ w, Name w → IsToken w := fun w h => (hn w h).1
  refine uniq_semis (uniq_param hn1) (fun l hl => hl.elim AtSemi.stops AtRank.stops) (param_blank hn1) ?_
  rintro a l s s' l' ha _ hs hs' (h | ⟨u, u', c, r, hu, hu', hc, h⟩) e
  · exact end_semi h ⟨s, _, hs, e.symm⟩
  · rw [h] at e
    obtain ⟨rfl, e1⟩ := span_unique (Q := Blank) hs hu (blank_semi _) (blank_semi _) e
    have e2 := (List.cons.inj e1).2
    obtain ⟨rfl, e3⟩ := span_unique (Q := Blank) hs' hu' (param_blank hn1 a l ha) (.cons (qChar_blank hc)) e2
    have e4 : a.name ++ (a.before ++ (61 :: (a.after ++ a.value.text ++ l))) = [c] ++ 61 :: r := by
      rw [List.singleton_append, ← e3]
      simp [Param.text, equals_eq]
    obtain ⟨e5, _⟩ := span_unique (Q := IsTchar) (hn1 _ ha.1).2 (fun d hd => by
      rw [List.mem_singleton] at hd
      subst hd
      exact qChar_token hc) (stops_blank_tchar ha.2.1 (.cons fun k => (tchar_ne k).2.2.2.2.1 rfl))
      (.cons fun k => (tchar_ne k).2.2.2.2.1 rfl) e4
    exact (hn _ ha.1).2 (e5 ▸ q_word hc)

theorem decimal_unbroken {c : Nat} (h : Decimal c) : Unbroken c := by
  unfold Decimal at h
  unfold Unbroken
  omega

/-- Perhaps a weight. -/
theorem uniq_rank : Uniq (optT True Ranking.Ok) (optT [] Ranking.text) AtEnd := by
  refine (uniq_ranking.mono (fun _ h => h) (fun l hl => hl.stops.mono fun _ => decimal_unbroken)).opt ?_
  intro x l l' hx _ hl' e
  exact end_semi hl' (e ▸ ranking_semi hx l)

theorem opt_rank {o : Option Ranking} (h : optT True Ranking.Ok o) {l : Str} (hl : AtEnd l) :
    AtRank (optT [] Ranking.text o ++ l) := by
  cases o with
  | none => exact .inl hl
  | some x => exact rank_at h l

theorem optRank_ok {o : Option Ranking} : (∀ x, o = some x → x.Ok) ↔ optT True Ranking.Ok o := by
  cases o with
  | none => exact ⟨fun _ => trivial, fun _ _ => nofun⟩
  | some x => exact ⟨fun h => h x rfl, fun h y e => by cases e; exact h⟩

theorem uniq_te : Uniq TeSyn.Ok TeSyn.text AtEnd := by
  have params := uniq_params_rank (Name := fun w => IsToken w ∧ ¬ SameWord w (str "q")) (fun _ h => h)
  have tail := Uniq.seq params uniq_rank (fun o l ho hl => opt_rank ho hl)
  have stop : ∀ (b : SemiSyn Param × Option Ranking) l,
      (SemiSyn.Ok (Param.Ok fun w => IsToken w ∧ ¬ SameWord w (str "q")) b.1 ∧ optT True Ranking.Ok b.2) → AtEnd l →
      Stops IsTchar ((SemiSyn.text Param.text b.1 ++ optT [] Ranking.text b.2) ++ l) := by
    intro b l hb hl
    rw [List.append_assoc]
    exact semis_stop tchar_semis hb.1 (opt_rank hb.2 hl).stops
  have coding := Uniq.seq uniq_token tail stop
  have trailers : Uniq (fun w => SameWord w (str "trailers")) (fun w => w) AtEnd :=
    (uniq_sameWord _).mono (fun _ h => h) (fun _ _ => trivial)
  have ok : ∀ {c : CodingSyn} {r}, (TeSyn.coding c r).Ok → IsToken c.name ∧
      SemiSyn.Ok (Param.Ok fun w => IsToken w ∧ ¬ SameWord w (str "q")) c.params ∧ optT True Ranking.Ok r := by
    intro c r h
    refine ⟨h.1.1, fun x hx => ?_, optRank_ok.mp h.2.2.2⟩
    obtain ⟨k1, k2, k3⟩ := h.1.2.1 x hx
    exact ⟨k1, ⟨k2, mem_elems.mp h.2.2.1 x hx⟩, k3⟩
  have text : ∀ (c : CodingSyn) r, (TeSyn.coding c r).text =
      c.name ++ (SemiSyn.text Param.text c.params ++ optT [] Ranking.text r) := by
    intro c r
    cases r <;> simp [TeSyn.text, CodingSyn.text, optT]
  have unlike : ∀ {w c r l l'}, SameWord w (str "trailers") → (TeSyn.coding c r).Ok → AtEnd l → AtEnd l' →
      w ++ l ≠ (TeSyn.coding c r).text ++ l' := by
    intro w c r l l' hw hc hl hl' e
    rw [text, List.append_assoc] at e
    obtain ⟨k1, k2⟩ := ok hc
    obtain ⟨rfl, _⟩ := uniq_token w c.name _ _ (sameWord_token (by decide +kernel) hw) k1 (end_stops hl)
      (stop (c.params, r) l' k2 hl') e
    exact hc.2.1 hw
  rintro (w | ⟨c, r⟩) (w' | ⟨c', r'⟩) l l' h h' hl hl' e
  · obtain ⟨rfl, e2⟩ := trailers w w' l l' h h' hl hl' e
    exact ⟨rfl, e2⟩
  · exact absurd e (unlike h h' hl hl')
  · exact absurd (Eq.symm e) (unlike h' h hl' hl)
  · rw [text, text] at e
    obtain ⟨e1, e2⟩ := coding (c.name, c.params, r) (c'.name, c'.params, r') l l' (ok h) (ok h') hl hl' e
    simp only [Prod.mk.injEq] at e1
    obtain ⟨e3, e4, rfl⟩ := e1
    rw [coding_ext (a := c) (b := c') (by rw [e3, e4])]
    exact ⟨rfl, e2⟩

theorem te_begins {x : TeSyn} (h : x.Ok) : Begins Unbroken x.text := by
  cases x with
  | trailers w => exact token_unbroken (sameWord_token (by decide +kernel) h)
  | coding c r => exact (coding_begins h.1).append

theorem te_inj (x y : ListSyn TeSyn) (hx : x.Ok TeSyn.Ok) (hy : y.Ok TeSyn.Ok) (e : x.text TeSyn.text = y.text TeSyn.text) :
    x = y :=
  (uniq_list uniq_te (fun _ h => h) (fun _ => te_begins)).inj rfl hx hy e

end Httpolice.Lemmas
