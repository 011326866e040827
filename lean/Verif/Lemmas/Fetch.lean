import Verif.Lemmas.Preferences
import Verif.Lemmas.UriChars
import Verif.Model.FetchModules
import Verif.Spec.Fetch

/-!
# What the names for Forwarded, cross-origin requests and OAuth come to
-/

namespace Httpolice.Lemmas

open Httpolice.Model Httpolice.Spec

theorem verb_exact (s : Str) : litD s true = verbD (fun w => w = s) := by
  funext w vs cs
  refine propext ⟨?_, ?_⟩
  · rintro ⟨h, rfl, rfl⟩
    exact ⟨w, h, rfl, rfl, rfl⟩
  · rintro ⟨_, h, rfl, rfl, rfl⟩
    exact ⟨h, rfl, rfl⟩

/-- What the names come to. -/
def fetchD : FetchName → Den
  | .cache n => cacheD n
  | .uri n => uriD n
  | .obfnode | .obfport => verbD IsHidden
  | .nodename => tabD NodeName.Ok NodeName.text (fun x => [x.value]) (fun _ => [])
  | .nodeNumber => tabD (fun w => IsNumeral w ∧ w.length ≤ 5) (fun w => w) (fun w => [.int (numeral w)]) (fun _ => [])
  | .nodePort => tabD NodePort.Ok NodePort.text (fun x => [x.value]) (fun _ => [])
  | .node => tabD NodeSyn.Ok NodeSyn.text (fun x => [x.value]) (fun _ => [])
  | .forwardedValue => wordsD
  | .forwardedPair => namedAttrD (str "ForwardedParam")
  | .forwardedElement => tabD HopSyn.Ok HopSyn.text (fun x => [x.value]) HopSyn.notes
  | .forwardeds | .forwarded => list1sD HopSyn.Ok HopSyn.text HopSyn.value HopSyn.notes
  | .origin => verbD IsOrigin
  | .originOrNull | .originHeader => verbD (fun w => IsOrigin w ∨ w = str "null")
  | .requestMethod => nameD (str "Method")
  | .requestNames | .requestHeaders => list1sD IsToken (fun w => w) (nameValue (str "FieldName")) (fun _ => [])
  | .wildcard => verbD (fun w => w = str "*")
  | .allowOrigin => verbD (fun w => IsOrigin w ∨ w = str "null" ∨ w = str "*")
  | .allowCredentials => verbD (fun w => w = str "true")
  | .exposeNames | .exposeHeaders | .allowNames | .allowHeaders =>
      listsD IsToken (fun w => w) (nameValue (str "FieldName")) (fun _ => [])
  | .maxAge => numberD
  | .allowMethodNames | .allowMethods => listsD IsToken (fun w => w) (nameValue (str "Method")) (fun _ => [])
  | .contentTypeOptions => verbD (fun w => SameWord w (str "nosniff"))
  | .resourcePolicy => verbD (fun w => w = str "same-origin" ∨ w = str "same-site")
  | .scopeToken => verbD IsScopeToken
  | .scope => tabD ScopeSyn.Ok ScopeSyn.text (fun x => [x.value]) (fun _ => [])
  | .error | .errorDescription => verbD IsErrorText
  | .errorUri => verbD IsUriReference

/-! ## Forwarded -/

theorem obf_iff (c : Nat) : obfBits c = true ↔ IsLetter c ∨ IsDigit c ∨ c ∈ str "._-" := by
  have hs : str "._-" = [46, 95, 45] := by decide +kernel
  rw [hs]
  simp only [obfBits, Bool.or_eq_true, alpha_iff, digitBits_iff, charBits_sign (k := 46) (by decide), charBits_sign (k := 95) (by decide),
    charBits_sign (k := 45) (by decide), List.mem_cons, List.not_mem_nil, or_false]
  simp only [or_assoc]

theorem hidden_den : oneD ((GExpr.add (.lit (str "_") false) (.string1 (.chars obfBits false)) : GExpr FetchName).den fetchD) =
    verbD IsHidden := by
  show oneD (appD addF (thenD (litD (str "_") false) (appD joinF (timesD (octetD obfBits) (octetD obfBits) 1 none)))) = _
  rw [show litD (str "_") false = verbD (fun w => w = [95]) from verb_plain (s := [95]) (by decide +kernel), verb_chars, verb_many1,
    verb_add, verb_one]
  refine verb_congr fun w => ⟨?_, ?_⟩
  · rintro ⟨_, v, rfl, h, rfl⟩
    obtain ⟨h1, h2⟩ := (chars1_iff obf_iff v).mp h
    exact ⟨v, h1, h2, rfl⟩
  · rintro ⟨v, h1, h2, rfl⟩
    exact ⟨[95], v, rfl, (chars1_iff obf_iff v).mpr ⟨h1, h2⟩, rfl⟩

theorem skip_open : appD skipF (litD (str "[") false) = silentD [91] := skip_char (k := 91) (by decide)
theorem skip_close : appD skipF (litD (str "]") false) = silentD [93] := skip_char (k := 93) (by decide)
theorem skip_semi : appD skipF (litD (str ";") false) = silentD [59] := skip_char (k := 59) (by decide)

theorem nodename_den : oneD ((GExpr.alt (.alt (.alt (.ref (.uri .ipv4))
    (.seq (.seq (.skip (.lit (str "[") false)) (.ref (.uri .ipv6))) (.skip (.lit (str "]") false))))
    (.lit (str "unknown") false)) (.ref .obfnode) : GExpr FetchName).den fetchD) = fetchD .nodename := by
  show oneD (orD (orD (orD (verbD IsIPv4) (thenD (thenD (appD skipF (litD (str "[") false)) (verbD IsIPv6))
    (appD skipF (litD (str "]") false)))) (litD (str "unknown") false)) (verbD IsHidden)) = _
  rw [skip_open, skip_close, silent_then, then_silent, tab_lit, tab_or, tab_or, tab_or, tab_one]
  refine tab_iff ?_ ?_
  · rintro (((w | w) | w) | w) h
    · exact ⟨.ipv4 w, h, rfl, rfl, rfl⟩
    · exact ⟨.ipv6 w, h, rfl, rfl, rfl⟩
    · exact ⟨.unknown w, h, rfl, rfl, rfl⟩
    · exact ⟨.hidden w, h, rfl, rfl, rfl⟩
  · rintro (w | w | w | w) h
    · exact ⟨.inl (.inl (.inl w)), h, rfl, rfl, rfl⟩
    · exact ⟨.inl (.inl (.inr w)), h, rfl, rfl, rfl⟩
    · exact ⟨.inl (.inr w), h, rfl, rfl, rfl⟩
    · exact ⟨.inr w, h, rfl, rfl, rfl⟩

theorem nodeNumber_den : oneD ((GExpr.app intF false (.stringTimes 1 (some 5) (.chars digitBits true)) : GExpr FetchName).den fetchD) =
    fetchD .nodeNumber := by
  show oneD (appD intF (appD joinF (timesD (octetD digitBits) (octetD digitBits) 1 (some 5)))) = _
  rw [tab_stringTimes _ 1 (some 5) (by simp), tab_app, tab_one]
  refine tab_iff ?_ ?_
  · rintro w ⟨h1, h2, h3⟩
    refine ⟨w, ⟨⟨List.ne_nil_of_length_pos h2, fun c hc => (digit_iff c).mp (h1 c hc)⟩, h3 5 rfl⟩, rfl, ?_, rfl⟩
    show [GVal.int (decimal w : Nat)] = _
    rw [decimal_numeral]
  · rintro w ⟨⟨h1, h2⟩, h3⟩
    refine ⟨w, ⟨fun c hc => (digit_iff c).mpr (h2 c hc), List.length_pos_iff.mpr h1, fun k hk => by cases hk; exact h3⟩, rfl, ?_, rfl⟩
    show _ = [GVal.int (decimal w : Nat)]
    rw [decimal_numeral]

theorem nodePort_den : oneD ((GExpr.alt (.ref .nodeNumber) (.ref .obfport) : GExpr FetchName).den fetchD) = fetchD .nodePort := by
  show oneD (orD (tabD (fun w => IsNumeral w ∧ w.length ≤ 5) (fun w => w) (fun w => [.int (numeral w)]) (fun _ => []))
    (verbD IsHidden)) = _
  rw [tab_or, tab_one]
  refine tab_iff ?_ ?_
  · rintro (w | w) h
    · exact ⟨.number w, h, rfl, rfl, rfl⟩
    · exact ⟨.hidden w, h, rfl, rfl, rfl⟩
  · rintro (w | w) h
    · exact ⟨.inl w, h, rfl, rfl, rfl⟩
    · exact ⟨.inr w, h, rfl, rfl, rfl⟩

theorem node_den : oneD ((GExpr.seq (.ref .nodename) (.maybe (.seq (.skip (.lit (str ":") false)) (.ref .nodePort))) :
    GExpr FetchName).den fetchD) = fetchD .node := by
  show oneD (thenD (tabD NodeName.Ok NodeName.text (fun x => [x.value]) (fun _ => [])) (oneD (orD (thenD
    (appD skipF (litD (str ":") false)) (tabD NodePort.Ok NodePort.text (fun x => [x.value]) (fun _ => [])))
    (appD (substF .none) nothingD)))) = _
  rw [colon_is, silent_then, tab_maybe, tab_one, tab_then, tab_one]
  refine tab_iff ?_ ?_
  · rintro ⟨n, _ | p⟩ ⟨h1, h2⟩
    · exact ⟨⟨n, none⟩, ⟨h1, nofun⟩, rfl, rfl, rfl⟩
    · exact ⟨⟨n, some p⟩, ⟨h1, fun _ e => by cases e; exact h2⟩, rfl, rfl, rfl⟩
  · rintro ⟨n, _ | p⟩ ⟨h1, h2⟩
    · exact ⟨(n, none), ⟨h1, trivial⟩, rfl, rfl, rfl⟩
    · exact ⟨(n, some p), ⟨h1, h2 p rfl⟩, rfl, rfl, rfl⟩

theorem forwardedPair_den : oneD ((GExpr.seq (.seq (.app (classF (str "ForwardedParam")) true (.fs .token))
    (.skip (.lit (str "=") false))) (.ref .forwardedValue) : GExpr FetchName).den fetchD) = fetchD .forwardedPair := by
  show oneD (thenD (thenD (appD (classF (str "ForwardedParam")) tokenD) (appD skipF (litD (str "=") false))) wordsD) = _
  rw [skip_equals, tab_class, then_silent, tab_then, tab_one]
  refine tab_iff ?_ ?_
  · rintro ⟨n, w⟩ h
    exact ⟨⟨n, w⟩, h, rfl, rfl, rfl⟩
  · rintro ⟨n, w⟩ h
    exact ⟨(n, w), h, rfl, rfl, rfl⟩

/-- What a pair comes to, if it is there. -/
def optPairValue : Option Attr → GVal
  | none => .none
  | some a => .tuple [nameValue (str "ForwardedParam") a.name, .text a.value.content]

def optPairNotes : Option Attr → List PyComplaint
  | none => []
  | some a => a.notes

def optPairOk (o : Option Attr) : Prop := ∀ a, o = some a → a.Ok IsToken

theorem optPair_den : oneD (orD (namedAttrD (str "ForwardedParam")) (appD (substF .none) nothingD)) =
    tabD optPairOk optPairText (fun o => [optPairValue o]) optPairNotes := by
  rw [tab_maybe, tab_one]
  refine tab_iff ?_ ?_
  · rintro (_ | d) h
    · exact ⟨none, nofun, rfl, rfl, rfl⟩
    · exact ⟨some d, fun _ e => by cases e; exact h, rfl, rfl, rfl⟩
  · rintro (_ | d) h
    · exact ⟨none, trivial, rfl, rfl, rfl⟩
    · exact ⟨some d, h d rfl, rfl, rfl, rfl⟩

theorem pairs_value (l : List (Option Attr)) : ((l.map optPairValue).filter fun | GVal.none => false | _ => true) =
    (l.filterMap fun o => o).map fun a => .tuple [nameValue (str "ForwardedParam") a.name, .text a.value.content] := by
  induction l with
  | nil => rfl
  | cons o l ih =>
    cases o with
    | none => exact ih
    | some d =>
      show optPairValue (some d) :: _ = _
      rw [ih]
      rfl

theorem pairs_notes (l : List (Option Attr)) : l.flatMap optPairNotes = (l.filterMap fun o => o).flatMap Attr.notes := by
  induction l with
  | nil => rfl
  | cons o l ih =>
    cases o with
    | none => exact ih
    | some d =>
      rw [List.flatMap_cons, ih]
      rfl

theorem hop_ok {o : Option Attr} {l : List (Option Attr)} : HopSyn.Ok ⟨o, l⟩ ↔ optPairOk o ∧ ∀ x ∈ l, optPairOk x := by
  constructor
  · intro h
    exact ⟨fun a e => h a (by rw [← e]; exact .head _), fun x hx a e => h a (by rw [← e]; exact .tail _ hx)⟩
  · rintro ⟨h1, h2⟩ a ha
    rcases List.mem_cons.mp ha with e | ha
    · exact h1 a e.symm
    · exact h2 _ ha a rfl

theorem element_den : oneD ((GExpr.app collectElementsF false (.mod (.maybe (.ref .forwardedPair))
    (.many (.seq (.skip (.lit (str ";") false)) (.maybe (.ref .forwardedPair))))) : GExpr FetchName).den fetchD) =
    fetchD .forwardedElement := by
  show oneD (appD collectElementsF (appD continueRightListF (thenD
    (oneD (orD (namedAttrD (str "ForwardedParam")) (appD (substF .none) nothingD)))
    (timesD (thenD (appD skipF (litD (str ";") false)) (oneD (orD (namedAttrD (str "ForwardedParam")) (appD (substF .none) nothingD))))
      (thenD (appD skipF (litD (str ";") false)) (oneD (orD (namedAttrD (str "ForwardedParam")) (appD (substF .none) nothingD)))) 0 none)))) = _
  rw [optPair_den, skip_semi, silent_then, tab_times (fun a _ => ⟨_, rfl⟩) 0 none nofun, tab_then, tab_app, tab_app, tab_one]
  have hv : ∀ (o : Option Attr) (l : List (Option Attr)),
      [GVal.list (((o :: l).map optPairValue).filter fun | GVal.none => false | _ => true)] = [(HopSyn.mk o l).value] := by
    intro o l
    rw [pairs_value]
    rfl
  have hn : ∀ (o : Option Attr) (l : List (Option Attr)),
      optPairNotes o ++ l.flatMap optPairNotes ++ [] ++ [] = (HopSyn.mk o l).notes := by
    intro o l
    rw [List.append_nil, List.append_nil, ← List.flatMap_cons, pairs_notes]
    rfl
  refine tab_iff ?_ ?_
  · rintro ⟨o, l⟩ h
    exact ⟨⟨o, l⟩, hop_ok.mpr ⟨h.1, h.2.1⟩, rfl, hv o l, hn o l⟩
  · rintro ⟨o, l⟩ h
    obtain ⟨h1, h2⟩ := hop_ok.mp h
    exact ⟨(o, l), ⟨h1, h2, Nat.zero_le _, nofun⟩, rfl, (hv o l).symm, (hn o l).symm⟩

/-! ## Origins -/

theorem origin_den : oneD ((GExpr.add (.add (.add (.ref (.uri .scheme)) (.lit (str "://") false)) (.ref (.uri .host)))
    (.maybeStr (.add (.lit (str ":") false) (.ref (.uri .port)))) : GExpr FetchName).den fetchD) = verbD IsOrigin := by
  show oneD (appD addF (thenD (appD addF (thenD (appD addF (thenD (verbD IsScheme) (litD (str "://") false))) (verbD IsHost)))
    (oneD (orD (appD addF (thenD (litD (str ":") false) (verbD IsPort))) (appD (substF (.text [])) nothingD))))) = _
  rw [show litD (str "://") false = verbD (fun w => w = [58, 47, 47]) from verb_plain (s := [58, 47, 47]) (by decide +kernel),
    lit_colon, verb_add, verb_add, verb_add, verb_maybe, verb_one, verb_add, verb_one]
  refine verb_congr fun w => ⟨?_, ?_⟩
  · rintro ⟨_, p, ⟨_, b, ⟨a, _, h1, rfl, rfl⟩, h2, rfl⟩, h3, rfl⟩
    obtain ⟨p, h4, rfl⟩ := (part_iff [58] IsPort p).mp h3
    exact ⟨a, b, p, h1, h2, h4, rfl⟩
  · rintro ⟨a, b, p, h1, h2, h3, rfl⟩
    exact ⟨_, _, ⟨_, b, ⟨a, _, h1, rfl, rfl⟩, h2, rfl⟩, (part_iff [58] IsPort _).mpr ⟨p, h3, rfl⟩, rfl⟩

theorem originOrNull_den : oneD ((GExpr.alt (.ref .origin) (.lit (str "null") true) : GExpr FetchName).den fetchD) =
    fetchD .originOrNull := by
  show oneD (orD (verbD IsOrigin) (litD (str "null") true)) = _
  rw [verb_exact, verb_or, verb_one]
  rfl

theorem allowOrigin_den : oneD ((GExpr.alt (.ref .originOrNull) (.ref .wildcard) : GExpr FetchName).den fetchD) =
    fetchD .allowOrigin := by
  show oneD (orD (verbD (fun w => IsOrigin w ∨ w = str "null")) (verbD (fun w => w = str "*"))) = _
  rw [verb_or, verb_one]
  exact verb_congr fun w => or_assoc

theorem wildcard_den : oneD ((GExpr.lit (str "*") false : GExpr FetchName).den fetchD) = fetchD .wildcard := by
  show oneD (litD (str "*") false) = _
  rw [show litD (str "*") false = verbD (fun w => w = [42]) from verb_plain (s := [42]) (by decide +kernel), verb_one]
  rfl

theorem nosniff_den : oneD ((GExpr.lit (str "nosniff") false : GExpr FetchName).den fetchD) = fetchD .contentTypeOptions := by
  show oneD (litD (str "nosniff") false) = _
  rw [verb_lit, verb_one]
  rfl

theorem credentials_den : oneD ((GExpr.lit (str "true") true : GExpr FetchName).den fetchD) = fetchD .allowCredentials := by
  show oneD (litD (str "true") true) = _
  rw [verb_exact, verb_one]
  rfl

theorem policy_den : oneD ((GExpr.alt (.lit (str "same-origin") true) (.lit (str "same-site") true) : GExpr FetchName).den fetchD) =
    fetchD .resourcePolicy := by
  show oneD (orD (litD (str "same-origin") true) (litD (str "same-site") true)) = _
  rw [verb_exact, verb_exact, verb_or, verb_one]
  rfl

/-! ## OAuth -/

theorem nq_iff (c : Nat) : nqBits c = true ↔ IsNq c := by
  unfold nqBits IsNq
  simp only [Bool.or_eq_true, decide_eq_true_eq]
  omega

theorem nqs_iff (c : Nat) : nqsBits c = true ↔ IsNqs c := by
  unfold nqsBits IsNqs IsNq
  simp only [Bool.or_eq_true, decide_eq_true_eq]
  omega

theorem nonempty1_den {bits : Nat → Bool} {P : Nat → Prop} (h : ∀ c, bits c = true ↔ P c) :
    oneD ((GExpr.string1 (.chars bits true) : GExpr FetchName).den fetchD) = verbD (fun w => w ≠ [] ∧ ∀ c ∈ w, P c) := by
  show oneD (appD joinF (timesD (octetD bits) (octetD bits) 1 none)) = _
  rw [verb_chars, verb_many1, verb_one]
  exact verb_congr (chars1_iff h)

theorem scope_den : oneD ((GExpr.mod (.ref .scopeToken) (.many (.seq (.skip (.chars spBits true)) (.ref .scopeToken))) :
    GExpr FetchName).den fetchD) = fetchD .scope := by
  show oneD (appD continueRightListF (thenD (verbD IsScopeToken) (timesD (thenD (appD skipF (octetD spBits)) (verbD IsScopeToken))
    (thenD (appD skipF (octetD spBits)) (verbD IsScopeToken)) 0 none))) = _
  rw [skip_sp, silent_then, tab_times (fun a _ => ⟨_, rfl⟩) 0 none nofun, tab_then, tab_app, tab_one]
  have hn : ∀ l : List Str, ([] : List PyComplaint) ++ l.flatMap (fun _ => []) ++ [] = [] := by
    intro l
    induction l with
    | nil => rfl
    | cons _ l ih => exact ih
  refine tab_iff ?_ ?_
  · rintro ⟨o, l⟩ h
    exact ⟨⟨o, l⟩, List.forall_mem_cons.mpr ⟨h.1, h.2.1⟩, rfl, rfl, hn l⟩
  · rintro ⟨o, l⟩ h
    obtain ⟨h1, h2⟩ := List.forall_mem_cons.mp h
    exact ⟨(o, l), ⟨h1, h2, Nat.zero_le _, nofun⟩, rfl, rfl, (hn l).symm⟩

local macro "fine" : tactic => `(tactic| simp_all [Defn.Fine, GExpr.Fine])

local macro "one" : tactic => `(tactic| exact named_alike (.of_eq tab_one_single))

theorem fetches_solve {order : List Nat → List Nat} (ho : ∀ l c, c ∈ order l ↔ c ∈ l) : Solves [] fetchD (fetchDefs order) := by
  refine solves_import (known := []) (δ' := cacheD) nofun (fun _ => rfl) (caches_solve ho) ?_
  refine solves_import (known := []) (δ' := uriD) nofun (fun _ => rfl) uris_solve ?_
  have hk : ∀ n ∈ [FetchName.cache (.hop (.str .token)), .cache (.hop (.str .quoted)), .cache (.hop (.str .ows)),
      .cache (.hop .fieldName), .cache (.hop .method), .cache .deltaSeconds, .uri .ipv4, .uri .ipv6, .uri .scheme, .uri .host,
      .uri .port, .uri .uriReference],
      n ∈ (uriDefs.map fun x => FetchName.uri x.1).reverse ++
        (((cacheDefs order).map fun x => FetchName.cache x.1).reverse ++ []) := of_decide_eq_true (Eq.refl true)
  generalize (uriDefs.map fun x => FetchName.uri x.1).reverse ++
        (((cacheDefs order).map fun x => FetchName.cache x.1).reverse ++ []) = known at hk
  refine ⟨by fine, named_alike (.of_eq hidden_den), ?_⟩
  refine ⟨by fine, named_alike (.of_eq nodename_den), ?_⟩
  refine ⟨by fine, named_alike (.of_eq nodeNumber_den), ?_⟩
  refine ⟨by fine, named_alike (.of_eq hidden_den), ?_⟩
  refine ⟨by fine, named_alike (.of_eq nodePort_den), ?_⟩
  refine ⟨by fine, named_alike (.of_eq node_den), ?_⟩
  refine ⟨by fine, named_alike (.of_eq ((congrArg oneD words_den).trans tab_one_single)), ?_⟩
  refine ⟨by fine, named_alike (.of_eq forwardedPair_den), ?_⟩
  refine ⟨by fine, named_alike (.of_eq element_den), ?_⟩
  refine ⟨⟨by simp_all, rfl, by fine, fun w cs => tab_never w cs⟩, tab_list1 (fun _ _ => nofun), ?_⟩
  refine ⟨by fine, by one, ?_⟩
  refine ⟨by fine, named_alike (.of_eq origin_den), ?_⟩
  refine ⟨by fine, named_alike (.of_eq originOrNull_den), ?_⟩
  refine ⟨by fine, by one, ?_⟩
  refine ⟨by fine, by one, ?_⟩
  refine ⟨⟨by simp_all, rfl, by fine, fun w cs => tab_never w cs⟩, tab_list1 (fun _ _ => nofun), ?_⟩
  refine ⟨by fine, by one, ?_⟩
  refine ⟨by fine, named_alike (.of_eq wildcard_den), ?_⟩
  refine ⟨by fine, named_alike (.of_eq allowOrigin_den), ?_⟩
  refine ⟨by fine, named_alike (.of_eq credentials_den), ?_⟩
  refine ⟨⟨by simp_all, rfl, by fine, fun w cs => tab_never w cs⟩, tab_list (fun _ _ => nofun), ?_⟩
  refine ⟨by fine, by one, ?_⟩
  refine ⟨by fine, by one, ?_⟩
  refine ⟨⟨by simp_all, rfl, by fine, fun w cs => tab_never w cs⟩, tab_list (fun _ _ => nofun), ?_⟩
  refine ⟨by fine, by one, ?_⟩
  refine ⟨⟨by simp_all, rfl, by fine, fun w cs => tab_never w cs⟩, tab_list (fun _ _ => nofun), ?_⟩
  refine ⟨by fine, by one, ?_⟩
  refine ⟨by fine, named_alike (.of_eq nosniff_den), ?_⟩
  refine ⟨by fine, named_alike (.of_eq policy_den), ?_⟩
  refine ⟨by fine, named_alike (.of_eq (nonempty1_den nq_iff)), ?_⟩
  refine ⟨by fine, named_alike (.of_eq scope_den), ?_⟩
  refine ⟨by fine, named_alike (.of_eq (nonempty1_den nqs_iff)), ?_⟩
  refine ⟨by fine, named_alike (.of_eq (nonempty1_den nqs_iff)), ?_⟩
  refine ⟨by fine, by one, ?_⟩
  trivial

end Httpolice.Lemmas
