import Verif.Lemmas.Protocols
import Verif.Lemmas.Preferences
import Verif.Lemmas.NegotiationText
import Verif.Lemmas.Fetch

/-!
# What the names for alternative services come to
-/

namespace Httpolice.Lemmas

open Httpolice.Model Httpolice.Spec

/-! ## The symbol for authorities -/

def authorityD : AuthorityName → Den
  | .uri n => uriD n
  | .whole => verbD IsAltAuthority

theorem whole_den : oneD ((GExpr.add (.add (.maybeStr (.ref (.uri .host))) (.lit (str ":") false)) (.ref (.uri .port)) :
    GExpr AuthorityName).den authorityD) = verbD IsAltAuthority := by
  show oneD (appD addF (thenD (appD addF (thenD (oneD (orD (verbD IsHost) (appD (substF (.text [])) nothingD)))
    (litD (str ":") false))) (verbD IsPort))) = _
  rw [lit_colon, verb_maybe, verb_one, verb_add, verb_add, verb_one]
  refine verb_congr fun w => ⟨?_, ?_⟩
  · rintro ⟨_, p, ⟨a, _, h1, rfl, rfl⟩, h2, rfl⟩
    exact ⟨a, p, h1.symm, h2, by simp⟩
  · rintro ⟨a, p, h1, h2, rfl⟩
    exact ⟨_, p, ⟨a, _, h1.symm, rfl, rfl⟩, h2, by simp⟩

local macro "fine" : tactic => `(tactic| simp_all [Defn.Fine, GExpr.Fine, GExpr.semicolon])

local macro "one" : tactic => `(tactic| exact named_alike (.of_eq tab_one_single))

theorem authority_solve : Solves [] authorityD authorityDefs := by
  refine solves_import (known := []) (δ' := uriD) nofun (fun _ => rfl) uris_solve ?_
  have hk : ∀ n ∈ [AuthorityName.uri .host, .uri .port], n ∈ (uriDefs.map fun x => AuthorityName.uri x.1).reverse ++ [] :=
    of_decide_eq_true (Eq.refl true)
  generalize (uriDefs.map fun x => AuthorityName.uri x.1).reverse ++ [] = known at hk
  refine ⟨by fine, named_alike (.of_eq whole_den), ?_⟩
  trivial

/-! ## Alt-Svc -/

/-- What becomes of an authority. -/
def authorityBy (P : AltParser) (w : Str) : GVal × List PyComplaint :=
  (((argsOf (checkAltAuthorityF P [.text w]).1).head?).getD .none, (checkAltAuthorityF P [.text w]).2)

theorem authority_eq (P : AltParser) (w : Str) :
    checkAltAuthorityF P [.text w] = (.val (authorityBy P w).1, (authorityBy P w).2) := by
  have h : ∃ v, (checkAltAuthorityF P [.text w]).1 = .val v := by
    unfold checkAltAuthorityF
    dsimp only
    split
    · exact ⟨_, rfl⟩
    · exact ⟨_, rfl⟩
  obtain ⟨v, h⟩ := h
  refine Prod.ext ?_ rfl
  rw [authorityBy, h]
  rfl

abbrev alternativeD (P : AltParser) : Den := tabD (fun x : ProtocolSyn × Quoted => x.1.Ok ∧ x.2.Ok)
  (fun x => x.1.text ++ 61 :: x.2.text)
  (fun x => [.tuple [.obj (str "bytes") [.text x.1.bytes], (authorityBy P x.2.content).1]])
  (fun x => x.1.notes ++ x.2.notes ++ (authorityBy P x.2.content).2)

/-- What the names come to. -/
noncomputable def altD (P : AltParser) : AltName → Den
  | .cache n => cacheD n
  | .uri n => uriD n
  | .clear => verbD (fun w => w = str "clear")
  | .protocolId => tabD ProtocolSyn.Ok ProtocolSyn.text (fun l => [.obj (str "bytes") [.text l.bytes]]) ProtocolSyn.notes
  | .altAuthority => tabD Quoted.Ok Quoted.text (fun q => [(authorityBy P q.content).1])
      (fun q => q.notes ++ (authorityBy P q.content).2)
  | .alternative => alternativeD P
  | .parameter => namedAttrD (str "AltSvcParam")
  | .altValue => tabD AltSyn.Ok AltSyn.text (fun x => [x.valueBy fun w => (authorityBy P w).1])
      (AltSyn.notesBy fun w => (authorityBy P w).2)
  | .altValues => list1sD AltSyn.Ok AltSyn.text (AltSyn.valueBy fun w => (authorityBy P w).1)
      (AltSyn.notesBy fun w => (authorityBy P w).2)
  | .altSvc => tabD AltSvcSyn.Ok AltSvcSyn.text (fun x => [x.valueBy fun w => (authorityBy P w).1])
      (AltSvcSyn.notesBy fun w => (authorityBy P w).2)
  | .ma => numberD
  | .persist => tabD (fun w : Str => w = str "1") (fun w => w) (fun _ => [.obj (str "True") []]) (fun _ => [])
  | .altUsed => verbD IsHostHeader

variable {P : AltParser}

theorem clear_den : oneD ((GExpr.lit (str "clear") true : GExpr AltName).den (altD P)) = altD P .clear := by
  show oneD (litD (str "clear") true) = _
  rw [verb_exact, verb_one]
  rfl

theorem protocolId_den : oneD ((GExpr.app checkProtocolIdF false (.als .token)).den (altD P)) = altD P .protocolId := by
  show oneD (appD checkProtocolIdF tokenD) = _
  rw [tab_app, tab_one]
  refine tab_iff ?_ ?_
  · intro w h
    obtain ⟨l, hl, rfl⟩ := (token_protocol w).mp h
    refine ⟨l, hl, rfl, ?_, ?_⟩
    · show argsOf (nodeOf (argsOf (checkProtocolIdF [.text l.text]).1)) = _
      rw [checkProtocol_eq hl]
      rfl
    · show [] ++ (checkProtocolIdF [.text l.text]).2 = _
      rw [checkProtocol_eq hl]
      rfl
  · intro l hl
    refine ⟨l.text, (token_protocol _).mpr ⟨l, hl, rfl⟩, rfl, ?_, ?_⟩
    · show _ = argsOf (nodeOf (argsOf (checkProtocolIdF [.text l.text]).1))
      rw [checkProtocol_eq hl]
      rfl
    · show _ = [] ++ (checkProtocolIdF [.text l.text]).2
      rw [checkProtocol_eq hl]
      rfl

theorem altAuthority_den : oneD ((GExpr.app (checkAltAuthorityF P) false (.als .quoted)).den (altD P)) = altD P .altAuthority := by
  show oneD (appD (checkAltAuthorityF P) quotedD) = _
  rw [tab_app, tab_one]
  have h : ∀ q : Quoted, argsOf (checkAltAuthorityF P [.text q.content]).1 = [(authorityBy P q.content).1] := by
    intro q
    rw [authority_eq]
    rfl
  have k : ∀ q : Quoted, (checkAltAuthorityF P [.text q.content]).2 = (authorityBy P q.content).2 := by
    intro q
    rw [authority_eq]
  refine tab_iff ?_ ?_
  · intro q hq
    refine ⟨q, hq, rfl, ?_, ?_⟩
    · show argsOf (nodeOf (argsOf (checkAltAuthorityF P [.text q.content]).1)) = _
      rw [h]
      rfl
    · show q.notes ++ (checkAltAuthorityF P [.text q.content]).2 = _
      rw [k]
  · intro q hq
    refine ⟨q, hq, rfl, ?_, ?_⟩
    · show _ = argsOf (nodeOf (argsOf (checkAltAuthorityF P [.text q.content]).1))
      rw [h]
      rfl
    · show _ = q.notes ++ (checkAltAuthorityF P [.text q.content]).2
      rw [k]

theorem equals_join (a b : Str) : a ++ str "=" ++ b = a ++ 61 :: b := by
  rw [List.append_assoc]
  rfl

theorem alternative_den : oneD ((GExpr.seq (.seq (.ref .protocolId) (.skip (.lit (str "=") false))) (.ref .altAuthority) :
    GExpr AltName).den (altD P)) = altD P .alternative := by
  show oneD (thenD (thenD (altD P .protocolId) (appD skipF (litD (str "=") false))) (altD P .altAuthority)) = _
  simp only [altD]
  rw [skip_equals, then_silent, tab_then, tab_one]
  refine tab_iff ?_ ?_
  · rintro ⟨l, q⟩ h
    exact ⟨(l, q), h, equals_join _ _, rfl, by simp⟩
  · rintro ⟨l, q⟩ h
    exact ⟨(l, q), h, (equals_join _ _).symm, rfl, by simp⟩

theorem altParameter_den : oneD ((GExpr.seq (.seq (.app (classF (str "AltSvcParam")) true (.als .token)) (.skip (.lit (str "=") false)))
    (.alt (.als .token) (.als .quoted))).den (altD P)) = altD P .parameter := by
  show oneD (thenD (thenD (appD (classF (str "AltSvcParam")) tokenD) (appD skipF (litD (str "=") false)))
    (oneD (orD tokenD quotedD))) = _
  rw [words_den, tab_one_single, skip_equals, tab_class, then_silent, tab_then, tab_one]
  refine tab_iff ?_ ?_
  · rintro ⟨n, w⟩ h
    exact ⟨⟨n, w⟩, h, rfl, rfl, rfl⟩
  · rintro ⟨n, w⟩ h
    exact ⟨(n, w), h, rfl, rfl, rfl⟩

theorem altValue_den : oneD ((GExpr.app (classF (str "Parametrized")) true (.seq (.ref .alternative)
    (.app (classF (str "MultiDict")) true (.many (.seq (.semicolon (.cache (.hop (.str .ows)))) (.ref .parameter))))) :
    GExpr AltName).den (altD P)) = altD P .altValue := by
  show oneD (appD (classF (str "Parametrized")) (thenD (alternativeD P) (appD (classF (str "MultiDict"))
    (timesD (thenD (appD skipF (thenD (thenD spacesD (litD (str ";") false)) spacesD)) (namedAttrD (str "AltSvcParam")))
      (thenD (appD skipF (thenD (thenD spacesD (litD (str ";") false)) spacesD)) (namedAttrD (str "AltSvcParam"))) 0 none)))) = _
  rw [semi_den, semis_den, tab_class, tab_then, tab_class, tab_one]
  refine tab_iff ?_ ?_
  · rintro ⟨⟨l, q⟩, ps⟩ ⟨⟨h1, h2⟩, h3⟩
    exact ⟨⟨l, q, ps⟩, ⟨h1, h2, h3⟩, rfl, rfl, rfl⟩
  · rintro ⟨l, q, ps⟩ ⟨h1, h2, h3⟩
    exact ⟨((l, q), ps), ⟨⟨h1, h2⟩, h3⟩, rfl, rfl, rfl⟩

theorem altSvc_den : oneD ((GExpr.alt (.ref .clear) (.ref .altValues) : GExpr AltName).den (altD P)) = altD P .altSvc := by
  show oneD (orD (altD P .clear) (altD P .altValues)) = _
  simp only [altD]
  rw [tab_or, tab_one]
  refine tab_iff ?_ ?_
  · rintro (w | l) h
    · cases (show w = str "clear" from h)
      exact ⟨.clear, trivial, rfl, rfl, rfl⟩
    · exact ⟨.values l, h, rfl, rfl, rfl⟩
  · rintro (_ | l) h
    · exact ⟨.inl (str "clear"), rfl, rfl, rfl, rfl⟩
    · exact ⟨.inr l, h, rfl, rfl, rfl⟩

theorem persist_den : oneD ((GExpr.subst (.obj (str "True") []) (.lit (str "1") false) : GExpr AltName).den (altD P)) =
    altD P .persist := by
  show oneD (appD (substF (.obj (str "True") [])) (litD (str "1") false)) = _
  rw [show litD (str "1") false = verbD (fun w => w = [49]) from verb_plain (s := [49]) (by decide +kernel), tab_app, tab_one]
  exact tab_iff (fun w h => ⟨w, h, rfl, rfl, rfl⟩) (fun w h => ⟨w, h, rfl, rfl, rfl⟩)

theorem altUsed_den : oneD ((GExpr.add (.ref (.uri .host)) (.maybeStr (.add (.lit (str ":") false) (.ref (.uri .port)))) :
    GExpr AltName).den (altD P)) = verbD IsHostHeader := by
  show oneD (appD addF (thenD (verbD IsHost) (oneD (orD (appD addF (thenD (litD (str ":") false) (verbD IsPort)))
    (appD (substF (.text [])) nothingD))))) = _
  rw [lit_colon, verb_add, verb_maybe, verb_one, verb_add, verb_one]
  exact verb_congr hostHeader_iff

theorem alts_solve {order : List Nat → List Nat} (ho : ∀ l c, c ∈ order l ↔ c ∈ l) (P : AltParser) :
    Solves [] (altD P) (altDefs order P) := by
  refine solves_import (known := []) (δ' := cacheD) nofun (fun _ => rfl) (caches_solve ho) ?_
  refine solves_import (known := []) (δ' := uriD) nofun (fun _ => rfl) uris_solve ?_
  have hk : ∀ n ∈ [AltName.cache (.hop (.str .token)), .cache (.hop (.str .quoted)), .cache (.hop (.str .ows)),
      .cache .deltaSeconds, .uri .host, .uri .port],
      n ∈ (uriDefs.map fun x => AltName.uri x.1).reverse ++
        (((cacheDefs order).map fun x => AltName.cache x.1).reverse ++ []) := of_decide_eq_true (Eq.refl true)
  generalize (uriDefs.map fun x => AltName.uri x.1).reverse ++
        (((cacheDefs order).map fun x => AltName.cache x.1).reverse ++ []) = known at hk
  refine ⟨by fine, named_alike (.of_eq clear_den), ?_⟩
  refine ⟨by fine, named_alike (.of_eq protocolId_den), ?_⟩
  refine ⟨by fine, named_alike (.of_eq altAuthority_den), ?_⟩
  refine ⟨by fine, named_alike (.of_eq alternative_den), ?_⟩
  refine ⟨by fine, named_alike (.of_eq altParameter_den), ?_⟩
  refine ⟨by fine, named_alike (.of_eq altValue_den), ?_⟩
  refine ⟨⟨by simp_all, rfl, by fine, fun w cs => tab_never w cs⟩, tab_list1 (fun _ _ => nofun), ?_⟩
  refine ⟨by fine, named_alike (.of_eq altSvc_den), ?_⟩
  refine ⟨by fine, by one, ?_⟩
  refine ⟨by fine, named_alike (.of_eq persist_den), ?_⟩
  refine ⟨by fine, named_alike (.of_eq altUsed_den), ?_⟩
  trivial

/-! ## Texts determine what is written -/

theorem uniq_protocol : Uniq ProtocolSyn.Ok ProtocolSyn.text (Stops IsTchar) :=
  uniq_token.map ProtocolSyn.text (fun l h => (token_protocol _).mpr ⟨l, h, rfl⟩) (fun _ _ => rfl)
    (fun _ _ h k e => protocolSyn_inj h k e)

theorem uniq_alt : Uniq AltSyn.Ok AltSyn.text AtEnd := by
  have params : Uniq (SemiSyn.Ok (Attr.Ok IsToken)) (SemiSyn.text Attr.text) AtEnd :=
    uniq_attrs (uniq_semis_end (uniq_param fun _ h => h) (fun _ h => h.elim AtSemi.stops end_stops) (param_blank fun _ h => h)
      (fun _ => end_semi))
  have tail := (Uniq.seq uniq_quoted params fun _ _ _ _ => trivial).after [61]
  refine (Uniq.seq uniq_protocol tail fun b l _ _ => .cons fun k => (tchar_ne k).2.2.2.2.1 rfl).map
    (fun x => (x.protocol, x.authority, x.params)) (fun x h => h) (fun x _ => by simp [AltSyn.text]) ?_
  rintro ⟨a, b, c⟩ ⟨a', b', c'⟩ _ _ e
  simp only [Prod.mk.injEq] at e
  obtain ⟨rfl, rfl, rfl⟩ := e
  rfl

theorem alt_begins {x : AltSyn} (h : x.Ok) : Begins Unbroken x.text := by
  unfold AltSyn.text
  exact (((token_begins ((token_protocol _).mpr ⟨_, h.1, rfl⟩)).mono fun _ => tchar_unbroken).append).append

theorem equals_in_list (l : List1Syn AltSyn) : 61 ∈ l.text AltSyn.text := by
  simp [List1Syn.text, AltSyn.text]

theorem altSvc_inj (x y : AltSvcSyn) (hx : x.Ok) (hy : y.Ok) (e : x.text = y.text) : x = y := by
  have hc : 61 ∉ str "clear" := by decide +kernel
  cases x with
  | clear =>
    cases y with
    | clear => rfl
    | values m =>
      have := equals_in_list m
      rw [show m.text AltSyn.text = str "clear" from e.symm] at this
      exact absurd this hc
  | values l =>
    cases y with
    | clear =>
      have := equals_in_list l
      rw [show l.text AltSyn.text = str "clear" from e] at this
      exact absurd this hc
    | values m => exact congrArg _ ((uniq_list1 uniq_alt (fun _ h => h.atEnd) (fun _ => alt_begins)).inj rfl hx hy e)

/-! ## Authorities that are read -/

theorem authority_value {P : AltParser} (hP : ReadsVerbatim P IsAltAuthority) (w : Str) :
    (authorityBy P w).1 = authorityValue w ∧ (authorityBy P w).2 = authorityNotes P w := by
  unfold authorityValue authorityNotes
  by_cases h : IsAltAuthority w
  · obtain ⟨cs, as, e, hc⟩ := hP.2 w h
    obtain rfl := List.Perm.eq_nil hc
    have : checkAltAuthorityF P [.text w] = (.val (.text w), []) := by
      unfold checkAltAuthorityF
      dsimp only
      rw [show P w = _ from e]
      rfl
    rw [if_pos h, if_pos h, authorityBy, this]
    exact ⟨rfl, rfl⟩
  · obtain ⟨e, he⟩ := (hP.1 w).2.mpr fun ⟨x, hx, k⟩ => h (k ▸ hx)
    have : checkAltAuthorityF P [.text w] = (.val (unavailableObj w), [(1257, [(str "authority", .other (.text w)),
        (str "error", .err (.parse e))])]) := by
      unfold checkAltAuthorityF
      dsimp only
      rw [he]
      rfl
    rw [if_neg h, if_neg h, authorityBy, this, he]
    exact ⟨rfl, rfl⟩

end Httpolice.Lemmas
