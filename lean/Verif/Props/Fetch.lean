import Verif.Lemmas.FetchText
import Verif.Props.Preferences
import Verif.Props.Uri

/-!
# C80: Forwarded, cross-origin requests, scopes and errors in OAuth
-/

namespace Httpolice.Props

open Httpolice.Model Httpolice.Spec Httpolice.Lemmas

theorem fetch_shapes {order : List Nat → List Nat} : shapes (fetchDefs order) = shapes (fetchDefs id) := rfl

section
variable {order : List Nat → List Nat} (ho : ∀ l c, c ∈ order l ↔ c ∈ l) {env : FetchName → Sym} {h h' : PyHeap}
  (hb : Builds true Heap.init h) (later : Builds true (runDefs env h (fetchDefs order)).2 h') (ann : GVal → Bool)
include ho hb later

/-- **C80**: Forwarded. -/
theorem C80_forwarded : ∃ k, (runDefs env h (fetchDefs order)).1 .forwarded = .nt k ∧
    ReadsHops (fun data => innerParse h'.grammar (pyOps ann) data k) := by
  obtain ⟨k, hk, hr⟩ := module_some (n := .forwarded) (env := env) hb (fetches_solve ho)
    (known_shapes fetch_shapes (by decide +kernel)) rfl later ann
  refine ⟨k, hk, hr.1, fun x hx => ?_⟩
  obtain ⟨⟨node, cs, as⟩, hp⟩ := (hr.1 (x.text HopSyn.text)).1.mpr ⟨x, hx, rfl⟩
  obtain ⟨y, h1, h2, h3, h4⟩ := hr.2 _ _ _ _ hp
  exact ⟨y, h1, h2.symm, hops_same h1 hx h2.symm, cs, as, by rw [hp, h3], h4⟩

/-- **C80**: an element of Forwarded. -/
theorem C80_element : ∃ k, (runDefs env h (fetchDefs order)).1 .forwardedElement = .nt k ∧
    Reads (fun data => innerParse h'.grammar (pyOps ann) data k) HopSyn.Ok HopSyn.text HopSyn.value HopSyn.notes :=
  module_reads hb (fetches_solve ho) (known_shapes fetch_shapes (by decide +kernel)) rfl
    (fun _ _ hx hy e => uniq_hop.inj ⟨[], [], nofun, .inl rfl, rfl⟩ hx hy e) later ann

/-- **C80**: the values of `for` and `by` in Forwarded. -/
theorem C80_node : ∃ k, (runDefs env h (fetchDefs order)).1 .node = .nt k ∧
    Reads (fun data => innerParse h'.grammar (pyOps ann) data k) NodeSyn.Ok NodeSyn.text NodeSyn.value (fun _ => []) :=
  module_reads hb (fetches_solve ho) (known_shapes fetch_shapes (by decide +kernel)) rfl node_inj later ann

/-- **C80**: Origin. -/
theorem C80_origin : ∃ k, (runDefs env h (fetchDefs order)).1 .originHeader = .nt k ∧
    ReadsVerbatim (fun data => innerParse h'.grammar (pyOps ann) data k) (fun w => IsOrigin w ∨ w = str "null") :=
  module_reads hb (fetches_solve ho) (known_shapes fetch_shapes (by decide +kernel)) rfl (fun _ _ _ _ e => e) later ann

/-- **C80**: Access-Control-Allow-Origin. -/
theorem C80_allow_origin : ∃ k, (runDefs env h (fetchDefs order)).1 .allowOrigin = .nt k ∧
    ReadsVerbatim (fun data => innerParse h'.grammar (pyOps ann) data k)
      (fun w => IsOrigin w ∨ w = str "null" ∨ w = str "*") :=
  module_reads hb (fetches_solve ho) (known_shapes fetch_shapes (by decide +kernel)) rfl (fun _ _ _ _ e => e) later ann

/-- **C80**: Access-Control-Allow-Credentials. -/
theorem C80_allow_credentials : ∃ k, (runDefs env h (fetchDefs order)).1 .allowCredentials = .nt k ∧
    ReadsVerbatim (fun data => innerParse h'.grammar (pyOps ann) data k) (fun w => w = str "true") :=
  module_reads hb (fetches_solve ho) (known_shapes fetch_shapes (by decide +kernel)) rfl (fun _ _ _ _ e => e) later ann

/-- **C80**: Access-Control-Request-Method. -/
theorem C80_request_method : ∃ k, (runDefs env h (fetchDefs order)).1 .requestMethod = .nt k ∧
    Reads (fun data => innerParse h'.grammar (pyOps ann) data k) IsToken (fun w => w) (nameValue (str "Method")) (fun _ => []) :=
  module_reads hb (fetches_solve ho) (known_shapes fetch_shapes (by decide +kernel)) rfl (fun _ _ _ _ e => e) later ann

/-- **C80**: Access-Control-Request-Headers. -/
theorem C80_request_headers : ∃ k, (runDefs env h (fetchDefs order)).1 .requestHeaders = .nt k ∧
    Reads (fun data => innerParse h'.grammar (pyOps ann) data k) (List1Syn.Ok IsToken) (List1Syn.text fun w => w)
      (List1Syn.value (nameValue (str "FieldName"))) (List1Syn.notes fun _ => []) :=
  module_reads hb (fetches_solve ho) (known_shapes fetch_shapes (by decide +kernel)) rfl names_inj later ann

/-- **C80**: Access-Control-Expose-Headers and Access-Control-Allow-Headers. -/
theorem C80_field_names {n : FetchName} (hn : n = .exposeHeaders ∨ n = .allowHeaders) :
    ∃ k, (runDefs env h (fetchDefs order)).1 n = .nt k ∧
      Reads (fun data => innerParse h'.grammar (pyOps ann) data k) (ListSyn.Ok IsToken) (ListSyn.text fun w => w)
        (ListSyn.value (nameValue (str "FieldName"))) (ListSyn.notes fun _ => []) := by
  rcases hn with rfl | rfl
  · exact module_reads hb (fetches_solve ho) (known_shapes fetch_shapes (by decide +kernel)) rfl nameList_inj later ann
  · exact module_reads hb (fetches_solve ho) (known_shapes fetch_shapes (by decide +kernel)) rfl nameList_inj later ann

/-- **C80**: Access-Control-Allow-Methods. -/
theorem C80_allow_methods : ∃ k, (runDefs env h (fetchDefs order)).1 .allowMethods = .nt k ∧
    Reads (fun data => innerParse h'.grammar (pyOps ann) data k) (ListSyn.Ok IsToken) (ListSyn.text fun w => w)
      (ListSyn.value (nameValue (str "Method"))) (ListSyn.notes fun _ => []) :=
  module_reads hb (fetches_solve ho) (known_shapes fetch_shapes (by decide +kernel)) rfl nameList_inj later ann

/-- **C80**: Access-Control-Max-Age. -/
theorem C80_max_age : ∃ k, (runDefs env h (fetchDefs order)).1 .maxAge = .nt k ∧
    Reads (fun data => innerParse h'.grammar (pyOps ann) data k) IsNumeral (fun w => w) (fun w => .int (numeral w))
      (fun _ => []) :=
  module_reads hb (fetches_solve ho) (known_shapes fetch_shapes (by decide +kernel)) rfl (fun _ _ _ _ e => e) later ann

/-- **C80**: X-Content-Type-Options. -/
theorem C80_content_type_options : ∃ k, (runDefs env h (fetchDefs order)).1 .contentTypeOptions = .nt k ∧
    ReadsVerbatim (fun data => innerParse h'.grammar (pyOps ann) data k) (fun w => SameWord w (str "nosniff")) :=
  module_reads hb (fetches_solve ho) (known_shapes fetch_shapes (by decide +kernel)) rfl (fun _ _ _ _ e => e) later ann

/-- **C80**: Cross-Origin-Resource-Policy. -/
theorem C80_resource_policy : ∃ k, (runDefs env h (fetchDefs order)).1 .resourcePolicy = .nt k ∧
    ReadsVerbatim (fun data => innerParse h'.grammar (pyOps ann) data k)
      (fun w => w = str "same-origin" ∨ w = str "same-site") :=
  module_reads hb (fetches_solve ho) (known_shapes fetch_shapes (by decide +kernel)) rfl (fun _ _ _ _ e => e) later ann

/-- **C80**: `scope` of a Bearer challenge. -/
theorem C80_scope : ∃ k, (runDefs env h (fetchDefs order)).1 .scope = .nt k ∧
    Reads (fun data => innerParse h'.grammar (pyOps ann) data k) ScopeSyn.Ok ScopeSyn.text ScopeSyn.value (fun _ => []) :=
  module_reads hb (fetches_solve ho) (known_shapes fetch_shapes (by decide +kernel)) rfl scope_inj later ann

/-- **C80**: `error` and `error_description` of a Bearer challenge. -/
theorem C80_error {n : FetchName} (hn : n = .error ∨ n = .errorDescription) :
    ∃ k, (runDefs env h (fetchDefs order)).1 n = .nt k ∧
      ReadsVerbatim (fun data => innerParse h'.grammar (pyOps ann) data k) IsErrorText := by
  rcases hn with rfl | rfl
  · exact module_reads hb (fetches_solve ho) (known_shapes fetch_shapes (by decide +kernel)) rfl (fun _ _ _ _ e => e) later ann
  · exact module_reads hb (fetches_solve ho) (known_shapes fetch_shapes (by decide +kernel)) rfl (fun _ _ _ _ e => e) later ann

/-- **C80**: `error_uri` of a Bearer challenge. -/
theorem C80_error_uri : ∃ k, (runDefs env h (fetchDefs order)).1 .errorUri = .nt k ∧
    ReadsVerbatim (fun data => innerParse h'.grammar (pyOps ann) data k) IsUriReference :=
  module_reads hb (fetches_solve ho) (known_shapes fetch_shapes (by decide +kernel)) rfl (fun _ _ _ _ e => e) later ann

end

/-! ## Examples -/

/-- The conditions of the theorems. -/
example : (∀ (l : List Nat) c, c ∈ id l ↔ c ∈ l) ∧ Builds true Heap.init Heap.init := ⟨fun _ _ => Iff.rfl, .refl⟩

/-- `for="a,b";;by=_x` -/
def someHop : HopSyn := ⟨some ⟨str "for", .quoted [.plain 97, .plain 44, .plain 98]⟩, [none, some ⟨str "by", .token (str "_x")⟩]⟩

theorem someHop_ok : someHop.Ok := by
  intro a ha
  simp only [someHop, HopSyn.all, List.mem_cons, List.not_mem_nil, or_false, Option.some.injEq, reduceCtorEq, false_or] at ha
  rcases ha with rfl | rfl
  · refine ⟨isToken_bits (by decide +kernel), fun q hq => ?_⟩
    simp only [List.mem_cons, List.not_mem_nil, or_false] at hq
    rcases hq with rfl | rfl | rfl <;> decide
  · exact ⟨isToken_bits (by decide +kernel), isToken_bits (by decide +kernel)⟩

/-- The same, then nothing, a semicolon, and nothing. -/
def someForwarded : List1Syn HopSyn := ⟨[], someHop, [(str " ", some (str " ", ⟨none, []⟩)), ([], some ([], ⟨none, [none]⟩)), ([], none)]⟩

example : someForwarded.Ok HopSyn.Ok ∧ someForwarded.text HopSyn.text = str "for=\"a,b\";;by=_x , ,;," ∧
    someForwarded.hops = [someHop, ⟨none, [none]⟩] := by
  refine ⟨⟨nofun, someHop_ok, fun x hx => ?_⟩, by decide +kernel, rfl⟩
  simp only [someForwarded, List.mem_cons, List.not_mem_nil, or_false] at hx
  rcases hx with rfl | rfl | rfl
  · refine ⟨fun c hc => .inl (List.mem_singleton.mp hc), fun c hc => .inl (List.mem_singleton.mp hc), fun a ha => ?_⟩
    simp [HopSyn.all] at ha
  · refine ⟨nofun, nofun, fun a ha => ?_⟩
    simp [HopSyn.all] at ha
  · exact ⟨nofun, trivial⟩

/-- What is needed for Forwarded. -/
def onlyForwarded : List (FetchName × Defn FetchName) := (fetchDefs id).filter fun x =>
  x.1 ∈ [.cache (.hop (.str .token)), .cache (.hop (.str .pair)), .cache (.hop (.str .quoted)), .cache (.hop (.str .ows)),
    .forwardedValue, .forwardedPair, .forwardedElement, .forwardeds, .forwarded]

example : halvesNumber ((loadDefs onlyForwarded).1 .forwarded) = some 73 := by decide +kernel

/-- Here, there is an element for the semicolon, but none where there is nothing. -/
example : shown (innerParse (loadDefs onlyForwarded).2.grammar (pyOps fun _ => false) (str "for=\"a,b\";;by=_x , ,;,") 73) =
    some (some (render (.list [someHop.value, .list []])), [1151]) := by decide +kernel

/-- `[::1]:80` and `unknown:_x` -/
example : (NodeSyn.mk (.ipv6 (str "::1")) (some (.number (str "80")))).Ok ∧
    (NodeSyn.mk (.ipv6 (str "::1")) (some (.number (str "80")))).text = str "[::1]:80" ∧
    (NodeSyn.mk (.unknown (str "Unknown")) (some (.hidden (str "_x")))).Ok := by
  refine ⟨⟨loopback, ?_⟩, by decide +kernel, ⟨by show SameWord _ _; decide +kernel, ?_⟩⟩
  · rintro _ ⟨⟩
    exact ⟨by decide, by decide⟩
  · rintro _ ⟨⟩
    exact ⟨str "x", by decide, fun c hc => by obtain rfl := List.mem_singleton.mp hc; exact .inl (by unfold IsLetter; decide), by decide +kernel⟩

/-- `x://[::1]:80` is an origin. -/
example : IsOrigin (str "x://[::1]:80") := by
  refine ⟨str "x", str "[::1]", some (str "80"), scheme_x, .inl ⟨str "::1", .inl loopback, by decide +kernel⟩, ?_, by decide +kernel⟩
  rintro _ ⟨⟩
  unfold IsPort IsDigit
  decide +kernel

/-- What is needed for scopes. -/
def onlyScope : List (FetchName × Defn FetchName) := (fetchDefs id).filter fun x => x.1 ∈ [.scopeToken, .scope]

example : halvesNumber ((loadDefs onlyScope).1 .scope) = some 18 ∧
    shown (innerParse (loadDefs onlyScope).2.grammar (pyOps fun _ => false) (str "a bc") 18) =
      some (some (render (ScopeSyn.mk (str "a") [str "bc"]).value), []) ∧
    shown (innerParse (loadDefs onlyScope).2.grammar (pyOps fun _ => false) (str "a  bc") 18) = none :=
  ⟨by decide +kernel, by decide +kernel, by decide +kernel⟩

end Httpolice.Props
