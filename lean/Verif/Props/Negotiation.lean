import Verif.Lemmas.NegotiationText
import Verif.Props.Settings

/-!
# C75: media types and preferences
-/

namespace Httpolice.Props

open Httpolice.Model Httpolice.Spec Httpolice.Lemmas

theorem sem_shapes {order : List Nat → List Nat} : shapes (semDefs order) = shapes (semDefs id) := rfl

section
variable {order : List Nat → List Nat} (ho : ∀ l c, c ∈ order l ↔ c ∈ l) {env : SemName → Sym} {h h' : PyHeap}
  (hb : Builds true Heap.init h) (later : Builds true (runDefs env h (semDefs order)).2 h') (ann : GVal → Bool)
include ho hb later

/-- **C75**: Content-Type. -/
theorem C75_content_type : ∃ k, (runDefs env h (semDefs order)).1 .contentType = .nt k ∧
    Reads (fun data => innerParse h'.grammar (pyOps ann) data k) (MediaSyn.Ok IsToken) MediaSyn.text MediaSyn.value
      MediaSyn.notes :=
  module_reads hb (sems_solve ho) (known_shapes sem_shapes (by decide +kernel)) rfl media_inj later ann

/-- **C75**: Accept. -/
theorem C75_accept : ∃ k, (runDefs env h (semDefs order)).1 .accept = .nt k ∧
    ReadsAs (fun data => innerParse h'.grammar (pyOps ann) data k) (ListSyn.Ok AcceptSyn.Ok) (ListSyn.text AcceptSyn.text)
      (ListSyn.IsValue AcceptSyn.IsValue) (ListSyn.notes AcceptSyn.notes) := by
  obtain ⟨k, hk, hr⟩ := module_some (n := .accept) (env := env) (v := ListSyn.value acceptValue) hb (sems_solve ho)
    (known_shapes sem_shapes (by decide +kernel)) rfl later ann
  refine ⟨k, hk, readsAs_flags (Q := AcceptSyn.Ok) (P := acceptOk) (Flag := fun x => x.range.subtype = str "*")
    (fun _ => Iff.rfl) hr accepts_inj ?_⟩
  rintro ⟨x, _ | _⟩ hx
  · exact .inl rfl
  · exact .inr ⟨hx.2 rfl, rfl⟩

/-- **C75**: Accept-Charset. -/
theorem C75_accept_charset : ∃ k, (runDefs env h (semDefs order)).1 .acceptCharset = .nt k ∧
    Reads (fun data => innerParse h'.grammar (pyOps ann) data k) (List1Syn.Ok RankedSyn.Ok) (List1Syn.text RankedSyn.text)
      (List1Syn.value RankedSyn.charset) (List1Syn.notes fun _ => []) :=
  module_reads hb (sems_solve ho) (known_shapes sem_shapes (by decide +kernel)) rfl rankeds1_inj later ann

/-- **C75**: Accept-Encoding. -/
theorem C75_accept_encoding : ∃ k, (runDefs env h (semDefs order)).1 .acceptEncoding = .nt k ∧
    ReadsAs (fun data => innerParse h'.grammar (pyOps ann) data k) (ListSyn.Ok RankedSyn.Ok) (ListSyn.text RankedSyn.text)
      (ListSyn.IsValue RankedSyn.IsCoding) (ListSyn.notes fun _ => []) := by
  obtain ⟨k, hk, hr⟩ := module_some (n := .acceptEncoding) (env := env) (v := ListSyn.value codingValue) hb (sems_solve ho)
    (known_shapes sem_shapes (by decide +kernel)) rfl later ann
  refine ⟨k, hk, readsAs_flags (Q := RankedSyn.Ok) (P := codingOk) (Flag := fun x => x.name = str "*")
    (fun _ => Iff.rfl) hr rankeds_inj ?_⟩
  rintro ⟨x, _ | _⟩ hx
  · exact .inl rfl
  · exact .inr ⟨hx.2 rfl, rfl⟩

/-- **C75**: Content-Encoding. -/
theorem C75_content_encoding : ∃ k, (runDefs env h (semDefs order)).1 .contentEncoding = .nt k ∧
    Reads (fun data => innerParse h'.grammar (pyOps ann) data k) (List1Syn.Ok IsToken) (List1Syn.text fun w => w)
      (List1Syn.value (nameValue (str "ContentCoding"))) (List1Syn.notes fun _ => []) :=
  module_reads hb (sems_solve ho) (known_shapes sem_shapes (by decide +kernel)) rfl names_inj later ann

/-- **C75**: Allow. -/
theorem C75_allow : ∃ k, (runDefs env h (semDefs order)).1 .allow = .nt k ∧
    Reads (fun data => innerParse h'.grammar (pyOps ann) data k) (ListSyn.Ok IsToken) (ListSyn.text fun w => w)
      (ListSyn.value (nameValue (str "Method"))) (ListSyn.notes fun _ => []) :=
  module_reads hb (sems_solve ho) (known_shapes sem_shapes (by decide +kernel)) rfl nameList_inj later ann

/-- **C75**: Vary. -/
theorem C75_vary : ∃ k, (runDefs env h (semDefs order)).1 .vary = .nt k ∧
    ReadsAs (fun data => innerParse h'.grammar (pyOps ann) data k) (List1Syn.Ok IsToken) (List1Syn.text fun w => w)
      VaryValue (List1Syn.notes fun _ => []) := by
  obtain ⟨k, hk, hr⟩ := module_some (n := .vary) (env := env) hb (sems_solve ho)
    (known_shapes sem_shapes (by decide +kernel)) rfl later ann
  refine ⟨k, hk, readsAs_of_some hr names_inj Prod.fst (fun l => (l, false)) (fun _ h => h.1) (fun _ => rfl)
    (fun _ h => ⟨h, nofun⟩) (fun _ => rfl) ?_ (fun _ => rfl)⟩
  rintro ⟨x, _ | _⟩ hx
  · exact .inl rfl
  · exact .inr ⟨hx.2 rfl, rfl⟩

/-- **C75**: Retry-After. -/
theorem C75_retry_after : ∃ k, (runDefs env h (semDefs order)).1 .retryAfter = .nt k ∧
    Reads (fun data => innerParse h'.grammar (pyOps ann) data k) RetrySyn.Ok RetrySyn.text RetrySyn.value RetrySyn.notes :=
  module_reads hb (sems_solve ho) (known_shapes sem_shapes (by decide +kernel)) rfl (retry_inj httpDate_inj) later ann

/-- **C75**: Date. -/
theorem C75_date : ∃ k, (runDefs env h (semDefs order)).1 .dateHeader = .nt k ∧
    Reads (fun data => innerParse h'.grammar (pyOps ann) data k) (fun x : DateFormat × Stamp => x.2.Fits x.1)
      (fun x => x.2.text x.1) (fun x => x.2.value) (fun x => x.2.notes x.1) :=
  module_reads (n := .dateHeader) hb (sems_solve ho) (known_shapes sem_shapes (by decide +kernel)) httpDate_tab httpDate_inj
    later ann

/-- **C75**: Max-Forwards. -/
theorem C75_max_forwards : ∃ k, (runDefs env h (semDefs order)).1 .maxForwards = .nt k ∧
    Reads (fun data => innerParse h'.grammar (pyOps ann) data k) IsNumeral (fun w => w) (fun w => .int (numeral w))
      (fun _ => []) :=
  module_reads hb (sems_solve ho) (known_shapes sem_shapes (by decide +kernel)) rfl (fun _ _ _ _ e => e) later ann

/-- **C75**: Expect. -/
theorem C75_expect : ∃ k, (runDefs env h (semDefs order)).1 .expect = .nt k ∧
    Reads (fun data => innerParse h'.grammar (pyOps ann) data k) (fun w => SameWord w (str "100-continue")) (fun w => w)
      (nameValue (str "CaseInsensitive")) (fun _ => []) :=
  module_reads hb (sems_solve ho) (known_shapes sem_shapes (by decide +kernel)) rfl (fun _ _ _ _ e => e) later ann

end

/-! ## Examples -/

/-- `text/*; a=1;q=0.3;x, Text/JSON` -/
def someAccept : ListSyn AcceptSyn := ⟨some (⟨⟨str "text", str "*", [(([], str " "), ⟨str "a", .token (str "1")⟩)]⟩,
  some (⟨[], [], str "q=", ⟨false, some (str "3")⟩⟩, [(([], []), ⟨str "x", none⟩)])⟩, []),
  [(str " ", some (⟨⟨str "Text", str "JSON", []⟩, none⟩, []))]⟩

example : someAccept.Ok AcceptSyn.Ok := by
  refine ⟨⟨⟨⟨isToken_bits (by decide +kernel), isToken_bits (by decide +kernel), fun x hx => ?_⟩, ?_⟩, nofun⟩, fun x hx => ?_⟩
  · obtain rfl := List.mem_singleton.mp hx
    exact ⟨⟨nofun, fun c hc => .inl (List.mem_singleton.mp hc)⟩, ⟨isToken_bits (by decide +kernel), by decide +kernel⟩,
      isToken_bits (by decide +kernel)⟩
  · rintro _ _ ⟨⟩
    refine ⟨⟨nofun, nofun, by decide +kernel, ?_⟩, fun x hx => ?_⟩
    · rintro _ ⟨⟩
      decide +kernel
    · obtain rfl := List.mem_singleton.mp hx
      exact ⟨⟨nofun, nofun⟩, isToken_bits (by decide +kernel), nofun⟩
  · obtain rfl := List.mem_singleton.mp hx
    exact ⟨fun c hc => .inl (List.mem_singleton.mp hc), ⟨⟨isToken_bits (by decide +kernel), isToken_bits (by decide +kernel), nofun⟩,
      nofun⟩, nofun⟩

example : someAccept.text AcceptSyn.text = str "text/*; a=1;q=0.3;x, Text/JSON" ∧
    (someAccept.notes AcceptSyn.notes).map Prod.fst = [1282] := ⟨by decide +kernel, by decide +kernel⟩

/-- The conditions of the theorems. -/
example : (∀ (l : List Nat) c, c ∈ id l ↔ c ∈ l) ∧ Builds true Heap.init Heap.init := ⟨fun _ _ => Iff.rfl, .refl⟩

/-- What is needed for Content-Type. -/
def onlyContentType : List (SemName × Defn SemName) := (semDefs id).filter fun x =>
  x.1 ∈ [.hop (.str .token), .hop (.str .pair), .hop (.str .quoted), .hop (.str .ows), .type_, .subtype, .parameter, .mediaType,
    .contentType]

/-- The grammar, with nothing built before or after. -/
def mediaHeap : PyHeap := (loadDefs onlyContentType).2

example : halvesNumber ((loadDefs onlyContentType).1 .contentType) = some 61 := by decide +kernel

example : shown (innerParse mediaHeap.grammar (pyOps fun _ => false) (str "text/Json; a=\"\\b\"") 61) =
    some (some (render (MediaSyn.value ⟨str "text", str "Json", [(([], str " "), ⟨str "a", .quoted [.escaped 98]⟩)]⟩)), [1017, 1282]) := by
  decide +kernel

/-- What is needed for Accept-Encoding. -/
def onlyAcceptEncoding : List (SemName × Defn SemName) := (semDefs id).filter fun x =>
  x.1 ∈ [.hop (.str .token), .hop (.str .ows), .contentCoding, .qvalue, .weight, .codings, .acceptEncodings, .acceptEncoding]

example : halvesNumber ((loadDefs onlyAcceptEncoding).1 .acceptEncoding) = some 104 := by decide +kernel

/-- As it is, the star by itself is text. -/
example : shown (innerParse (loadDefs onlyAcceptEncoding).2.grammar (pyOps fun _ => false) (str "*;q=0") 104) =
    some (some (render (.list [RankedSyn.valueWith (.text (str "*")) ⟨str "*", some ⟨[], [], str "q=", ⟨false, none⟩⟩⟩])), []) := by
  decide +kernel

end Httpolice.Props
