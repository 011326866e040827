import Verif.Lemmas.Preferences
import Verif.Props.Negotiation
import Verif.Props.Challenges

/-!
# C78: preferences, Strict-Transport-Security and other small headers
-/

namespace Httpolice.Props

open Httpolice.Model Httpolice.Spec Httpolice.Lemmas

/-- If the text determines the value and the complaints, then these are what is read. -/
theorem reads_of_same {α : Type} {P : α → Prop} {t : α → Str} {v : α → GVal} {c : α → List PyComplaint}
    {parse : Str → Parsing} (h : ReadsSome parse P t v c) (hu : ∀ x y, P x → P y → t x = t y → v x = v y ∧ c x = c y) :
    Reads parse P t v c := by
  refine ⟨h.1, fun x hx => ?_⟩
  obtain ⟨⟨node, cs, as⟩, hr⟩ := (h.1 (t x)).1.mpr ⟨x, hx, rfl⟩
  obtain ⟨y, h1, h2, h3, h4⟩ := h.2 _ _ _ _ hr
  obtain ⟨e1, e2⟩ := hu x y hx h1 h2
  exact ⟨cs, as, by rw [hr, h3, e1], by rw [e2]; exact h4⟩

theorem small_shapes {order : List Nat → List Nat} : shapes (smallDefs order) = shapes (smallDefs id) := rfl

section
variable {order : List Nat → List Nat} (ho : ∀ l c, c ∈ order l ↔ c ∈ l) {env : SmallName → Sym} {h h' : PyHeap}
  (hb : Builds true Heap.init h) (later : Builds true (runDefs env h (smallDefs order)).2 h') (ann : GVal → Bool)
include ho hb later

/-- **C78**: Prefer. -/
theorem C78_prefer : ∃ k, (runDefs env h (smallDefs order)).1 .prefer = .nt k ∧
    Reads (fun data => innerParse h'.grammar (pyOps ann) data k) (List1Syn.Ok PrefSyn.Ok) (List1Syn.text PrefSyn.text)
      (List1Syn.value PrefSyn.value) (List1Syn.notes PrefSyn.notes) :=
  module_reads hb (smalls_solve ho) (known_shapes small_shapes (by decide +kernel)) rfl prefs_inj later ann

/-- **C78**: Preference-Applied. -/
theorem C78_preference_applied : ∃ k, (runDefs env h (smallDefs order)).1 .preferenceApplied = .nt k ∧
    Reads (fun data => innerParse h'.grammar (pyOps ann) data k) (List1Syn.Ok (Setting.Ok IsToken))
      (List1Syn.text Setting.text) (List1Syn.value (Setting.preference (str "Preference"))) (List1Syn.notes Setting.notes) :=
  module_reads hb (smalls_solve ho) (known_shapes small_shapes (by decide +kernel)) rfl settings_inj later ann

/-- **C78**: the value of `return`. -/
theorem C78_return : ∃ k, (runDefs env h (smallDefs order)).1 .return_ = .nt k ∧
    Reads (fun data => innerParse h'.grammar (pyOps ann) data k)
      (fun w => SameWord w (str "representation") ∨ SameWord w (str "minimal")) (fun w => w)
      (nameValue (str "CaseInsensitive")) (fun _ => []) :=
  module_reads hb (smalls_solve ho) (known_shapes small_shapes (by decide +kernel)) rfl (fun _ _ _ _ e => e) later ann

/-- **C78**: the value of `handling`. -/
theorem C78_handling : ∃ k, (runDefs env h (smallDefs order)).1 .handling = .nt k ∧
    Reads (fun data => innerParse h'.grammar (pyOps ann) data k)
      (fun w => SameWord w (str "strict") ∨ SameWord w (str "lenient")) (fun w => w)
      (nameValue (str "CaseInsensitive")) (fun _ => []) :=
  module_reads hb (smalls_solve ho) (known_shapes small_shapes (by decide +kernel)) rfl (fun _ _ _ _ e => e) later ann

/-- **C78**: the value of `wait`. -/
theorem C78_wait : ∃ k, (runDefs env h (smallDefs order)).1 .wait = .nt k ∧
    Reads (fun data => innerParse h'.grammar (pyOps ann) data k) IsNumeral (fun w => w) (fun w => .int (numeral w))
      (fun _ => []) :=
  module_reads hb (smalls_solve ho) (known_shapes small_shapes (by decide +kernel)) rfl (fun _ _ _ _ e => e) later ann

/-- **C78**: Strict-Transport-Security. -/
theorem C78_strict_transport_security : ∃ k, (runDefs env h (smallDefs order)).1 .hsts = .nt k ∧
    Reads (fun data => innerParse h'.grammar (pyOps ann) data k) HstsSyn.Ok HstsSyn.text HstsSyn.value HstsSyn.notes := by
  obtain ⟨k, hk, hr⟩ := module_some (n := .hsts) (env := env) hb (smalls_solve ho)
    (known_shapes small_shapes (by decide +kernel)) rfl later ann
  refine ⟨k, hk, reads_of_same hr fun x y hx hy e => ?_⟩
  unfold HstsSyn.value HstsSyn.notes
  rw [hsts_same x y hx hy e]
  exact ⟨rfl, rfl⟩

/-- **C78**: the value of `max-age` in Strict-Transport-Security. -/
theorem C78_max_age : ∃ k, (runDefs env h (smallDefs order)).1 .maxAge = .nt k ∧
    Reads (fun data => innerParse h'.grammar (pyOps ann) data k) IsNumeral (fun w => w) (fun w => .int (numeral w))
      (fun _ => []) :=
  module_reads hb (smalls_solve ho) (known_shapes small_shapes (by decide +kernel)) rfl (fun _ _ _ _ e => e) later ann

/-- **C78**: HTTPolice-Silence. -/
theorem C78_silence : ∃ k, (runDefs env h (smallDefs order)).1 .silence = .nt k ∧
    Reads (fun data => innerParse h'.grammar (pyOps ann) data k) (ListSyn.Ok SilenceSyn.Ok) (ListSyn.text SilenceSyn.text)
      (ListSyn.value SilenceSyn.value) (ListSyn.notes SilenceSyn.notes) :=
  module_reads hb (smalls_solve ho) (known_shapes small_shapes (by decide +kernel)) rfl silences_inj later ann

/-- **C78**: Accept-Patch. -/
theorem C78_accept_patch : ∃ k, (runDefs env h (smallDefs order)).1 .acceptPatch = .nt k ∧
    Reads (fun data => innerParse h'.grammar (pyOps ann) data k) (List1Syn.Ok (MediaSyn.Ok IsToken))
      (List1Syn.text MediaSyn.text) (List1Syn.value MediaSyn.value) (List1Syn.notes MediaSyn.notes) :=
  module_reads hb (smalls_solve ho) (known_shapes small_shapes (by decide +kernel)) rfl patches_inj later ann

/-- **C78**: Accept-Post. -/
theorem C78_accept_post : ∃ k, (runDefs env h (smallDefs order)).1 .acceptPost = .nt k ∧
    ReadsAs (fun data => innerParse h'.grammar (pyOps ann) data k) (ListSyn.Ok (MediaSyn.Ok IsToken))
      (ListSyn.text MediaSyn.text) (ListSyn.IsValue MediaSyn.IsRange) (ListSyn.notes MediaSyn.notes) := by
  obtain ⟨k, hk, hr⟩ := module_some (n := .acceptPost) (env := env) (v := ListSyn.value rangeValue) hb (smalls_solve ho)
    (known_shapes small_shapes (by decide +kernel)) rfl later ann
  refine ⟨k, hk, readsAs_flags (Q := MediaSyn.Ok IsToken)
    (P := fun x : MediaSyn × Bool => x.1.Ok IsToken ∧ (x.2 = true → x.1.subtype = str "*"))
    (Flag := fun x => x.subtype = str "*") (fun _ => Iff.rfl) hr posts_inj ?_⟩
  rintro ⟨x, _ | _⟩ hx
  · exact .inl rfl
  · exact .inr ⟨hx.2 rfl, rfl⟩

end

/-- **C78**: HTTP2-Settings. -/
theorem C78_http2_settings {env : Http2Name → Sym} {h h' : PyHeap} (hb : Builds true Heap.init h)
    (later : Builds true (runDefs env h http2Defs).2 h') (ann : GVal → Bool) :
    ∃ k, (runDefs env h http2Defs).1 .http2Settings = .nt k ∧
      Reads (fun data => innerParse h'.grammar (pyOps ann) data k) Token68.Ok Token68.text (fun x => .text x.text)
        (fun _ => []) :=
  module_reads hb http2_solve (by exact of_decide_eq_true (Eq.refl true)) rfl (fun _ _ hx hy e => uniq_token68.inj .nil hx hy e) later ann

/-! ## Examples -/

/-- `foo="";  bar ; , wait=10` -/
def somePrefer : List1Syn PrefSyn := ⟨[], ⟨⟨str "foo", some (.quoted [])⟩,
  [([], some (str "  ", ⟨str "bar", none⟩)), (str " ", none)]⟩, [(str " ", some (str " ", ⟨⟨str "wait", some (.token (str "10"))⟩, []⟩))]⟩

example : somePrefer.Ok PrefSyn.Ok := by
  refine ⟨nofun, ⟨⟨isToken_bits (by decide +kernel), ?_⟩, fun p hp => ?_⟩, fun x hx => ?_⟩
  · rintro _ ⟨⟩
    exact nofun
  · rcases List.mem_cons.mp hp with rfl | hp
    · refine ⟨nofun, ?_⟩
      rintro _ _ ⟨⟩
      exact ⟨fun c hc => .inl (by simpa using (show c ∈ [32, 32] from hc)), isToken_bits (by decide +kernel), nofun⟩
    · obtain rfl := List.mem_singleton.mp hp
      exact ⟨fun c hc => .inl (List.mem_singleton.mp hc), nofun⟩
  · obtain rfl := List.mem_singleton.mp hx
    refine ⟨fun c hc => .inl (List.mem_singleton.mp hc), fun c hc => .inl (List.mem_singleton.mp hc),
      ⟨isToken_bits (by decide +kernel), ?_⟩, nofun⟩
    rintro _ ⟨⟩
    exact isToken_bits (by decide +kernel)

example : somePrefer.text PrefSyn.text = str "foo=\"\";  bar ; , wait=10" ∧ somePrefer.notes PrefSyn.notes = [] :=
  ⟨by decide +kernel, by decide +kernel⟩

/-- `max-age = 10 ;; includeSubDomains` -/
def someHsts : HstsSyn := ⟨some ⟨str "max-age", some ((str " ", str " "), .token (str "10"))⟩,
  [((str " ", []), none), (([], str " "), some ⟨str "includeSubDomains", none⟩)]⟩

example : someHsts.Ok := by
  refine ⟨?_, fun x hx => ?_⟩
  · rintro _ ⟨⟩
    refine ⟨isToken_bits (by decide +kernel), ?_⟩
    rintro _ _ _ ⟨⟩
    exact ⟨fun c hc => .inl (List.mem_singleton.mp hc), fun c hc => .inl (List.mem_singleton.mp hc), isToken_bits (by decide +kernel)⟩
  · rcases List.mem_cons.mp hx with rfl | hx
    · exact ⟨⟨fun c hc => .inl (List.mem_singleton.mp hc), nofun⟩, nofun⟩
    · obtain rfl := List.mem_singleton.mp hx
      refine ⟨⟨nofun, fun c hc => .inl (List.mem_singleton.mp hc)⟩, ?_⟩
      rintro _ ⟨⟩
      exact ⟨isToken_bits (by decide +kernel), nofun⟩

example : someHsts.text = str "max-age = 10 ;; includeSubDomains" ∧ someHsts.dirs.length = 2 :=
  ⟨by decide +kernel, by decide +kernel⟩

/-- The conditions of the theorems. -/
example : (∀ (l : List Nat) c, c ∈ id l ↔ c ∈ l) ∧ Builds true Heap.init Heap.init := ⟨fun _ _ => Iff.rfl, .refl⟩

/-- What is needed for Strict-Transport-Security. -/
def onlyHsts : List (SmallName × Defn SmallName) := (smallDefs id).filter fun x =>
  x.1 ∈ [.sem (.hop (.str .token)), .sem (.hop (.str .pair)), .sem (.hop (.str .quoted)), .sem (.hop (.str .ows)),
    .directiveName, .directiveValue, .directive, .hsts]

example : halvesNumber ((loadDefs onlyHsts).1 .hsts) = some 54 := by decide +kernel

example : shown (innerParse (loadDefs onlyHsts).2.grammar (pyOps fun _ => false) (str "max-age = 10 ;; includeSubDomains") 54) =
    some (some (render someHsts.value), []) := by decide +kernel

/-- What is needed for Prefer. -/
def onlyPrefer : List (SmallName × Defn SmallName) := (smallDefs id).filter fun x =>
  x.1 ∈ [.sem (.hop (.str .token)), .sem (.hop (.str .pair)), .sem (.hop (.str .quoted)), .sem (.hop (.str .ows)),
    .attr1, .head, .attr2, .param, .preference, .prefers, .prefer]

example : halvesNumber ((loadDefs onlyPrefer).1 .prefer) = some 98 := by decide +kernel

example : shown (innerParse (loadDefs onlyPrefer).2.grammar (pyOps fun _ => false) (str "foo=\"\";  bar ; , wait=10") 98) =
    some (some (render (somePrefer.value PrefSyn.value)), []) := by decide +kernel

/-- What is needed for HTTPolice-Silence. -/
def onlySilence : List (SmallName × Defn SmallName) := (smallDefs id).filter fun x =>
  x.1 ∈ [.sem (.hop (.str .ows)), .sem (.hop (.str .rws)), .noticeId, .resp, .silences, .silence]

example : halvesNumber ((loadDefs onlySilence).1 .silence) = some 58 := by decide +kernel

example : shown (innerParse (loadDefs onlySilence).2.grammar (pyOps fun _ => false) (str "1014  Resp,1015") 58) =
    some (some (render (ListSyn.value SilenceSyn.value
      ⟨some (⟨str "1014", some (str "  ", str "Resp")⟩, []), [([], some (⟨str "1015", none⟩, []))]⟩)), [1014]) := by
  decide +kernel

end Httpolice.Props
