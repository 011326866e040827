import Verif.Lemmas.ViewHeaders

/-!
# Arguments in headers
-/

namespace Httpolice.Lemmas

open Httpolice.Model Httpolice.Spec

variable {d : Delims} {e : Entry}

/-! ## Readings -/

theorem perm_short {α : Type} {a b : List α} (h : a.Perm b) (hb : b.length ≤ 1) : a = b := by
  match b, hb with
  | [], _ => exact List.perm_nil.mp h
  | [x], _ => exact List.perm_singleton.mp h

theorem readsArgs_of {α : Type} {p : SymParser} {Ok : α → Prop} {print : α → Str} {value : α → GVal} {notes : α → List PyComplaint}
    {R : ArgReading} (h : Reads p Ok print value notes) (hn : ∀ x, (notes x).length ≤ 1)
    (hR : ∀ s v ns, R s v ns ↔ ∃ x, Ok x ∧ s = print x ∧ v = value x ∧ ns = (notes x).map Prod.fst) : ReadsArgs p R := by
  intro s
  by_cases hx : ∃ x, Ok x ∧ s = print x
  · obtain ⟨x, hx, rfl⟩ := hx
    obtain ⟨cs, as, h1, h2⟩ := h.2 x hx
    refine .inl ⟨_, cs, as, h1, (hR _ _ _).mpr ⟨x, hx, rfl, rfl, ?_⟩⟩
    rw [perm_short h2 (hn x)]
  · obtain ⟨err, he⟩ := (h.1 s).2.mpr hx
    refine .inr ⟨⟨_, he⟩, fun v ns hr => ?_⟩
    obtain ⟨x, h1, h2, _⟩ := (hR s v ns).mp hr
    exact hx ⟨x, h1, h2⟩

theorem number_args {p : SymParser} (h : Reads p IsNumeral (fun w => w) (fun w => .int (numeral w)) (fun _ => [])) :
    ReadsArgs p NumberArg :=
  readsArgs_of h (fun _ => by simp) fun s v ns =>
    ⟨fun ⟨a, b, c⟩ => ⟨s, a, rfl, b, c⟩, fun ⟨x, a, hs, b, c⟩ => by subst hs; exact ⟨a, b, c⟩⟩

theorem fieldNames_args {p : SymParser} (h : Reads p (ListSyn.Ok IsToken) (ListSyn.text fun w => w)
    (ListSyn.value (nameValue (str "FieldName"))) (ListSyn.notes fun _ => [])) : ReadsArgs p FieldNamesArg := by
  have hn : ∀ l : ListSyn Str, ListSyn.notes (fun _ => []) l = gapNotes l.Gaps := by
    intro l; simp [ListSyn.notes]
  refine readsArgs_of h (fun x => ?_) fun s v ns => exists_congr fun l => ?_
  · rw [hn]; unfold gapNotes; split <;> simp
  · rw [hn]
    have : (gapNotes l.Gaps).map Prod.fst = if l.Gaps then [1151] else [] := by
      unfold gapNotes; split <;> rfl
    rw [this]; rfl

theorem choice_args {p : SymParser} {a b : String} (h : Reads p (fun w => SameWord w (str a) ∨ SameWord w (str b)) (fun w => w)
    (nameValue (str "CaseInsensitive")) (fun _ => [])) : ReadsArgs p (ChoiceArg [a, b]) := by
  refine readsArgs_of h (fun _ => by simp) fun s v ns => ?_
  constructor
  · rintro ⟨h, rfl, rfl⟩
    exact ⟨s, by simpa using h, rfl, rfl, rfl⟩
  · rintro ⟨x, h, rfl, rfl, rfl⟩
    exact ⟨by simpa using h, rfl, rfl⟩

theorem one_args {p : SymParser} (h : Reads p (fun w => w = str "1") (fun w => w) (fun _ => .obj (str "True") []) (fun _ => [])) :
    ReadsArgs p OneArg :=
  readsArgs_of h (fun _ => by simp) fun s v ns =>
    ⟨fun ⟨a, b, c⟩ => ⟨s, a, rfl, b, c⟩, fun ⟨x, a, hs, b, c⟩ => by subst hs; exact ⟨a, b, c⟩⟩

theorem nodes_args {p : SymParser} (h : Reads p NodeSyn.Ok NodeSyn.text NodeSyn.value (fun _ => [])) : ReadsArgs p NodeArg :=
  readsArgs_of h (fun _ => by simp) fun _ _ _ => Iff.rfl

theorem text_args {p : SymParser} {L : Str → Prop} (h : ReadsVerbatim p L) : ReadsArgs p (TextArg L) :=
  readsArgs_of h (fun _ => by simp) fun s v ns =>
    ⟨fun ⟨a, b, c⟩ => ⟨s, a, rfl, b, c⟩, fun ⟨x, a, hs, b, c⟩ => by subst hs; exact ⟨a, b, c⟩⟩

/-! ## Tables -/

theorem cacheArg_congr {a b : Str} (h : SameWord a b) : cacheArg a = cacheArg b := by
  simp only [cacheArg, among_congr h]

theorem hstsArg_congr {a b : Str} (h : SameWord a b) : hstsArg a = hstsArg b := by
  simp only [hstsArg, among_congr h]

theorem preferArg_congr {a b : Str} (h : SameWord a b) : preferArg a = preferArg b := by
  simp only [preferArg, among_congr h]

theorem forwardedArg_congr {a b : Str} (h : SameWord a b) : forwardedArg a = forwardedArg b := by
  simp only [forwardedArg, among_congr h]

theorem cacheRules_meet {seconds noCache priv : SymParser} (h1 : ReadsArgs seconds NumberArg) (h2 : ReadsArgs noCache FieldNamesArg)
    (h3 : ReadsArgs priv FieldNamesArg) (name : Str) :
    Meets (argRule asciiLower (cacheRules seconds noCache priv) name) (cacheArg name) := by
  refine rules_meet (fun a b h => cacheArg_congr h) (fun r hr => ?_) (fun name hn => ?_) name
  · simp only [cacheRules, List.mem_cons, List.not_mem_nil, or_false] at hr
    rcases hr with rfl | rfl | rfl | rfl | rfl | rfl | rfl | rfl | rfl | rfl | rfl | rfl | rfl | rfl | rfl
    · exact .flag
    · simp (decide := true) only [cacheArg, if_true, if_false]; exact .required h1
    · simp (decide := true) only [cacheArg, if_true, if_false]; exact .optional h1
    · simp (decide := true) only [cacheArg, if_true, if_false]; exact .required h1
    · exact .flag
    · simp (decide := true) only [cacheArg, if_true, if_false]; exact .optional h2
    · exact .flag
    · exact .flag
    · exact .flag
    · simp (decide := true) only [cacheArg, if_true, if_false]; exact .optional h3
    · exact .flag
    · exact .flag
    · simp (decide := true) only [cacheArg, if_true, if_false]; exact .required h1
    · simp (decide := true) only [cacheArg, if_true, if_false]; exact .required h1
    · simp (decide := true) only [cacheArg, if_true, if_false]; exact .required h1
  · simp only [cacheRules, List.forall_mem_cons, List.not_mem_nil, false_imp_iff, implies_true, and_true] at hn
    simp [cacheArg, AmongWords, hn]

theorem hstsRules_meet {maxAge : SymParser} (h1 : ReadsArgs maxAge NumberArg) (name : Str) :
    Meets (argRule asciiLower (hstsRules maxAge) name) (hstsArg name) := by
  refine rules_meet (fun a b h => hstsArg_congr h) (fun r hr => ?_) (fun name hn => ?_) name
  · simp only [hstsRules, List.mem_cons, List.not_mem_nil, or_false] at hr
    rcases hr with rfl | rfl
    · exact .flag
    · simp (decide := true) only [hstsArg, if_true, if_false]; exact .required h1
  · simp only [hstsRules, List.forall_mem_cons, List.not_mem_nil, false_imp_iff, implies_true, and_true] at hn
    simp [hstsArg, AmongWords, hn]

theorem preferRules_meet {handling return_ wait : SymParser} (h1 : ReadsArgs handling (ChoiceArg ["strict", "lenient"]))
    (h2 : ReadsArgs return_ (ChoiceArg ["representation", "minimal"])) (h3 : ReadsArgs wait NumberArg) (name : Str) :
    Meets (argRule asciiLower (preferRules handling return_ wait) name) (preferArg name) := by
  refine rules_meet (fun a b h => preferArg_congr h) (fun r hr => ?_) (fun name hn => ?_) name
  · simp only [preferRules, List.mem_cons, List.not_mem_nil, or_false] at hr
    rcases hr with rfl | rfl | rfl | rfl | rfl
    · exact .free
    · simp (decide := true) only [preferArg, if_true, if_false]; exact .required h1
    · exact .flag
    · simp (decide := true) only [preferArg, if_true, if_false]; exact .required h2
    · simp (decide := true) only [preferArg, if_true, if_false]; exact .required h3
  · simp only [preferRules, List.forall_mem_cons, List.not_mem_nil, false_imp_iff, implies_true, and_true] at hn
    simp [preferArg, AmongWords, hn]

theorem forwardedRules_meet {node host scheme : SymParser} (h1 : ReadsArgs node NodeArg)
    (h2 : ReadsArgs host (TextArg IsHostHeader)) (h3 : ReadsArgs scheme (TextArg IsScheme)) (name : Str) :
    Meets (argRule asciiLower (forwardedRules node host scheme) name) (forwardedArg name) := by
  refine rules_meet (fun a b h => forwardedArg_congr h) (fun r hr => ?_) (fun name hn => ?_) name
  · simp only [forwardedRules, List.mem_cons, List.not_mem_nil, or_false] at hr
    rcases hr with rfl | rfl | rfl | rfl
    · simp (decide := true) only [forwardedArg, if_true, if_false]; exact .required h1
    · simp (decide := true) only [forwardedArg, if_true, if_false]; exact .required h1
    · simp (decide := true) only [forwardedArg, if_true, if_false]; exact .required h2
    · simp (decide := true) only [forwardedArg, if_true, if_false]; exact .required h3
  · simp only [forwardedRules, List.forall_mem_cons, List.not_mem_nil, false_imp_iff, implies_true, and_true] at hn
    simp [forwardedArg, AmongWords, hn]

theorem altRules_meet {ma persist : SymParser} (h1 : ReadsArgs ma NumberArg) (h2 : ReadsArgs persist OneArg) (name : Str) :
    Meets (argRule id (altRules ma persist) name) (altArg name) := by
  by_cases ha : name = str "ma"
  · subst ha
    have h : altArg (str "ma") = .reads true NumberArg := by simp [altArg]
    have h' : argRule id (altRules ma persist) (str "ma") = ⟨.required, some ma⟩ := by
      simp [argRule, altRules, List.find?]
    rw [h, h']
    exact .required h1
  · by_cases hb : name = str "persist"
    · subst hb
      have h : altArg (str "persist") = .reads true OneArg := by
        rw [altArg, if_neg (by decide), if_pos rfl]
      have h' : argRule id (altRules ma persist) (str "persist") = ⟨.required, some persist⟩ := by
        have : str "ma" ≠ str "persist" := by decide
        simp [argRule, altRules, List.find?, this]
      rw [h, h']
      exact .required h2
    · have ha' : str "ma" ≠ name := fun h => ha h.symm
      have hb' : str "persist" ≠ name := fun h => hb h.symm
      have : argRule id (altRules ma persist) name = ⟨.unknown, none⟩ := by
        simp [argRule, altRules, List.find?, ha', hb']
      rw [this]
      simp only [altArg, ha, hb, if_false]
      exact .free

/-! ## Delimiters -/

/-- Nothing to look for in what is read. -/
def Quiet (R : ArgReading) : Prop := ∀ (d : Delims) (e : Entry) (s : Str) (v : GVal) (ns : List Nat), R s v ns → Shows d e v []

theorem quiet_number : Quiet NumberArg := by
  rintro d e s v ns ⟨_, rfl, _⟩
  exact shows_int _

theorem quiet_choice {ws : List String} (h : ∀ w ∈ ws, str w ≠ [] ∧ ∀ c ∈ str w, tcharBits c = true) : Quiet (ChoiceArg ws) := by
  rintro d e s v ns ⟨⟨w, hw, hs⟩, rfl, _⟩
  exact shows_name (by decide) (sameWord_token (h w hw) hs)

theorem shows_unavailable (s : Str) : Shows d e (unavailableObj s) [] := shows_other (by decide)

theorem argument_shows {form : ArgPlace} {o : Option Str} {a : GVal} {ns : List Nat} (hq : ∀ b R, form = .reads b R → Quiet R)
    (h : Argument form o a ns) :
    Shows d e a (match form, o with | .free, some s => [s] | _, _ => []) := by
  cases h with
  | flag => exact shows_none
  | unwanted s => exact shows_unavailable s
  | missing R => exact shows_unavailable _
  | without R => exact shows_none
  | good h => exact hq _ _ rfl _ _ _ _ _ h
  | bad h => exact shows_unavailable _
  | nothing => exact shows_none
  | anything s => exact shows_text s

theorem free_shows {form : ArgPlace} {w : Option Word} {a : GVal} {ns : List Nat} (hw : ∀ x, w = some x → x.Ok)
    (hq : ∀ b R, form = .reads b R → Quiet R) (h : Argument form (w.map Word.content) a ns) :
    Shows d e a (freeQuotes form w) := by
  have := argument_shows (d := d) (e := e) hq h
  cases w with
  | none => cases form <;> exact this
  | some w =>
    cases form with
    | free =>
      cases h
      exact shows_word (hw w rfl)
    | _ => exact this

theorem settled_shows {cls : Str} {form : ArgPlace} {name : Str} {o : Option Str} {r : GVal × List Note} {texts : List Str}
    (hc : cls ∈ strClasses) (hn : IsToken name) (ha : ∀ a ns, Argument form o a ns → Shows d e a texts)
    (h : Settled cls form e name o r) : Shows d e r.1 texts := by
  obtain ⟨a, ns, h1, rfl⟩ := h
  exact shows_obj (.inr (by decide)) (showsAll_two (a := []) (shows_name hc hn) (ha a ns h1))

theorem hstsArg_quiet {name : Str} : ∀ b R, hstsArg name = .reads b R → Quiet R := by
  intro b R h
  unfold hstsArg at h
  split at h
  · cases h; exact quiet_number
  · split at h <;> cases h

theorem preferArg_quiet {name : Str} : ∀ b R, preferArg name = .reads b R → Quiet R := by
  intro b R h
  unfold preferArg at h
  split at h
  · cases h
  · split at h
    · cases h; exact quiet_choice (by decide)
    · split at h
      · cases h; exact quiet_number
      · split at h
        · cases h; exact quiet_choice (by decide)
        · cases h

/-! ## Pairs -/

theorem cacheForm_iff {name : Str} {f : ArgForm} {ws : List String}
    (h : ∀ r ∈ cacheForms, r.2 = f ↔ r.1 ∈ ws) (hws : ∀ w ∈ ws, ∃ r ∈ cacheForms, r.1 = w)
    (hd : ∀ r ∈ cacheForms, ∀ t ∈ cacheForms, SameWord (str r.1) (str t.1) → r = t) :
    cacheForm name = some f ↔ AmongWords name ws := by
  unfold cacheForm
  constructor
  · intro hf
    obtain ⟨r, hr, rfl⟩ := Option.map_eq_some_iff.mp hf
    have h1 := List.find?_some hr
    have h2 := List.mem_of_find?_eq_some hr
    exact ⟨r.1, (h r h2).mp rfl, sameWord_symm (lower_iff.mp (by simpa using h1))⟩
  · rintro ⟨w, hw, hs⟩
    obtain ⟨t, ht, rfl⟩ := hws w hw
    cases hfind : cacheForms.find? fun r => asciiLower (str r.1) = asciiLower name with
    | none =>
      rw [List.find?_eq_none] at hfind
      exact absurd (by simpa using (lower_iff.mpr hs).symm) (hfind t ht)
    | some r =>
      have h1 := List.find?_some hfind
      have h2 := List.mem_of_find?_eq_some hfind
      have : r = t := hd r h2 t ht (sameWord_trans (lower_iff.mp (by simpa using h1)) hs)
      subst this
      rw [Option.map_some, (h r h2).mpr hw]

theorem cacheForm_quoted {name : Str} : cacheForm name = some .quotedString ↔ AmongWords name ["no-cache", "private"] :=
  cacheForm_iff (by decide) (by decide) (by decide)

theorem cacheForm_token {name : Str} :
    cacheForm name = some .token ↔ AmongWords name ["max-age", "max-stale", "min-fresh", "s-maxage"] :=
  cacheForm_iff (by decide) (by decide) (by decide)

theorem cachePair_becomes {know : Str → ArgRule} (hk : ∀ n, Meets (know n) (cacheArg n)) (e : Entry) (x : Setting) :
    CacheBecomes e x (cachePair know cacheForm e x.directive) := by
  obtain ⟨name, value⟩ := x
  have main : ∀ o, Settled (str "CacheDirective") (cacheArg name) e name o
      (processPairG know e (.tuple [nameValue (str "CacheDirective") name, argValue o])) :=
    fun o => processPair_meets (hk name) rfl
  cases value with
  | none => exact ⟨_, main none, rfl⟩
  | some w =>
    cases w with
    | token s =>
      refine ⟨_, main (some s), ?_⟩
      have h1 : (str "token") ≠ str "quoted_string" := by decide
      simp [cachePair, Setting.directive, Word.marked, unpackPair, nameValue, strText, formNotesOf, cacheForm_quoted, h1, argValue]
      rfl
    | quoted q =>
      refine ⟨_, main (some q.content), ?_⟩
      have h1 : (str "quoted_string") ≠ str "token" := by decide
      simp [cachePair, Setting.directive, Word.marked, unpackPair, nameValue, strText, formNotesOf, cacheForm_token, h1, argValue]
      rfl

theorem dir_becomes {know : Str → ArgRule} (hk : ∀ n, Meets (know n) (hstsArg n)) (e : Entry) (x : DirSyn) :
    DirBecomes e x (processPairG know e x.result) := by
  refine processPair_meets (hk x.name) ?_
  unfold DirSyn.result
  cases x.value with
  | none => rfl
  | some v => rfl

theorem argument_value (x : Setting) : argValue x.argument = (match x.value with
    | none => .none
    | some w => if w.content = [] then .none else .text w.content) := by
  unfold Setting.argument
  cases x.value with
  | none => rfl
  | some w =>
    by_cases h : w.content = []
    · simp [h, argValue]
    · simp [h, argValue]

theorem applied_becomes {know : Str → ArgRule} (hk : ∀ n, Meets (know n) (preferArg n)) (e : Entry) (x : Setting) :
    AppliedBecomes e x (processPairG know e (x.preference (str "Preference"))) := by
  refine processPair_meets (hk x.name) ?_
  rw [argument_value]
  rfl

theorem pref_becomes {know : Str → ArgRule} (hk : ∀ n, Meets (know n) (preferArg n)) (e : Entry) (x : PrefSyn) :
    PrefBecomes e x (preferPair know e x.value) :=
  ⟨_, applied_becomes hk e x.head, rfl⟩

theorem quotes_empty {w : Word} (h : w.content = []) : delimsIn d e w.quotes = [] := by
  cases w with
  | token s => rfl
  | quoted q =>
    have h : q.content = [] := h
    simp [Word.quotes, delimsIn, h]

theorem applied_shows {x : Setting} (hx : x.Ok IsToken) {r : GVal × List Note} (h : AppliedBecomes e x r) :
    Shows d e r.1 x.texts := by
  refine settled_shows (by decide) hx.1 (fun a ns ha => ?_) h
  obtain ⟨name, value⟩ := x
  cases value with
  | none => exact free_shows (w := none) nofun preferArg_quiet ha
  | some w =>
    unfold Setting.argument at ha
    by_cases hw : w.content = []
    · have ha : Argument (preferArg name) none a ns := by simpa [hw] using ha
      have h1 := free_shows (d := d) (e := e) (w := none) nofun preferArg_quiet ha
      have h0 : delimsIn d e (freeQuotes (preferArg name) (some w)) = [] := by
        cases preferArg name <;> simp [freeQuotes, quotes_empty hw] <;> rfl
      have h2 : delimNotes d.1 d.2 e a = delimsIn d e (freeQuotes (preferArg name) none) := h1
      show delimNotes d.1 d.2 e a = delimsIn d e (freeQuotes (preferArg name) (some w))
      rw [h0, h2]
      cases preferArg name <;> rfl
    · have ha : Argument (preferArg name) (some w.content) a ns := by simpa [hw] using ha
      exact free_shows (w := some w) (fun y hy => by cases hy; exact hx.2 w rfl) preferArg_quiet ha

theorem preference_shows {x : Setting} (hx : x.Ok IsToken) : Shows d e (x.preference (str "CaseInsensitive")) x.quotes := by
  unfold Setting.preference Setting.quotes
  refine shows_obj (.inr (by decide)) (showsAll_two (a := []) (shows_name (by decide) hx.1) ?_)
  obtain ⟨name, value⟩ := x
  cases value with
  | none => exact shows_none
  | some w =>
    by_cases hw : w.content = []
    · simp only [hw, if_true]
      show delimNotes d.1 d.2 e _ = _
      rw [quotes_empty hw]
      exact shows_none
    · simp only [hw, if_false]
      exact shows_word (hx.2 w rfl)

theorem pref_shows {x : PrefSyn} (hx : x.Ok) {r : GVal × List Note} (h : PrefBecomes e x r) : Shows d e r.1 x.texts := by
  obtain ⟨head, h1, h2⟩ := h
  rw [h2]
  refine shows_obj (.inr (by decide)) (showsAll_two (applied_shows (r := (head, r.2)) hx.1 h1) (shows_list (showsAll_map fun p hp => ?_)))
  have := hx.2 p hp
  obtain ⟨a, o⟩ := p
  cases o with
  | none => exact shows_none
  | some y => exact preference_shows (this.2 y.1 y.2 rfl).2

theorem dir_shows {x : DirSyn} (hx : x.Ok) {r : GVal × List Note} (h : DirBecomes e x r) : Shows d e r.1 x.texts := by
  refine settled_shows (by decide) hx.1 (fun a ns ha => ?_) h
  refine free_shows (w := x.value.map Prod.snd) (fun y hy => ?_) hstsArg_quiet (by simpa [Function.comp_def] using ha)
  obtain ⟨v, hv, rfl⟩ := Option.map_eq_some_iff.mp hy
  obtain ⟨⟨a, b⟩, w⟩ := v
  exact (hx.2 a b w hv).2.2

theorem dirs_ok {x : HstsSyn} (hx : x.Ok) : ∀ y ∈ x.dirs, y.Ok := by
  intro y hy
  obtain ⟨o, ho, rfl⟩ := List.mem_filterMap.mp hy
  rcases List.mem_cons.mp ho with h | h
  · exact hx.1 y h.symm
  · exact semi_elems hx.2 _ h y rfl

end Httpolice.Lemmas
