import Verif.Lemmas.ExtText
import Verif.Props.Languages
import Verif.Props.Links

/-!
# C82: encoded values, Content-Disposition and the values of parameters of links
-/

namespace Httpolice.Props

open Httpolice.Model Httpolice.Spec Httpolice.Lemmas

set_option maxRecDepth 10000 in
theorem ext_shapes {order : List Nat → List Nat} : shapes (extDefs order) = shapes (extDefs id) := rfl

/-- **C82**: Python decodes exactly what is in UTF-8. -/
theorem C82_utf8 (b : Str) : utf8Decodes b = true ↔ IsUtf8 b := utf8_decodes b

/-- **C82**: percent-encoding is undone. -/
theorem C82_unquote (l : List XChar) (h : ∀ c ∈ l, c.Ok) : unquote (l.flatMap XChar.text) = l.map XChar.byte := unquote_text h

section
variable {order : List Nat → List Nat} (ho : ∀ l c, c ∈ order l ↔ c ∈ l) {env : ExtName → Sym} {h h' : PyHeap}
  (hb : Builds true Heap.init h) (later : Builds true (runDefs env h (extDefs order)).2 h') (ann : GVal → Bool)
include ho hb later

/-- **C82**: encoded values. -/
theorem C82_ext_value : ∃ k, (runDefs env h (extDefs order)).1 .extValue = .nt k ∧
    Reads (fun data => innerParse h'.grammar (pyOps ann) data k) ExtSyn.Ok ExtSyn.text ExtSyn.value ExtSyn.notes :=
  module_reads hb (exts_solve ho) (known_shapes ext_shapes (by decide +kernel)) rfl ext_inj later ann

/-- **C82**: Content-Disposition. -/
theorem C82_content_disposition : ∃ k, (runDefs env h (extDefs order)).1 .contentDisposition = .nt k ∧
    Reads (fun data => innerParse h'.grammar (pyOps ann) data k) DispSyn.Ok DispSyn.text DispSyn.value DispSyn.notes :=
  module_reads hb (exts_solve ho) (known_shapes ext_shapes (by decide +kernel)) rfl disp_inj later ann

/-- **C82**: relations. -/
theorem C82_rel : ∃ k, (runDefs env h (extDefs order)).1 .rel = .nt k ∧
    Reads (fun data => innerParse h'.grammar (pyOps ann) data k) RelsSyn.Ok RelsSyn.text RelsSyn.value (fun _ => []) :=
  module_reads hb (exts_solve ho) (known_shapes ext_shapes (by decide +kernel)) rfl rels_inj later ann

/-- **C82**: media types of links. -/
theorem C82_type : ∃ k, (runDefs env h (extDefs order)).1 .linkType = .nt k ∧
    Reads (fun data => innerParse h'.grammar (pyOps ann) data k) IsLinkType (fun w => w) (nameValue (str "MediaType")) meantNotes :=
  module_reads hb (exts_solve ho) (known_shapes ext_shapes (by decide +kernel)) rfl (fun _ _ _ _ e => e) later ann

/-- **C82**: languages of links. -/
theorem C82_hreflang : ∃ k, (runDefs env h (extDefs order)).1 .hreflang = .nt k ∧
    Reads (fun data => innerParse h'.grammar (pyOps ann) data k) IsLanguageTag (fun w => w) (nameValue (str "LanguageTag"))
      (fun _ => []) :=
  module_reads hb (exts_solve ho) (known_shapes ext_shapes (by decide +kernel)) rfl (fun _ _ _ _ e => e) later ann

/-- **C82**: contexts of links. -/
theorem C82_anchor : ∃ k, (runDefs env h (extDefs order)).1 (.uri .uriReference) = .nt k ∧
    ReadsVerbatim (fun data => innerParse h'.grammar (pyOps ann) data k) IsUriReference :=
  module_reads hb (exts_solve ho) (known_shapes ext_shapes (by decide +kernel)) rfl (fun _ _ _ _ e => e) later ann

end

/-- The parsers for the values of parameters (the symbols in syntax/rfc8288.py 32-35). -/
def linkParser (env : ExtName → Sym) (h : PyHeap) (ann : GVal → Bool) : LinkParser := fun s data =>
  match env s.name with
  | .nt k => innerParse h.grammar (pyOps ann) data k
  | _ => .error .index

/-- **C82**: the parsers that `_process_params` gives the values to read exactly what they should. -/
theorem C82_parsers {order : List Nat → List Nat} (ho : ∀ l c, c ∈ order l ↔ c ∈ l) {env : ExtName → Sym} {h h' : PyHeap}
    (hb : Builds true Heap.init h) (later : Builds true (runDefs env h (extDefs order)).2 h') (ann : GVal → Bool)
    (s : LinkSymbol) (w : Str) :
    let P := linkParser (runDefs env h (extDefs order)).1 h' ann
    (∀ v ns, IsRead s w v ns → ∃ cs as, P s w = .ok (.val v, cs, as) ∧ cs.Perm ns) ∧
      ((∀ v ns, ¬ IsRead s w v ns) → ∃ e, P s w = .error (.parse e)) := by
  have main : ∀ {α : Type} {k : Nat} {Ok : α → Prop} {text : α → Str} {value : α → GVal} {notes : α → List PyComplaint},
      (runDefs env h (extDefs order)).1 s.name = .nt k →
      Reads (fun data => innerParse h'.grammar (pyOps ann) data k) Ok text value notes →
      (∀ w v ns, IsRead s w v ns ↔ ∃ x, Ok x ∧ w = text x ∧ v = value x ∧ ns = notes x) →
      (∀ v ns, IsRead s w v ns → ∃ cs as, linkParser (runDefs env h (extDefs order)).1 h' ann s w = .ok (.val v, cs, as) ∧ cs.Perm ns) ∧
        ((∀ v ns, ¬ IsRead s w v ns) → ∃ e, linkParser (runDefs env h (extDefs order)).1 h' ann s w = .error (.parse e)) := by
    intro α k Ok text value notes hk hr hi
    have hp : linkParser (runDefs env h (extDefs order)).1 h' ann s w = innerParse h'.grammar (pyOps ann) w k := by
      unfold linkParser
      rw [hk]
    rw [hp]
    refine ⟨fun v ns hv => ?_, fun hn => ?_⟩
    · obtain ⟨x, hx, rfl, rfl, rfl⟩ := (hi w v ns).mp hv
      exact hr.2 x hx
    · exact (hr.1 w).2.mpr fun ⟨x, hx, e⟩ => hn _ _ ((hi w _ _).mpr ⟨x, hx, e, rfl, rfl⟩)
  cases s with
  | uriReference =>
    obtain ⟨k, hk, hr⟩ := C82_anchor ho (env := env) hb later ann
    exact main hk hr fun w v ns => ⟨by intro q; cases q; exact ⟨_, by assumption, rfl, rfl, rfl⟩, by rintro ⟨w, h, rfl, rfl, rfl⟩; exact .anchor h⟩
  | rel =>
    obtain ⟨k, hk, hr⟩ := C82_rel ho (env := env) hb later ann
    exact main hk hr fun w v ns => ⟨by intro q; cases q; exact ⟨_, by assumption, rfl, rfl, rfl⟩, by rintro ⟨x, h, rfl, rfl, rfl⟩; exact .rel h⟩
  | rev =>
    obtain ⟨k, hk, hr⟩ := C82_rel ho (env := env) hb later ann
    exact main hk hr fun w v ns => ⟨by intro q; cases q; exact ⟨_, by assumption, rfl, rfl, rfl⟩, by rintro ⟨x, h, rfl, rfl, rfl⟩; exact .rev h⟩
  | hreflang =>
    obtain ⟨k, hk, hr⟩ := C82_hreflang ho (env := env) hb later ann
    exact main hk hr fun w v ns => ⟨by intro q; cases q; exact ⟨_, by assumption, rfl, rfl, rfl⟩, by rintro ⟨w, h, rfl, rfl, rfl⟩; exact .hreflang h⟩
  | type_ =>
    obtain ⟨k, hk, hr⟩ := C82_type ho (env := env) hb later ann
    exact main hk hr fun w v ns => ⟨by intro q; cases q; exact ⟨_, by assumption, rfl, rfl, rfl⟩, by rintro ⟨w, h, rfl, rfl, rfl⟩; exact .type_ h⟩
  | extValue =>
    obtain ⟨k, hk, hr⟩ := C82_ext_value ho (env := env) hb later ann
    exact main hk hr fun w v ns => ⟨by intro q; cases q; exact ⟨_, by assumption, rfl, rfl, rfl⟩, by rintro ⟨x, h, rfl, rfl, rfl⟩; exact .title h⟩

/-- **C82**: so the values of parameters that `_process_params` returns (`ReadAs` in C79) are those that are meant. -/
theorem C82_argument {order : List Nat → List Nat} (ho : ∀ l c, c ∈ order l ↔ c ∈ l) {env : ExtName → Sym} {h h' : PyHeap}
    (hb : Builds true Heap.init h) (later : Builds true (runDefs env h (extDefs order)).2 h') (ann : GVal → Bool)
    (s : LinkSymbol) (name w : Str) (v : GVal) (cs : List PyComplaint)
    (hr : ReadAs (linkParser (runDefs env h (extDefs order)).1 h' ann s) name w v cs) : ArgumentIs s name w v cs := by
  obtain ⟨h1, h2⟩ := C82_parsers ho (env := env) hb later ann s w
  by_cases hi : ∃ v' ns, IsRead s w v' ns
  · obtain ⟨v', ns, hv⟩ := hi
    obtain ⟨ds, as, hp, hd⟩ := h1 v' ns hv
    rcases hr with ⟨node, ds', as', e1, rfl, rfl⟩ | ⟨e, e1, _⟩
    · rw [hp] at e1
      cases e1
      exact .inl ⟨ns, ds, hv, hd, rfl⟩
    · rw [hp] at e1
      cases e1
  · have hn : ∀ v' ns, ¬ IsRead s w v' ns := fun v' ns hv => hi ⟨v', ns, hv⟩
    obtain ⟨e, he⟩ := h2 hn
    rcases hr with ⟨node, ds', as', e1, _⟩ | ⟨e', e1, rfl, rfl⟩
    · rw [he] at e1
      cases e1
    · rw [he] at e1
      cases e1
      exact .inr ⟨hn, rfl, e, rfl⟩

/-! ## Examples -/

/-- `UTF-8'en'%e2%82%ac%20rates`. -/
def someExt : ExtSyn := ⟨str "UTF-8", some (str "en"),
  [.percent 101 50, .percent 56 50, .percent 97 99, .percent 50 48, .plain 114, .plain 97, .plain 116, .plain 101, .plain 115]⟩

theorem someExt_ok : someExt.Ok where
  charset := by unfold IsCharsetName IsLetter IsDigit; decide +kernel
  language := by
    rintro _ ⟨⟩
    refine .inl ⟨⟨str "en", [], none, none, [], [], none⟩, ?_, by decide +kernel⟩
    constructor
    · unfold IsLetters IsLetter; decide +kernel
    all_goals first | nofun | decide +kernel
  chars := by
    intro c hc
    simp only [someExt, List.mem_cons, List.not_mem_nil, or_false] at hc
    rcases hc with rfl | rfl | rfl | rfl | rfl | rfl | rfl | rfl | rfl
    iterate 4 exact ⟨by unfold IsHexDigit IsDigit; decide +kernel, by unfold IsHexDigit IsDigit; decide +kernel⟩
    all_goals exact .inl (by unfold IsLetter; decide +kernel)

example : someExt.text = str "UTF-8'en'%e2%82%ac%20rates" ∧ someExt.bytes = utf8 0x20AC ++ str " rates" ∧
    unquote (someExt.chars.flatMap XChar.text) = someExt.bytes :=
  ⟨by decide +kernel, by decide +kernel, C82_unquote _ someExt_ok.chars⟩

/-- No complaint about it. -/
example : someExt.notes = [] := by
  have h1 : SameWord someExt.charset (str "UTF-8") := by decide +kernel
  have h2 : IsUtf8 someExt.bytes := ⟨0x20AC :: str " rates", by unfold IsScalar; decide +kernel, by decide +kernel⟩
  simp [ExtSyn.notes, h1, h2]

/-- A surrogate, an overlong form, a character cut short. -/
example : ¬ IsUtf8 [0xED, 0xA0, 0x80] ∧ ¬ IsUtf8 [0xC0, 0x80] ∧ ¬ IsUtf8 [0xC3] :=
  ⟨fun h => absurd ((C82_utf8 _).mpr h) (by decide +kernel), fun h => absurd ((C82_utf8 _).mpr h) (by decide +kernel),
    fun h => absurd ((C82_utf8 _).mpr h) (by decide +kernel)⟩

/-- `attachment; filename*=UTF-8'en'%e2%82%ac%20rates; Filename="b"`. -/
def someDisp : DispSyn := ⟨str "attachment", [(([], [32]), ⟨str "filename*", [], [], .ext someExt⟩),
  (([], [32]), ⟨str "Filename", [], [], .word (.quoted [.plain 98])⟩)]⟩

example : someDisp.Ok ∧ someDisp.text = str "attachment; filename*=UTF-8'en'%e2%82%ac%20rates; Filename=\"b\"" := by
  have sp : IsOws [32] := fun c hc => .inl (List.mem_singleton.mp hc)
  refine ⟨⟨isToken_bits (by decide +kernel), fun x hx => ?_⟩, by decide +kernel⟩
  simp only [someDisp, List.mem_cons, List.not_mem_nil, or_false] at hx
  rcases hx with rfl | rfl
  · exact ⟨⟨nofun, sp⟩, isToken_bits (by decide +kernel), nofun, nofun, someExt_ok, fun _ => by show SameWord _ _; decide +kernel,
      fun _ => trivial⟩
  · refine ⟨⟨nofun, sp⟩, isToken_bits (by decide +kernel), nofun, nofun, fun c hc => ?_, fun h => h.elim,
      fun h => absurd h (by decide +kernel)⟩
    obtain rfl := List.mem_singleton.mp hc
    unfold QChar.Ok
    decide +kernel

/-- What is needed for encoded values, with tags for private use only. -/
def onlyExt : List (ExtName × Defn ExtName) :=
  (.lang .languageTag, .named true (.ref (.lang .privateuse))) :: (extDefs id).filter fun x =>
    x.1 ∈ [.lang .privateuse, .mimeCharset, .charset, .pctEncoded, .valueChars, .extValue]

def utfExt : ExtSyn := ⟨str "utf-8", none, [.plain 97, .percent 99 51, .percent 66 67]⟩
def badExt : ExtSyn := ⟨str "utf-8", none, [.plain 97, .percent 99 51]⟩
def isoExt : ExtSyn := ⟨str "iso-8859-1", none, [.plain 97, .percent 99 51]⟩

example : halvesNumber ((loadDefs onlyExt).1 .extValue) = some 88 := by decide +kernel

example : shown (innerParse (loadDefs onlyExt).2.grammar (pyOps fun _ => false) utfExt.text 88) =
    some (some (render utfExt.value), []) := by decide +kernel

example : shown (innerParse (loadDefs onlyExt).2.grammar (pyOps fun _ => false) badExt.text 88) =
    some (some (render badExt.value), [1254]) := by decide +kernel

example : shown (innerParse (loadDefs onlyExt).2.grammar (pyOps fun _ => false) isoExt.text 88) =
    some (some (render isoExt.value), [1253]) := by decide +kernel

/-- What is needed for relations, but with registered names only. -/
def onlyRel : List (ExtName × Defn ExtName) := (extDefs id).filter fun x => x.1 ∈ [.regRelType, .relationType, .rel]

def someRels : RelsSyn := ⟨.name (str "next"), [(str "   ", .name (str "prev"))]⟩

example : halvesNumber ((loadDefs onlyRel).1 .rel) = some 27 ∧ someRels.text = str "next   prev" ∧
    shown (innerParse (loadDefs onlyRel).2.grammar (pyOps fun _ => false) someRels.text 27) =
      some (some (render someRels.value), []) := ⟨by decide +kernel, by decide +kernel, by decide +kernel⟩

end Httpolice.Props
