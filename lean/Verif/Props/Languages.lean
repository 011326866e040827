import Verif.Lemmas.Languages
import Verif.Props.Preferences

/-!
# C81: languages
-/

namespace Httpolice.Props

open Httpolice.Model Httpolice.Spec Httpolice.Lemmas

theorem lang_shapes {order : List Nat → List Nat} : shapes (langDefs order) = shapes (langDefs id) := rfl

section
variable {order : List Nat → List Nat} (ho : ∀ l c, c ∈ order l ↔ c ∈ l) {env : LangName → Sym} {h h' : PyHeap}
  (hb : Builds true Heap.init h) (later : Builds true (runDefs env h (langDefs order)).2 h') (ann : GVal → Bool)
include ho hb later

/-- **C81**: tags of languages. -/
theorem C81_language_tag : ∃ k, (runDefs env h (langDefs order)).1 .languageTag = .nt k ∧
    Reads (fun data => innerParse h'.grammar (pyOps ann) data k) IsLanguageTag (fun w => w) (nameValue (str "LanguageTag"))
      (fun _ => []) :=
  module_reads hb (langs_solve ho) (known_shapes lang_shapes (by decide +kernel)) rfl (fun _ _ _ _ e => e) later ann

/-- **C81**: ranges of languages. -/
theorem C81_language_range : ∃ k, (runDefs env h (langDefs order)).1 .languageRange = .nt k ∧
    Reads (fun data => innerParse h'.grammar (pyOps ann) data k) IsLanguageRange (fun w => w) (nameValue (str "CaseInsensitive"))
      (fun _ => []) :=
  module_reads hb (langs_solve ho) (known_shapes lang_shapes (by decide +kernel)) rfl (fun _ _ _ _ e => e) later ann

/-- **C81**: Accept-Language. -/
theorem C81_accept_language : ∃ k, (runDefs env h (langDefs order)).1 .acceptLanguage = .nt k ∧
    Reads (fun data => innerParse h'.grammar (pyOps ann) data k) (List1Syn.Ok RankedSyn.LanguageOk) (List1Syn.text RankedSyn.text)
      (List1Syn.value RankedSyn.languageRange) (List1Syn.notes fun _ => []) :=
  module_reads hb (langs_solve ho) (known_shapes lang_shapes (by decide +kernel)) rfl
    (fun x y hx hy e => rankeds1_inj x y (list1_mono (fun _ h => ⟨range_token h.1, h.2⟩) hx)
      (list1_mono (fun _ h => ⟨range_token h.1, h.2⟩) hy) e) later ann

/-- **C81**: Content-Language. -/
theorem C81_content_language : ∃ k, (runDefs env h (langDefs order)).1 .contentLanguage = .nt k ∧
    Reads (fun data => innerParse h'.grammar (pyOps ann) data k) (List1Syn.Ok IsLanguageTag) (List1Syn.text fun w => w)
      (List1Syn.value (nameValue (str "LanguageTag"))) (List1Syn.notes fun _ => []) :=
  module_reads hb (langs_solve ho) (known_shapes lang_shapes (by decide +kernel)) rfl
    (fun x y hx hy e => names_inj x y (list1_mono (fun _ h => range_token (tag_range h)) hx)
      (list1_mono (fun _ h => range_token (tag_range h)) hy) e) later ann

end

/-- **C81**: whatever can be in Content-Language can be asked for in Accept-Language. -/
theorem C81_asked {w : Str} (h : IsLanguageTag w) : IsLanguageRange w ∧ IsToken w :=
  ⟨tag_range h, range_token (tag_range h)⟩

/-! ## Examples -/

/-- The conditions of the theorems. -/
example : (∀ (l : List Nat) c, c ∈ id l ↔ c ∈ l) ∧ Builds true Heap.init Heap.init := ⟨fun _ _ => Iff.rfl, .refl⟩

/-- `zh-cmn-Hans-CN-1996-a-bb-x-c` -/
def someTag : TagSyn :=
  ⟨str "zh", [str "cmn"], some (str "Hans"), some (str "CN"), [str "1996"], [(97, [str "bb"])], some (str "x-c")⟩

theorem someTag_ok : someTag.Ok where
  language := by unfold IsLetters IsLetter; decide +kernel
  extlangs := by unfold IsLetters IsLetter; decide +kernel
  few := by decide +kernel
  script := by rintro _ ⟨⟩; unfold IsLetters IsLetter; decide +kernel
  region := by rintro _ ⟨⟩; refine .inl ?_; unfold IsLetters IsLetter; decide +kernel
  variants := by
    intro w hw
    obtain rfl := List.mem_singleton.mp hw
    exact ⟨by unfold IsAlnums IsLetter IsDigit; decide +kernel, fun _ => ⟨49, by decide +kernel, by unfold IsDigit; decide⟩⟩
  extensions := by unfold IsAlnums IsLetter IsDigit; decide +kernel
  privateUse := by
    rintro _ ⟨⟩
    exact ⟨120, [str "c"], .inl rfl, nofun, by unfold IsAlnums IsLetter IsDigit; decide +kernel, by decide +kernel⟩

example : IsLanguageTag (str "zh-cmn-Hans-CN-1996-a-bb-x-c") := .inl ⟨someTag, someTag_ok, by decide +kernel⟩

example : IsLanguageTag (str "I-Klingon") := .inr (.inr ⟨str "i-klingon", by decide +kernel, by decide +kernel⟩)

/-- Not every token is a tag, nor is every range. -/
example : IsLanguageRange (str "a-b") ∧ IsLanguageRange (str "*") :=
  ⟨.inr ⟨str "a", [str "b"], by unfold IsLetters IsLetter; decide +kernel, by unfold IsAlnums IsLetter IsDigit; decide +kernel,
    by decide +kernel⟩, .inl rfl⟩

/-- What is needed for Accept-Language. -/
def onlyAcceptLanguage : List (LangName × Defn LangName) := (langDefs id).filter fun x =>
  x.1 ∈ [.sem (.hop (.str .ows)), .sem .qvalue, .sem .weight, .languageRange, .acceptLanguages, .acceptLanguage]

example : halvesNumber ((loadDefs onlyAcceptLanguage).1 .acceptLanguage) = some 178 := by decide +kernel

example : shown (innerParse (loadDefs onlyAcceptLanguage).2.grammar (pyOps fun _ => false) (str "a-1;q=0") 178) =
    some (some (render (.list [RankedSyn.languageRange ⟨str "a-1", some ⟨[], [], str "q=", ⟨false, none⟩⟩⟩])), []) := by
  decide +kernel

/-- What is needed for tags for private use. -/
def onlyPrivateUse : List (LangName × Defn LangName) := (langDefs id).filter fun x => x.1 ∈ [.privateuse]

example : halvesNumber ((loadDefs onlyPrivateUse).1 .privateuse) = some 54 ∧
    shown (innerParse (loadDefs onlyPrivateUse).2.grammar (pyOps fun _ => false) (str "X-a-1") 54) =
      some (some (render (.text (str "X-a-1"))), []) ∧
    shown (innerParse (loadDefs onlyPrivateUse).2.grammar (pyOps fun _ => false) (str "x-") 54) = none :=
  ⟨by decide +kernel, by decide +kernel, by decide +kernel⟩

end Httpolice.Props
