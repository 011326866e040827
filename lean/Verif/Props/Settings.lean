import Verif.Lemmas.Settings
import Verif.Props.EntityTags

/-!
# C74: headers for caches
-/

namespace Httpolice.Props

open Httpolice.Model Httpolice.Spec Httpolice.Lemmas

section
variable {order : List Nat → List Nat} (ho : ∀ l c, c ∈ order l ↔ c ∈ l) {env : CacheName → Sym} {h h' : PyHeap}
  (hb : Builds true Heap.init h) (later : Builds true (runDefs env h (cacheDefs order)).2 h') (ann : GVal → Bool)
include ho hb later

/-- **C74**: Cache-Control. -/
theorem C74_cache_control : ∃ k, (runDefs env h (cacheDefs order)).1 .cacheControl = .nt k ∧
    Reads (fun data => innerParse h'.grammar (pyOps ann) data k) (List1Syn.Ok (Setting.Ok IsToken))
      (List1Syn.text Setting.text) (List1Syn.value Setting.directive) (List1Syn.notes Setting.notes) :=
  module_reads hb (caches_solve ho) (by exact of_decide_eq_true (Eq.refl true)) rfl settings_inj later ann

/-- **C74**: Pragma. -/
theorem C74_pragma : ∃ k, (runDefs env h (cacheDefs order)).1 .pragma = .nt k ∧
    Reads (fun data => innerParse h'.grammar (pyOps ann) data k) (List1Syn.Ok PragmaSyn.Ok)
      (List1Syn.text PragmaSyn.text) (List1Syn.value PragmaSyn.value) (List1Syn.notes PragmaSyn.notes) :=
  module_reads hb (caches_solve ho) (by exact of_decide_eq_true (Eq.refl true)) rfl pragmas_inj later ann

/-- **C74**: the values of the directives `no-cache` and `private`. -/
theorem C74_field_names {n : CacheName} (hn : n = .noCache ∨ n = .private_) :
    ∃ k, (runDefs env h (cacheDefs order)).1 n = .nt k ∧
      Reads (fun data => innerParse h'.grammar (pyOps ann) data k) (ListSyn.Ok IsToken) (ListSyn.text fun w => w)
        (ListSyn.value (nameValue (str "FieldName"))) (ListSyn.notes fun _ => []) := by
  rcases hn with rfl | rfl
  · exact module_reads hb (caches_solve ho) (by exact of_decide_eq_true (Eq.refl true)) rfl nameList_inj later ann
  · exact module_reads hb (caches_solve ho) (by exact of_decide_eq_true (Eq.refl true)) rfl nameList_inj later ann

/-- **C74**: Age, and the values of the directives that are in seconds. -/
theorem C74_seconds {n : CacheName} (hn : n = .age ∨ n = .deltaSeconds) :
    ∃ k, (runDefs env h (cacheDefs order)).1 n = .nt k ∧
      Reads (fun data => innerParse h'.grammar (pyOps ann) data k) IsNumeral (fun w => w) (fun w => .int (numeral w))
        (fun _ => []) := by
  rcases hn with rfl | rfl
  · exact module_reads hb (caches_solve ho) (by exact of_decide_eq_true (Eq.refl true)) rfl (fun _ _ _ _ e => e) later ann
  · exact module_reads hb (caches_solve ho) (by exact of_decide_eq_true (Eq.refl true)) rfl (fun _ _ _ _ e => e) later ann

/-- **C74**: Expires. -/
theorem C74_expires : ∃ k, (runDefs env h (cacheDefs order)).1 .expires = .nt k ∧
    Reads (fun data => innerParse h'.grammar (pyOps ann) data k) (fun x : DateFormat × Stamp => x.2.Fits x.1)
      (fun x => x.2.text x.1) (fun x => x.2.value) (fun x => x.2.notes x.1) :=
  module_reads (n := .expires) hb (caches_solve ho) (by exact of_decide_eq_true (Eq.refl true)) httpDate_tab httpDate_inj later ann

end

/-! ## Examples -/

/-- `No-Cache="Foo, \Bar", max-age=5` -/
def someDirectives : List1Syn Setting := ⟨[], ⟨str "No-Cache", some (.quoted
  [.plain 70, .plain 111, .plain 111, .plain 44, .plain 32, .escaped 66, .plain 97, .plain 114])⟩,
  [([], some (str " ", ⟨str "max-age", some (.token (str "5"))⟩))]⟩

theorem isToken_bits {w : Str} (h : w ≠ [] ∧ ∀ c ∈ w, tcharBits c = true) : IsToken w :=
  ⟨h.1, fun c hc => (tchar_iff c).mp (h.2 c hc)⟩

example : someDirectives.Ok (Setting.Ok IsToken) := by
  refine ⟨nofun, ⟨isToken_bits (by decide +kernel), ?_⟩, fun x hx => ?_⟩
  · rintro _ ⟨⟩
    show ∀ c ∈ _, QChar.Ok c
    decide +kernel
  · obtain rfl := List.mem_singleton.mp hx
    refine ⟨nofun, fun c hc => .inl (List.mem_singleton.mp hc), isToken_bits (by decide +kernel), ?_⟩
    rintro _ ⟨⟩
    exact isToken_bits (by decide +kernel)

example : someDirectives.text Setting.text = str "No-Cache=\"Foo, \\Bar\", max-age=5" ∧
    (someDirectives.notes Setting.notes).map Prod.fst = [1017] := ⟨by decide +kernel, by decide +kernel⟩

/-- The conditions of the theorems. -/
example : (∀ (l : List Nat) c, c ∈ id l ↔ c ∈ l) ∧ Builds true Heap.init Heap.init := ⟨fun _ _ => Iff.rfl, .refl⟩

/-- What is needed for Cache-Control. -/
def onlyCacheControl : List (CacheName × Defn CacheName) := (cacheDefs id).filter fun x =>
  x.1 ∈ [.hop (.str .token), .hop (.str .pair), .hop (.str .quoted), .hop (.str .ows), .cacheDirective, .cacheDirectives,
    .cacheControl]

/-- The grammar, with nothing built before or after. -/
def cacheHeap : PyHeap := (loadDefs onlyCacheControl).2

example : halvesNumber ((loadDefs onlyCacheControl).1 .cacheControl) = some 64 := by decide +kernel

example : shown (innerParse cacheHeap.grammar (pyOps fun _ => false) (str "No-Cache=\"F, \\B\", max-age=5") 64) =
    some (some (render (.list [Setting.directive ⟨str "No-Cache", some (.quoted [.plain 70, .plain 44, .plain 32, .plain 66])⟩,
      Setting.directive ⟨str "max-age", some (.token (str "5"))⟩])), [1017]) := by decide +kernel

end Httpolice.Props
