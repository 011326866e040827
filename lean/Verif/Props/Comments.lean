import Verif.Lemmas.CommentsText
import Verif.Props.Languages

/-!
# C84: comments, and the headers with products, hosts and warnings
-/

namespace Httpolice.Props

open Httpolice.Model Httpolice.Spec Httpolice.Lemmas

set_option maxRecDepth 10000 in
theorem comment_shapes {order : List Nat → List Nat} : shapes (commentDefs order) = shapes (commentDefs id) := rfl

section
variable {order : List Nat → List Nat} (ho : ∀ l c, c ∈ order l ↔ c ∈ l) {env : CommentName → Sym} {h h' : PyHeap}
  (hb : Builds true Heap.init h) (later : Builds true (runDefs env h (commentDefs order)).2 h') (ann : GVal → Bool)
include ho hb later

/-- **C84**: comments, with any depth of comments inside. -/
theorem C84_comment (u : CommentUse) : ∃ k, (runDefs env h (commentDefs order)).1 (.comment u) = .nt k ∧
    Reads (fun data => innerParse h'.grammar (pyOps ann) data k) Remarks.Ok Remarks.text (fun r => .text r.content)
      Remarks.notes :=
  module_reads hb (comments_solve ho) (known_shapes comment_shapes (by cases u <;> decide +kernel)) rfl
    (fun _ _ h1 h2 e => uniq_comment.inj trivial h1 h2 e) later ann

/-- **C84**: User-Agent. -/
theorem C84_user_agent : ∃ k, (runDefs env h (commentDefs order)).1 .userAgent = .nt k ∧
    Reads (fun data => innerParse h'.grammar (pyOps ann) data k) Products.Ok Products.text Products.value Products.notes :=
  module_reads hb (comments_solve ho) (known_shapes comment_shapes (by decide +kernel)) rfl products_inj later ann

/-- **C84**: Server. -/
theorem C84_server : ∃ k, (runDefs env h (commentDefs order)).1 .server = .nt k ∧
    Reads (fun data => innerParse h'.grammar (pyOps ann) data k) Products.Ok Products.text Products.value Products.notes :=
  module_reads hb (comments_solve ho) (known_shapes comment_shapes (by decide +kernel)) rfl products_inj later ann

/-- **C84**: Via. Names of hosts may be empty, and may have commas and parentheses in them, so some texts can be understood in
several ways. -/
theorem C84_via : ∃ k, (runDefs env h (commentDefs order)).1 .via = .nt k ∧
    ReadsSome (fun data => innerParse h'.grammar (pyOps ann) data k) (List1Syn.Ok Hop.Ok) (List1Syn.text Hop.text)
      (List1Syn.value Hop.value) (List1Syn.notes Hop.notes) :=
  module_some hb (comments_solve ho) (known_shapes comment_shapes (by decide +kernel)) rfl later ann

/-- **C84**: Warning. -/
theorem C84_warning : ∃ k, (runDefs env h (commentDefs order)).1 .warning = .nt k ∧
    Reads (fun data => innerParse h'.grammar (pyOps ann) data k) (List1Syn.Ok WarningSyn.Ok) (List1Syn.text WarningSyn.text)
      (List1Syn.value WarningSyn.value) (List1Syn.notes WarningSyn.notes) :=
  module_reads hb (comments_solve ho) (known_shapes comment_shapes (by decide +kernel)) rfl
    (fun _ _ h1 h2 e => (uniq_list1 (uniq_warning httpDate_inj) (fun _ h => h) (fun _ => warning_begins)).inj rfl h1 h2 e)
    later ann

end

/-! ## Some cases -/

/-- `(a (b) \(\c)`: only the second backslash is needless. -/
def someRemarks : Remarks :=
  .plain 97 (.plain 32 (.comment (.plain 98 .done) (.plain 32 (.escaped 40 (.escaped 99 .done)))))

example : someRemarks.Ok ∧ someRemarks.text = str "(a (b) \\(\\c)" ∧ someRemarks.content = str "a (b) (c" ∧
    someRemarks.notes.map Prod.fst = [1017] := by
  refine ⟨?_, by decide +kernel, by decide +kernel, by decide +kernel⟩
  simp [someRemarks, Remarks.Ok]

/-- What is needed for User-Agent. -/
def onlyAgent : List (CommentName × Defn CommentName) := (commentDefs id).filter fun x =>
  x.1 ∈ [.cache (.hop (.str .token)), .cache (.hop (.str .rws)), .productVersion, .product, .pair .userAgent, .inner .userAgent,
    .comment .userAgent, .userAgent]

/-- `x/1 (a (b) \(\c)  y`. -/
def someProducts : Products := ⟨⟨str "x", some (str "1")⟩, [([32], .comment someRemarks), ([32, 32], .product ⟨str "y", none⟩)]⟩

example : someProducts.Ok ∧ someProducts.text = str "x/1 (a (b) \\(\\c)  y" := by
  refine ⟨⟨⟨isToken_bits (by decide +kernel), fun v e => by cases e; exact isToken_bits (by decide +kernel)⟩, ?_⟩, by decide +kernel⟩
  intro y hy
  simp only [someProducts, List.mem_cons, List.not_mem_nil, or_false] at hy
  rcases hy with rfl | rfl
  · refine ⟨⟨nofun, fun c hc => .inl (List.mem_singleton.mp hc)⟩, ?_⟩
    simp [ProductPart.Ok, someRemarks, Remarks.Ok]
  · exact ⟨⟨nofun, fun c hc => .inl (by simpa using hc)⟩, isToken_bits (by decide +kernel), nofun⟩

example : halvesNumber ((loadDefs onlyAgent).1 .userAgent) = some 54 := by decide +kernel

example : shown (innerParse (loadDefs onlyAgent).2.grammar (pyOps fun _ => false) someProducts.text 54) =
    some (some (render someProducts.value), [1017, 1014]) := by decide +kernel

/-- Not closed. -/
example : shown (innerParse (loadDefs onlyAgent).2.grammar (pyOps fun _ => false) (str "x (a(b)") 54) = none := by decide +kernel

/-- What is needed for Warning, but for the names of hosts: they are tokens. -/
def onlyWarning : List (CommentName × Defn CommentName) :=
  ((commentDefs id).filter fun x =>
    x.1 ∈ [.cache (.hop (.str .token)), .cache (.hop (.str .ows)), .cache (.hop (.str .pair)), .cache (.hop (.str .quoted))] ||
      (match x.1 with | .cache (.date _) => true | _ => false)) ++
  [(.uri .host, .named true (.cms .token)), (.uri .port, .named true (.cms .token))] ++
  ((commentDefs id).filter fun x => x.1 ∈ [.pseudonym, .warnCode, .warnAgent, .warnText, .warnDate, .warningValue, .warnings,
    .warning])

/-- `199 x "y" "Sat, 01 Jan 2000 00:00:00 GMT"`. -/
def someWarning : WarningSyn := ⟨str "199", str "x", [.plain 121], some (.imf, ⟨5, 2000, 1, 1, 0, 0, 0⟩)⟩

example : someWarning.Ok ∧ someWarning.text = str "199 x \"y\" \"Sat, 01 Jan 2000 00:00:00 GMT\"" := by
  refine ⟨⟨by decide +kernel, .inr (isToken_bits (by decide +kernel)), ?_, ?_⟩, by decide +kernel⟩
  · intro c hc
    simp only [someWarning, List.mem_singleton] at hc
    subst hc
    exact of_decide_eq_true (Eq.refl true)
  · intro f d e
    cases e
    decide +kernel

example : shown (innerParse (loadDefs onlyWarning).2.grammar (pyOps fun _ => false) someWarning.text 322) =
    some (some (render (.list [someWarning.value])), []) := by decide +kernel

/-- What is needed for Via, again with tokens. -/
def onlyVia : List (CommentName × Defn CommentName) :=
  ((commentDefs id).filter fun x => x.1 ∈ [.cache (.hop (.str .token)), .cache (.hop (.str .ows)), .cache (.hop (.str .rws)),
    .cache (.hop .protocolName), .cache (.hop .protocolVersion)]) ++
  [(.uri .host, .named true (.cms .token)), (.uri .port, .named true (.cms .token))] ++
  ((commentDefs id).filter fun x => x.1 ∈ [.pair .via, .inner .via, .comment .via, .receivedProtocol, .pseudonym, .receivedBy,
    .viaItems, .via])

/-- `1.1 a, SPDY/3 b (c)`. -/
def someHops : List1Syn Hop := ⟨[], ⟨none, str "1.1", [32], str "a", none⟩,
  [([], some ([32], ⟨some (str "SPDY"), str "3", [32], str "b", some ([32], .plain 99 .done)⟩))]⟩

example : someHops.text Hop.text = str "1.1 a, SPDY/3 b (c)" := by decide +kernel

example : shown (innerParse (loadDefs onlyVia).2.grammar (pyOps fun _ => false) (someHops.text Hop.text) 94) =
    some (some (render (someHops.value Hop.value)), []) := by decide +kernel

/-- One that can be understood in two ways: the host is `(x)`, or there is no name of the host, and a comment. -/
example : Hop.Ok ⟨none, str "1.1", [32, 32], str "(x)", none⟩ ∧ Hop.Ok ⟨none, str "1.1", [32], [], some ([32], .plain 120 .done)⟩ ∧
    Hop.text ⟨none, str "1.1", [32, 32], str "(x)", none⟩ = Hop.text ⟨none, str "1.1", [32], [], some ([32], .plain 120 .done)⟩ := by
  have sp : IsRws [32] := ⟨nofun, fun c hc => .inl (List.mem_singleton.mp hc)⟩
  refine ⟨⟨nofun, isToken_bits (by decide +kernel), ⟨nofun, fun c hc => .inl (by simpa using hc)⟩, .inl ⟨str "(x)", none, .inr ?_, nofun, rfl⟩, nofun⟩,
    ⟨nofun, isToken_bits (by decide +kernel), sp, .inl ⟨[], none, .inr ?_, nofun, rfl⟩, ?_⟩, by decide +kernel⟩
  · refine .char (.inr (by unfold SubDelim; decide +kernel)) (.char (.inl (.inl (by unfold IsLetter; decide)))
      (.char (.inr (by unfold SubDelim; decide +kernel)) .nil))
  · exact .nil
  · intro s r e
    cases e
    exact ⟨sp, by simp [Remarks.Ok]⟩

end Httpolice.Props
