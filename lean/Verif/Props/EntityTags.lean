import Verif.Lemmas.EntityTags
import Verif.Props.Dates
import Verif.Props.Reads

/-!
# C72: entity tags and conditional requests
-/

namespace Httpolice.Props

open Httpolice.Model Httpolice.Spec Httpolice.Lemmas

/-! ## Texts determine what is written -/

theorem days_begin (k : Nat) (hk : k < 7) (l : Str) :
    (∃ c d r, shortDays.getD k [] ++ l = c :: d :: r ∧ (65 ≤ c ∧ c ≤ 90) ∧ 97 ≤ d ∧ d ≤ 122) ∧
    ∃ c d r, longDays.getD k [] ++ l = c :: d :: r ∧ (65 ≤ c ∧ c ≤ 90) ∧ 97 ≤ d ∧ d ≤ 122 := by
  have key : ∀ w : Str, 2 ≤ w.length → (65 ≤ w.getD 0 0 ∧ w.getD 0 0 ≤ 90) → (97 ≤ w.getD 1 0 ∧ w.getD 1 0 ≤ 122) →
      ∃ c d r, w ++ l = c :: d :: r ∧ (65 ≤ c ∧ c ≤ 90) ∧ 97 ≤ d ∧ d ≤ 122 := by
    intro w h1 h2 h3
    match w, h1 with
    | c :: d :: r, _ => exact ⟨c, d, r ++ l, rfl, h2, h3⟩
  have h1 : ∀ k, k < 7 → 2 ≤ (shortDays.getD k []).length ∧
      (65 ≤ (shortDays.getD k []).getD 0 0 ∧ (shortDays.getD k []).getD 0 0 ≤ 90) ∧
      (97 ≤ (shortDays.getD k []).getD 1 0 ∧ (shortDays.getD k []).getD 1 0 ≤ 122) := by decide +kernel
  have h2 : ∀ k, k < 7 → 2 ≤ (longDays.getD k []).length ∧
      (65 ≤ (longDays.getD k []).getD 0 0 ∧ (longDays.getD k []).getD 0 0 ≤ 90) ∧
      (97 ≤ (longDays.getD k []).getD 1 0 ∧ (longDays.getD k []).getD 1 0 ≤ 122) := by decide +kernel
  obtain ⟨a1, a2, a3⟩ := h1 k hk
  obtain ⟨b1, b2, b3⟩ := h2 k hk
  exact ⟨key _ a1 a2 a3, key _ b1 b2 b3⟩

/-- Dates begin with a capital and a small letter. -/
theorem stamp_begins {x : Stamp} {f : DateFormat} (hx : x.Fits f) :
    ∃ c d r, x.text f = c :: d :: r ∧ (65 ≤ c ∧ c ≤ 90) ∧ 97 ≤ d ∧ d ≤ 122 := by
  have hk := hx.1
  cases f with
  | rfc850 =>
    simp only [Stamp.text, List.append_assoc]
    exact (days_begin _ hk _).2
  | _ =>
    simp only [Stamp.text, List.append_assoc]
    exact (days_begin _ hk _).1

theorem tag_not_stamp {x : EntityTag} {y : Stamp} {f : DateFormat} (hy : y.Fits f) : x.text ≠ y.text f := by
  intro e
  obtain ⟨c, d, r, e2, h1, h2⟩ := stamp_begins hy
  rw [e2] at e
  unfold EntityTag.text at e
  rw [quote_eq, weak_eq] at e
  cases hw : x.weak with
  | false =>
    rw [hw] at e
    have := (List.cons.inj e).1
    omega
  | true =>
    rw [hw] at e
    have := (List.cons.inj (List.cons.inj e).2).1
    omega

theorem ifRange_inj (x y : IfRangeSyn) (hx : x.Ok) (hy : y.Ok) (e : x.text = y.text) : x = y := by
  cases x with
  | tag a =>
    cases y with
    | tag b => rw [uniq_tag.inj trivial hx hy e]
    | date f b => exact absurd e (tag_not_stamp hy)
  | date f a =>
    cases y with
    | tag b => exact absurd (Eq.symm e) (tag_not_stamp hx)
    | date g b =>
      obtain ⟨rfl, rfl⟩ := C48_unambiguous hx hy e
      rfl

/-- Dates. -/
theorem httpDate_tab : httpDateD = tabD (fun x : DateFormat × Stamp => x.2.Fits x.1) (fun x => x.2.text x.1)
    (fun x => [x.2.value]) (fun x => x.2.notes x.1) :=
  tab_iff (fun a h => ⟨a, h.2, rfl, rfl, rfl⟩) (fun a h => ⟨a, ⟨trivial, h⟩, rfl, rfl, rfl⟩)

theorem httpDate_inj (x y : DateFormat × Stamp) (hx : x.2.Fits x.1) (hy : y.2.Fits y.1) (e : x.2.text x.1 = y.2.text y.1) :
    x = y := by
  obtain ⟨h1, h2⟩ := C48_unambiguous hx hy e
  exact Prod.ext h1 h2

/-! ## Parsing -/

section
variable {env : TagName → Sym} {h h' : PyHeap}

/-- **C72**: ETag. -/
theorem C72_etag (hb : Builds true Heap.init h) (later : Builds true (runDefs env h tagDefs).2 h') (ann : GVal → Bool) :
    ∃ k, (runDefs env h tagDefs).1 .etag = .nt k ∧
      Reads (fun data => innerParse h'.grammar (pyOps ann) data k) EntityTag.Ok EntityTag.text EntityTag.value
        EntityTag.notes :=
  module_reads hb tags_solve (by decide +kernel) rfl (fun _ _ hx hy e => uniq_tag.inj trivial hx hy e) later ann

/-- **C72**: If-Match. -/
theorem C72_if_match (hb : Builds true Heap.init h) (later : Builds true (runDefs env h tagDefs).2 h')
    (ann : GVal → Bool) :
    ∃ k, (runDefs env h tagDefs).1 .ifMatch = .nt k ∧
      Reads (fun data => innerParse h'.grammar (pyOps ann) data k) MatchSyn.Ok MatchSyn.text MatchSyn.value MatchSyn.notes :=
  module_reads hb tags_solve (by decide +kernel) rfl match_inj later ann

/-- **C72**: If-None-Match. -/
theorem C72_if_none_match (hb : Builds true Heap.init h) (later : Builds true (runDefs env h tagDefs).2 h')
    (ann : GVal → Bool) :
    ∃ k, (runDefs env h tagDefs).1 .ifNoneMatch = .nt k ∧
      Reads (fun data => innerParse h'.grammar (pyOps ann) data k) MatchSyn.Ok MatchSyn.text MatchSyn.value MatchSyn.notes :=
  module_reads hb tags_solve (by decide +kernel) rfl match_inj later ann

/-- **C72**: Last-Modified, If-Modified-Since and If-Unmodified-Since. -/
theorem C72_dates (hb : Builds true Heap.init h) (later : Builds true (runDefs env h tagDefs).2 h') (ann : GVal → Bool)
    {n : TagName} (hn : n = .lastModified ∨ n = .ifModifiedSince ∨ n = .ifUnmodifiedSince) :
    ∃ k, (runDefs env h tagDefs).1 n = .nt k ∧
      Reads (fun data => innerParse h'.grammar (pyOps ann) data k) (fun x : DateFormat × Stamp => x.2.Fits x.1)
        (fun x => x.2.text x.1) (fun x => x.2.value) (fun x => x.2.notes x.1) := by
  have : (n ∈ tagDefs.map Prod.fst ∧ n ∈ compounds [] tagDefs) ∧ tagD n = httpDateD := by
    rcases hn with rfl | rfl | rfl <;> exact ⟨by decide +kernel, rfl⟩
  exact module_reads hb tags_solve this.1 (this.2.trans httpDate_tab) httpDate_inj later ann

/-- **C72**: If-Range. -/
theorem C72_if_range (hb : Builds true Heap.init h) (later : Builds true (runDefs env h tagDefs).2 h')
    (ann : GVal → Bool) :
    ∃ k, (runDefs env h tagDefs).1 .ifRange = .nt k ∧
      Reads (fun data => innerParse h'.grammar (pyOps ann) data k) IfRangeSyn.Ok IfRangeSyn.text IfRangeSyn.value
        IfRangeSyn.notes :=
  module_reads hb tags_solve (by decide +kernel) rfl ifRange_inj later ann

end

/-- **C72**: a weak tag and a strong one are different values, and so are tags with different text. -/
theorem C72_values {x y : EntityTag} (e : x.value = y.value) : x = y := by
  obtain ⟨p, a⟩ := x
  obtain ⟨q, b⟩ := y
  simp only [EntityTag.value, GVal.obj.injEq, List.cons.injEq, and_true, true_and, GVal.text.injEq] at e
  obtain ⟨e1, e2⟩ := e
  have e3 : a = b := List.append_cancel_left (List.append_cancel_right e2)
  have hs : str "True" ≠ str "False" := by decide +kernel
  have e4 : p = q := by
    cases p <;> cases q
    · rfl
    · exact absurd (Eq.symm e1) hs
    · exact absurd e1 hs
    · rfl
  rw [e3, e4]

/-! ## Examples -/

/-- The grammar, with nothing built before or after. -/
def tagHeap : PyHeap := (loadDefs tagDefs).2

/-- The number of a name. -/
def tagNumber (n : TagName) : Option Nat := halvesNumber ((loadDefs tagDefs).1 n)

/-- `W/"a\b",, "c,d"` -/
def someTags : MatchSyn := .tags ⟨[], ⟨true, str "a\\b"⟩, [([], none), ([], some (str " ", ⟨false, str "c,d"⟩))]⟩

example : someTags.Ok ∧ someTags.text = str "W/\"a\\b\",, \"c,d\"" := by
  refine ⟨⟨nofun, by decide +kernel, fun x hx => ?_⟩, by decide +kernel⟩
  simp only [List.mem_cons, List.not_mem_nil, or_false] at hx
  rcases hx with rfl | rfl
  · exact ⟨nofun, trivial⟩
  · exact ⟨nofun, fun c hc => by simp [str] at hc; exact .inl hc, by show EntityTag.Ok _; decide +kernel⟩

example : someTags.notes.map Prod.fst = [1119, 1151] ∧ render someTags.value =
    render (.list [EntityTag.value ⟨true, str "a\\b"⟩, EntityTag.value ⟨false, str "c,d"⟩]) :=
  ⟨by decide +kernel, by decide +kernel⟩

/-- The conditions of the theorems. -/
example : Builds true Heap.init Heap.init ∧ Builds true tagHeap tagHeap := ⟨.refl, .refl⟩

/-- The module without dates, which is enough to look at tags. -/
def tagsOnly : List (TagName × Defn TagName) := tagDefs.drop dateDefs.length

/-- The grammar of tags. -/
def onlyHeap : PyHeap := (loadDefs tagsOnly).2

example : halvesNumber ((loadDefs tagsOnly).1 .ifMatch) = some 49 := by decide +kernel

example : shown (innerParse onlyHeap.grammar (pyOps fun _ => false) (str "W/\"a\\b\",, \"c,d\"") 49) =
    some (some (render someTags.value), [1119, 1151]) := by decide +kernel

example : shown (innerParse onlyHeap.grammar (pyOps fun _ => false) (str "w/\"x\"") 49) = none := by decide +kernel

example : shown (innerParse onlyHeap.grammar (pyOps fun _ => false) (str "*") 49) = some (some (render MatchSyn.any.value), []) := by
  decide +kernel

end Httpolice.Props
