import Verif.Model.Header
import Verif.Spec.FirstReports
import Verif.Props.Memo

/-!
# C26, C27, C28, C29, C49, C52, C53: header views
-/

namespace Httpolice.Spec

open Httpolice.Model

/-- Entries with a given name, whatever the spelling. -/
def named (lower : Str → Str) (name : Str) (es : List Entry) : List Entry :=
  es.filter fun e => lower name = lower e.name

/-- The entries that contribute to the value of a header: those in the header section, then, unless
the header must not be sent in trailers, those in the trailer section. -/
def usable (lower : Str → Str) (bad : Bool) (m : Msg) (name : Str) : List Entry :=
  named lower name m.headers ++ if bad then [] else named lower name m.trailers

/-- The notices about individual entries: those of parsing each usable entry, and 1026 for each
trailer entry of a header that must not be sent in trailers. -/
def entryNotes {V : Type} (lower : Str → Str) (k : HeaderKind V) (m : Msg) (name : Str) :
    List Note :=
  (named lower name m.headers).flatMap (fun e => (k.parse e).2) ++
  (named lower name m.trailers).flatMap fun e =>
    if k.badForTrailer then [⟨1026, [e]⟩] else (k.parse e).2

end Httpolice.Spec

namespace Httpolice.Lemmas

open Httpolice.Model Httpolice.Spec

theorem zipIdx_filter_map {α : Type} (p : α → Bool) (l : List α) (n : Nat) :
    ((l.zipIdx n).filter fun ei => p ei.1).map Prod.fst = l.filter p := by
  induction l generalizing n with
  | nil => rfl
  | cons a l ih =>
    simp only [List.zipIdx_cons, List.filter_cons]
    split <;> simp [ih]

theorem preParseFrom_append {V : Type} (k : HeaderKind V) (a b : List (Bool × Nat × Entry)) :
    preParseFrom k (a ++ b) =
      ((preParseFrom k a).1 ++ (preParseFrom k b).1,
       (preParseFrom k a).2.1 ++ (preParseFrom k b).2.1,
       (preParseFrom k a).2.2 ++ (preParseFrom k b).2.2) := by
  induction a with
  | nil => simp [preParseFrom]
  | cons x a ih =>
    obtain ⟨t, i, e⟩ := x
    simp only [List.cons_append, preParseFrom, ih]
    split <;> simp

theorem preParseFrom_usable {V : Type} (k : HeaderKind V) (t : Bool) (h : (t && k.badForTrailer) = false)
    (l : List (Entry × Nat)) :
    preParseFrom k (l.map fun ei => (t, ei.2, ei.1)) =
      (l.map Prod.fst, (l.map Prod.fst).map (fun e => (k.parse e).1),
       (l.map Prod.fst).flatMap fun e => (k.parse e).2) := by
  induction l with
  | nil => simp [preParseFrom]
  | cons x l ih => simp [preParseFrom, ih, h]

theorem preParseFrom_bad {V : Type} (k : HeaderKind V) (h : k.badForTrailer = true)
    (l : List (Entry × Nat)) :
    preParseFrom k (l.map fun ei => (true, ei.2, ei.1)) =
      ([], [], (l.map Prod.fst).flatMap fun e => [⟨1026, [e]⟩]) := by
  induction l with
  | nil => simp [preParseFrom]
  | cons x l ih => simp [preParseFrom, ih, h]

theorem preParse_eq {V : Type} (lower : Str → Str) (k : HeaderKind V) (m : Msg) (name : Str) :
    preParse lower k m name =
      (usable lower k.badForTrailer m name,
       (usable lower k.badForTrailer m name).map (fun e => (k.parse e).1),
       entryNotes lower k m name) := by
  have hz : ∀ es : List Entry, (es.zipIdx.filter fun ei => decide (lower name = lower ei.1.name)).map
      Prod.fst = named lower name es := fun es =>
    zipIdx_filter_map (fun e => decide (lower name = lower e.name)) es 0
  unfold preParse enumerateHeaders
  simp only [List.flatMap_cons, List.flatMap_nil, List.append_nil]
  rw [preParseFrom_append, preParseFrom_usable k false (by simp), hz]
  cases hb : k.badForTrailer with
  | false =>
    rw [preParseFrom_usable k true (by simp [hb]), hz]
    simp [usable, entryNotes, hb]
  | true =>
    rw [preParseFrom_bad k hb, hz]
    simp [usable, entryNotes, hb]

theorem singulars_map_single (l : List Entry) :
    singulars (l.map fun e => Parsed.single (V := Str) e.value) = l.map Entry.value := by
  induction l with
  | nil => rfl
  | cons a l ih => simpa [singulars] using ih

theorem multiElems_append {V : Type} (a b : List (Parsed V)) :
    multiElems (a ++ b) = multiElems a ++ multiElems b := by
  induction a with
  | nil => rfl
  | cons x a ih => cases x <;> simp [multiElems, ih]

end Httpolice.Lemmas

namespace Httpolice.Props

open Httpolice.Model Httpolice.Spec Httpolice.Lemmas

/-! ## C26 -/

/-- C26: a header that may appear once has the value of its last usable entry (`None` if there is
none); besides the notices about single entries, exactly one notice 1013 naming all usable entries is
reported, exactly when there is more than one. -/
theorem C26_single {V : Type} (lower : Str → Str) (k : HeaderKind V) (m : Msg) (name : Str) :
    let v := singleView lower k m name
    let us := usable lower k.badForTrailer m name
    v.value = us.getLast?.map (fun e => (k.parse e).1) ∧
    v.entries = us.getLast?.toList ∧
    v.notes = entryNotes lower k m name ++ (if us.length > 1 then [⟨1013, us⟩] else []) := by
  simp only [singleView, preParse_eq]
  cases h : usable lower k.badForTrailer m name with
  | nil => simp
  | cons e es =>
    simp only [List.map_cons, List.isEmpty_cons, Bool.false_eq_true, if_false]
    refine ⟨?_, trivial, trivial⟩
    exact List.getLast?_map (f := fun e => (k.parse e).1) (l := e :: es)

/-- C26: the value is `None` exactly when there is no usable entry. -/
theorem C26_none_iff {V : Type} (lower : Str → Str) (k : HeaderKind V) (m : Msg) (name : Str) :
    (singleView lower k m name).value = none ↔
      ∀ e, (e ∈ m.headers ∨ (e ∈ m.trailers ∧ k.badForTrailer = false)) →
        lower e.name ≠ lower name := by
  rw [(C26_single lower k m name).1, Option.map_eq_none_iff, List.getLast?_eq_none_iff]
  simp only [usable, named, List.append_eq_nil_iff, List.filter_eq_nil_iff, decide_eq_true_eq]
  cases hb : k.badForTrailer with
  | false =>
    simp only [Bool.false_eq_true, if_false, List.filter_eq_nil_iff, decide_eq_true_eq, and_true]
    constructor
    · rintro ⟨h1, h2⟩ e (he | he)
      · exact fun h => h1 e he h.symm
      · exact fun h => h2 e he h.symm
    · intro h
      exact ⟨fun e he h' => h e (Or.inl he) h'.symm, fun e he h' => h e (Or.inr he) h'.symm⟩
  | true =>
    simp only [if_true, and_true, Bool.true_eq_false, and_false, or_false]
    exact ⟨fun h e he h' => h e he h'.symm, fun h e he h' => h e he h'.symm⟩

/-- C26: an unknown header has its usable entries joined by commas, and no notice 1013. -/
theorem C26_unknown (lower : Str → Str) (bad : Bool) (m : Msg) (name : Str) :
    let v := unknownView lower bad m name
    let us := usable lower bad m name
    v.value = (if us = [] then none else some (joinWith (str ",") (us.map Entry.value))) ∧
    v.entries = us ∧
    v.notes = if bad then (named lower name m.trailers).map (fun e => ⟨1026, [e]⟩) else [] := by
  simp only [unknownView, preParse_eq, singulars_map_single]
  refine ⟨?_, trivial, ?_⟩
  · cases usable lower bad m name <;> simp
  · cases bad
    · simp [entryNotes]
    · have : ((named lower name m.headers).flatMap fun _ => ([] : List Note)) = [] := by simp
      simp only [entryNotes, if_true, this, List.nil_append]
      induction named lower name m.trailers with
      | nil => rfl
      | cons a l ih => simp [ih]

/-- A header whose values are kept as they are, forbidden in trailers or not. -/
def rawKind (bad : Bool) : HeaderKind Str := ⟨bad, fun e => (.single e.value, [])⟩

example :
    (singleView asciiLower (rawKind false)
      ⟨[⟨str "Age", str "1"⟩, ⟨str "Date", str "x"⟩], [⟨str "AGE", str "2"⟩]⟩ (str "age")).value
        = some (.single (str "2")) ∧
    ((singleView asciiLower (rawKind false)
      ⟨[⟨str "Age", str "1"⟩, ⟨str "Date", str "x"⟩], [⟨str "AGE", str "2"⟩]⟩ (str "age")).notes.map
        Note.id) = [1013] := by decide

/-! ## C27 -/

/-- The elements that a usable entry contributes to a list. -/
def entryElems {V : Type} : Parsed V → List (Elem V)
  | .list xs => xs.map .ok
  | .unavailable inner => [.unavailable inner]
  | .single _ => []

/-- A value that is not a list (such as `*`). -/
def IsSingular {V : Type} (p : Parsed V) : Prop := ∃ v, p = .single v

theorem singulars_eq_nil {V : Type} (vs : List (Parsed V)) :
    singulars vs = [] ↔ ∀ p ∈ vs, ¬IsSingular p := by
  unfold singulars IsSingular
  rw [List.filterMap_eq_nil_iff]
  refine forall_congr' fun p => forall_congr' fun _ => ?_
  cases p <;> simp

theorem multiElems_eq {V : Type} (vs : List (Parsed V)) :
    multiElems vs = vs.flatMap entryElems := by
  induction vs with
  | nil => rfl
  | cons a vs ih => cases a <;> simp [multiElems, entryElems, ih]

/-- C27: when no usable entry holds a singular value, the value of a list header is the
concatenation, in order, of the lists in its usable entries, with one unavailable element for each
malformed one; no notice 1013 is added. -/
theorem C27_lists {V : Type} (lower : Str → Str) (k : HeaderKind V) (m : Msg) (name : Str)
    (h : ∀ e ∈ usable lower k.badForTrailer m name, ¬IsSingular (k.parse e).1) :
    let v := multiView lower k m name
    v.value = .elems ((usable lower k.badForTrailer m name).flatMap fun e =>
      entryElems (k.parse e).1) ∧
    v.entries = usable lower k.badForTrailer m name ∧
    v.notes = entryNotes lower k m name := by
  simp only [multiView, preParse_eq]
  have hs : singulars ((usable lower k.badForTrailer m name).map fun e => (k.parse e).1) = [] := by
    rw [singulars_eq_nil]
    intro p hp
    obtain ⟨e, he, rfl⟩ := List.mem_map.1 hp
    exact h e he
  simp [hs, multiElems_eq, List.flatMap_map]

/-- C27: splitting a list over several entries gives the same value as one entry holding the
concatenated list. -/
theorem C27_split {V : Type} (lower : Str → Str) (k : HeaderKind V) (m m' : Msg) (name : Str)
    (parts : List (List V)) (whole : Entry)
    (hp : (usable lower k.badForTrailer m name).map (fun e => (k.parse e).1) =
      parts.map .list)
    (hw : usable lower k.badForTrailer m' name = [whole])
    (hwp : (k.parse whole).1 = .list parts.flatten) :
    (multiView lower k m name).value = (multiView lower k m' name).value := by
  have h1 : ∀ e ∈ usable lower k.badForTrailer m name, ¬IsSingular (k.parse e).1 := by
    intro e he
    have := List.mem_map_of_mem (f := fun e => (k.parse e).1) he
    rw [hp] at this
    obtain ⟨p, _, hp'⟩ := List.mem_map.1 this
    rintro ⟨v, hv⟩
    simp only [← hp'] at hv
    cases hv
  have h2 : ∀ e ∈ usable lower k.badForTrailer m' name, ¬IsSingular (k.parse e).1 := by
    intro e he
    rw [hw, List.mem_singleton] at he
    subst he
    rintro ⟨v, hv⟩
    rw [hwp] at hv
    cases hv
  rw [(C27_lists lower k m name h1).1, (C27_lists lower k m' name h2).1, hw]
  have : ((usable lower k.badForTrailer m name).flatMap fun e => entryElems (k.parse e).1) =
      ((usable lower k.badForTrailer m name).map (fun e => (k.parse e).1)).flatMap entryElems := by
    rw [List.flatMap_map]
  rw [this, hp]
  simp [hwp, entryElems, List.flatMap_map, List.map_flatten, List.flatMap_def]
  rfl

/-- C27: a singular value on its own is the value of the header. -/
theorem C27_singular_alone {V : Type} (lower : Str → Str) (k : HeaderKind V) (m : Msg) (name : Str)
    (e : Entry) (v : V) (hu : usable lower k.badForTrailer m name = [e])
    (hv : (k.parse e).1 = .single v) :
    (multiView lower k m name).value = .single v ∧
    (multiView lower k m name).notes = entryNotes lower k m name := by
  simp [multiView, preParse_eq, hu, hv, singulars]

/-- C27: a singular value together with any other usable entry makes the value unavailable, and is
reported with one notice 1013 naming all usable entries. -/
theorem C27_singular_combined {V : Type} (lower : Str → Str) (k : HeaderKind V) (m : Msg)
    (name : Str) (e : Entry) (he : e ∈ usable lower k.badForTrailer m name)
    (hs : IsSingular (k.parse e).1)
    (hmany : (usable lower k.badForTrailer m name).length ≠ 1) :
    (multiView lower k m name).value = .elems [.unavailable none] ∧
    (multiView lower k m name).notes =
      entryNotes lower k m name ++ [⟨1013, usable lower k.badForTrailer m name⟩] := by
  simp only [multiView, preParse_eq]
  cases hl : singulars ((usable lower k.badForTrailer m name).map fun e => (k.parse e).1) with
  | nil =>
    exact absurd hs ((singulars_eq_nil _).1 hl _ (List.mem_map_of_mem (f := fun e => (k.parse e).1) he))
  | cons v vs =>
    have : ¬((v :: vs).length = (usable lower k.badForTrailer m name).length ∧
        (usable lower k.badForTrailer m name).length = 1) := fun h => hmany h.2
    simp only [this, if_false]
    exact ⟨trivial, trivial⟩

/-- A toy list header: the value is its list of bytes; `*` is a singular value; `!` is malformed. -/
def toyKind : HeaderKind Nat := ⟨true, fun e =>
  if e.value = str "*" then (.single 42, [])
  else if e.value = str "!" then (.unavailable (some e.value), [⟨1000, [e]⟩])
  else (.list e.value, [])⟩

example :
    (multiView asciiLower toyKind
      ⟨[⟨str "Vary", [1, 2]⟩, ⟨str "X", [9]⟩, ⟨str "vary", str "!"⟩, ⟨str "VARY", [3]⟩],
        [⟨str "vary", [4]⟩]⟩ (str "vary")).value
      = .elems [.ok 1, .ok 2, .unavailable (some (str "!")), .ok 3] ∧
    (multiView asciiLower toyKind ⟨[⟨str "Vary", [1, 2]⟩, ⟨str "vary", str "*"⟩], []⟩
      (str "vary")).value = .elems [.unavailable none] ∧
    (multiView asciiLower toyKind ⟨[⟨str "vary", str "*"⟩], []⟩ (str "vary")).value
      = .single 42 := by decide

/-! ## C28 -/

/-- C28: for a header that must not be sent in trailers, the trailer section has no influence on
the value or the entries, whatever the rule of the header. -/
theorem C28_ignored {V : Type} (lower : Str → Str) (k : HeaderKind V) (h : k.badForTrailer = true)
    (hs ts ts' : List Entry) (name : Str) :
    (singleView lower k ⟨hs, ts⟩ name).value = (singleView lower k ⟨hs, ts'⟩ name).value ∧
    (singleView lower k ⟨hs, ts⟩ name).entries = (singleView lower k ⟨hs, ts'⟩ name).entries ∧
    (multiView lower k ⟨hs, ts⟩ name).value = (multiView lower k ⟨hs, ts'⟩ name).value ∧
    (multiView lower k ⟨hs, ts⟩ name).entries = (multiView lower k ⟨hs, ts'⟩ name).entries ∧
    (unknownView lower true ⟨hs, ts⟩ name).value = (unknownView lower true ⟨hs, ts'⟩ name).value ∧
    (unknownView lower true ⟨hs, ts⟩ name).entries =
      (unknownView lower true ⟨hs, ts'⟩ name).entries := by
  have hu : ∀ ts, usable lower true ⟨hs, ts⟩ name = named lower name hs := by
    intro ts; simp [usable]
  refine ⟨?_, ?_, ?_, ?_, ?_, ?_⟩
  · simp only [(C26_single lower k _ name).1, h, hu]
  · simp only [(C26_single lower k _ name).2.1, h, hu]
  · simp only [multiView, preParse_eq, h, hu]
    split
    · rfl
    · split <;> rfl
  · simp only [multiView, preParse_eq, h, hu]
    split
    · rfl
    · split <;> rfl
  · simp only [(C26_unknown lower true _ name).1, hu]
  · simp only [(C26_unknown lower true _ name).2.1, hu]

/-- C28: for a header allowed in trailers, trailer entries count just as if they followed the
entries of the header section. -/
theorem C28_allowed {V : Type} (lower : Str → Str) (k : HeaderKind V) (h : k.badForTrailer = false)
    (hs ts : List Entry) (name : Str) :
    singleView lower k ⟨hs, ts⟩ name = singleView lower k ⟨hs ++ ts, []⟩ name ∧
    multiView lower k ⟨hs, ts⟩ name = multiView lower k ⟨hs ++ ts, []⟩ name ∧
    unknownView lower false ⟨hs, ts⟩ name = unknownView lower false ⟨hs ++ ts, []⟩ name := by
  have hp : ∀ {W : Type} (k' : HeaderKind W), k'.badForTrailer = false →
      preParse lower k' ⟨hs, ts⟩ name = preParse lower k' ⟨hs ++ ts, []⟩ name := by
    intro W k' h'
    rw [preParse_eq, preParse_eq]
    simp [usable, entryNotes, named, h']
  refine ⟨?_, ?_, ?_⟩
  · simp only [singleView, hp k h]
  · simp only [multiView, hp k h]
  · unfold unknownView
    rw [hp _ rfl]

/-- C28: looking at a header reports 1026 for exactly the trailer entries of that name, in order and
once each, if the header must not be sent in trailers; none otherwise (parsers themselves never
report 1026). -/
theorem C28_reported {V : Type} (lower : Str → Str) (k : HeaderKind V) (m : Msg) (name : Str)
    (hk : ∀ e, ∀ n ∈ (k.parse e).2, n.id ≠ 1026) :
    let expected : List Note := if k.badForTrailer then
      (named lower name m.trailers).map (fun e => ⟨1026, [e]⟩) else []
    (singleView lower k m name).notes.filter (fun n => n.id = 1026) = expected ∧
    (multiView lower k m name).notes.filter (fun n => n.id = 1026) = expected := by
  have hf : ∀ es : List Entry, (es.flatMap fun e => (k.parse e).2).filter
      (fun n => decide (n.id = 1026)) = [] := by
    intro es
    rw [List.filter_eq_nil_iff]
    intro n hn
    obtain ⟨e, _, hn⟩ := List.mem_flatMap.1 hn
    simpa using hk e n hn
  have hb : (entryNotes lower k m name).filter (fun n => decide (n.id = 1026)) =
      if k.badForTrailer then
        (named lower name m.trailers).map (fun e => (⟨1026, [e]⟩ : Note)) else [] := by
    unfold entryNotes
    rw [List.filter_append, hf]
    cases hb : k.badForTrailer with
    | false => simpa using hf (named lower name m.trailers)
    | true =>
      simp only [if_true, List.nil_append]
      induction named lower name m.trailers with
      | nil => rfl
      | cons a l ih => simp [ih]
  refine ⟨?_, ?_⟩
  · rw [(C26_single lower k m name).2.2, List.filter_append, hb]
    split <;> split <;> simp
  · simp only [multiView, preParse_eq]
    split
    · exact hb
    · split
      · exact hb
      · rw [List.filter_append, hb]
        split <;> simp

example : (singleView asciiLower (rawKind true)
    ⟨[⟨str "Host", str "a"⟩], [⟨str "host", str "b"⟩]⟩ (str "Host")).value
      = some (.single (str "a")) ∧
    ((singleView asciiLower (rawKind true)
      ⟨[⟨str "Host", str "a"⟩], [⟨str "host", str "b"⟩]⟩ (str "Host")).notes)
        = [⟨1026, [⟨str "host", str "b"⟩]⟩] := by decide

/-! ## C29 -/

/-- A value that may be compared with. -/
def Usable {β : Type} (b : PyVal β) : Prop := ∃ x, b = .val x

/-- C29 for single headers: a comparison is `False` when there is no usable entry, when the last one
is malformed, or when the operand is unavailable; otherwise it is the comparison of the values.
(Partial: the property speaks of all headers; see `C29_false_for_multi`.) -/
theorem C29_single_partial {V β : Type} (lower : Str → Str) (k : HeaderKind V) (m : Msg)
    (name : Str) (op : Parsed V → β → Bool) (b : PyVal β) :
    let r := compareView op (singleValue (singleView lower k m name).value) b
    let us := usable lower k.badForTrailer m name
    (us = [] → r = false) ∧
    (∀ e inner, us.getLast? = some e → (k.parse e).1 = .unavailable inner → r = false) ∧
    (¬Usable b → r = false) ∧
    (∀ e x, us.getLast? = some e → (∀ inner, (k.parse e).1 ≠ .unavailable inner) → b = .val x →
      r = op (k.parse e).1 x) := by
  simp only [(C26_single lower k m name).1]
  refine ⟨?_, ?_, ?_, ?_⟩
  · intro h; simp [h, compareView, singleValue, PyVal.okay]
  · intro e inner h h'; simp [h, h', compareView, singleValue, PyVal.okay]
  · intro h
    cases b with
    | none => simp [compareView, PyVal.okay]
    | unavailable => simp [compareView, PyVal.okay]
    | val x => exact absurd ⟨x, rfl⟩ h
  · rintro e x h h' rfl
    simp only [h, Option.map_some]
    cases hp : (k.parse e).1 with
    | unavailable inner => exact absurd hp (h' inner)
    | list xs => simp [compareView, singleValue, PyVal.okay]
    | single v => simp [compareView, singleValue, PyVal.okay]

/-- The value of an unknown header as an operand. -/
def unknownValue : Option Str → PyVal Str
  | none => .none
  | some s => .val s

/-- C29 for headers without a rule. -/
theorem C29_unknown_partial {β : Type} (lower : Str → Str) (bad : Bool) (m : Msg)
    (name : Str) (op : Str → β → Bool) (b : PyVal β) :
    let r := compareView op (unknownValue (unknownView lower bad m name).value) b
    let us := usable lower bad m name
    (us = [] → r = false) ∧ (¬Usable b → r = false) ∧
    (∀ x, us ≠ [] → b = .val x → r = op (joinWith (str ",") (us.map Entry.value)) x) := by
  simp only [(C26_unknown lower bad m name).1]
  refine ⟨?_, ?_, ?_⟩
  · intro h; simp [h, compareView, unknownValue, PyVal.okay]
  · intro h
    cases b with
    | none => simp [compareView, PyVal.okay]
    | unavailable => simp [compareView, PyVal.okay]
    | val x => exact absurd ⟨x, rfl⟩ h
  · rintro x h rfl
    simp [h, compareView, unknownValue, PyVal.okay]

/-- C29 for list headers: only an unavailable operand makes the comparison `False`; otherwise it is
the comparison of the values (an absent header counts as an empty list). -/
theorem C29_multi_partial {V β : Type} (lower : Str → Str) (k : HeaderKind V) (m : Msg)
    (name : Str) (op : MultiValue V → β → Bool) (b : PyVal β) :
    let v := (multiView lower k m name).value
    (¬Usable b → compareView op (.val v) b = false) ∧
    (∀ x, b = .val x → compareView op (.val v) b = op v x) ∧
    (usable lower k.badForTrailer m name = [] → v = .elems []) := by
  refine ⟨?_, ?_, ?_⟩
  · intro h
    cases b with
    | none => simp [compareView, PyVal.okay]
    | unavailable => simp [compareView, PyVal.okay]
    | val x => exact absurd ⟨x, rfl⟩ h
  · rintro x rfl
    simp [compareView, PyVal.okay]
  · intro h
    have := (C27_lists lower k m name (by simp [h])).1
    simpa [h] using this

/-- C29 is false for list headers as stated: comparing an absent or a malformed list header with
`!=` is `True`, because its value is a list, which counts as available. -/
theorem C29_false_for_multi :
    (∃ (m : Msg) (name : Str), usable asciiLower toyKind.badForTrailer m name = [] ∧
      compareView (fun a b => decide (a ≠ b)) (.val (multiView asciiLower toyKind m name).value)
        (.val (MultiValue.single 42)) = true) ∧
    (∃ (m : Msg) (name : Str) (e : Entry) (inner : Option Str),
      usable asciiLower toyKind.badForTrailer m name = [e] ∧
      (toyKind.parse e).1 = .unavailable inner ∧
      compareView (fun a b => decide (a ≠ b)) (.val (multiView asciiLower toyKind m name).value)
        (.val (MultiValue.single 42)) = true) := by
  refine ⟨⟨⟨[], []⟩, str "vary", by decide, by decide⟩,
    ⟨⟨[⟨str "vary", str "!"⟩], []⟩, str "vary", ⟨str "vary", str "!"⟩, some (str "!"),
      by decide, by decide, by decide⟩⟩

example : compareView (fun a b => decide (a = b)) (singleValue (singleView asciiLower (rawKind true)
    ⟨[⟨str "Host", str "a"⟩], []⟩ (str "Host")).value) (.val (Parsed.single (str "a"))) = true ∧
    compareView (fun a b => decide (a ≠ b)) (singleValue (singleView asciiLower (rawKind true)
    ⟨[], [⟨str "Host", str "a"⟩]⟩ (str "Host")).value) (.val (Parsed.single (str "b"))) = false := by
  decide

/-! ## C52 -/

theorem namesFrom_spec (lower : Str → Str) (es : List Entry) (seen : List Str) :
    (namesFrom lower seen es).1.map lower =
      ((es.map fun e => lower e.name).filter (· ∉ seen)).eraseDups ∧
    (∀ x, x ∈ (namesFrom lower seen es).2 ↔ x ∈ seen ∨ x ∈ es.map fun e => lower e.name) := by
  induction es generalizing seen with
  | nil => simp [namesFrom]
  | cons e es ih =>
    by_cases h : lower e.name ∈ seen
    · simp only [namesFrom, h, if_true, List.map_cons]
      refine ⟨?_, ?_⟩
      · rw [(ih seen).1, List.filter_cons_of_neg (by simpa using h)]
      · intro x
        rw [(ih seen).2]
        simp only [List.mem_cons]
        constructor
        · rintro (h' | h') <;> simp [h']
        · rintro (h' | rfl | h')
          · exact Or.inl h'
          · exact Or.inl h
          · exact Or.inr h'
    · simp only [namesFrom, h, if_false, List.map_cons]
      refine ⟨?_, ?_⟩
      · rw [(ih _).1, List.filter_cons_of_pos (by simpa using h), List.eraseDups_cons,
          List.filter_filter]
        congr 2
        apply List.filter_congr
        intro x _
        simp only [List.mem_cons, not_or, Bool.decide_and, decide_not]
        by_cases hx : x = lower e.name <;> simp [hx]
      · intro x
        rw [(ih _).2]
        simp only [List.mem_cons]
        constructor
        · rintro ((h | h) | h) <;> simp [h]
        · rintro (h | h | h) <;> simp [h]

theorem idxOf_cons_ne' {α : Type} [DecidableEq α] {a b : α} (l : List α) (h : a ≠ b) :
    (a :: l).idxOf b = l.idxOf b + 1 := by
  rw [List.idxOf_cons, show (a == b) = false from by simpa using h]
  rfl

theorem eraseDups_inst {α : Type} [d : DecidableEq α] (i : BEq α) (h : @LawfulBEq α i) (l : List α) :
    @List.eraseDups α i l = @List.eraseDups α (@instBEqOfDecidableEq α d) l := by
  have : i = @instBEqOfDecidableEq α d := by
    cases i with
    | mk f =>
      congr
      funext a b
      have hb := @beq_iff_eq α ⟨f⟩ h a b
      change f a b = true ↔ a = b at hb
      by_cases hab : a = b
      · rw [hb.2 hab]; simp [hab]
      · have : f a b = false := by
          cases hf : f a b with
          | false => rfl
          | true => exact absurd (hb.1 hf) hab
        rw [this]; simp [hab]
  rw [this]

theorem firstReports_eraseDups {α : Type} [DecidableEq α] (n : Nat) :
    ∀ l : List α, l.length ≤ n → FirstReports l l.eraseDups := by
  induction n with
  | zero =>
    intro l hl
    have : l = [] := List.length_eq_zero_iff.1 (by omega)
    subst this
    exact ⟨by simp, by simp, by simp⟩
  | succ n ih =>
    intro l hl
    cases l with
    | nil => exact ⟨by simp, by simp, by simp⟩
    | cons a l =>
      rw [List.eraseDups_cons]
      have hlen : (l.filter fun b => !b == a).length ≤ n := by
        have := List.length_filter_le (fun b => !b == a) l
        simp only [List.length_cons] at hl
        omega
      have h := ih _ hlen
      refine ⟨?_, ?_, ?_⟩
      · rw [List.nodup_cons]
        refine ⟨?_, h.nodup⟩
        rw [h.mem]
        simp
      · intro x
        rw [List.mem_cons, h.mem, List.mem_filter, List.mem_cons]
        by_cases hx : x = a <;> simp [hx]
      · rw [List.pairwise_cons]
        have hne : ∀ b ∈ (l.filter fun b => !b == a).eraseDups, b ≠ a := by
          intro b hb
          rw [h.mem] at hb
          simpa using (List.mem_filter.1 hb).2
        refine ⟨?_, ?_⟩
        · intro b hb
          rw [List.idxOf_cons_self, idxOf_cons_ne' _ (Ne.symm (hne b hb))]
          omega
        · refine h.order.imp_of_mem ?_
          intro b c hb hc hbc
          rw [idxOf_cons_ne' _ (Ne.symm (hne b hb)), idxOf_cons_ne' _ (Ne.symm (hne c hc))]
          have hmono : ∀ (l : List α) (b c : α), b ≠ a → c ≠ a → c ∈ l →
              (l.filter fun b => !b == a).idxOf b < (l.filter fun b => !b == a).idxOf c →
              l.idxOf b < l.idxOf c := by
            intro l b c hb hc
            induction l with
            | nil => simp
            | cons x l ihl =>
              intro hmem hlt
              by_cases hx : x = a
              · subst hx
                rw [List.filter_cons_of_neg (by simp)] at hlt
                rw [idxOf_cons_ne' _ (Ne.symm hb), idxOf_cons_ne' _ (Ne.symm hc)]
                have := ihl (by
                  rcases List.mem_cons.1 hmem with h | h
                  · exact absurd h hc
                  · exact h) hlt
                omega
              · rw [List.filter_cons_of_pos (by simpa using hx)] at hlt
                by_cases hxb : x = b
                · subst hxb
                  by_cases hxc : x = c
                  · subst hxc; simp at hlt
                  · rw [List.idxOf_cons_self, idxOf_cons_ne' _ hxc]
                    omega
                · by_cases hxc : x = c
                  · subst hxc; simp at hlt
                  · rw [idxOf_cons_ne' _ hxb, idxOf_cons_ne' _ hxc] at hlt
                    rw [idxOf_cons_ne' _ hxb, idxOf_cons_ne' _ hxc]
                    have := ihl (by
                      rcases List.mem_cons.1 hmem with h | h
                      · exact absurd h.symm hxc
                      · exact h) (by omega)
                    omega
          have hc' : c ∈ l := by
            rw [h.mem] at hc
            exact (List.mem_filter.1 hc).1
          have := hmono l b c (hne b hb) (hne c hc) hc' hbc
          omega

/-- All entries with their names, headers first. -/
def allNames (m : Msg) : List Str := (m.headers ++ m.trailers).map Entry.name

theorem headerNames_lower (lower : Str → Str) (m : Msg) :
    (headerNames lower m).map lower = ((allNames m).map lower).eraseDups := by
  unfold headerNames allNames
  simp only [List.map_append]
  have h1 := namesFrom_spec lower m.headers []
  have h2 := namesFrom_spec lower m.trailers (namesFrom lower [] m.headers).2
  rw [h1.1, h2.1, List.eraseDups_append]
  simp only [List.map_map]
  congr 2
  · rw [List.filter_eq_self.2]
    · rfl
    · simp
  · congr 1
    funext x
    have := h1.2 x
    simp only [List.not_mem_nil, false_or] at this
    rw [show (List.map (lower ∘ Entry.name) m.headers) = m.headers.map fun e => lower e.name from rfl]
    by_cases hx : x ∈ m.headers.map fun e => lower e.name
    · have := this.2 hx
      simp [hx, this]
    · have h' : ¬x ∈ (namesFrom lower [] m.headers).2 := fun h => hx (this.1 h)
      simp [hx, h']

/-- Each reported name is spelled as it first appears, given the names already seen. -/
theorem namesFrom_first (lower : Str → Str) (es : List Entry) (seen : List Str) (n : Str)
    (hn : n ∈ (namesFrom lower seen es).1) :
    lower n ∉ seen ∧ (es.map Entry.name).find? (fun x => lower x = lower n) = some n := by
  induction es generalizing seen with
  | nil => simp [namesFrom] at hn
  | cons e es ih =>
    by_cases h : lower e.name ∈ seen
    · simp only [namesFrom, h, if_true] at hn
      have := ih seen hn
      refine ⟨this.1, ?_⟩
      rw [List.map_cons, List.find?_cons_of_neg]
      · exact this.2
      · simp only [decide_eq_true_eq]
        intro heq
        exact this.1 (heq ▸ h)
    · simp only [namesFrom, h, if_false, List.mem_cons] at hn
      rcases hn with rfl | hn
      · exact ⟨h, by simp⟩
      · have := ih _ hn
        simp only [List.mem_cons, not_or] at this
        refine ⟨this.1.2, ?_⟩
        rw [List.map_cons, List.find?_cons_of_neg]
        · exact this.2
        · simp only [decide_eq_true_eq]
          exact fun heq => this.1.1 heq.symm

/-- C52: `headers.names` lists every distinct name (up to case) once, in order of first appearance,
headers before trailers, each spelled as where it first appears. -/
theorem C52_names (lower : Str → Str) (m : Msg) :
    FirstReports ((allNames m).map lower) ((headerNames lower m).map lower) ∧
    ∀ n ∈ headerNames lower m, (allNames m).find? (fun x => lower x = lower n) = some n := by
  refine ⟨?_, ?_⟩
  · rw [headerNames_lower, eraseDups_inst _ inferInstance]
    exact firstReports_eraseDups (α := Str) _ _ (Nat.le_refl _)
  · intro n hn
    unfold headerNames at hn
    simp only [List.mem_append] at hn
    unfold allNames
    rw [List.map_append, List.find?_append]
    rcases hn with hn | hn
    · rw [(namesFrom_first lower _ _ n hn).2]; rfl
    · have h := namesFrom_first lower _ _ n hn
      rw [(namesFrom_spec lower m.headers []).2] at h
      have : (m.headers.map Entry.name).find? (fun x => lower x = lower n) = none := by
        rw [List.find?_eq_none]
        intro x hx
        simp only [decide_eq_true_eq]
        intro heq
        apply h.1
        obtain ⟨e, he, rfl⟩ := List.mem_map.1 hx
        exact Or.inr (List.mem_map.2 ⟨e, he, heq⟩)
      rw [this, h.2]; rfl

/-- C52: `headers.enumerate(name)` lists exactly the entries of that name (all entries if no name
is given) with their origin and index. -/
theorem C52_enumerate_mem (lower : Str → Str) (m : Msg) (name : Option Str) (t : Bool) (i : Nat)
    (e : Entry) :
    (t, i, e) ∈ enumerateHeaders lower m name ↔
      (if t then m.trailers else m.headers)[i]? = some e ∧
      (∀ n, name = some n → lower n = lower e.name) := by
  have key : ∀ (b : Bool) (es : List Entry),
      (t, i, e) ∈ ((es.zipIdx.filter fun ei => match name with
        | none => true
        | some n => decide (lower n = lower ei.1.name)).map fun ei => (b, ei.2, ei.1)) ↔
      b = t ∧ es[i]? = some e ∧ (∀ n, name = some n → lower n = lower e.name) := by
    intro b es
    simp only [List.mem_map, List.mem_filter, Prod.exists, Prod.mk.injEq, List.mem_zipIdx_iff_getElem?]
    constructor
    · rintro ⟨e', i', ⟨h1, h2⟩, rfl, rfl, rfl⟩
      refine ⟨rfl, h1, ?_⟩
      rintro n rfl
      simpa using h2
    · rintro ⟨rfl, h1, h2⟩
      refine ⟨e, i, ⟨h1, ?_⟩, rfl, rfl, rfl⟩
      cases name with
      | none => rfl
      | some n => simpa using h2 n rfl
  unfold enumerateHeaders
  rw [List.flatMap_cons, List.flatMap_cons, List.flatMap_nil, List.append_nil, List.mem_append]
  refine Iff.trans (or_congr (key false m.headers) (key true m.trailers)) ?_
  cases t <;> simp

/-- C52: the order of `headers.enumerate` is headers first, then by index. -/
theorem C52_enumerate_order (lower : Str → Str) (m : Msg) (name : Option Str) :
    (enumerateHeaders lower m name).Pairwise fun a b =>
      (a.1 = false ∧ b.1 = true) ∨ (a.1 = b.1 ∧ a.2.1 < b.2.1) := by
  have key : ∀ (b : Bool) (p : Entry × Nat → Bool) (es : List Entry) (n : Nat),
      (((es.zipIdx n).filter p).map fun ei => (b, ei.2, ei.1)).Pairwise fun a b =>
      (a.1 = false ∧ b.1 = true) ∨ (a.1 = b.1 ∧ a.2.1 < b.2.1) := by
    intro b p es n
    rw [List.pairwise_map]
    apply List.Pairwise.filter
    induction es generalizing n with
    | nil => simp
    | cons e es ih =>
      rw [List.zipIdx_cons, List.pairwise_cons]
      refine ⟨?_, ih _⟩
      rintro ⟨e', i'⟩ h
      have := List.le_snd_of_mem_zipIdx h
      exact Or.inr ⟨rfl, by simp only at this ⊢; omega⟩
  unfold enumerateHeaders
  simp only [List.flatMap_cons, List.flatMap_nil, List.append_nil]
  rw [List.pairwise_append]
  refine ⟨key _ _ _ _, key _ _ _ _, ?_⟩
  intro a ha b hb
  obtain ⟨x, _, rfl⟩ := List.mem_map.1 ha
  obtain ⟨y, _, rfl⟩ := List.mem_map.1 hb
  exact Or.inl ⟨rfl, rfl⟩

example : headerNames asciiLower
    ⟨[⟨str "Date", []⟩, ⟨str "Age", []⟩, ⟨str "DATE", []⟩], [⟨str "age", []⟩, ⟨str "X", []⟩]⟩ =
      [str "Date", str "Age", str "X"] ∧
    enumerateHeaders asciiLower
    ⟨[⟨str "Date", []⟩, ⟨str "Age", []⟩, ⟨str "DATE", []⟩], [⟨str "age", []⟩, ⟨str "X", []⟩]⟩
      (some (str "AGE")) = [(false, 1, ⟨str "Age", []⟩), (true, 0, ⟨str "age", []⟩)] := by decide

/-! ## C53 -/

/-- The first available occurrence of a directive. -/
def firstDirective {A : Type} (lower : Str → Str) (key : Str) (es : List (Elem (Str × ArgVal A))) :
    Option (ArgVal A) :=
  ((es.filterMap fun e => match e with
    | .ok p => some p
    | .unavailable _ => none).find? fun p => lower p.1 = lower key).map Prod.snd

/-- C53: `headers.x[d]` is `True` if the first occurrence of `d` has no argument, its processed
argument otherwise, and `None` if `d` does not occur. -/
theorem C53_lookup {A : Type} (lower : Str → Str) (key : Str)
    (es : List (Elem (Str × ArgVal A))) :
    (firstDirective lower key es = none → directiveGet lower key es = .none) ∧
    (firstDirective lower key es = some .none → directiveGet lower key es = .true) ∧
    (∀ a, firstDirective lower key es = some a → a ≠ .none → directiveGet lower key es = .arg a) := by
  induction es with
  | nil => simp [firstDirective, directiveGet]
  | cons e es ih =>
    cases e with
    | unavailable inner => simpa [firstDirective, directiveGet] using ih
    | ok p =>
      obtain ⟨d, a⟩ := p
      by_cases h : lower d = lower key
      · have hf : firstDirective lower key (.ok (d, a) :: es) = some a := by
          simp [firstDirective, h]
        have hd : directiveGet lower key (.ok (d, a) :: es) =
            (match a with | .none => Found.true | a => .arg a) := by
          cases a <;> simp [directiveGet, h]
        rw [hf, hd]
        refine ⟨by simp, ?_, ?_⟩
        · intro ha
          simp only [Option.some.injEq] at ha
          subst ha; rfl
        · rintro a' ha hne
          simp only [Option.some.injEq] at ha
          subst ha
          cases a <;> first | rfl | exact absurd rfl hne
      · have hf : firstDirective lower key (.ok (d, a) :: es) = firstDirective lower key es := by
          simp [firstDirective, h]
        have hd : directiveGet lower key (.ok (d, a) :: es) = directiveGet lower key es := by
          simp [directiveGet, h]
        rw [hf, hd]
        exact ih

/-- C53: what is reported about a directive and what its argument becomes: 1156 exactly when a
required argument is missing, 1157 exactly when a forbidden one is given, 1158 exactly when an
allowed one with a defined syntax is malformed; in these cases the argument is unavailable, and
otherwise it is what was given, parsed if it has a defined syntax. -/
theorem C53_reports {A : Type} (info : DirectiveInfo A) (arg : Option Str) :
    let r := processPair info arg
    (r.2 = some 1156 ↔ arg = none ∧ info.required = true) ∧
    (r.2 = some 1157 ↔ ∃ s, arg = some s ∧ info.noArgument = true) ∧
    (r.2 = some 1158 ↔ ∃ s p, arg = some s ∧ info.noArgument = false ∧ info.parser = some p ∧
      p s = none) ∧
    (∀ id, r.2 = some id → id ∈ [1156, 1157, 1158] ∧ r.1 = .unavailable (arg.getD [])) ∧
    (r.2 = none → match arg with
      | none => r.1 = .none
      | some s => match info.parser with
        | none => r.1 = .raw s
        | some p => ∃ a, p s = some a ∧ r.1 = .parsed a) := by
  cases arg with
  | none => cases h : info.required <;> simp [processPair, h]
  | some s =>
    cases h : info.noArgument with
    | true => simp [processPair, h]
    | false =>
      cases hp : info.parser with
      | none => simp [processPair, h, hp]
      | some p => cases ha : p s <;> simp [processPair, h, hp, ha]

/-- C53: cache directives are processed like any others; notice 1154 is added exactly when a
directive for which quoted-string is preferred has an argument in another form, and 1155 likewise
for token. -/
theorem C53_cache {A : Type} (info : DirectiveInfo A) (pref : Option ArgForm)
    (arg : Option (ArgForm × Str)) :
    let r := processCachePair info pref arg
    r.1 = (processPair info (arg.map Prod.snd)).1 ∧
    (1154 ∈ r.2 ↔ pref = some .quotedString ∧ ∃ s, arg = some (.token, s)) ∧
    (1155 ∈ r.2 ↔ pref = some .token ∧ ∃ s, arg = some (.quotedString, s)) ∧
    (∀ id, id ≠ 1154 → id ≠ 1155 →
      (id ∈ r.2 ↔ (processPair info (arg.map Prod.snd)).2 = some id)) := by
  have hid : ∀ id, (processPair info (arg.map Prod.snd)).2 = some id → id ∈ [1156, 1157, 1158] :=
    fun id h => ((C53_reports info (arg.map Prod.snd)).2.2.2.1 id h).1
  have h1 : (processPair info (arg.map Prod.snd)).2 ≠ some 1154 := fun h => by
    simpa using hid _ h
  have h2 : (processPair info (arg.map Prod.snd)).2 ≠ some 1155 := fun h => by
    simpa using hid _ h
  simp only [processCachePair, List.mem_append, Option.mem_toList, h1, h2, or_false]
  refine ⟨trivial, ?_, ?_, ?_⟩
  · cases arg with
    | none => simp
    | some a =>
      obtain ⟨f, s⟩ := a
      cases f <;> rcases pref with _ | (_ | _) <;> simp
  · cases arg with
    | none => simp
    | some a =>
      obtain ⟨f, s⟩ := a
      cases f <;> rcases pref with _ | (_ | _) <;> simp
  · intro id hn1 hn2
    cases arg with
    | none => simp
    | some a =>
      obtain ⟨f, s⟩ := a
      cases f <;> rcases pref with _ | (_ | _) <;> simp [hn1, hn2]

/-- C53: a whole directives header. Its elements, over all usable entries, are the directives as
written, in order, with processed arguments, and an unavailable element for each malformed entry. -/
theorem C53_header {A : Type} (lower : Str → Str) (bad : Bool)
    (grammar : Str → Option (List (Str × Option Str))) (info : Str → DirectiveInfo A)
    (m : Msg) (name : Str) :
    (multiView lower (directivesKind bad grammar info) m name).value =
      .elems ((usable lower bad m name).flatMap fun e => match grammar e.value with
        | none => [.unavailable (some e.value)]
        | some ps => ps.map fun p => .ok (p.1, (processPair (info p.1) p.2).1)) := by
  rw [(C27_lists lower (directivesKind bad grammar info) m name ?_).1]
  · simp only [directivesKind]
    congr 2
    funext e
    cases grammar e.value <;> simp [entryElems]
  · intro e _ hs
    obtain ⟨v, hv⟩ := hs
    simp only [directivesKind] at hv
    cases h : grammar e.value <;> simp [h] at hv

/-- `max-age` requires a number, `no-store` has no argument, others are free. -/
def toyDirective (d : Str) : DirectiveInfo Nat :=
  if asciiLower d = str "max-age" then ⟨true, false, some fun s => if s = str "5" then some 5 else none⟩
  else if asciiLower d = str "no-store" then ⟨false, true, none⟩
  else ⟨false, false, none⟩

example :
    let es : List (Elem (Str × ArgVal Nat)) := [.unavailable none,
      .ok (str "No-Store", .none), .ok (str "max-age", .parsed 5), .ok (str "max-age", .raw [])]
    directiveGet asciiLower (str "no-store") es = .true ∧
    directiveGet asciiLower (str "Max-Age") es = .arg (.parsed 5) ∧
    directiveGet asciiLower (str "foo") es = .none ∧
    processPair (toyDirective (str "max-age")) (some (str "5")) = (.parsed 5, none) ∧
    processPair (toyDirective (str "max-age")) (some (str "x")) = (.unavailable (str "x"), some 1158) ∧
    processPair (toyDirective (str "max-age")) none = (.unavailable [], some 1156) ∧
    processPair (toyDirective (str "no-store")) (some []) = (.unavailable [], some 1157) := by decide

/-! ## C49 -/

/-- A lower-casing function that is right on the names in the table (`str.lower` is). -/
def LowersTable (lower : Str → Str) : Prop :=
  ∀ s : Str, (∀ c ∈ s, c < 128) → lower s = asciiLower s

theorem rows_ascii : ∀ r ∈ headerRows, ∀ c ∈ str r.key, c < 128 := by decide +kernel

theorem special_ascii : ∀ s ∈ specialCases, ∀ c ∈ str s, c < 128 := by decide +kernel

theorem special_rows : ∀ r ∈ headerRows, r.rule = some .special →
    ∃ s ∈ specialCases, asciiLower (str s) = asciiLower (str r.key) := by decide +kernel

theorem special_found : ∀ s ∈ specialCases,
    (headerRows.find? fun r => asciiLower (str r.key) = asciiLower (str s)).bind HeaderRow.rule =
      some .special := by decide +kernel

theorem find_congr {α : Type} {p q : α → Bool} : ∀ {l : List α}, (∀ a ∈ l, p a = q a) →
    l.find? p = l.find? q := by
  intro l h
  induction l with
  | nil => rfl
  | cons a l ih =>
    rw [List.find?_cons, List.find?_cons, h a (by simp), ih fun b hb => h b (by simp [hb])]

theorem rowMatch (lower : Str → Str) (hl : LowersTable lower) (key : Str) :
    (headerRows.find? fun r => lower (str r.key) = lower key) =
      headerRows.find? fun r => asciiLower (str r.key) = lower key := by
  apply find_congr
  intro r hr
  rw [hl _ (rows_ascii r hr)]

/-- C49: for every name, known or not, the view class chosen is consistent with the rule of the
table: no assertion fails. -/
theorem C49_no_assertion (lower : Str → Str) (hl : LowersTable lower) (key : Str) :
    ∃ c, viewClass lower key = some c ∧
      (c = .single ↔ ruleFor lower key = some .single) ∧
      (c = .multi ↔ ruleFor lower key = some .multi) ∧
      (c = .unknown ↔ ruleFor lower key = none) ∧
      ((∃ s, c = .special s ∧ lower (str s) = lower key) ↔ ruleFor lower key = some .special) := by
  unfold viewClass
  cases hf : specialCases.find? fun s => decide (lower (str s) = lower key) with
  | some s =>
    have hs := List.mem_of_find?_eq_some hf
    have he : lower (str s) = lower key := by simpa using List.find?_some hf
    have hr : ruleFor lower key = some .special := by
      unfold ruleFor
      rw [rowMatch lower hl, ← he, hl _ (special_ascii s hs)]
      exact special_found s hs
    refine ⟨.special s, by simp [hr], ?_, ?_, ?_, ?_⟩ <;> simp [hr, he]
  | none =>
    have hnot : ruleFor lower key ≠ some .special := by
      intro hr
      unfold ruleFor at hr
      rw [rowMatch lower hl] at hr
      cases hfr : headerRows.find? fun r => decide (asciiLower (str r.key) = lower key) with
      | none => rw [hfr] at hr; simp at hr
      | some r =>
        rw [hfr] at hr
        have hm := List.mem_of_find?_eq_some hfr
        have he : asciiLower (str r.key) = lower key := by simpa using List.find?_some hfr
        obtain ⟨s, hs, hse⟩ := special_rows r hm hr
        have := List.find?_eq_none.1 hf s hs
        apply this
        simp [hl _ (special_ascii s hs), hse, he]
    cases hr : ruleFor lower key with
    | none => exact ⟨.unknown, by simp⟩
    | some r =>
      cases r with
      | single => exact ⟨.single, by simp⟩
      | multi => exact ⟨.multi, by simp⟩
      | special => exact absurd hr hnot

/-- C49: equal names up to case are of the same class. -/
theorem C49_class_case (lower : Str → Str) (a b : Str) (h : lower a = lower b) :
    viewClass lower a = viewClass lower b := by
  unfold viewClass ruleFor
  rw [h]

/-- A history of lookups, failing if any of them fails. -/
def getViews (lower : Str → Str) : ViewCache → List Str → Option (List (Nat × ViewClass) × ViewCache)
  | c, [] => some ([], c)
  | c, k :: ks => match getView lower c k with
    | none => none
    | some (v, c') => (getViews lower c' ks).map fun r => (v :: r.1, r.2)

/-- The cache holds keys distinct up to case, with serial numbers by position. -/
structure CacheOk (lower : Str → Str) (c : ViewCache) : Prop where
  serial : ∀ (i : Nat) (e : Str × Nat × ViewClass), c[i]? = some e → e.2.1 = i
  distinct : ∀ (i j : Nat) (e f : Str × Nat × ViewClass), c[i]? = some e → c[j]? = some f → lower e.1 = lower f.1 → i = j
  classOk : ∀ e ∈ c, viewClass lower e.1 = some e.2.2

theorem getView_ok (lower : Str → Str) (hl : LowersTable lower) (c : ViewCache) (key : Str)
    (hc : CacheOk lower c) :
    ∃ v c' e, getView lower c key = some (v, c') ∧ CacheOk lower c' ∧ (∃ t, c' = c ++ t) ∧
      e ∈ c' ∧ lower e.1 = lower key ∧ e.2 = v := by
  unfold getView
  cases hf : c.find? fun e => decide (lower e.1 = lower key) with
  | some e =>
    exact ⟨e.2, c, e, rfl, hc, ⟨[], by simp⟩, List.mem_of_find?_eq_some hf,
      by simpa using List.find?_some hf, rfl⟩
  | none =>
    obtain ⟨cls, hcls, _⟩ := C49_no_assertion lower hl key
    have hnew : ∀ e ∈ c, lower e.1 ≠ lower key := fun e he => by
      simpa using List.find?_eq_none.1 hf e he
    refine ⟨(c.length, cls), c ++ [(key, c.length, cls)], (key, c.length, cls), by simp [hcls], ?_,
      ⟨_, rfl⟩, by simp, rfl, rfl⟩
    have hcase : ∀ i e, (c ++ [(key, c.length, cls)])[i]? = some e →
        (c[i]? = some e) ∨ (i = c.length ∧ e = (key, c.length, cls)) := by
      intro i e h
      by_cases hi : i < c.length
      · rw [List.getElem?_append_left hi] at h
        exact Or.inl h
      · rw [List.getElem?_append_right (by omega)] at h
        have hi' : i - c.length = 0 := by
          cases hx : i - c.length with
          | zero => rfl
          | succ n => rw [hx] at h; simp at h
        rw [hi'] at h
        simp only [List.getElem?_cons_zero, Option.some.injEq] at h
        exact Or.inr ⟨by omega, h.symm⟩
    refine ⟨?_, ?_, ?_⟩
    · intro i e h
      rcases hcase i e h with h | ⟨rfl, rfl⟩
      · exact hc.serial i e h
      · rfl
    · intro i j e f he hf' hef
      rcases hcase i e he with he | ⟨rfl, rfl⟩ <;> rcases hcase j f hf' with hf' | ⟨rfl, rfl⟩
      · exact hc.distinct i j e f he hf' hef
      · exact absurd hef (hnew e (List.mem_of_getElem? he))
      · exact absurd hef.symm (hnew f (List.mem_of_getElem? hf'))
      · rfl
    · intro e he
      rcases List.mem_append.1 he with he | he
      · exact hc.classOk e he
      · rw [List.mem_singleton.1 he]; exact hcls

theorem getViews_ok (lower : Str → Str) (hl : LowersTable lower) (ks : List Str) (c : ViewCache)
    (hc : CacheOk lower c) :
    ∃ vs c', getViews lower c ks = some (vs, c') ∧ CacheOk lower c' ∧ (∃ t, c' = c ++ t) ∧
      vs.length = ks.length ∧
      ∀ (i : Nat) k v, ks[i]? = some k → vs[i]? = some v → ∃ e ∈ c', lower e.1 = lower k ∧ e.2 = v := by
  induction ks generalizing c with
  | nil => exact ⟨[], c, rfl, hc, ⟨[], by simp⟩, rfl, by simp⟩
  | cons key ks ih =>
    obtain ⟨v, c1, e, h1, hc1, ⟨t1, ht1⟩, he, hek, hev⟩ := getView_ok lower hl c key hc
    obtain ⟨vs, c2, h2, hc2, ⟨t2, ht2⟩, hlen, hvs⟩ := ih c1 hc1
    refine ⟨v :: vs, c2, by simp [getViews, h1, h2], hc2, ⟨t1 ++ t2, by simp [ht2, ht1]⟩,
      by simp [hlen], ?_⟩
    intro i k w hk hw
    cases i with
    | zero =>
      simp only [List.getElem?_cons_zero, Option.some.injEq] at hk hw
      subst hk hw
      exact ⟨e, by rw [ht2]; exact List.mem_append_left _ he, hek, hev⟩
    | succ i =>
      simp only [List.getElem?_cons_succ] at hk hw
      exact hvs i k w hk hw

/-- C49: in any history of lookups on one message, no lookup fails, and two lookups give the very
same view object exactly when their names are equal up to case. -/
theorem C49_lookups (lower : Str → Str) (hl : LowersTable lower) (ks : List Str) :
    ∃ vs c, getViews lower [] ks = some (vs, c) ∧ vs.length = ks.length ∧
      ∀ (i j : Nat) a b v w, ks[i]? = some a → ks[j]? = some b → vs[i]? = some v → vs[j]? = some w →
        (v.1 = w.1 ↔ lower a = lower b) ∧ viewClass lower a = some v.2 := by
  obtain ⟨vs, c, h, hc, _, hlen, hvs⟩ := getViews_ok lower hl ks [] ⟨by simp, by simp, by simp⟩
  refine ⟨vs, c, h, hlen, ?_⟩
  intro i j a b v w ha hb hv hw
  obtain ⟨e, he, hea, hev⟩ := hvs i a v ha hv
  obtain ⟨f, hf, hfb, hfw⟩ := hvs j b w hb hw
  obtain ⟨x, hx⟩ := List.getElem?_of_mem he
  obtain ⟨y, hy⟩ := List.getElem?_of_mem hf
  have hsx := hc.serial x e hx
  have hsy := hc.serial y f hy
  refine ⟨?_, ?_⟩
  · constructor
    · intro hvw
      have : x = y := by rw [← hsx, ← hsy, hev, hfw, hvw]
      subst this
      rw [hx] at hy
      cases hy
      rw [← hea, hfb]
    · intro hab
      have := hc.distinct x y e f hx hy (by rw [hea, hfb, hab])
      rw [← hev, ← hfw, hsx, hsy, this]
  · rw [← hev, ← hc.classOk e he]
    exact (C49_class_case lower _ _ hea).symm

/-- C49: headers without a rule have no syntax, so the values joined by an `UnknownHeaderView` are
always byte strings. -/
theorem C49_unknown_has_no_syntax (lower : Str → Str) (key : Str) (h : ruleFor lower key = none) :
    ∀ r, (headerRows.find? fun r => lower (str r.key) = lower key) = some r → r.hasSyntax = false := by
  intro r hr
  have hrule : r.rule = none := by
    unfold ruleFor at h
    rw [hr] at h
    simpa using h
  have : ∀ r ∈ headerRows, r.rule = none → r.hasSyntax = false := by decide +kernel
  exact this r (List.mem_of_find?_eq_some hr) hrule

/-- C49: the table loads: its keys are distinct up to case, and so are the attribute names made from
them. -/
theorem C49_table_loads :
    (headerRows.map fun r => asciiLower (str r.key)).Nodup ∧
    (headerRows.map fun r => nameFromKey (str r.key)).Nodup := by
  constructor <;> decide +kernel

example : viewClass asciiLower (str "cache-CONTROL") = some (.special "Cache-Control") ∧
    viewClass asciiLower (str "X-Foo") = some .unknown ∧
    viewClass asciiLower (str "VARY") = some .multi ∧
    viewClass asciiLower (str "date") = some .single ∧
    LowersTable asciiLower := by
  refine ⟨by decide +kernel, by decide +kernel, by decide +kernel, by decide +kernel, fun _ _ => rfl⟩

end Httpolice.Props
