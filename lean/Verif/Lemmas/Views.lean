import Verif.Spec.Views
import Verif.Lemmas.Hops

/-!
# Entries of headers
-/

namespace Httpolice.Lemmas

open Httpolice.Model Httpolice.Spec

/-! ## Words -/

theorem lower_iff {a b : Str} : asciiLower a = asciiLower b ↔ SameWord a b := by
  rw [sameWord_iff]
  have : ∀ s : Str, asciiLower s = s.map litLower := fun s => rfl
  rw [this, this]

theorem sameWord_symm {a b : Str} (h : SameWord a b) : SameWord b a := lower_iff.mp (lower_iff.mpr h).symm

theorem sameWord_trans {a b c : Str} (h : SameWord a b) (k : SameWord b c) : SameWord a c :=
  lower_iff.mp ((lower_iff.mpr h).trans (lower_iff.mpr k))

theorem among_congr {a b : Str} (h : SameWord a b) (ws : List String) : AmongWords a ws ↔ AmongWords b ws :=
  ⟨fun ⟨x, hx, hs⟩ => ⟨x, hx, sameWord_trans (sameWord_symm h) hs⟩, fun ⟨x, hx, hs⟩ => ⟨x, hx, sameWord_trans h hs⟩⟩

/-! ## Delimiters -/

/-- The texts in a value that matter. -/
def Shows (d : Delims) (e : Entry) (v : GVal) (ss : List Str) : Prop := delimNotes d.1 d.2 e v = delimsIn d e ss

def ShowsAll (d : Delims) (e : Entry) (l : List GVal) (ss : List Str) : Prop := delimNotesAll d.1 d.2 e l = delimsIn d e ss

variable {d : Delims} {e : Entry}

theorem delimsIn_append (a b : List Str) : delimsIn d e (a ++ b) = delimsIn d e a ++ delimsIn d e b := by
  simp [delimsIn]

theorem shows_text (s : Str) : Shows d e (.text s) [s] := by
  show delimNotes _ _ _ _ = _
  rw [delimNotes, delimNote, delimsIn]
  simp [on]

theorem shows_plain {s : Str} (h1 : 44 ∉ s) (h2 : 59 ∉ s) : Shows d e (.text s) [] := by
  show delimNotes _ _ _ _ = _
  rw [delimNotes, delimNote, delimsIn]
  simp [h1, h2]

theorem showsAll_nil : ShowsAll d e [] [] := by
  show delimNotesAll _ _ _ _ = _
  rw [delimNotesAll]; rfl

theorem showsAll_cons {v : GVal} {l : List GVal} {a b : List Str} (h : Shows d e v a) (k : ShowsAll d e l b) :
    ShowsAll d e (v :: l) (a ++ b) := by
  show delimNotesAll _ _ _ _ = _
  rw [delimNotesAll, delimsIn_append, h, k]

theorem showsAll_one {v : GVal} {a : List Str} (h : Shows d e v a) : ShowsAll d e [v] a := by
  simpa using showsAll_cons h showsAll_nil

theorem showsAll_two {v w : GVal} {a b : List Str} (h : Shows d e v a) (k : Shows d e w b) : ShowsAll d e [v, w] (a ++ b) :=
  showsAll_cons h (showsAll_one k)

theorem showsAll_append {l m : List GVal} {a b : List Str} (h : ShowsAll d e l a) (k : ShowsAll d e m b) :
    ShowsAll d e (l ++ m) (a ++ b) := by
  induction l generalizing a with
  | nil =>
    have : delimsIn d e a = [] := by rw [← h, delimNotesAll]
    show delimNotesAll _ _ _ _ = _
    rw [List.nil_append, delimsIn_append, this, k, List.nil_append]
  | cons v l ih =>
    show delimNotesAll _ _ _ _ = _
    have h' : delimNotesAll d.1 d.2 e (v :: l) = delimsIn d e a := h
    rw [delimNotesAll] at h'
    have hl : ∀ l : List GVal, delimNotesAll d.1 d.2 e (l ++ m) = delimNotesAll d.1 d.2 e l ++ delimNotesAll d.1 d.2 e m := by
      intro l
      induction l with
      | nil => rw [List.nil_append, delimNotesAll]; rfl
      | cons x l ih => rw [List.cons_append, delimNotesAll, ih, delimNotesAll, List.append_assoc]
    rw [List.cons_append, delimNotesAll, hl, ← List.append_assoc, h', k, delimsIn_append]

theorem showsAll_map {α : Type} {f : α → GVal} {g : α → List Str} {l : List α} (h : ∀ x ∈ l, Shows d e (f x) (g x)) :
    ShowsAll d e (l.map f) (l.flatMap g) := by
  induction l with
  | nil => exact showsAll_nil
  | cons x l ih => exact showsAll_cons (h x (.head _)) (ih fun y hy => h y (.tail _ hy))

theorem shows_list {l : List GVal} {a : List Str} (h : ShowsAll d e l a) : Shows d e (.list l) a := by
  show delimNotes _ _ _ _ = _
  rw [delimNotes, h]

theorem shows_tuple {l : List GVal} {a : List Str} (h : ShowsAll d e l a) : Shows d e (.tuple l) a := by
  show delimNotes _ _ _ _ = _
  rw [delimNotes, h]

theorem shows_obj {cls : Str} {l : List GVal} {a : List Str} (hc : cls ∈ strClasses ∨ cls ∈ tupleClasses) (h : ShowsAll d e l a) :
    Shows d e (.obj cls l) a := by
  show delimNotes _ _ _ _ = _
  rw [delimNotes, if_pos hc, h]

theorem shows_other {cls : Str} {l : List GVal} (hc : ¬ (cls ∈ strClasses ∨ cls ∈ tupleClasses)) : Shows d e (.obj cls l) [] := by
  show delimNotes _ _ _ _ = _
  rw [delimNotes, if_neg hc]; rfl

theorem shows_none : Shows d e .none [] := by
  show delimNotes _ _ _ _ = _
  rw [delimNotes]; rfl

theorem shows_int (n : Int) : Shows d e (.int n) [] := by
  show delimNotes _ _ _ _ = _
  rw [delimNotes]; rfl

theorem tchar_plain {c : Nat} (h : IsTchar c) : c ≠ 44 ∧ c ≠ 59 := by
  rcases h with h | h | h | h
  · omega
  · omega
  · omega
  · constructor <;> rintro rfl <;> revert h <;> decide

theorem token_no_delims {w : Str} (h : IsToken w) : 44 ∉ w ∧ 59 ∉ w :=
  ⟨fun hc => (tchar_plain (h.2 _ hc)).1 rfl, fun hc => (tchar_plain (h.2 _ hc)).2 rfl⟩

theorem shows_token {w : Str} (h : IsToken w) : Shows d e (.text w) [] :=
  shows_plain (token_no_delims h).1 (token_no_delims h).2

theorem shows_name {cls w : Str} (hc : cls ∈ strClasses) (h : IsToken w) : Shows d e (nameValue cls w) [] :=
  shows_obj (.inl hc) (showsAll_one (shows_token h))

theorem shows_word {w : Word} (h : w.Ok) : Shows d e (.text w.content) w.quotes := by
  cases w with
  | token s => exact shows_token h
  | quoted q => exact shows_text _

/-! ## Results of parsing -/

theorem runParser_ok {p : SymParser} {fail : Nat} {s : Str} {v : GVal} {cs as} (h : p s = .ok (.val v, cs, as)) :
    runParser p fail e s = (v, complaintsOn e cs) := by
  simp [runParser, h, GVal.ofNode, complaintsOn, on]

theorem runParser_error {p : SymParser} {fail : Nat} {s : Str} {err : PErr} (h : p s = .error err) :
    runParser p fail e s = (unavailableObj s, [on e fail]) := by
  simp [runParser, h, on]

/-- A value that is there. -/
def IsReal (v : GVal) : Prop := ∀ args, v ≠ .obj (str "Unavailable") args

variable {p : SymParser} {process : Entry → GVal → GVal × List Note}

theorem readEntry_error {err : PErr} (h : p e.value = .error err) :
    readEntry p process d e = (.unavailable (some e.value), [on e 1000]) := by
  simp [readEntry, runParser_error h, unavailableObj]

theorem readEntry_real {v : GVal} {cs as} (h : p e.value = .ok (.val v, cs, as)) (hv : IsReal v) :
    readEntry p process d e =
      (toParsed (process e v).1, complaintsOn e cs ++ (process e v).2 ++ delimNotes d.1 d.2 e (process e v).1) := by
  rw [readEntry, runParser_ok h]
  cases v with
  | obj cls args =>
    have : cls ≠ str "Unavailable" := fun hc => hv args (by rw [hc])
    simp only [if_neg this]
  | _ => rfl

theorem readEntry_unavailable {s : Str} {cs as} (h : p e.value = .ok (.val (unavailableObj s), cs, as)) :
    readEntry p process d e = (.unavailable (some s), complaintsOn e cs) := by
  rw [readEntry, runParser_ok h]
  rfl

theorem complaintsOn_perm {a b : List PyComplaint} (h : a.Perm b) : (complaintsOn e a).Perm (complaintsOn e b) := h.map _

/-- From a grammar to entries. -/
theorem readsEntries_of {α : Type} {Ok : α → Prop} {print : α → Str} {IsValue : α → GVal → Prop} {notes : α → List PyComplaint}
    {key : String} {Result : Entry → α → Parsed GVal × List Note → Prop} (h : ReadsAs p Ok print IsValue notes)
    (hr : ∀ e x v cs as, Ok x → IsValue x v → cs.Perm (notes x) → p e.value = .ok (.val v, cs, as) →
      Result e x (readEntry p process (badQuotedDelims (str key)) e)) :
    ReadsEntries (knownKind key p process) Ok print Result := by
  intro e
  constructor
  · intro x hx he
    obtain ⟨v, cs, as, h1, h2, h3⟩ := h.2 x hx
    exact hr e x v cs as hx h2 h3 (he ▸ h1)
  · intro hn
    obtain ⟨err, he⟩ := (h.1 e.value).2.mpr hn
    exact readEntry_error he

theorem readsAs_of {α : Type} {Ok : α → Prop} {print : α → Str} {value : α → GVal} {notes : α → List PyComplaint}
    (h : Reads p Ok print value notes) : ReadsAs p Ok print (fun x v => v = value x) notes :=
  ⟨h.1, fun x hx => let ⟨cs, as, h1, h2⟩ := h.2 x hx; ⟨_, cs, as, h1, rfl, h2⟩⟩

theorem sees_real {v : GVal} (hv : IsReal v) : Sees v (toParsed v) := by
  cases v with
  | list l => exact .list l
  | obj cls args => exact .single nofun fun s hs => hv _ hs
  | _ => exact .single nofun nofun

/-- A header with delimiters to look for. -/
theorem readsEntries_delims {α : Type} {Ok : α → Prop} {print : α → Str} {IsValue : α → GVal → Prop}
    {notes : α → List PyComplaint} {key : String} {texts : α → List Str} (hd : badQuotedDelims (str key) = d)
    (h : ReadsAs p Ok print IsValue notes)
    (hv : ∀ x v, Ok x → IsValue x v → IsReal v) (ht : ∀ e x v, Ok x → IsValue x v → Shows d e v (texts x)) :
    ReadsEntries (knownKind key p plainProcess) Ok print (ReadWithDelims IsValue notes d texts) := by
  subst hd
  refine readsEntries_of h fun e x v cs as hx hxv hp he => ?_
  rw [readEntry_real he (hv x v hx hxv)]
  refine ⟨v, hxv, sees_real (hv x v hx hxv), ?_⟩
  have := ht e x v hx hxv
  simp only [plainProcess, List.append_nil]
  rw [show delimNotes _ _ e v = _ from this]
  exact (complaintsOn_perm hp).append_right _

/-! ## Arguments -/

/-- A rule is as it should be. -/
inductive Meets : ArgRule → ArgPlace → Prop
  | flag : Meets ⟨.no, none⟩ .flag
  | required {p : SymParser} {R : ArgReading} : ReadsArgs p R → Meets ⟨.required, some p⟩ (.reads true R)
  | optional {p : SymParser} {R : ArgReading} : ReadsArgs p R → Meets ⟨.optional, some p⟩ (.reads false R)
  | free : Meets ⟨.unknown, none⟩ .free

/-- An argument as a value. -/
def argValue : Option Str → GVal
  | none => .none
  | some s => .text s

theorem runParser_args {p : SymParser} {R : ArgReading} (h : ReadsArgs p R) (b : Bool) (s : Str) :
    ∃ a ns, Argument (.reads b R) (some s) a ns ∧ runParser p 1158 e s = (a, ns.map (on e)) := by
  rcases h s with ⟨v, cs, as, h1, h2⟩ | ⟨⟨err, h1⟩, h2⟩
  · exact ⟨v, _, .good h2, by rw [runParser_ok h1, complaintsOn, List.map_map]; rfl⟩
  · exact ⟨_, _, .bad h2, by rw [runParser_error h1]; rfl⟩

theorem processArgument_meets {r : ArgRule} {form : ArgPlace} (h : Meets r form) (o : Option Str) :
    ∃ a ns, Argument form o a ns ∧ processArgument r e (argValue o) = (a, ns.map (on e)) := by
  cases h with
  | flag =>
    cases o with
    | none => exact ⟨_, _, .flag, rfl⟩
    | some s => exact ⟨_, _, .unwanted s, rfl⟩
  | required h =>
    cases o with
    | none => exact ⟨_, _, .missing _, rfl⟩
    | some s => exact runParser_args h true s
  | optional h =>
    cases o with
    | none => exact ⟨_, _, .without _, rfl⟩
    | some s => exact runParser_args h false s
  | free =>
    cases o with
    | none => exact ⟨_, _, .nothing, rfl⟩
    | some s => exact ⟨_, _, .anything s, rfl⟩

theorem processPair_meets {know : Str → ArgRule} {form : ArgPlace} {cls name : Str} {o : Option Str} {pair : GVal}
    (h : Meets (know name) form) (hp : unpackPair pair = some (nameValue cls name, argValue o)) :
    Settled cls form e name o (processPairG know e pair) := by
  obtain ⟨a, ns, h1, h2⟩ := processArgument_meets (e := e) h o
  refine ⟨a, ns, h1, ?_⟩
  rw [processPairG, hp]
  have h2 : processArgument (know (strText (nameValue cls name))) e (argValue o) = _ := h2
  simp only [h2]

theorem rules_meet {rows : List (String × ArgKind × Option SymParser)} {form : Str → ArgPlace}
    (hc : ∀ a b, SameWord a b → form a = form b) (hr : ∀ r ∈ rows, Meets ⟨r.2.1, r.2.2⟩ (form (str r.1)))
    (hf : ∀ name, (∀ r ∈ rows, ¬ SameWord name (str r.1)) → form name = .free) (name : Str) :
    Meets (argRule asciiLower rows name) (form name) := by
  unfold argRule
  cases hfind : rows.find? fun r => asciiLower (str r.1) = asciiLower name with
  | none =>
    rw [List.find?_eq_none] at hfind
    rw [hf name fun r hr hs => hfind r hr (by simpa using (lower_iff.mpr hs).symm)]
    exact .free
  | some r =>
    have h1 := List.find?_some hfind
    have h2 := List.mem_of_find?_eq_some hfind
    rw [← hc _ _ (lower_iff.mp (by simpa using h1))]
    exact hr r h2

/-- The elements of a list, one by one. -/
theorem processEach_list {β : Type} {f : GVal → GVal × List Note} {One : β → GVal × List Note → Prop} {val : β → GVal}
    {l : List β} (h : ∀ x ∈ l, One x (f (val x))) :
    ∃ rs, Pairwise2 One l rs ∧ processEach f (.list (l.map val)) = (.list (rs.map Prod.fst), rs.flatMap Prod.snd) := by
  refine ⟨l.map fun x => f (val x), ?_, by simp [processEach, List.flatMap_map, Function.comp_def]⟩
  induction l with
  | nil => exact .nil
  | cons x l ih => exact .cons (h x (.head _)) (ih fun y hy => h y (.tail _ hy))

/-- The same, where there are several ways to understand what is written. -/
theorem readsEntries_some {α : Type} {Ok : α → Prop} {print : α → Str} {value : α → GVal}
    {notes : α → List PyComplaint} {key : String} {texts : α → List Str} (hd : badQuotedDelims (str key) = d)
    (h : ReadsSome p Ok print value notes) (hv : ∀ x, Ok x → IsReal (value x)) (ht : ∀ e x, Ok x → Shows d e (value x) (texts x)) :
    ReadsEntries (knownKind key p plainProcess) Ok print
      (OneWay Ok print (ReadWithDelims (fun x v => v = value x) notes d texts)) := by
  subst hd
  intro e
  constructor
  · intro x hx he
    obtain ⟨⟨node, cs, as⟩, hp⟩ := (h.1 e.value).1.mpr ⟨x, hx, he⟩
    obtain ⟨y, h1, h2, rfl, h4⟩ := h.2 _ _ _ _ hp
    refine ⟨y, h1, h2.symm.trans he, ?_⟩
    show ReadWithDelims _ _ _ _ _ _ (readEntry p plainProcess (badQuotedDelims (str key)) e)
    rw [readEntry_real hp (hv y h1)]
    refine ⟨_, rfl, sees_real (hv y h1), ?_⟩
    simp only [plainProcess, List.append_nil]
    rw [show delimNotes _ _ e (value y) = _ from ht e y h1]
    exact (complaintsOn_perm h4).append_right _
  · intro hn
    obtain ⟨err, he⟩ := (h.1 e.value).2.mpr hn
    exact readEntry_error (process := plainProcess) (d := badQuotedDelims (str key)) he

mutual
theorem delimNotes_off : ∀ v : GVal, delimNotes false false e v = []
  | .text s => by rw [delimNotes]; simp [delimNote]
  | .tuple l => by rw [delimNotes, delimNotesAll_off l]
  | .list l => by rw [delimNotes, delimNotesAll_off l]
  | .obj cls args => by
    rw [delimNotes]
    split
    · exact delimNotesAll_off args
    · rfl
  | .none => by rw [delimNotes]
  | .skip => by rw [delimNotes]
  | .int _ => by rw [delimNotes]

theorem delimNotesAll_off : ∀ l : List GVal, delimNotesAll false false e l = []
  | [] => by rw [delimNotesAll]
  | v :: l => by rw [delimNotesAll, delimNotes_off v, delimNotesAll_off l]; rfl
end

/-- A header with nothing to look for. -/
theorem readsEntries_plain {α : Type} {Ok : α → Prop} {print : α → Str} {IsValue : α → GVal → Prop}
    {notes : α → List PyComplaint} {key : String} (hd : badQuotedDelims (str key) = (false, false))
    (h : ReadsAs p Ok print IsValue notes) (hv : ∀ x v, Ok x → IsValue x v → IsReal v ∨ ∃ s, v = unavailableObj s) :
    ReadsEntries (knownKind key p plainProcess) Ok print (JustRead IsValue notes) := by
  refine readsEntries_of h fun e x v cs as hx hxv hp he => ?_
  rw [hd]
  rcases hv x v hx hxv with hr | ⟨s, rfl⟩
  · rw [readEntry_real he hr]
    refine ⟨v, hxv, sees_real hr, ?_⟩
    simp only [plainProcess, List.append_nil, delimNotes_off]
    exact complaintsOn_perm hp
  · rw [readEntry_unavailable he]
    exact ⟨_, hxv, .unavailable s, complaintsOn_perm hp⟩

/-- A header with elements that are processed. -/
theorem readsEntries_each {α β : Type} {Ok : α → Prop} {print : α → Str} {value : α → GVal} {notes : α → List PyComplaint}
    {key : String} (hd : badQuotedDelims (str key) = d) (h : Reads p Ok print value notes) {elems : α → List β} {val : β → GVal}
    (hval : ∀ x, value x = .list ((elems x).map val)) {f : Entry → GVal → GVal × List Note}
    {One : Entry → β → GVal × List Note → Prop} {texts : β → List Str}
    (h1 : ∀ e x, Ok x → ∀ y ∈ elems x, One e y (f e (val y)))
    (h2 : ∀ e x, Ok x → ∀ y ∈ elems x, ∀ r, One e y r → Shows d e r.1 (texts y)) :
    ReadsEntries (knownKind key p fun e => processEach (f e)) Ok print
      (fun e x r => EachBecomesWith d texts (elems x) (notes x) (One e) e r) := by
  subst hd
  refine readsEntries_of (readsAs_of h) fun e x v cs as hx hxv hp he => ?_
  subst hxv
  rw [hval] at he
  rw [readEntry_real he nofun]
  obtain ⟨rs, r1, r2⟩ := processEach_list (h1 e x hx)
  refine ⟨rs, r1, by rw [r2]; rfl, ?_⟩
  rw [r2]
  have hs : ∀ (l : List β) (rs : List (GVal × List Note)), Pairwise2 (One e) l rs →
      (∀ y ∈ l, ∀ r, One e y r → Shows (badQuotedDelims (str key)) e r.1 (texts y)) →
      ShowsAll (badQuotedDelims (str key)) e (rs.map Prod.fst) (l.flatMap texts) := by
    intro l rs hl
    induction hl with
    | nil => exact fun _ => showsAll_nil
    | cons ha _ ih => exact fun hy => showsAll_cons (hy _ (.head _) _ ha) (ih fun y hm => hy y (.tail _ hm))
  rw [show delimNotes _ _ e (.list _) = _ from shows_list (hs _ _ r1 (h2 e x hx))]
  exact ((complaintsOn_perm hp).append_right _).append_right _

/-- Without delimiters. -/
theorem readsEntries_each_plain {α β : Type} {Ok : α → Prop} {print : α → Str} {value : α → GVal} {notes : α → List PyComplaint}
    {key : String} (hd : badQuotedDelims (str key) = (false, false)) (h : Reads p Ok print value notes) {elems : α → List β}
    {val : β → GVal} (hval : ∀ x, value x = .list ((elems x).map val)) {f : Entry → GVal → GVal × List Note}
    {One : Entry → β → GVal × List Note → Prop} (h1 : ∀ e x, Ok x → ∀ y ∈ elems x, One e y (f e (val y))) :
    ReadsEntries (knownKind key p fun e => processEach (f e)) Ok print
      (fun e x r => EachBecomes (elems x) (notes x) (One e) e r) := by
  have := readsEntries_each (texts := fun _ => []) hd h hval h1 fun e x _ y _ r _ => delimNotes_off r.1
  intro e
  refine ⟨fun x hx he => ?_, (this e).2⟩
  obtain ⟨rs, r1, r2, r3⟩ := (this e).1 x hx he
  refine ⟨rs, r1, r2, ?_⟩
  have h0 : ∀ l : List β, delimsIn (false, false) e (l.flatMap fun _ => []) = [] := by
    intro l; simp [delimsIn]
  rw [h0, List.append_nil] at r3
  exact r3

end Httpolice.Lemmas
