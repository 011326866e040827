import Verif.Lemmas.Ranges
import Verif.Lemmas.ListText
import Verif.Lemmas.ModuleNt
import Verif.Props.Modules

/-!
# C55: byte ranges
-/

namespace Httpolice.Props

open Httpolice.Model Httpolice.Spec Httpolice.Lemmas

/-! ## Texts determine what is written -/

/-- A digit. -/
def Digit (c : Nat) : Prop := 48 ≤ c ∧ c ≤ 57

theorem digits_span {f f' l l' : Str} (h : IsNumeral f) (h' : IsNumeral f') (hl : Stops Digit l) (hl' : Stops Digit l')
    (e : f ++ l = f' ++ l') : f = f' ∧ l = l' := span_unique h.2 h'.2 hl hl' e

theorem hyphen_stops (l : Str) : Stops Digit (str "-" ++ l) := .cons (by unfold Digit; decide +kernel)
theorem slash_stops (l : Str) : Stops Digit (str "/" ++ l) := .cons (by unfold Digit; decide +kernel)

theorem numeral_not_hyphen {f l l' : Str} (h : IsNumeral f) : f ++ l ≠ str "-" ++ l' := by
  intro e
  cases f with
  | nil => exact h.1 rfl
  | cons c f =>
    have h1 := h.2 c (.head _)
    have h2 : c = 45 := (List.cons.inj e).1
    omega

theorem spec_inj (x y : ByteSpec) (hx : x.Ok) (hy : y.Ok) (e : x.text = y.text) : x = y := by
  have none : ∀ {f : Str}, f ++ str "-" = f ++ (str "-" ++ []) := by simp
  cases x with
  | between f l =>
    cases y with
    | between f' l' =>
      simp only [ByteSpec.text, List.append_assoc] at e
      replace e := digits_span hx.1 hy.1 (hyphen_stops _) (hyphen_stops _) e
      obtain ⟨rfl, e⟩ := e
      rw [List.append_cancel_left e]
    | onwards f' =>
      simp only [ByteSpec.text, List.append_assoc] at e
      rw [none] at e
      replace e := digits_span hx.1 hy (hyphen_stops _) (hyphen_stops _) e
      obtain ⟨rfl, e⟩ := e
      exact absurd (List.append_cancel_left e) hx.2.1
    | suffix n =>
      simp only [ByteSpec.text, List.append_assoc] at e
      exact absurd e (numeral_not_hyphen hx.1)
  | onwards f =>
    cases y with
    | between f' l' =>
      simp only [ByteSpec.text, List.append_assoc] at e
      rw [none] at e
      replace e := digits_span hx hy.1 (hyphen_stops _) (hyphen_stops _) e
      obtain ⟨rfl, e⟩ := e
      exact absurd (List.append_cancel_left e).symm hy.2.1
    | onwards f' => rw [List.append_cancel_right e]
    | suffix n => exact absurd e (numeral_not_hyphen hx)
  | suffix n =>
    cases y with
    | between f' l' =>
      simp only [ByteSpec.text, List.append_assoc] at e
      exact absurd e.symm (numeral_not_hyphen hy.1)
    | onwards f' => exact absurd e.symm (numeral_not_hyphen hy)
    | suffix n' => rw [List.append_cancel_left e]

theorem spec_plain (x : ByteSpec) (hx : x.Ok) : x.text ≠ [] ∧ ∀ c ∈ x.text, Unbroken c := by
  have hd : ∀ {f : Str}, IsNumeral f → ∀ c ∈ f, Unbroken c := by
    intro f hf c hc
    have := hf.2 c hc
    unfold Unbroken
    omega
  have hh : ∀ c ∈ str "-", Unbroken c := by
    intro c hc
    have : c = 45 := by simpa [str] using hc
    subst this
    unfold Unbroken
    decide
  have hn : str "-" ≠ [] := by decide +kernel
  cases x with
  | between f l =>
    refine ⟨by simp [ByteSpec.text, hn], fun c hc => ?_⟩
    simp only [ByteSpec.text, List.mem_append] at hc
    rcases hc with (hc | hc) | hc
    · exact hd hx.1 c hc
    · exact hh c hc
    · exact hd hx.2 c hc
  | onwards f =>
    refine ⟨by simp [ByteSpec.text, hn], fun c hc => ?_⟩
    simp only [ByteSpec.text, List.mem_append] at hc
    rcases hc with hc | hc
    · exact hd hx c hc
    · exact hh c hc
  | suffix n =>
    refine ⟨by simp [ByteSpec.text, hn], fun c hc => ?_⟩
    simp only [ByteSpec.text, List.mem_append] at hc
    rcases hc with hc | hc
    · exact hh c hc
    · exact hd hx c hc

theorem token_stops {c : Nat} (hc : c = 32 ∨ c = 61 ∨ c = 47) (l : Str) : Stops IsTchar (c :: l) := by
  refine .cons ?_
  have hs : str "!#$%&'*+-.^_`|~" = [33, 35, 36, 37, 38, 39, 42, 43, 45, 46, 94, 95, 96, 124, 126] := by decide +kernel
  unfold IsTchar
  rw [hs]
  rcases hc with rfl | rfl | rfl <;> decide

/-- **C55**: what is written in a Range is determined by the text. -/
theorem C55_range_unambiguous {x y : RangeSyn} (hx : x.Ok) (hy : y.Ok) (e : x.text = y.text) : x = y := by
  have eq : ∀ l : Str, Stops IsTchar (str "=" ++ l) := fun l => token_stops (c := 61) (by simp) l
  cases x with
  | bytes u l =>
    cases y with
    | bytes u' l' =>
      simp only [RangeSyn.text, List.append_assoc] at e
      replace e := span_unique (isBytes_token hx.1).2 (isBytes_token hy.1).2 (eq _) (eq _) e
      obtain ⟨rfl, e⟩ := e
      rw [list1_inj (fun a ha => (spec_plain a ha).1) (fun a ha => (spec_plain a ha).2) spec_inj hx.2 hy.2
        (List.append_cancel_left e)]
    | other u' v =>
      simp only [RangeSyn.text, List.append_assoc] at e
      replace e := span_unique (isBytes_token hx.1).2 hy.1.1.2 (eq _) (eq _) e
      obtain ⟨rfl, e⟩ := e
      exact absurd hx.1 hy.1.2
  | other u v =>
    cases y with
    | bytes u' l' =>
      simp only [RangeSyn.text, List.append_assoc] at e
      replace e := span_unique hx.1.1.2 (isBytes_token hy.1).2 (eq _) (eq _) e
      obtain ⟨rfl, e⟩ := e
      exact absurd hy.1 hx.1.2
    | other u' v =>
      simp only [RangeSyn.text, List.append_assoc] at e
      replace e := span_unique hx.1.1.2 hy.1.1.2 (eq _) (eq _) e
      obtain ⟨rfl, e⟩ := e
      rw [List.append_cancel_left e]

theorem complete_inj {c d : Option Str} (hc : ∀ n, c = some n → IsNumeral n) (hd : ∀ n, d = some n → IsNumeral n)
    (e : c.getD (str "*") = d.getD (str "*")) : c = d := by
  have star : ¬ IsNumeral (str "*") := by decide +kernel
  cases c with
  | none =>
    cases d with
    | none => rfl
    | some n =>
      have e : str "*" = n := e
      exact absurd (e ▸ hd n rfl) star
  | some m =>
    cases d with
    | none =>
      have e : m = str "*" := e
      exact absurd (e ▸ hc m rfl) star
    | some n => rw [show m = n from e]

/-- **C55**: what is written in a Content-Range is determined by the text. -/
theorem C55_content_range_unambiguous {x y : ContentRangeSyn} (hx : x.Ok) (hy : y.Ok) (e : x.text = y.text) : x = y := by
  have sp : ∀ l : Str, Stops IsTchar (str " " ++ l) := fun l => token_stops (c := 32) (by simp) l
  have un : ∀ l : Str, str " */" ++ l = str " " ++ (str "*/" ++ l) := fun l => rfl
  have star : ∀ {f l l' : Str}, IsNumeral f → f ++ l ≠ str "*/" ++ l' := by
    intro f l l' h e
    cases f with
    | nil => exact h.1 rfl
    | cons c f =>
      have h1 := h.2 c (.head _)
      have h2 : c = 42 := (List.cons.inj e).1
      omega
  cases x with
  | part u f l c =>
    have hu := (isBytes_token hx.1).2
    cases y with
    | part u' f' l' c' =>
      simp only [ContentRangeSyn.text, List.append_assoc] at e
      replace e := span_unique hu (isBytes_token hy.1).2 (sp _) (sp _) e
      obtain ⟨rfl, e⟩ := e
      replace e := digits_span hx.2.1 hy.2.1 (hyphen_stops _) (hyphen_stops _) (List.append_cancel_left e)
      obtain ⟨rfl, e⟩ := e
      replace e := digits_span hx.2.2.1 hy.2.2.1 (slash_stops _) (slash_stops _) (List.append_cancel_left e)
      obtain ⟨rfl, e⟩ := e
      rw [complete_inj hx.2.2.2 hy.2.2.2 (List.append_cancel_left e)]
    | unsatisfied u' c' =>
      simp only [ContentRangeSyn.text, List.append_assoc] at e
      rw [un] at e
      replace e := span_unique hu (isBytes_token hy.1).2 (sp _) (sp _) e
      obtain ⟨rfl, e⟩ := e
      exact absurd (List.append_cancel_left e) (star hx.2.1)
    | other u' v =>
      simp only [ContentRangeSyn.text, List.append_assoc] at e
      replace e := span_unique hu hy.1.1.2 (sp _) (sp _) e
      obtain ⟨rfl, e⟩ := e
      exact absurd hx.1 hy.1.2
  | unsatisfied u c =>
    have hu := (isBytes_token hx.1).2
    cases y with
    | part u' f' l' c' =>
      simp only [ContentRangeSyn.text, List.append_assoc] at e
      rw [un] at e
      replace e := span_unique hu (isBytes_token hy.1).2 (sp _) (sp _) e
      obtain ⟨rfl, e⟩ := e
      exact absurd (List.append_cancel_left e).symm (star hy.2.1)
    | unsatisfied u' c' =>
      simp only [ContentRangeSyn.text, List.append_assoc] at e
      rw [un, un] at e
      replace e := span_unique hu (isBytes_token hy.1).2 (sp _) (sp _) e
      obtain ⟨rfl, e⟩ := e
      rw [List.append_cancel_left (List.append_cancel_left e)]
    | other u' v =>
      simp only [ContentRangeSyn.text, List.append_assoc] at e
      rw [un] at e
      replace e := span_unique hu hy.1.1.2 (sp _) (sp _) e
      obtain ⟨rfl, e⟩ := e
      exact absurd hx.1 hy.1.2
  | other u v =>
    have hu := hx.1.1.2
    cases y with
    | part u' f' l' c' =>
      simp only [ContentRangeSyn.text, List.append_assoc] at e
      replace e := span_unique hu (isBytes_token hy.1).2 (sp _) (sp _) e
      obtain ⟨rfl, e⟩ := e
      exact absurd hy.1 hx.1.2
    | unsatisfied u' c' =>
      simp only [ContentRangeSyn.text, List.append_assoc] at e
      rw [un] at e
      replace e := span_unique hu (isBytes_token hy.1).2 (sp _) (sp _) e
      obtain ⟨rfl, e⟩ := e
      exact absurd hy.1 hx.1.2
    | other u' v' =>
      simp only [ContentRangeSyn.text, List.append_assoc] at e
      replace e := span_unique hu hy.1.1.2 (sp _) (sp _) e
      obtain ⟨rfl, e⟩ := e
      rw [List.append_cancel_left e]

/-! ## Parsing -/

theorem range_symbols (order : List Nat → List Nat) (env : RangeName → Sym) (h : PyHeap) {n : RangeName}
    (hn : n = .range ∨ n = .contentRange ∨ n = .acceptRanges) : ∃ k, (runDefs env h (rangeDefs order)).1 n = .nt k := by
  refine module_nt (rangeDefs order) env h (nts := []) nofun ?_
  rcases hn with rfl | rfl | rfl <;> exact of_decide_eq_true rfl

section
variable {order : List Nat → List Nat} {env : RangeName → Sym} {h h' : PyHeap}

/-- **C55**: what is accepted as a Range. -/
theorem C55_range_accepts (ho : ∀ l c, c ∈ order l ↔ c ∈ l) (hb : Builds true Heap.init h)
    (later : Builds true (runDefs env h (rangeDefs order)).2 h') (ann : GVal → Bool) (data : Str) :
    ∃ k, (runDefs env h (rangeDefs order)).1 .range = .nt k ∧
      ((∃ res, innerParse h'.grammar (pyOps ann) data k = .ok res) ↔ ∃ x : RangeSyn, x.Ok ∧ data = x.text) ∧
      ((∃ e, innerParse h'.grammar (pyOps ann) data k = .error (.parse e)) ↔ ¬ ∃ x : RangeSyn, x.Ok ∧ data = x.text) := by
  obtain ⟨k, hk⟩ := range_symbols order env h (n := .range) (.inl rfl)
  obtain ⟨p1, p2, _⟩ := C57_module_parses hb (ranges_solve ho) (by simp [rangeDefs]) later ann hk data
  have key : (∃ vs cs, rangeD .range data vs cs) ↔ ∃ x : RangeSyn, x.Ok ∧ data = x.text := by
    constructor
    · rintro ⟨vs, cs, x, h1, h2, _⟩
      exact ⟨x, h1, h2⟩
    · rintro ⟨x, h1, h2⟩
      exact ⟨_, _, x, h1, h2, rfl, rfl⟩
  exact ⟨k, hk, p1.trans key, p2.trans (not_congr key)⟩

/-- **C55**: a Range is read as it is written, with the complaints that are due. -/
theorem C55_range_reads (ho : ∀ l c, c ∈ order l ↔ c ∈ l) (hb : Builds true Heap.init h)
    (later : Builds true (runDefs env h (rangeDefs order)).2 h') (ann : GVal → Bool) {x : RangeSyn} (hx : x.Ok) :
    ∃ k cs as, (runDefs env h (rangeDefs order)).1 .range = .nt k ∧
      innerParse h'.grammar (pyOps ann) x.text k = .ok (.val x.value, cs, as) ∧ cs.Perm x.notes := by
  obtain ⟨k, hk⟩ := range_symbols order env h (n := .range) (.inl rfl)
  obtain ⟨p1, _, p3⟩ := C57_module_parses hb (ranges_solve ho) (by simp [rangeDefs]) later ann hk x.text
  obtain ⟨⟨node, cs, as⟩, hr⟩ := p1.mpr ⟨_, _, x, hx, rfl, rfl, rfl⟩
  obtain ⟨y, k1, k2, k3, k4⟩ := anyOrder_tab.mp (p3 _ _ _ hr)
  cases C55_range_unambiguous hx k1 k2
  refine ⟨k, cs, as, hk, ?_, k4⟩
  cases node with
  | skip => cases k3
  | val v => cases k3; exact hr

/-- **C55**: what is accepted as a Content-Range. -/
theorem C55_content_range_accepts (ho : ∀ l c, c ∈ order l ↔ c ∈ l) (hb : Builds true Heap.init h)
    (later : Builds true (runDefs env h (rangeDefs order)).2 h') (ann : GVal → Bool) (data : Str) :
    ∃ k, (runDefs env h (rangeDefs order)).1 .contentRange = .nt k ∧
      ((∃ res, innerParse h'.grammar (pyOps ann) data k = .ok res) ↔ ∃ x : ContentRangeSyn, x.Ok ∧ data = x.text) ∧
      ((∃ e, innerParse h'.grammar (pyOps ann) data k = .error (.parse e)) ↔
        ¬ ∃ x : ContentRangeSyn, x.Ok ∧ data = x.text) := by
  obtain ⟨k, hk⟩ := range_symbols order env h (n := .contentRange) (.inr (.inl rfl))
  obtain ⟨p1, p2, _⟩ := C57_module_parses hb (ranges_solve ho) (by simp [rangeDefs]) later ann hk data
  have key : (∃ vs cs, rangeD .contentRange data vs cs) ↔ ∃ x : ContentRangeSyn, x.Ok ∧ data = x.text := by
    constructor
    · rintro ⟨vs, cs, x, h1, h2, _⟩
      exact ⟨x, h1, h2⟩
    · rintro ⟨x, h1, h2⟩
      exact ⟨_, _, x, h1, h2, rfl, rfl⟩
  exact ⟨k, hk, p1.trans key, p2.trans (not_congr key)⟩

open Classical in
/-- **C55**: a Content-Range is read as it is written; 1148 is reported, once, exactly if the bounds are reversed or do not
fit the complete length; and nothing else is. -/
theorem C55_content_range_reads (ho : ∀ l c, c ∈ order l ↔ c ∈ l) (hb : Builds true Heap.init h)
    (later : Builds true (runDefs env h (rangeDefs order)).2 h') (ann : GVal → Bool) {x : ContentRangeSyn} (hx : x.Ok) :
    ∃ k cs as, (runDefs env h (rangeDefs order)).1 .contentRange = .nt k ∧
      innerParse h'.grammar (pyOps ann) x.text k = .ok (.val x.value, cs, as) ∧
      (x.Wrong → cs.map Prod.fst = [1148]) ∧ (¬ x.Wrong → cs = []) := by
  obtain ⟨k, hk⟩ := range_symbols order env h (n := .contentRange) (.inr (.inl rfl))
  obtain ⟨p1, _, p3⟩ := C57_module_parses hb (ranges_solve ho) (by simp [rangeDefs]) later ann hk x.text
  obtain ⟨⟨node, cs, as⟩, hr⟩ := p1.mpr ⟨_, _, x, hx, rfl, rfl, rfl⟩
  obtain ⟨y, k1, k2, k3, k4⟩ := anyOrder_tab.mp (p3 _ _ _ hr)
  cases C55_content_range_unambiguous hx k1 k2
  refine ⟨k, cs, as, hk, ?_, fun hw => ?_, fun hw => ?_⟩
  · cases node with
    | skip => cases k3
    | val v => cases k3; exact hr
  · have k4 : cs.Perm (if x.Wrong then [(1148, [])] else []) := k4
    rw [if_pos hw] at k4
    rw [List.perm_singleton.mp k4]
    rfl
  · have k4 : cs.Perm (if x.Wrong then [(1148, [])] else []) := k4
    rw [if_neg hw] at k4
    exact k4.eq_nil

/-- **C55**: Accept-Ranges. (`none` may be taken for a unit as well; see the example.) -/
theorem C55_accept_ranges (ho : ∀ l c, c ∈ order l ↔ c ∈ l) (hb : Builds true Heap.init h)
    (later : Builds true (runDefs env h (rangeDefs order)).2 h') (ann : GVal → Bool) (data : Str) :
    ∃ k, (runDefs env h (rangeDefs order)).1 .acceptRanges = .nt k ∧
      ((∃ res, innerParse h'.grammar (pyOps ann) data k = .ok res) ↔ ∃ x : AcceptRangesSyn, x.Ok ∧ data = x.text) ∧
      ((∃ e, innerParse h'.grammar (pyOps ann) data k = .error (.parse e)) ↔
        ¬ ∃ x : AcceptRangesSyn, x.Ok ∧ data = x.text) ∧
      ∀ node cs as, innerParse h'.grammar (pyOps ann) data k = .ok (node, cs, as) →
        ∃ x : AcceptRangesSyn, x.Ok ∧ data = x.text ∧ node = .val x.value ∧ cs = x.notes := by
  obtain ⟨k, hk⟩ := range_symbols order env h (n := .acceptRanges) (.inr (.inr rfl))
  obtain ⟨p1, p2, p3⟩ := C57_module_parses hb (ranges_solve ho) (by simp [rangeDefs]) later ann hk data
  have key : (∃ vs cs, rangeD .acceptRanges data vs cs) ↔ ∃ x : AcceptRangesSyn, x.Ok ∧ data = x.text := by
    constructor
    · rintro ⟨vs, cs, x, h1, h2, _⟩
      exact ⟨x, h1, h2⟩
    · rintro ⟨x, h1, h2⟩
      exact ⟨_, _, x, h1, h2, rfl, rfl⟩
  refine ⟨k, hk, p1.trans key, p2.trans (not_congr key), fun node cs as hr => ?_⟩
  obtain ⟨x, k1, k2, k3, k4⟩ := anyOrder_tab.mp (p3 _ _ _ hr)
  refine ⟨x, k1, k2, ?_, ?_⟩
  · cases node with
    | skip => cases k3
    | val v => cases k3; rfl
  · have : ∀ (g : Prop) [Decidable g], cs.Perm (gapNotes g) → cs = gapNotes g := by
      intro g _ hp
      unfold gapNotes at hp ⊢
      by_cases hg : g
      · rw [if_pos hg] at hp ⊢
        exact List.perm_singleton.mp hp
      · rw [if_neg hg] at hp ⊢
        exact hp.eq_nil
    cases x with
    | none w => exact k4.eq_nil
    | units l => exact this _ k4

end

theorem spec_notes_count (l : List ByteSpec) :
    ((l.flatMap ByteSpec.notes).map Prod.fst).count 1133 = (l.filter fun x => decide x.Reversed).length ∧
    ∀ i ∈ (l.flatMap ByteSpec.notes).map Prod.fst, i = 1133 := by
  induction l with
  | nil => exact ⟨rfl, nofun⟩
  | cons x l ih =>
    rw [List.flatMap_cons, List.map_append, List.count_append]
    unfold ByteSpec.notes at ih ⊢
    by_cases h : x.Reversed
    · rw [if_pos h, List.filter_cons_of_pos (by simpa using h), List.length_cons, ih.1]
      refine ⟨by simp [Nat.add_comm], fun i hi => ?_⟩
      rcases List.mem_append.mp hi with hi | hi
      · simpa using hi
      · exact ih.2 i hi
    · rw [if_neg h, List.filter_cons_of_neg (by simpa using h), ih.1]
      exact ⟨by simp, fun i hi => ih.2 i (by simpa using hi)⟩

/-- **C55**: 1133 is due for each of the parts whose last position is before the first; 1151 is, once, if there are empty
elements; and nothing else is. -/
theorem C55_range_notes (u : Str) (l : List1Syn ByteSpec) :
    ((RangeSyn.bytes u l).notes.map Prod.fst).count 1133 = (l.elems.filter fun x => decide x.Reversed).length ∧
    ((RangeSyn.bytes u l).notes.map Prod.fst).count 1151 = (if l.Gaps then 1 else 0) ∧
    (∀ i ∈ (RangeSyn.bytes u l).notes.map Prod.fst, i = 1133 ∨ i = 1151) ∧
    ∀ v, (RangeSyn.other u v).notes = [] := by
  obtain ⟨h1, h2⟩ := spec_notes_count l.elems
  have h3 : ((l.elems.flatMap ByteSpec.notes).map Prod.fst).count 1151 = 0 := by
    refine List.count_eq_zero_of_not_mem fun hm => ?_
    exact absurd (h2 _ hm) (by decide)
  unfold RangeSyn.notes gapNotes
  simp only [List.map_append, List.count_append, h1, h3, List.mem_append]
  by_cases h : l.Gaps
  · simp only [if_pos h]
    exact ⟨rfl, rfl, fun i hi => hi.imp (h2 i) (by simp), fun _ => trivial⟩
  · simp only [if_neg h]
    exact ⟨rfl, rfl, fun i hi => hi.imp (h2 i) (by simp), fun _ => trivial⟩

/-! ## Examples -/

/-- "bytes=500-999, ,-5,7-4" -/
def someRange : RangeSyn := .bytes (str "bytes")
  ⟨[], .between (str "500") (str "999"), [([], none), (str " ", some ([], .suffix (str "5"))),
    ([], some ([], .between (str "7") (str "4")))]⟩

example : someRange.text = str "bytes=500-999, ,-5,7-4" ∧ someRange.notes.map Prod.fst = [1133, 1151] ∧
    render someRange.value = render (.obj (str "RangeSpecifier") [unitValue (str "bytes"),
      .list [.tuple [.int 500, .int 999], .tuple [.none, .int 5], .tuple [.int 7, .int 4]]]) := by
  refine ⟨by decide +kernel, by decide +kernel, by decide +kernel⟩

example : someRange.Ok := by
  have hw : ∀ l : Str, (∀ c ∈ l, 97 ≤ c ∧ c ≤ 122) → SameWord l l := by
    intro l _
    induction l with
    | nil => exact .nil
    | cons c l ih => exact .cons (.inl rfl) (ih fun d hd => by simp_all)
  refine ⟨hw _ (by decide +kernel), nofun, ⟨by decide +kernel, by decide +kernel⟩, fun x hx => ?_⟩
  simp only [List.mem_cons, List.not_mem_nil, or_false] at hx
  rcases hx with rfl | rfl | rfl
  · exact ⟨nofun, trivial⟩
  · exact ⟨fun c hc => by simp [str] at hc; exact .inl hc, nofun, by show IsNumeral _; decide +kernel⟩
  · exact ⟨nofun, nofun, by show IsNumeral _ ∧ IsNumeral _; decide +kernel⟩

/-- The grammar, with nothing built before or after. -/
def rangeHeap : PyHeap := (loadDefs (rangeDefs id)).2

/-- This meets the conditions of the theorems. -/
example : Builds true Heap.init Heap.init ∧ Builds true rangeHeap rangeHeap ∧ ∀ l c, c ∈ (id : List Nat → List Nat) l ↔ c ∈ l :=
  ⟨.refl, .refl, fun _ _ => Iff.rfl⟩

/-- What the parser returns. -/
example : shown (innerParse rangeHeap.grammar (pyOps fun _ => false) (str "bytes=7-4,-5") 197) =
    some (some (render (.obj (str "RangeSpecifier") [unitValue (str "bytes"),
      .list [.tuple [.int 7, .int 4], .tuple [.none, .int 5]]])), [1133]) := by decide +kernel

example : shown (innerParse rangeHeap.grammar (pyOps fun _ => false) (str "BYTES 5-9/9") 236) =
    some (some (render (.obj (str "ContentRange") [unitValue (str "BYTES"),
      .tuple [.tuple [.int 5, .int 9], .int 9]])), [1148]) := by decide +kernel

example : (ContentRangeSyn.part (str "BYTES") (str "5") (str "9") (some (str "9"))).Wrong := .inr ⟨_, rfl, Nat.le_refl _⟩

/-- `none` is not taken for a unit. -/
example : shown (innerParse rangeHeap.grammar (pyOps fun _ => false) (str "none") 112) =
    some (some (render (AcceptRangesSyn.none (str "none")).value), []) := by decide +kernel

end Httpolice.Props
