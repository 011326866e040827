import Verif.Lemmas.CheckExchange

/-!
# Headers as the checks see them, in terms of raw entries
-/

namespace Httpolice.Lemmas.Check

open Httpolice.Model Httpolice.Spec Httpolice.Props

variable {E : Env}

theorem headerKeys_ascii : ∀ r ∈ headerRows, ∀ c ∈ str r.key, c < 128 := by decide +kernel

theorem find_congr {α : Type} {p q : α → Bool} {l : List α} (h : ∀ a ∈ l, p a = q a) :
    l.find? p = l.find? q := by
  induction l with
  | nil => rfl
  | cons a l ih =>
    rw [List.find?_cons, List.find?_cons, h a (List.mem_cons_self ..),
      ih fun b hb => h b (List.mem_cons_of_mem _ hb)]

/-- The row of a header with an ASCII name. -/
theorem headerRow_eq (hl : LowersAscii E.lower) {name : Str} (hn : ∀ c ∈ name, c < 128) :
    headerRows.find? (fun r => E.same (str r.key) name) =
      headerRows.find? fun r => asciiLower (str r.key) == asciiLower name := by
  apply find_congr
  intro r hr
  rw [Env.same, hl _ (headerKeys_ascii r hr), hl _ hn]

theorem badForTrailer_eq (hl : LowersAscii E.lower) {name : Str} (hn : ∀ c ∈ name, c < 128) :
    E.badForTrailer name =
      match headerRows.find? fun r => asciiLower (str r.key) == asciiLower name with
      | some r => r.badForTrailer
      | none => false := by
  rw [Env.badForTrailer, headerRow_eq hl hn]
  rfl

theorem bad_host (hl : LowersAscii E.lower) : E.badForTrailer (str "Host") = true := by
  rw [badForTrailer_eq hl (by decide)]; decide +kernel

theorem bad_date (hl : LowersAscii E.lower) : E.badForTrailer (str "Date") = true := by
  rw [badForTrailer_eq hl (by decide)]; decide +kernel

theorem bad_age (hl : LowersAscii E.lower) : E.badForTrailer (str "Age") = true := by
  rw [badForTrailer_eq hl (by decide)]; decide +kernel

theorem good_link (hl : LowersAscii E.lower) : E.badForTrailer (str "Link") = false := by
  rw [badForTrailer_eq hl (by decide)]; decide +kernel

theorem good_silence (hl : LowersAscii E.lower) :
    E.badForTrailer (str "HTTPolice-Silence") = false := by
  rw [badForTrailer_eq hl (by decide)]; decide +kernel

theorem mem_named (hl : LowersAscii E.lower) {name : String} (hn : ∀ c ∈ str name, c < 128)
    {es : List Entry} {e : Entry} : e ∈ named E.lower (str name) es ↔ e ∈ es ∧ HasName E e name := by
  unfold named HasName
  rw [List.mem_filter, hl _ hn, decide_eq_true_eq]
  exact ⟨fun h => ⟨h.1, h.2.symm⟩, fun h => ⟨h.1, h.2.symm⟩⟩

theorem named_eq (hl : LowersAscii E.lower) {name : String} (hn : ∀ c ∈ str name, c < 128)
    (es : List Entry) : named E.lower (str name) es =
      es.filter fun e => E.lower e.name = asciiLower (str name) := by
  unfold named
  rw [hl _ hn]
  congr 1
  funext e
  simp only [eq_comm]

/-- The elements of a header that only has lists as values. -/
theorem items_eq {V : Type} (m : Msg) (name : String) (p : Entry → Parsed V)
    (hp : ∀ e v, p e ≠ .single v) :
    E.items m name p = (usable E.lower (E.badForTrailer (str name)) m (str name)).flatMap fun e =>
      match p e with
      | .list l => l
      | _ => [] := by
  have h := (C27_lists E.lower ⟨E.badForTrailer (str name), fun e => (p e, [])⟩ m (str name) (by
    rintro e _ ⟨v, hv⟩
    exact hp e v hv)).1
  unfold Env.items Env.multi
  rw [h]
  dsimp only
  rw [List.filterMap_flatMap]
  congr 1
  funext e
  cases hpe : p e with
  | list l =>
    simp only [entryElems]
    rw [List.filterMap_map]
    induction l with
    | nil => rfl
    | cons a l ih => simp [Function.comp_def]
  | single v => exact absurd hpe (hp e v)
  | unavailable i => simp [entryElems]

theorem items_elements (hl : LowersAscii E.lower) {V : Type} (m : Msg) {name : String}
    (hn : ∀ c ∈ str name, c < 128) (hb : E.badForTrailer (str name) = false)
    (p : Entry → Parsed V) (hp : ∀ e v, p e ≠ .single v) :
    E.items m name p = ValueElements E m name p := by
  rw [items_eq m name p hp, hb, ValueElements, List.filter_append, usable, named_eq hl hn, named_eq hl hn]
  rfl

theorem getLast_filter {α : Type} {p : α → Bool} {l : List α} {a : α} :
    (l.filter p).getLast? = some a ↔ ∃ x y, l = x ++ a :: y ∧ p a = true ∧ ∀ b ∈ y, p b = false := by
  constructor
  · intro h
    induction l with
    | nil => simp at h
    | cons b l ih =>
      rw [List.filter_cons] at h
      split at h
      · next hb =>
        cases hf : l.filter p with
        | nil =>
          rw [hf] at h
          simp only [List.getLast?_singleton, Option.some.injEq] at h
          subst h
          refine ⟨[], l, rfl, hb, ?_⟩
          intro c hc
          have := List.filter_eq_nil_iff.1 hf c hc
          simpa using this
        | cons c t =>
          rw [hf] at h
          rw [List.getLast?_cons_cons] at h
          obtain ⟨x, y, e, ha, hy⟩ := ih (by rw [hf]; exact h)
          exact ⟨b :: x, y, by rw [e]; rfl, ha, hy⟩
      · obtain ⟨x, y, e, ha, hy⟩ := ih h
        exact ⟨b :: x, y, by rw [e]; rfl, ha, hy⟩
  · rintro ⟨x, y, rfl, ha, hy⟩
    have : y.filter p = [] := List.filter_eq_nil_iff.2 fun b hb => by simp [hy b hb]
    rw [List.filter_append, List.filter_cons, if_pos ha, this]
    simp

/-- The value of a header that must not be in trailers. -/
theorem single_iff (hl : LowersAscii E.lower) {V : Type} (m : Msg) {name : String}
    (hn : ∀ c ∈ str name, c < 128) (hb : E.badForTrailer (str name) = true)
    (p : Entry → Option V) (v : V) :
    E.single m name p = .val v ↔ LastValue E m name p v := by
  unfold Env.single
  rw [(C26_single _ _ _ _).1]
  dsimp only
  rw [hb, usable, if_pos rfl, List.append_nil, named_eq hl hn]
  unfold LastValue HasName
  constructor
  · intro hv
    cases hg : (m.headers.filter fun e => decide (E.lower e.name = asciiLower (str name))).getLast? with
    | none => rw [hg] at hv; simp at hv
    | some e =>
      rw [hg] at hv
      obtain ⟨x, y, e1, e2, e3⟩ := getLast_filter.1 hg
      refine ⟨x, e, y, e1, of_decide_eq_true e2, fun b hb => of_decide_eq_false (e3 b hb), ?_⟩
      simp only [Option.map_some] at hv
      cases hp : p e with
      | none => rw [hp] at hv; simp at hv
      | some w => rw [hp] at hv; simp at hv; rw [hv]
  · rintro ⟨x, e, y, e1, e2, e3, hp⟩
    have hg := getLast_filter (p := fun e : Entry => decide (E.lower e.name = asciiLower (str name)))
      (l := m.headers) (a := e) |>.2 ⟨x, y, e1, decide_eq_true e2, fun b hb => decide_eq_false (e3 b hb)⟩
    rw [hg]
    simp [hp]

theorem noFirstEntry_false (hl : LowersAscii E.lower) (req : Request) : ¬NoFirstEntry E req := by
  rintro ⟨h, h'⟩
  rw [present_iff, bad_host hl] at h
  apply h
  simp [usable, named, h']

theorem overflow_iff (hl : LowersAscii E.lower) (p : Placed) : Overflow E p ↔ TooOld E p.resp := by
  unfold Overflow TooOld
  simp only [single_iff hl _ (show ∀ c ∈ str "Date", c < 128 by decide) (bad_date hl),
    single_iff hl _ (show ∀ c ∈ str "Age", c < 128 by decide) (bad_age hl)]
  rfl

theorem anyBlockedBy_none (hl : LowersAscii E.lower) (ls : List LinkRel) :
    anyBlockedBy E ls = none ↔ ∃ a b, ls = a ++ .malformed :: b ∧ ∀ x ∈ a, ¬IsBlockedBy E x := by
  have hb : E.lower (str "blocked-by") = asciiLower (str "blocked-by") := hl _ (by decide)
  induction ls with
  | nil => simp [anyBlockedBy]
  | cons x ls ih =>
    have step : (anyBlockedBy E ls = none ∧ ¬IsBlockedBy E x) ↔
        ∃ a b, x :: ls = x :: a ++ .malformed :: b ∧ ∀ y ∈ x :: a, ¬IsBlockedBy E y := by
      constructor
      · rintro ⟨h0, hx⟩
        obtain ⟨a, b, e, h⟩ := ih.1 h0
        refine ⟨a, b, by rw [e]; rfl, ?_⟩
        intro y hy
        rcases List.mem_cons.1 hy with rfl | hy
        · exact hx
        · exact h y hy
      · rintro ⟨a, b, e, h⟩
        exact ⟨ih.2 ⟨a, b, by simpa using e, fun y hy => h y (List.mem_cons_of_mem _ hy)⟩,
          h x (List.mem_cons_self ..)⟩
    have whole : (∃ a b, x :: ls = a ++ .malformed :: b ∧ ∀ y ∈ a, ¬IsBlockedBy E y) ↔
        x = .malformed ∨ ∃ a b, x :: ls = x :: a ++ .malformed :: b ∧
          ∀ y ∈ x :: a, ¬IsBlockedBy E y := by
      constructor
      · rintro ⟨a, b, e, h⟩
        cases a with
        | nil => exact .inl (List.cons.inj e).1
        | cons y a =>
          have := (List.cons.inj e).1
          subst this
          exact .inr ⟨a, b, e, h⟩
      · rintro (rfl | ⟨a, b, e, h⟩)
        · exact ⟨[], ls, rfl, by simp⟩
        · exact ⟨x :: a, b, e, h⟩
    rw [whole, ← step]
    cases x with
    | malformed => simp [anyBlockedBy]
    | absent =>
      simp only [anyBlockedBy, reduceCtorEq, false_or]
      constructor
      · intro h; exact ⟨h, by rintro ⟨l, h, _⟩; cases h⟩
      · exact fun h => h.1
    | rels l =>
      simp only [anyBlockedBy, reduceCtorEq, false_or]
      have hany : (l.any fun r => E.same r (str "blocked-by")) = true ↔ IsBlockedBy E (.rels l) := by
        simp only [List.any_eq_true, Env.same, beq_iff_eq, hb, IsBlockedBy]
        constructor
        · rintro ⟨x, hx, h⟩; exact ⟨l, rfl, x, hx, h⟩
        · rintro ⟨l', h, x, hx, h'⟩; cases h; exact ⟨x, hx, h'⟩
      by_cases h : IsBlockedBy E (.rels l)
      · rw [if_pos (hany.2 h)]
        simp [h]
      · rw [if_neg fun hh => h (hany.1 hh)]
        simp [h]

theorem malformedRel_iff (hl : LowersAscii E.lower) (hlink : ∀ e v, E.grammars.link e ≠ .single v)
    (p : Placed) : MalformedRel E p ↔ BadLink E p.resp := by
  unfold MalformedRel BadLink
  rw [items_elements hl _ (by decide) (good_link hl) _ hlink, anyBlockedBy_none hl]
  rfl

theorem mem_silenceItems (hl : LowersAscii E.lower)
    (hs : ∀ e v, E.grammars.httpoliceSilence e ≠ .single v) (m : Msg) (id : Nat) (b : Bool) :
    (id, b) ∈ silenceItems E m ↔ Lists E m id b := by
  unfold silenceItems
  rw [items_elements hl _ (by decide) (good_silence hl) _ hs, ValueElements, List.mem_flatMap]
  unfold Lists HasName
  constructor
  · rintro ⟨e, he, hm⟩
    rw [List.mem_filter, List.mem_append, decide_eq_true_eq] at he
    cases hp : E.grammars.httpoliceSilence e with
    | list l => rw [hp] at hm; exact ⟨e, l, he.1, he.2, hp, hm⟩
    | single v => exact absurd hp (hs e v)
    | unavailable i => rw [hp] at hm; cases hm
  · rintro ⟨e, l, he, hn, hp, hm⟩
    refine ⟨e, ?_, by rw [hp]; exact hm⟩
    rw [List.mem_filter, List.mem_append, decide_eq_true_eq]
    exact ⟨he, hn⟩

end Httpolice.Lemmas.Check
