import Verif.Lemmas.LocateMessage
import Verif.Props.Structure

/-!
# More about header views in terms of raw entries
-/

namespace Httpolice.Lemmas.Check

open Httpolice.Model Httpolice.Spec Httpolice.Props

variable {E : Env}

theorem nodup_iff_count {α : Type} [DecidableEq α] (l : List α) : l.Nodup ↔ ∀ x, l.count x ≤ 1 := by
  induction l with
  | nil => simp
  | cons a l ih =>
    rw [List.nodup_cons, ih]
    constructor
    · rintro ⟨h1, h2⟩ x
      rw [List.count_cons]
      by_cases hx : a = x
      · subst hx
        have := List.count_eq_zero.2 h1
        simp [this]
      · simpa [hx] using h2 x
    · intro h
      refine ⟨fun hm => ?_, fun x => ?_⟩
      · have := h a
        rw [List.count_cons_self] at this
        have := List.count_pos_iff.2 hm
        omega
      · have := h x
        rw [List.count_cons] at this
        omega

theorem dups_iff (l : List Str) : (∃ d, d ∈ E.dupNames l) ↔ Repeats E l := by
  unfold Env.dupNames Repeats
  rw [nodup_iff_count]
  simp only [(C44_duplicates (l.map E.lower)).1]
  constructor
  · rintro ⟨d, hd⟩ h
    have := h d
    omega
  · intro h
    refine Classical.byContradiction fun hn => h fun x => ?_
    have := not_exists.1 hn x
    omega

theorem params_iff (h : Sensible E) (ps : List (Str × Str)) {n : String}
    (hn : (str n).all (· < 128) = true) : E.inParams n ps = true ↔ HasParam E ps n := by
  unfold Env.inParams HasParam
  rw [List.any_eq_true]
  simp only [same_word' h hn]

theorem find_first {α : Type} {p : α → Bool} {l : List α} {a : α} :
    l.find? p = some a ↔ ∃ x y, l = x ++ a :: y ∧ p a = true ∧ ∀ b ∈ x, p b = false := by
  induction l with
  | nil => simp
  | cons b l ih =>
    rw [List.find?_cons]
    by_cases hb : p b = true
    · rw [hb]
      constructor
      · intro h
        cases h
        exact ⟨[], l, rfl, hb, by simp⟩
      · rintro ⟨x, y, h1, h2, h3⟩
        cases x with
        | nil => cases h1; rfl
        | cons c x =>
          cases h1
          rw [h3 b (List.mem_cons_self ..)] at hb
          cases hb
    · rw [Bool.not_eq_true] at hb
      rw [hb]
      dsimp only
      rw [ih]
      constructor
      · rintro ⟨x, y, h1, h2, h3⟩
        refine ⟨b :: x, y, by rw [h1]; rfl, h2, ?_⟩
        intro c hc
        rcases List.mem_cons.1 hc with rfl | hc
        · exact hb
        · exact h3 c hc
      · rintro ⟨x, y, h1, h2, h3⟩
        cases x with
        | nil => cases h1; rw [hb] at h2; cases h2
        | cons c x =>
          cases h1
          exact ⟨x, y, rfl, h2, fun d hd => h3 d (List.mem_cons_of_mem _ hd)⟩

theorem getParam_iff (h : Sensible E) (ps : List (Str × Str)) {n : String} {v : Str}
    (hn : (str n).all (· < 128) = true) : E.getParam n ps = some v ↔ FirstParam E ps n v := by
  unfold Env.getParam FirstParam
  rw [Option.map_eq_some_iff]
  simp only [find_first, same_word' h hn]
  constructor
  · rintro ⟨p, ⟨x, y, h1, h2, h3⟩, rfl⟩
    refine ⟨x, p.1, y, h1, h2, fun b hb => ?_⟩
    rw [← same_word' h hn, h3 b hb]
    simp
  · rintro ⟨x, k, y, h1, h2, h3⟩
    refine ⟨(k, v), ⟨x, y, h1, h2, fun b hb => ?_⟩, rfl⟩
    rw [← Bool.not_eq_true, same_word' h hn]
    exact h3 b hb

theorem token_iff (s : Str) : isToken s = true ↔ TokenText s := by
  unfold isToken TokenText
  simp only [Bool.and_eq_true, Bool.not_eq_eq_eq_not, Bool.not_true, List.isEmpty_eq_false_iff,
    List.all_eq_true, Bool.or_eq_true, List.contains_iff_mem, isAsciiLetter, isAsciiDigit,
    decide_eq_true_eq, or_assoc]

theorem rowKeys_ascii : ∀ r ∈ headerRows, ∀ c ∈ str r.key, c < 128 := by decide +kernel

theorem rowKeys_apart : headerRows.Pairwise fun a b =>
    asciiLower (str a.key) ≠ asciiLower (str b.key) := by decide +kernel

theorem endToEnd_eq : (headerRows.filter HeaderRow.badForConnection).map HeaderRow.key = endToEnd := by
  decide +kernel

theorem badForConnection_iff (h : Sensible E) (n : Str) :
    E.badForConnection n = true ↔ OneOf E n endToEnd := by
  rw [OneOf, ← endToEnd_eq, Env.badForConnection]
  have hf : (headerRows.find? fun r => E.same (str r.key) n) =
      headerRows.find? fun r => asciiLower (str r.key) == E.lower n :=
    find_congr fun r hr => by rw [Env.same, h.lower _ (rowKeys_ascii r hr)]
  have hg : ∀ r, (headerRows.find? fun r => E.same (str r.key) n) = some r ↔
      r ∈ headerRows ∧ asciiLower (str r.key) = E.lower n := fun r => by
    rw [hf]
    exact find_of_apart (k := fun r : HeaderRow => asciiLower (str r.key)) rowKeys_apart
  simp only [List.mem_map, List.mem_filter]
  constructor
  · intro hb
    split at hb
    · next r hr =>
      obtain ⟨h1, h2⟩ := (hg r).1 hr
      exact ⟨_, ⟨r, ⟨h1, hb⟩, rfl⟩, h2.symm⟩
    · cases hb
  · rintro ⟨_, ⟨r, ⟨h1, h3⟩, rfl⟩, h2⟩
    rw [(hg r).2 ⟨h1, h2.symm⟩]
    exact h3

theorem deprecated_iff (h : Sensible E) (n : Str) :
    E.isDeprecated n = true ↔ OneOf E n deprecatedHeaders := by
  rw [OneOf, show deprecatedHeaders = (headerFlags.filter HeaderFlags.deprecated).map
    HeaderFlags.key by decide +kernel, ← flags_iff h.lower, Env.isDeprecated]
  cases E.flags n <;> simp

theorem known_iff (h : Sensible E) (n : Str) : E.isKnownHeader n = true ↔ IsKnownName E n := by
  unfold Env.isKnownHeader IsKnownName IsWord
  rw [Option.isSome_iff_exists]
  simp only [flags_eq h.lower]
  constructor
  · rintro ⟨r, h1, h2⟩
    exact ⟨r, h1, h2.symm⟩
  · rintro ⟨r, h1, h2⟩
    exact ⟨r, h1, h2.symm⟩

theorem foreign_in {ex : Exchange} {t : Target} {msg : Message} {N : Nat} (ha : Apart E ex N)
    (h : InExchange ex t msg) (hN : N ∉ outerIds) : ¬Foreign E msg N := by
  cases t with
  | req =>
    obtain ⟨req, hreq, rfl⟩ := h
    exact foreign_req ha hreq hN
  | resp i =>
    obtain ⟨r, hr, rfl⟩ := h
    exact foreign_resp ha hr hN
  | exch => cases h

theorem elements_eq (h : Sensible E) {V : Type} {name : String} (hn : name ∈ checkedNames) (m : Msg)
    (p : Entry → Parsed V) (hp : ∀ e v, p e ≠ .single v) : ∃ xs, E.multi m name p = .elems xs ∧
      xs.map (fun x => match x with
        | .ok v => some v
        | .unavailable _ => none) = ListItems E m name p := by
  refine ⟨_, (C27_lists E.lower ⟨E.badForTrailer (str name), fun e => (p e, [])⟩ m (str name) (by
    rintro e _ ⟨v, hv⟩
    exact hp e v hv)).1, ?_⟩
  dsimp only
  rw [usable_eq h.lower hn, List.map_flatMap, ListItems]
  congr 1
  funext e
  cases he : p e with
  | single v => exact absurd he (hp e v)
  | list l => simp [entryElems, Function.comp_def]
  | unavailable i => simp [entryElems]

theorem mem_usable (h : Sensible E) {name : String} (hn : name ∈ checkedNames) (m : Msg) (e : Entry) :
    e ∈ usable E.lower (E.badForTrailer (str name)) m (str name) ↔
      e ∈ fieldsFor m name ∧ HasName E e name := by
  rw [usable_eq h.lower hn, List.mem_filter, decide_eq_true_eq]
  exact Iff.rfl

theorem filter_one {α : Type} {p : α → Bool} {l : List α} {x : α} :
    l.filter p = [x] ↔ ∃ a b, l = a ++ x :: b ∧ p x = true ∧ ∀ y ∈ a ++ b, p y = false := by
  rw [List.filter_eq_cons_iff]
  constructor
  · rintro ⟨a, b, h1, h2, h3, h4⟩
    refine ⟨a, b, h1, h3, fun y hy => ?_⟩
    rw [List.filter_eq_nil_iff] at h4
    rcases List.mem_append.1 hy with hy | hy
    · simpa using h2 y hy
    · simpa using h4 y hy
  · rintro ⟨a, b, h1, h2, h3⟩
    refine ⟨a, b, h1, fun y hy => ?_, h2, ?_⟩
    · rw [h3 y (List.mem_append_left _ hy)]
      simp
    · rw [List.filter_eq_nil_iff]
      intro y hy
      rw [h3 y (List.mem_append_right _ hy)]
      simp

theorem multi_cases (h : Sensible E) {V : Type} {name : String} (hn : name ∈ checkedNames) (m : Msg)
    (p : Entry → Parsed V) :
    (Unmixed E m name p ∧ E.multi m name p = .elems
      ((usable E.lower (E.badForTrailer (str name)) m (str name)).flatMap fun e => entryElems (p e))) ∨
    (¬Unmixed E m name p ∧ ∃ e v, usable E.lower (E.badForTrailer (str name)) m (str name) = [e] ∧
      p e = .single v ∧ E.multi m name p = .single v) ∨
    (¬Unmixed E m name p ∧
      (usable E.lower (E.badForTrailer (str name)) m (str name)).length ≠ 1 ∧
      E.multi m name p = .elems [.unavailable none]) := by
  by_cases hu : Unmixed E m name p
  · refine .inl ⟨hu, (C27_lists E.lower ⟨E.badForTrailer (str name), fun e => (p e, [])⟩ m
      (str name) ?_).1⟩
    rintro e he ⟨v, hv⟩
    obtain ⟨h1, h2⟩ := (mem_usable h hn m e).1 he
    exact hu e h1 h2 v hv
  · have hex : ∃ e ∈ fieldsFor m name, HasName E e name ∧ ∃ v, p e = .single v := by
      refine Classical.byContradiction fun hc => hu fun e he hne v hv => hc ⟨e, he, hne, v, hv⟩
    obtain ⟨e, he, hne, v, hv⟩ := hex
    have hm := (mem_usable h hn m e).2 ⟨he, hne⟩
    by_cases h1 : (usable E.lower (E.badForTrailer (str name)) m (str name)).length = 1
    · obtain ⟨e', he'⟩ := List.length_eq_one_iff.1 h1
      rw [he', List.mem_singleton] at hm
      subst hm
      exact .inr (.inl ⟨hu, e, v, he', hv, (C27_singular_alone E.lower
        ⟨E.badForTrailer (str name), fun e => (p e, [])⟩ m (str name) e v he' hv).1⟩)
    · exact .inr (.inr ⟨hu, h1, (C27_singular_combined E.lower
        ⟨E.badForTrailer (str name), fun e => (p e, [])⟩ m (str name) e hm ⟨v, hv⟩ h1).1⟩)

theorem sole_iff (h : Sensible E) {V : Type} {name : String} (hn : name ∈ checkedNames) (m : Msg)
    (p : Entry → Parsed V) (v : V) : SoleValue E m name p v ↔
      ∃ e, usable E.lower (E.badForTrailer (str name)) m (str name) = [e] ∧ p e = .single v := by
  rw [usable_eq h.lower hn]
  simp only [filter_one, decide_eq_true_eq, decide_eq_false_iff_not]
  constructor
  · rintro ⟨a, e, b, h1, h2, h3, h4⟩
    exact ⟨e, ⟨a, b, h1, h2, h4⟩, h3⟩
  · rintro ⟨e, ⟨a, b, h1, h2, h4⟩, h3⟩
    exact ⟨a, e, b, h1, h2, h3, h4⟩

theorem multi_single (h : Sensible E) {V : Type} {name : String} (hn : name ∈ checkedNames) (m : Msg)
    (p : Entry → Parsed V) (v : V) : E.multi m name p = .single v ↔ SoleValue E m name p v := by
  rw [sole_iff h hn]
  rcases multi_cases h hn m p with ⟨hu, hm⟩ | ⟨hu, e, w, h1, h2, hm⟩ | ⟨hu, h1, hm⟩
  · rw [hm]
    refine ⟨fun hc => (by cases hc), fun ⟨e, h1, h2⟩ => ?_⟩
    obtain ⟨h3, h4⟩ := (mem_usable h hn m e).1 (by rw [h1]; simp)
    exact absurd h2 (hu e h3 h4 v)
  · rw [hm, h1]
    constructor
    · intro hc
      cases hc
      exact ⟨e, rfl, h2⟩
    · rintro ⟨e', h3, h4⟩
      cases h3
      rw [h2] at h4
      cases h4
      rfl
  · rw [hm]
    refine ⟨fun hc => (by cases hc), fun ⟨e, h3, h4⟩ => ?_⟩
    rw [h3] at h1
    exact absurd rfl h1

theorem items_unmixed (h : Sensible E) {V : Type} {name : String} (hn : name ∈ checkedNames) (m : Msg)
    (p : Entry → Parsed V) (x : V) :
    x ∈ E.items m name p ↔ Unmixed E m name p ∧ Listed E m name p x := by
  unfold Env.items
  rcases multi_cases h hn m p with ⟨hu, hm⟩ | ⟨hu, e, w, h1, h2, hm⟩ | ⟨hu, h1, hm⟩
  · rw [hm]
    dsimp only
    rw [List.mem_filterMap]
    simp only [hu, true_and, List.mem_flatMap, mem_usable h hn]
    constructor
    · rintro ⟨a, ⟨e, ⟨h1, h2⟩, h3⟩, h4⟩
      refine ⟨e, h1, h2, ?_⟩
      cases hp : p e with
      | single v => exact absurd hp (hu e h1 h2 v)
      | unavailable i =>
        rw [hp] at h3
        simp only [entryElems, List.mem_singleton] at h3
        subst h3
        cases h4
      | list l =>
        rw [hp] at h3
        simp only [entryElems, List.mem_map] at h3
        obtain ⟨b, hb, rfl⟩ := h3
        cases h4
        exact ⟨l, rfl, hb⟩
    · rintro ⟨e, h1, h2, l, h3, h4⟩
      refine ⟨.ok x, ⟨e, ⟨h1, h2⟩, ?_⟩, rfl⟩
      rw [h3]
      exact List.mem_map_of_mem h4
  · rw [hm]
    simp [hu]
  · rw [hm]
    simp [hu]

theorem names_first (m : Msg) (n : Str) : n ∈ E.names m ↔ FirstSpelled E m n := by
  have key : (allNames m).find? (fun x => E.lower x = E.lower n) = some n ↔ FirstSpelled E m n := by
    rw [find_first]
    unfold allNames FirstSpelled
    constructor
    · rintro ⟨x, y, h1, _, h2⟩
      obtain ⟨a, r, h3, h4, h5⟩ := List.map_eq_append_iff.1 h1
      obtain ⟨e, b, h6, h7, h8⟩ := List.map_eq_cons_iff.1 h5
      subst h6
      refine ⟨a, e, b, h3, h7, fun z hz => ?_⟩
      have := h2 z.name (by rw [← h4]; exact List.mem_map_of_mem hz)
      simpa using this
    · rintro ⟨a, e, b, h1, h2, h3⟩
      refine ⟨a.map Entry.name, b.map Entry.name, by rw [h1]; simp [h2], by simp, ?_⟩
      intro z hz
      obtain ⟨w, hw, rfl⟩ := List.mem_map.1 hz
      simpa using h3 w hw
  rw [← key]
  refine ⟨(C52_names E.lower m).2 n, fun hf => ?_⟩
  have hmem := List.mem_of_find?_eq_some hf
  have : ∃ k ∈ E.names m, E.lower k = E.lower n := by
    rw [mem_names (P := fun k => E.lower k = E.lower n) (fun a b hab ha => hab ▸ ha)]
    unfold allNames at hmem
    obtain ⟨e, he, rfl⟩ := List.mem_map.1 hmem
    exact ⟨e, he, rfl⟩
  obtain ⟨k, hk, hkn⟩ := this
  have h2 := (C52_names E.lower m).2 k hk
  rw [hkn, hf] at h2
  cases h2
  exact hk

/-- What a check does with the value of a header, if it has one. -/
theorem via_single (h : Sensible E) {V : Type} {m : Msg} {name : String} {p : Entry → Option V}
    {S : Prop} {P : V → Prop} (hn : name ∈ checkedNames)
    (h1 : ∀ a, E.single m name p = .val a → (S ↔ P a))
    (h2 : (∀ a, E.single m name p ≠ .val a) → ¬S) : S ↔ ∃ a, LastOf E m name p a ∧ P a := by
  simp only [← single_last h.lower hn]
  constructor
  · intro hs
    cases hv : E.single m name p with
    | val a => exact ⟨a, rfl, (h1 a hv).1 hs⟩
    | _ => exact absurd hs (h2 (by simp [hv]))
  · rintro ⟨a, ha, hp⟩
    exact (h1 a ha).2 hp

theorem flag_any {P X : Prop} : (∃ tr : Option Bool, (tr = some true ↔ P) ∧ X) ↔ X := by
  constructor
  · rintro ⟨_, _, h⟩
    exact h
  · intro h
    by_cases hp : P
    · exact ⟨some true, by simp [hp], h⟩
    · exact ⟨none, by simp [hp], h⟩

theorem flag_and {P X : Prop} :
    (∃ tr : Option Bool, (tr = some true ↔ P) ∧ tr = some true ∧ X) ↔ P ∧ X := by
  constructor
  · rintro ⟨_, h, h1, h2⟩
    exact ⟨h.1 h1, h2⟩
  · rintro ⟨h1, h2⟩
    exact ⟨some true, by simp [h1], rfl, h2⟩

theorem word_apart {n : Str} {a b : String} (h : IsWord E n a)
    (hab : asciiLower (str a) ≠ asciiLower (str b)) : ¬IsWord E n b := fun h' => hab (h.symm.trans h')

theorem tls_true (req : Request) : req.isTls = some true ↔ req.scheme = some (str "https") := by
  unfold Request.isTls
  by_cases h : req.scheme = some (str "http")
  · simp only [h, if_true]; decide
  · by_cases h' : req.scheme = some (str "https")
    · simp only [h']; decide
    · simp [h, h']

/-- The parts of `check_message`. -/
theorem says_checkMessage {t : Target} {N : Nat} {msg : Message} {tls : Option Bool}
    {tr : Option Bool × List Act} {st : Option Int} :
    Says t N (checkMessage E t msg tls tr st) ↔ Says t N (checkHeaders E t msg.fields) ∨
      Says t N (checkAnyMessage E t msg tls) ∨
      (st ≠ some 103 ∧ (Says t N tr.2 ∨ Says t N (checkSettledMessage E t msg (tr.1, [])))) := by
  have hs : Says t N (checkSettledMessage E t msg tr) ↔
      Says t N tr.2 ∨ Says t N (checkSettledMessage E t msg (tr.1, [])) := by
    unfold checkSettledMessage
    simp only [says_inOrder_cons, says_nil, false_or]
    grind
  unfold checkMessage
  rw [says_inOrder_cons, says_inOrder_cons, says_inOrder_cons, says_ite, beq_iff_eq, hs]
  simp only [says_nil, says_inOrder_nil, and_false, false_or, or_false, ne_eq]

theorem from_respTransformed {ex : Exchange} {N i : Nat} (hok : exchangeRaises E ex = false)
    (ha : Apart E ex N) (hN : N = 1189 ∨ N = 1190) : ReportedId E ex (.resp i) N ↔
      ∃ r, ex.responses[i]? = some r ∧ Says (.resp i) N (responseTransformed E ⟨i, r, ex.request⟩).2 := by
  have h0 : N ∉ outerIds := by rcases hN with rfl | rfl <;> decide
  rw [reported_resp hok ha (outer_resp h0)]
  refine exists_congr fun r => and_congr_right fun hr => ?_
  have hf := foreign_resp ha hr h0
  have h1 : Says (.resp i) N (itselfRest E ⟨i, r, ex.request⟩) ↔ r.status ≠ 103 ∧
      Says (.resp i) N (responseTransformed E ⟨i, r, ex.request⟩).2 := by
    unfold itselfRest
    dsimp only [Placed.here, Placed.status]
    simp only [says_inOrder_cons, says_inOrder_nil, says_checkMessage,
      quiet_part (N := N) (checkHeaders_only E (.resp i) r.toMessage _)
        (by rcases hN with rfl | rfl <;> decide) hf,
      quiet_part (N := N) (checkAnyMessage_only E (.resp i) r.toMessage _)
        (by rcases hN with rfl | rfl <;> decide) hf,
      quiet_part (N := N) (checkSettledMessage_only E (.resp i) r.toMessage _)
        (by rcases hN with rfl | rfl <;> decide) id,
      quiet_part (N := N) (checkStatus_only E ⟨i, r, ex.request⟩)
        (by rcases hN with rfl | rfl <;> decide) id,
      quiet_part (N := N) (checkResponseHeaders_only E ⟨i, r, ex.request⟩)
        (by rcases hN with rfl | rfl <;> decide) id, or_false, false_or, ne_eq, Option.some.injEq]
    exact or_iff_left (quiet_skipped (quiet_part (checkSettledResponse_only E ⟨i, r, ex.request⟩)
      (by rcases hN with rfl | rfl <;> decide) id))
  have h2 : ∀ req, Says (.resp i) N (contextRest E ⟨i, r, ex.request⟩ req) ↔
      Says (.resp i) N (responseTransformed E ⟨i, r, ex.request⟩).2 := by
    intro req
    unfold contextRest
    simp only [says_inOrder_cons, says_inOrder_nil,
      quiet_part (N := N) (checkNegotiation_only E ⟨i, r, ex.request⟩ req)
        (by rcases hN with rfl | rfl <;> decide) id,
      quiet_part (N := N) (checkCachedAnswer_only E ⟨i, r, ex.request⟩ req)
        (by rcases hN with rfl | rfl <;> decide) id,
      quiet_skipped (quiet_part (N := N) (checkSettledAnswer_only E ⟨i, r, ex.request⟩ req)
        (by rcases hN with rfl | rfl <;> decide) id), or_false, false_or]
    unfold checkAgainstRequest
    dsimp only [Placed.here, Placed.status, Placed.fields]
    rcases hN with rfl | rfl <;> locate
    all_goals exact Iff.rfl
  rw [h1]
  simp only [h2]
  constructor
  · rintro (⟨_, h⟩ | ⟨_, _, h⟩) <;> exact h
  · intro h
    refine .inl ⟨fun h' => ?_, h⟩
    unfold responseTransformed at h
    rw [if_pos (show Placed.status ⟨i, r, ex.request⟩ = 103 from h')] at h
    exact says_nil h

macro "at_any" hok:term:max ha:term:max : tactic => `(tactic| (
  rw [from_any $hok $ha (by decide) (by decide) (by decide) (by decide) (by decide)]
  refine onMessage_congr fun msg hmsg => ?_
  have hf := foreign_in $ha hmsg (by decide)
  unfold checkAnyMessage
  dsimp only
  locate))

macro "at_loop" hok:term:max ha:term:max : tactic => `(tactic| (
  rw [from_loop $hok $ha (by decide) (by decide) (by decide) (by decide) (by decide)]
  refine onMessage_congr fun msg hmsg => ?_
  have hf := foreign_in $ha hmsg (by decide)
  unfold checkHeaders))

macro "at_common" hok:term:max ha:term:max hE:term:max : tactic => `(tactic| (
  rw [from_settledMessage $hok $ha $hE (by decide) (by decide) (by decide) (by decide) (by decide)]
  refine onSettled_congr fun msg => ?_
  unfold checkSettledMessage
  dsimp only))

end Httpolice.Lemmas.Check
