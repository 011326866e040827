import Verif.Lemmas.CheckSays
import Verif.Spec.ToyChecks

/-!
# C45, C46, C51, C54, C58: checking exchanges
-/

namespace Httpolice.Props

open Httpolice.Model Httpolice.Spec Httpolice.Lemmas.Check

variable {E : Env}

/-! ## C45 -/

/-- **C45**: checking an exchange reports 1304 exactly on the responses that follow a final (not 1xx)
one, and the notice refers to the first final response. -/
theorem C45_extra_final_responses (E : Env) (ex : Exchange) (hok : exchangeRaises E ex = false)
    (ha : Apart E ex 1304) (t : Target) (c : Complaint Ctx) :
    Reported E ex t c ∧ c.id = 1304 ↔
      ∃ i j r, t = .resp i ∧ i < ex.responses.length ∧ c = ⟨1304, [("previous", .response j)]⟩ ∧
        j < i ∧ ex.responses[j]? = some r ∧ Final r ∧
        ∀ k s, k < j → ex.responses[k]? = some s → ¬Final s := by
  constructor
  · rintro ⟨h, hid⟩
    rw [reported_iff hok (reported_present h), mem_exchangeActs] at h
    rcases h with ⟨req, hreq, h | h⟩ | ⟨i, r, hr, h⟩ | ⟨i, r, req, _, _, _, _, _, h⟩
    · have := (plain_requestStart (l := []) (R := True) req (says_of_mem h)).2
      rw [hid] at this
      exact absurd this (foreign_apart ha (by decide) (by decide) (.inl ⟨req, hreq, rfl⟩))
    · obtain ⟨_, h' | h'⟩ := (plain_requestRest E req).says (says_of_mem h)
      · rw [hid] at h'
        exact absurd h' (by decide)
      · rw [hid] at h'
        exact absurd h' (foreign_apart ha (by decide) (by decide) (.inl ⟨req, hreq, rfl⟩))
    · have hi : i < ex.responses.length := (List.getElem?_eq_some_iff.1 hr).1
      have hlen : (ex.responses.take i).length = i := by
        rw [List.length_take]; omega
      unfold forResponseActs at h
      rw [List.mem_append] at h
      rcases h with h | h
      · split at h
        · next j hj =>
          obtain ⟨r', hr', hfin, hbefore⟩ := firstFinal_iff.1 hj
          obtain ⟨hji, hr''⟩ := List.getElem?_eq_some_iff.1 hr'
          rw [hlen] at hji
          simp only [say, List.mem_singleton, Act.op.injEq, BoardOp.complain.injEq] at h
          rw [hlen] at h
          rw [List.getElem?_take_of_lt hji] at hr'
          refine ⟨i, j, r', h.1, hi, h.2, hji, hr', hfin, ?_⟩
          intro k s hk hs
          exact hbefore k s hk (by rw [List.getElem?_take_of_lt (by omega)]; exact hs)
        · cases h
      · rcases says_checkResponse (says_of_mem h) with ⟨_, h' | h' | h'⟩ | ⟨_, h', _⟩
        · rw [hid] at h'; exact absurd h' (by decide)
        · rw [hid] at h'; exact absurd h' (by decide)
        · rw [hid] at h'
          exact absurd h' (foreign_apart ha (by decide) (by decide)
            (.inr ⟨r, List.mem_of_getElem? hr, rfl⟩))
        · rw [hid] at h'; exact absurd h' (by decide)
    · cases h
      exact absurd hid (by decide)
  · rintro ⟨i, j, r, rfl, hi, rfl, hji, hr, hfin, hbefore⟩
    refine ⟨?_, rfl⟩
    have hlen : (ex.responses.take i).length = i := by rw [List.length_take]; omega
    rw [reported_iff hok (show Present ex (.resp i) from hi), mem_exchangeActs]
    refine .inr (.inl ⟨i, ex.responses[i], List.getElem?_eq_getElem hi, ?_⟩)
    unfold forResponseActs
    have : firstFinal (ex.responses.take i) = some j := by
      refine firstFinal_iff.2 ⟨r, by rw [List.getElem?_take_of_lt hji]; exact hr, hfin, ?_⟩
      intro k s hk hs
      exact hbefore k s hk (by rw [List.getElem?_take_of_lt (by omega)] at hs; exact hs)
    rw [this, hlen]
    simp [say]

/-! ## C46 -/

/-- The request expects `100-continue`. -/
def Expects100 (E : Env) (req : Request) : Prop :=
  ∃ x, LastValue E req.fields "Expect" E.grammars.expect x ∧ E.lower x = asciiLower (str "100-continue")

theorem bad_expect (hl : LowersAscii E.lower) : E.badForTrailer (str "Expect") = true := by
  rw [badForTrailer_eq hl (by decide)]; decide +kernel

theorem expects100_iff (hl : LowersAscii E.lower) (req : Request) :
    expects100 E req = true ↔ Expects100 E req := by
  unfold expects100 Expects100
  rw [okayAnd_iff]
  simp only [single_iff hl _ (show ∀ c ∈ str "Expect", c < 128 by decide) (bad_expect hl),
    Env.same, beq_iff_eq, hl (str "100-continue") (by decide)]

/-- **C46**: 1305 is reported on exactly the 101 responses of an exchange whose request expects
`100-continue` that are not preceded by a 100 response. -/
theorem C46_continue_before_switching (E : Env) (hl : LowersAscii E.lower) (ex : Exchange)
    (hok : exchangeRaises E ex = false) (ha : Apart E ex 1305) (t : Target) :
    ReportedId E ex t 1305 ↔
      ∃ i r req, t = .resp i ∧ ex.responses[i]? = some r ∧ r.status = 101 ∧
        ex.request = some req ∧ Expects100 E req ∧
        ∀ k s, k < i → ex.responses[k]? = some s → s.status ≠ 100 := by
  constructor
  · rintro ⟨c, h, hid⟩
    rw [reported_iff hok (reported_present h), mem_exchangeActs] at h
    rcases h with ⟨req, hreq, h | h⟩ | ⟨i, r, hr, h⟩ | ⟨i, r, req, hr, hreq, hs, he, hb, h⟩
    · have := (plain_requestStart (l := []) (R := True) req (says_of_mem h)).2
      rw [hid] at this
      exact absurd this (foreign_apart ha (by decide) (by decide) (.inl ⟨req, hreq, rfl⟩))
    · obtain ⟨_, h' | h'⟩ := (plain_requestRest E req).says (says_of_mem h)
      · rw [hid] at h'
        exact absurd h' (by decide)
      · rw [hid] at h'
        exact absurd h' (foreign_apart ha (by decide) (by decide) (.inl ⟨req, hreq, rfl⟩))
    · unfold forResponseActs at h
      rw [List.mem_append] at h
      rcases h with h | h
      · split at h
        · simp only [say, List.mem_singleton, Act.op.injEq, BoardOp.complain.injEq] at h
          rw [h.2] at hid
          exact absurd (show (1304 : Nat) = 1305 from hid) (by decide)
        · cases h
      · rcases says_checkResponse (says_of_mem h) with ⟨_, h' | h' | h'⟩ | ⟨_, h', _⟩
        · rw [hid] at h'; exact absurd h' (by decide)
        · rw [hid] at h'; exact absurd h' (by decide)
        · rw [hid] at h'
          exact absurd h' (foreign_apart ha (by decide) (by decide)
            (.inr ⟨r, List.mem_of_getElem? hr, rfl⟩))
        · rw [hid] at h'; exact absurd h' (by decide)
    · cases h
      refine ⟨i, r, req, rfl, hr, hs, hreq, (expects100_iff hl req).1 he, ?_⟩
      intro k s hk hs'
      exact hb s (List.mem_of_getElem? (i := k) (by rw [List.getElem?_take_of_lt hk]; exact hs'))
  · rintro ⟨i, r, req, rfl, hr, hs, hreq, he, hb⟩
    have hi : i < ex.responses.length := (List.getElem?_eq_some_iff.1 hr).1
    rw [reportedId_iff hok (show Present ex (.resp i) from hi)]
    refine ⟨⟨1305, []⟩, ?_, rfl⟩
    rw [mem_exchangeActs]
    refine .inr (.inr ⟨i, r, req, hr, hreq, hs, (expects100_iff hl req).2 he, ?_, rfl⟩)
    intro x hx
    obtain ⟨k, hk⟩ := List.mem_iff_getElem?.1 hx
    have hki : k < i := by
      have := (List.getElem?_eq_some_iff.1 hk).1
      rw [List.length_take] at this
      omega
    rw [List.getElem?_take_of_lt hki] at hk
    exact hb k x hki hk

/-! ## C51 -/

theorem silence_mem {ex : Exchange} {t : Target} {ids : List Nat} :
    Act.op (.silence t ids) ∈ exchangeActs E ex ↔
      (∃ req, ex.request = some req ∧ t = .req ∧
        ids = ((silenceItems E req.fields).filter fun x => !x.2).map Prod.fst) ∨
      (∃ i r, ex.responses[i]? = some r ∧ t = .resp i ∧
        ids = (silenceItems E r.fields).map Prod.fst) ∨
      ∃ i r req, ex.responses[i]? = some r ∧ ex.request = some req ∧ t = .resp i ∧
        ids = ((silenceItems E req.fields).filter fun x => x.2).map Prod.fst := by
  have hstart : ∀ (t' : Target) (msg : Message) (m : Msg) (n : Str),
      Act.op (.silence t ids) ∉ each (E.viewNotes m n) (sayNote t') := fun t' _ m n =>
    (plain_each (Q := fun _ _ => True) (R := True) (l := E.viewNotes m n) (f := sayNote t')
      fun _ _ => plain_say trivial).no_silence t ids
  have hlen : ∀ {i : Nat} {r : Response}, ex.responses[i]? = some r →
      (ex.responses.take i).length = i := by
    intro i r hr
    have := (List.getElem?_eq_some_iff.1 hr).1
    rw [List.length_take]; omega
  rw [mem_exchangeActs]
  constructor
  · rintro (⟨req, hreq, h | h⟩ | ⟨i, r, hr, h⟩ | ⟨i, r, req, _, _, _, _, _, h⟩)
    · unfold requestStart at h
      rw [List.mem_append] at h
      rcases h with h | h
      · exact absurd h (hstart _ req.toMessage _ _)
      · simp only [List.mem_singleton, Act.op.injEq, BoardOp.silence.injEq] at h
        exact .inl ⟨req, hreq, h.1, h.2⟩
    · exact absurd h ((plain_requestRest E req).no_silence _ _)
    · unfold forResponseActs at h
      rw [List.mem_append] at h
      rcases h with h | h
      · split at h
        · simp [say] at h
        · cases h
      · unfold checkResponse at h
        rw [checkResponseItself_eq, List.mem_append, List.mem_append] at h
        rcases h with (h | h) | h
        · unfold itselfStart at h
          rw [List.mem_append] at h
          rcases h with h | h
          · exact absurd h (hstart _ r.toMessage _ _)
          · simp only [List.mem_singleton, Act.op.injEq, BoardOp.silence.injEq, Placed.here,
              hlen hr] at h
            exact .inr (.inl ⟨i, r, hr, h.1, h.2⟩)
        · exact absurd h ((plain_itselfRest E _).no_silence _ _)
        · split at h
          · next req hreq =>
            rw [checkResponseInContext_eq, List.mem_append] at h
            rcases h with h | h
            · simp only [contextStart, List.mem_singleton, Act.op.injEq, BoardOp.silence.injEq,
                Placed.here, hlen hr] at h
              exact .inr (.inr ⟨i, r, req, hr, hreq, h.1, h.2⟩)
            · exact absurd h ((plain_contextRest E _ req).no_silence _ _)
          · cases h
    · cases h
  · rintro (⟨req, hreq, rfl, rfl⟩ | ⟨i, r, hr, rfl, rfl⟩ | ⟨i, r, req, hr, hreq, rfl, rfl⟩)
    · exact .inl ⟨req, hreq, .inl (by simp [requestStart])⟩
    · refine .inr (.inl ⟨i, r, hr, ?_⟩)
      unfold forResponseActs checkResponse
      rw [checkResponseItself_eq]
      simp [itselfStart, Placed.here, hlen hr, Placed.fields]
    · refine .inr (.inl ⟨i, r, hr, ?_⟩)
      unfold forResponseActs checkResponse
      rw [hreq]
      simp [checkResponseInContext_eq, contextStart, Placed.here, hlen hr]

/-- What the checks silence on an object. -/
theorem silencing_iff (E : Env) (hl : LowersAscii E.lower)
    (hs : ∀ e v, E.grammars.httpoliceSilence e ≠ .single v) (ex : Exchange) {t : Target}
    (ht : Present ex t) (id0 : Nat) :
    (∃ t' ids, Act.op (.silence t' ids) ∈ exchangeActs E ex ∧ (t' = t ∨ t' = .exch) ∧ id0 ∈ ids) ↔
      SilencedBy E ex id0 t := by
  have hmem : ∀ (m : Msg) (id : Nat) (b : Bool), (id, b) ∈ silenceItems E m ↔ Lists E m id b :=
    mem_silenceItems hl hs
  constructor
  · rintro ⟨t', ids, h, ht', hid⟩
    rcases silence_mem.1 h with ⟨req, hreq, rfl, rfl⟩ | ⟨i, r, hr, rfl, rfl⟩ |
        ⟨i, r, req, hr, hreq, rfl, rfl⟩
    · obtain rfl : t = .req := (ht'.resolve_right (by simp)).symm
      simp only [List.mem_map, List.mem_filter, Prod.exists] at hid
      obtain ⟨id, b, ⟨hx, hb⟩, rfl⟩ := hid
      have hb' : b = false := by simpa using hb
      subst hb'
      exact ⟨req, hreq, (hmem _ _ _).1 hx⟩
    · obtain rfl : t = .resp i := (ht'.resolve_right (by simp)).symm
      simp only [List.mem_map, Prod.exists] at hid
      obtain ⟨id, b, hx, rfl⟩ := hid
      exact .inl ⟨r, b, hr, (hmem _ _ _).1 hx⟩
    · obtain rfl : t = .resp i := (ht'.resolve_right (by simp)).symm
      simp only [List.mem_map, List.mem_filter, Prod.exists] at hid
      obtain ⟨id, b, ⟨hx, hb⟩, rfl⟩ := hid
      have hb' : b = true := by simpa using hb
      subst hb'
      exact .inr ⟨req, hreq, (hmem _ _ _).1 hx⟩
  · intro h
    cases t with
    | exch => exact h.elim
    | req =>
      obtain ⟨req, hreq, hx⟩ := h
      refine ⟨_, _, silence_mem.2 (.inl ⟨req, hreq, rfl, rfl⟩), .inl rfl, ?_⟩
      simp only [List.mem_map, List.mem_filter, Prod.exists]
      exact ⟨id0, false, ⟨(hmem _ _ _).2 hx, rfl⟩, rfl⟩
    | resp i =>
      rcases h with ⟨r, b, hr, hx⟩ | ⟨req, hreq, hx⟩
      · refine ⟨_, _, silence_mem.2 (.inr (.inl ⟨i, r, hr, rfl, rfl⟩)), .inl rfl, ?_⟩
        simp only [List.mem_map, Prod.exists]
        exact ⟨id0, b, (hmem _ _ _).2 hx, rfl⟩
      · have hr := List.getElem?_eq_getElem (show i < ex.responses.length from ht)
        refine ⟨_, _, silence_mem.2 (.inr (.inr ⟨i, _, req, hr, hreq, rfl, rfl⟩)), .inl rfl, ?_⟩
        simp only [List.mem_map, List.mem_filter, Prod.exists]
        exact ⟨id0, true, ⟨(hmem _ _ _).2 hx, rfl⟩, rfl⟩

/-- **C51**: the notices visible on an object after a check are those reported on it except the
silenced ones: on a request, the IDs that its own `HTTPolice-Silence` lists without `resp`; on a
response, all IDs that its own `HTTPolice-Silence` lists, and the IDs that the request's lists with
`resp`. -/
theorem C51_local_silencing (E : Env) (hl : LowersAscii E.lower)
    (hs : ∀ e v, E.grammars.httpoliceSilence e ≠ .single v) (ex : Exchange)
    (hok : exchangeRaises E ex = false) (t : Target) (c : Complaint Ctx) :
    Visible E ex t c ↔ Reported E ex t c ∧ ¬SilencedBy E ex c.id t := by
  by_cases ht : Present ex t
  · rw [visible_iff hok ht]
    exact and_congr_right fun _ => not_congr (silencing_iff E hl hs ex ht c.id)
  · constructor
    · rintro ⟨b, hb, hc⟩
      exact absurd (reported_present ⟨b, hb, (List.mem_filter.1 hc).1⟩) ht
    · rintro ⟨h, _⟩
      exact absurd (reported_present h) ht

/-! ## C58 -/

theorem raise_viewNotes {t : Target} (_ : Message) (m : Msg) (n : Str) :
    Act.raise ∉ each (E.viewNotes m n) (sayNote t) := fun h =>
  (plain_each (Q := fun _ _ => True) (R := False) (l := E.viewNotes m n) (f := sayNote t)
    fun _ _ => plain_say trivial).raises h

theorem raise_itself (p : Placed) :
    Act.raise ∈ checkResponseItself E p ↔ Overflow E p ∨ MalformedRel E p := by
  rw [checkResponseItself_eq, List.mem_append]
  constructor
  · rintro (h | h)
    · simp only [itselfStart, List.mem_append, List.mem_singleton, reduceCtorEq, or_false] at h
      exact absurd h (raise_viewNotes p.resp.toMessage _ _)
    · exact (plain_itselfRest E p).raises h
  · intro h
    right
    unfold itselfRest
    simp only [mem_inOrder_cons, mem_inOrder_nil, or_false]
    rcases h with h | h
    · right; right; right
      rw [if_neg h.1]
      unfold checkSettledResponse
      simp only [mem_inOrder_cons, raise_fromCache]
      iterate 7 right
      exact .inl h
    · right; right; left
      unfold checkResponseHeaders
      simp only [mem_inOrder_cons]
      iterate 4 right
      left
      rw [if_pos h.1, h.2]
      simp

theorem raise_checkResponse (p : Placed) :
    Act.raise ∈ checkResponse E p ↔ Overflow E p ∨ MalformedRel E p := by
  unfold checkResponse
  rw [List.mem_append, raise_itself]
  constructor
  · rintro (h | h)
    · exact h
    · split at h
      · next req _ =>
        rw [checkResponseInContext_eq, List.mem_append] at h
        rcases h with h | h
        · simp [contextStart] at h
        · exact .inl ((plain_contextRest E p req).raises h)
      · cases h
  · exact .inl

/-- **C58**: `check_exchange` raises an exception exactly if one of the responses has a `Date` and an
`Age` whose sum is after the year 9999 (and is not 103), or is a 451 response with a `Link` whose
`rel` is malformed, unless an earlier link has `blocked-by`. Nothing in a request makes it raise. -/
theorem C58_raises (E : Env) (hl : LowersAscii E.lower)
    (hlink : ∀ e v, E.grammars.link e ≠ .single v) (ex : Exchange) :
    exchangeRaises E ex = true ↔ ∃ r ∈ ex.responses, TooOld E r ∨ BadLink E r := by
  have hr : exchangeRaises E ex = true ↔ Act.raise ∈ exchangeActs E ex := by
    simp [exchangeRaises]
  rw [hr, mem_exchangeActs]
  constructor
  · rintro (⟨req, hreq, h | h⟩ | ⟨i, r, hr, h⟩ | ⟨i, r, req, _, _, _, _, _, h⟩)
    · simp only [requestStart, List.mem_append, List.mem_singleton, reduceCtorEq, or_false] at h
      exact absurd h (raise_viewNotes req.toMessage _ _)
    · exact absurd ((plain_requestRest E req).raises h) (noFirstEntry_false hl req)
    · unfold forResponseActs at h
      rw [List.mem_append] at h
      rcases h with h | h
      · split at h <;> simp [say] at h
      · refine ⟨r, List.mem_of_getElem? hr, ?_⟩
        rw [raise_checkResponse] at h
        rcases h with h | h
        · exact .inl ((overflow_iff hl _).1 h)
        · exact .inr ((malformedRel_iff hl hlink _).1 h)
    · cases h
  · rintro ⟨r, hr, h⟩
    obtain ⟨i, hi⟩ := List.mem_iff_getElem?.1 hr
    refine .inr (.inl ⟨i, r, hi, ?_⟩)
    unfold forResponseActs
    rw [List.mem_append, raise_checkResponse]
    right
    rcases h with h | h
    · exact .inl ((overflow_iff hl _).2 h)
    · exact .inr ((malformedRel_iff hl hlink _).2 h)

/-! ## C54 -/

theorem start_alone (i : Nat) (r : Response) (q q' : Option Request) :
    itselfStart E ⟨i, r, q⟩ = itselfStart E ⟨i, r, q'⟩ := rfl

theorem below_forResponse (req : Request) (before : List Response) (r : Response) {x : Act} :
    (x ∈ forResponseActs E none before r → x ∈ forResponseActs E (some req) before r) ∧
    (x ∈ forResponseActs E (some req) before r → x ∈ forResponseActs E none before r ∨
      (∃ t ids, x = .op (.silence t ids)) ∨
      ∃ t c, x = .op (.complain t c) ∧ (t = .req ∨ c.id ∈ needsRequest)) := by
  have hb := below_itselfRest E before.length r (some req)
  have hn := near_contextRest E before.length r req (some req) none
  unfold forResponseActs checkResponse
  simp only [checkResponseItself_eq, checkResponseInContext_eq, List.mem_append, List.append_nil]
  constructor
  · rintro (h | h | h)
    · exact .inl h
    · exact .inr (.inl (.inl h))
    · exact .inr (.inl (.inr (hb.1 x h)))
  · rintro (h | (h | h) | h | h)
    · exact .inl (.inl h)
    · exact .inl (.inr (.inl h))
    · by_cases h' : x ∈ itselfRest E ⟨before.length, r, none⟩
      · exact .inl (.inr (.inr h'))
      · obtain ⟨t, c, e, hc⟩ := hb.2 x h h'
        exact .inr (.inr ⟨t, c, e, .inr hc⟩)
    · rw [contextStart, List.mem_singleton] at h
      exact .inr (.inl ⟨_, _, h⟩)
    · rcases hn x h with h | ⟨t, c, e, h | h⟩
      · exact .inl (.inr (.inr h))
      · exact .inr (.inr ⟨t, c, e, .inl h⟩)
      · exact .inr (.inr ⟨t, c, e, .inr h.2⟩)

/-- **C54**, exceptions: whether checking responses raises does not depend on their request. -/
theorem C54_raises_alike (E : Env) (hl : LowersAscii E.lower) (req : Request) (rs : List Response) :
    exchangeRaises E ⟨none, rs⟩ = exchangeRaises E ⟨some req, rs⟩ := by
  have hr : ∀ ex, exchangeRaises E ex = true ↔ Act.raise ∈ exchangeActs E ex := by
    intro ex; simp [exchangeRaises]
  rw [Bool.eq_iff_iff, hr, hr, mem_exchangeActs, mem_exchangeActs]
  constructor
  · rintro (⟨req, hreq, _⟩ | ⟨i, r, hr, h⟩ | ⟨i, r, req, _, hreq, _⟩)
    · cases hreq
    · exact .inr (.inl ⟨i, r, hr, (below_forResponse req _ r).1 h⟩)
    · cases hreq
  · rintro (⟨req', hreq, h | h⟩ | ⟨i, r, hr, h⟩ | ⟨i, r, req', _, _, _, _, _, h⟩)
    · simp only [requestStart, List.mem_append, List.mem_singleton, reduceCtorEq, or_false] at h
      exact absurd h (raise_viewNotes req'.toMessage _ _)
    · exact absurd ((plain_requestRest E req').raises h) (noFirstEntry_false hl req')
    · rcases (below_forResponse req _ r).2 h with h | ⟨t, ids, h⟩ | ⟨t, c, h, _⟩
      · exact .inr (.inl ⟨i, r, hr, h⟩)
      · cases h
      · cases h
    · cases h

/-- **C54**, more reports with the request: what is reported on a response without its request is
also reported with it. -/
theorem C54_request_only_adds (E : Env) (hl : LowersAscii E.lower) (req : Request)
    (rs : List Response) (hok : exchangeRaises E ⟨none, rs⟩ = false) (t : Target)
    (c : Complaint Ctx) (h : Reported E ⟨none, rs⟩ t c) : Reported E ⟨some req, rs⟩ t c := by
  have ht := reported_present h
  have ht' : Present ⟨some req, rs⟩ t := by
    cases t with
    | exch => exact trivial
    | req => exact absurd ht (by simp [Present, Exists])
    | resp i => exact ht
  rw [reported_iff hok ht, mem_exchangeActs] at h
  rw [reported_iff (by rw [← C54_raises_alike E hl]; exact hok) ht', mem_exchangeActs]
  rcases h with ⟨req, hreq, _⟩ | ⟨i, r, hr, h⟩ | ⟨i, r, req, _, hreq, _⟩
  · cases hreq
  · exact .inr (.inl ⟨i, r, hr, (below_forResponse req _ r).1 h⟩)
  · cases hreq

/-- **C54**, same reports: notices that do not need the request are reported on a response alike with
and without it. -/
theorem C54_reports_alike (E : Env) (hl : LowersAscii E.lower) (req : Request) (rs : List Response)
    (hok : exchangeRaises E ⟨none, rs⟩ = false) (i : Nat) (c : Complaint Ctx)
    (hc : c.id ∉ needsRequest) :
    Reported E ⟨none, rs⟩ (.resp i) c ↔ Reported E ⟨some req, rs⟩ (.resp i) c := by
  refine ⟨C54_request_only_adds E hl req rs hok _ c, fun h => ?_⟩
  have ht := reported_present h
  rw [reported_iff (by rw [← C54_raises_alike E hl]; exact hok) ht, mem_exchangeActs] at h
  rw [reported_iff hok (show Present ⟨none, rs⟩ (.resp i) from ht), mem_exchangeActs]
  rcases h with ⟨req', hreq, h | h⟩ | ⟨j, r, hr, h⟩ | ⟨j, r, req', _, _, _, _, _, h⟩
  · have := (plain_requestStart (l := []) (R := True) req' (says_of_mem h)).1
    cases this
  · have := ((plain_requestRest E req').says (says_of_mem h)).1
    cases this
  · rcases (below_forResponse req _ r).2 h with h | ⟨t, ids, h⟩ | ⟨t, c', h, h'⟩
    · exact .inr (.inl ⟨j, r, hr, h⟩)
    · cases h
    · cases h
      rcases h' with h' | h'
      · cases h'
      · exact absurd h' hc
  · cases h
    exact absurd (show (1305 : Nat) ∈ needsRequest by decide) hc

/-- **C54**, none of the others: without the request, no notice that needs the request is reported,
except for 1046, which has another reason too (a proxy that transformed the response). -/
theorem C54_none_without (E : Env) (rs : List Response) (hok : exchangeRaises E ⟨none, rs⟩ = false)
    (t : Target) (id : Nat) (ha : Apart E ⟨none, rs⟩ id) (hid : id ∈ needsRequest) (h46 : id ≠ 1046) :
    ¬ReportedId E ⟨none, rs⟩ t id := by
  rintro ⟨c, h, rfl⟩
  have h13 : c.id ≠ 1013 := fun e => absurd (e ▸ hid) (by decide)
  have h26 : c.id ≠ 1026 := fun e => absurd (e ▸ hid) (by decide)
  rw [reported_iff hok (reported_present h), mem_exchangeActs] at h
  rcases h with ⟨req, hreq, _⟩ | ⟨i, r, hr, h⟩ | ⟨i, r, req, _, hreq, _⟩
  · cases hreq
  · have hf := foreign_apart ha h13 h26 (.inr ⟨r, List.mem_of_getElem? hr, rfl⟩)
    unfold forResponseActs checkResponse at h
    rw [checkResponseItself_eq] at h
    simp only [List.mem_append, List.append_nil] at h
    rcases h with h | h | h
    · split at h
      · simp only [say, List.mem_singleton, Act.op.injEq, BoardOp.complain.injEq] at h
        rw [h.2] at hid
        exact absurd (show (1304 : Nat) ∈ needsRequest from hid) (by decide)
      · cases h
    · exact hf (says_itselfStart (says_of_mem h)).2
    · rcases ((alone_itselfRest E _ r).says (says_of_mem h)).2 with h | h
      · have := (List.mem_filter.1 h).2
        simp only [Bool.or_eq_true, Bool.not_eq_true', List.contains_eq_mem, decide_eq_false_iff_not,
          beq_iff_eq] at this
        rcases this with h | h
        · exact h hid
        · exact h46 h
      · exact hf h
  · cases hreq

/-! ## Examples -/

section
open Httpolice.Spec.Toy

theorem toy_lower : LowersAscii env.lower := fun _ _ => rfl

theorem toy_apart (ex : Exchange) (id : Nat) (hq : ∀ req, ex.request = some req → req.payload.notes = [])
    (hr : ∀ r ∈ ex.responses, r.payload.notes = []) : Apart env ex id where
  headers := by intro _ _ n hn; cases hn
  target := by
    intro forms s r h n hn
    simp only [env] at h
    split at h
    · cases h; cases hn
    · split at h
      · cases h; cases hn
      · cases h
    · split at h
      · cases h; cases hn
      · cases h
    · cases h
  request := by intro req h n hn; rw [hq req h] at hn; cases hn
  responses := by intro r h n hn; rw [hr r h] at hn; cases hn

/-- A request that expects `100-continue` and silences 1304 on responses and 1070 on itself. -/
def toyRequest : Request :=
  req "GET" [h "Host" "a", h "Expect" "100-Continue", h "HTTPolice-Silence" "1304=resp,1070"]

/-- Four responses: 101, two final ones, and 100. -/
def toyResponses : List Response :=
  [resp 101 [h "Upgrade" "x", h "Connection" "upgrade"], resp 200 [h "Date" "900", h "Age" "50"],
   resp 200 [h "Date" "900", h "Content-Length" "0"], resp 100 []]

def toyExchange : Exchange := ⟨some toyRequest, toyResponses⟩

theorem lastValue_mem {V : Type} {m : Msg} {name : String} {parse : Entry → Option V} {v : V}
    (hv : LastValue E m name parse v) : ∃ e ∈ m.headers, HasName E e name ∧ parse e = some v := by
  obtain ⟨a, e, b, h1, h2, _, h4⟩ := hv
  exact ⟨e, by simp [h1], h2, h4⟩

theorem toy_calm : exchangeRaises env toyExchange = false := by
  rw [← Bool.not_eq_true, C58_raises env toy_lower (by intro e v h; cases h)]
  rintro ⟨r, hr, ⟨_, d, a, hd, ha, hlt⟩ | ⟨h451, _⟩⟩
  · obtain ⟨e1, he1, hn1, hp1⟩ := lastValue_mem hd
    obtain ⟨e2, he2, hn2, hp2⟩ := lastValue_mem ha
    have hb : ∀ r ∈ toyResponses, ∀ e ∈ r.fields.headers, (number e.value).getD 0 < 1000 := by
      decide +kernel
    have h1 := hb r hr e1 he1
    have h2 := hb r hr e2 he2
    rw [show number e1.value = some d from hp1] at h1
    rw [show number e2.value = some a from hp2] at h2
    simp only [Option.getD_some] at h1 h2
    have hlt' : @LT.lt Nat _ 315537897599 (@HAdd.hAdd Nat Nat Nat _ d a) := hlt
    omega
  · exact absurd h451 ((show ∀ r ∈ toyResponses, r.status ≠ 451 by decide +kernel) r hr)

theorem toy_apart' (id : Nat) : Apart env toyExchange id := by
  refine toy_apart _ _ ?_ ?_
  · intro req h; cases h; rfl
  · exact of_decide_eq_true (by rfl)

/-- C45: the third response comes after a final one, and so does the fourth. -/
example : Reported env toyExchange (.resp 3) ⟨1304, [("previous", .response 1)]⟩ :=
  ((C45_extra_final_responses env toyExchange toy_calm (toy_apart' _) _ _).2
    ⟨3, 1, _, rfl, by decide, rfl, by decide, rfl, by unfold Final; decide, by
      intro k s hk hs
      obtain rfl : k = 0 := by omega
      cases hs
      unfold Final; decide⟩).1

/-- C45: the second response is not reported. -/
example : ¬ReportedId env toyExchange (.resp 1) 1304 := by
  rintro ⟨c, h⟩
  obtain ⟨i, j, r, hi, _, _, hj, hr, hf, _⟩ :=
    (C45_extra_final_responses env toyExchange toy_calm (toy_apart' _) _ _).1 h
  cases hi
  obtain rfl : j = 0 := by omega
  cases hr
  exact hf (by decide)

/-- C46: the first response switches protocols without 100. -/
example : ReportedId env toyExchange (.resp 0) 1305 :=
  (C46_continue_before_switching env toy_lower toyExchange toy_calm (toy_apart' _) _).2
    ⟨0, _, toyRequest, rfl, rfl, rfl, rfl,
      ⟨str "100-Continue", ⟨[h "Host" "a"], h "Expect" "100-Continue",
        [h "HTTPolice-Silence" "1304=resp,1070"], rfl, by unfold HasName; decide,
        by unfold HasName; decide, rfl⟩, by decide⟩,
      fun k s hk => absurd hk (by omega)⟩

/-- C51: the notice of C45 is reported, but silenced by the request. -/
example : ¬Visible env toyExchange (.resp 3) ⟨1304, [("previous", .response 1)]⟩ := by
  rw [C51_local_silencing env toy_lower (by intro e v h; cases h) toyExchange toy_calm]
  rintro ⟨_, h'⟩
  refine h' (.inr ⟨toyRequest, rfl, h "HTTPolice-Silence" "1304=resp,1070", _, .inl (by decide),
    by unfold HasName; decide, rfl, by decide⟩)

/-- C51: on the request itself `1304=resp` does nothing. -/
example : ¬SilencedBy env toyExchange 1304 .req := by
  rintro ⟨r, hr, e, l, he, _, hl, hm⟩
  cases hr
  cases hl
  have : ∀ e, e ∈ toyRequest.fields.headers ∨ e ∈ toyRequest.fields.trailers →
      (1304, false) ∉ (split e.value).filterMap silence := by
    have : ∀ e ∈ toyRequest.fields.headers ++ toyRequest.fields.trailers,
        (1304, false) ∉ (split e.value).filterMap silence := by decide +kernel
    intro e he
    exact this e (by simpa using he)
  exact this e he hm

/-- C54: the responses can be checked without their request, and get 1304 in either case. -/
example : Reported env ⟨none, toyResponses⟩ (.resp 3) ⟨1304, [("previous", .response 1)]⟩ ∧
    ¬ReportedId env ⟨none, toyResponses⟩ (.resp 0) 1305 := by
  have hok : exchangeRaises env ⟨none, toyResponses⟩ = false := by
    rw [C54_raises_alike env toy_lower toyRequest]; exact toy_calm
  constructor
  · rw [C54_reports_alike env toy_lower toyRequest toyResponses hok 3 _ (by decide)]
    exact ((C45_extra_final_responses env toyExchange toy_calm (toy_apart' _) _ _).2
      ⟨3, 1, _, rfl, by decide, rfl, by decide, rfl, by unfold Final; decide, by
        intro k s hk hs
        obtain rfl : k = 0 := by omega
        cases hs
        unfold Final; decide⟩).1
  · exact C54_none_without env toyResponses hok _ _
      (toy_apart _ _ (by intro req h; cases h) (of_decide_eq_true (by rfl))) (by decide) (by decide)

/-- C58: an age of 10000 years. -/
example : exchangeRaises env ⟨none, [resp 200 [h "Date" "900", h "Age" "315360000000000"]]⟩ = true :=
  (C58_raises env toy_lower (by intro e v h; cases h) _).2 ⟨_, List.mem_singleton.2 rfl, .inl
    ⟨by decide, 900, 315360000000000,
      ⟨[], h "Date" "900", [h "Age" "315360000000000"], rfl, by unfold HasName; decide,
        by unfold HasName; decide, by decide⟩,
      ⟨[h "Date" "900"], h "Age" "315360000000000", [], rfl, by unfold HasName; decide,
        by unfold HasName; decide, by decide⟩, by decide⟩⟩

/-- C58: a malformed relation in a 451 response. -/
example : exchangeRaises env ⟨none, [resp 451 [h "Link" ""]]⟩ = true :=
  (C58_raises env toy_lower (by intro e v h; cases h) _).2 ⟨_, List.mem_singleton.2 rfl, .inr
    ⟨rfl, [], [], by decide, by simp⟩⟩

end

end Httpolice.Props
