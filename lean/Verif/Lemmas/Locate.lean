import Verif.Lemmas.CheckLists

/-!
# Finding the one check that reports a notice
-/

namespace Httpolice.Lemmas.Check

open Httpolice.Model Httpolice.Spec Httpolice.Props

variable {E : Env} {ex : Exchange} {N : Nat}

/-- The reports on a request. -/
theorem reported_req (hok : exchangeRaises E ex = false)
    (ha : Apart E ex N) (h : N ∉ [1013, 1026, 1236]) :
    ReportedId E ex .req N ↔ ∃ req, ex.request = some req ∧ Says .req N (requestRest E req) := by
  simp only [List.mem_cons, List.not_mem_nil, or_false, not_or] at h
  constructor
  · rintro ⟨c, hc, rfl⟩
    rw [reported_iff hok (reported_present hc), mem_exchangeActs] at hc
    rcases hc with ⟨req, hreq, hc | hc⟩ | ⟨i, r, hr, hc⟩ | ⟨i, r, req, _, _, _, _, _, hc⟩
    · have := (plain_requestStart (l := []) (R := True) req (says_of_mem hc)).2
      exact absurd this (foreign_apart ha h.1 h.2.1 (.inl ⟨req, hreq, rfl⟩))
    · exact ⟨req, hreq, says_of_mem hc⟩
    · unfold forResponseActs at hc
      rw [List.mem_append] at hc
      rcases hc with hc | hc
      · split at hc
        · simp [say] at hc
        · cases hc
      · rcases says_checkResponse (says_of_mem hc) with ⟨h', _⟩ | ⟨_, h', _⟩
        · cases h'
        · exact absurd h' h.2.2
    · cases hc
  · rintro ⟨req, hreq, c, hc, rfl⟩
    have : Present ex .req := by
      show ex.request.isSome = true
      rw [hreq]; rfl
    exact ⟨c, (reported_iff hok this c).2 ((mem_exchangeActs E).2 (.inl ⟨req, hreq, .inr hc⟩)), rfl⟩

/-- The reports on a response. -/
theorem reported_resp (hok : exchangeRaises E ex = false)
    (ha : Apart E ex N) (h : N ∉ [1013, 1026, 1304, 1305]) {i : Nat} :
    ReportedId E ex (.resp i) N ↔ ∃ r, ex.responses[i]? = some r ∧
      (Says (.resp i) N (itselfRest E ⟨i, r, ex.request⟩) ∨
        ∃ req, ex.request = some req ∧ Says (.resp i) N (contextRest E ⟨i, r, ex.request⟩ req)) := by
  simp only [List.mem_cons, List.not_mem_nil, or_false, not_or] at h
  constructor
  · rintro ⟨c, hc, rfl⟩
    rw [reported_iff hok (reported_present hc), mem_exchangeActs] at hc
    rcases hc with ⟨req, hreq, hc | hc⟩ | ⟨j, r, hr, hc⟩ | ⟨j, r, req, _, _, _, _, _, hc⟩
    · have := (plain_requestStart (l := []) (R := True) req (says_of_mem hc)).1
      cases this
    · have := ((plain_requestRest E req).says (says_of_mem hc)).1
      cases this
    · unfold forResponseActs at hc
      rw [List.mem_append] at hc
      rcases hc with hc | hc
      · split at hc
        · simp only [say, List.mem_singleton, Act.op.injEq, BoardOp.complain.injEq] at hc
          exact absurd (congrArg Complaint.id hc.2) h.2.2.1
        · cases hc
      · have hj : (ex.responses.take j).length = j := by
          have := (List.getElem?_eq_some_iff.1 hr).1
          rw [List.length_take]; omega
        rw [hj] at hc
        have hij : i = j := by
          rcases says_checkResponse (says_of_mem hc) with ⟨h', _⟩ | ⟨h', _⟩
          · cases h'; rfl
          · cases h'
        subst hij
        refine ⟨r, hr, ?_⟩
        have hs := says_of_mem hc
        unfold checkResponse at hs
        rw [checkResponseItself_eq, says_append, says_append] at hs
        rcases hs with (hs | hs) | hs
        · exact absurd (says_itselfStart hs).2
            (foreign_apart ha h.1 h.2.1 (.inr ⟨r, List.mem_of_getElem? hr, rfl⟩))
        · exact .inl hs
        · dsimp only at hs
          split at hs
          · next req hreq =>
            rw [checkResponseInContext_eq, says_append] at hs
            rcases hs with hs | hs
            · exact absurd hs says_silence
            · exact .inr ⟨req, hreq, hs⟩
          · exact absurd hs says_nil
    · simp only [Act.op.injEq, BoardOp.complain.injEq] at hc
      exact absurd (congrArg Complaint.id hc.2) h.2.2.2
  · rintro ⟨r, hr, hs⟩
    have hlt := (List.getElem?_eq_some_iff.1 hr).1
    have hj : (ex.responses.take i).length = i := by rw [List.length_take]; omega
    have hs' : Says (.resp i) N (checkResponse E ⟨i, r, ex.request⟩) := by
      unfold checkResponse
      rw [checkResponseItself_eq, says_append, says_append]
      rcases hs with hs | ⟨req, hreq, hs⟩
      · exact .inl (.inr hs)
      · refine .inr ?_
        rw [hreq] at hs ⊢
        dsimp only
        rw [checkResponseInContext_eq, says_append]
        exact .inr hs
    obtain ⟨c, hc, rfl⟩ := hs'
    refine ⟨c, (reported_iff hok (show Present ex (.resp i) from hlt) c).2
      ((mem_exchangeActs E).2 (.inr (.inl ⟨i, r, hr, ?_⟩))), rfl⟩
    unfold forResponseActs
    rw [hj]
    exact List.mem_append_right _ hc

/-! ## Which part of the checks -/

/-- IDs reported by the checks common to messages. -/
def messageIds : List Nat :=
  [1190] ++ checkHeadersIds ++ checkAnyMessageIds ++ checkSettledMessageIds ++ messageTransformedIds

theorem quiet_message {t : Target} {msg : Message} {tls : Option Bool}
    {tr : Option Bool × List Act} {st : Option Int} (hf : ¬Foreign E msg N) (hN : N ∉ messageIds)
    (htr : ¬Says t N tr.2) : ¬Says t N (checkMessage E t msg tls tr st) := by
  simp only [messageIds, List.mem_append, not_or] at hN
  obtain ⟨⟨⟨⟨_, h1⟩, h2⟩, h3⟩, h4⟩ := hN
  unfold checkMessage
  rw [says_inOrder_cons, says_inOrder_cons, says_inOrder_cons]
  rintro (h | h | h | h)
  · exact quiet_of ((checkHeaders_only E t msg msg.fields).ne h1 hf) h
  · exact quiet_of ((checkAnyMessage_only E t msg tls).ne h2 hf) h
  · split at h
    · exact says_nil h
    · have key : Says t N (checkSettledMessage E t msg tr) ↔
          Says t N tr.2 ∨ Says t N (checkSettledMessage E t msg (tr.1, [])) := by
        unfold checkSettledMessage
        simp only [says_inOrder_cons, says_nil, false_or]
        constructor
        · rintro (h | h | h)
          · exact .inr (.inl h)
          · exact .inl h
          · exact .inr (.inr h)
        · rintro (h | h | h)
          · exact .inr (.inl h)
          · exact .inl h
          · exact .inr (.inr h)
      rcases key.1 h with h | h
      · exact htr h
      · exact quiet_of ((checkSettledMessage_only E t msg tr.1).ne h3 id) h
  · exact says_inOrder_nil h

/-- IDs that the checks of a single object do not report. -/
def outerIds : List Nat := [1013, 1026, 1304, 1305, 1236]

/-- IDs of the checks of a response against its request. -/
def answerIds : List Nat :=
  checkAgainstRequestIds ++ checkNegotiationIds ++ checkCachedAnswerIds ++ checkSettledAnswerIds

theorem quiet_contextRest {t : Target} {p : Placed} {req : Request} (hN : N ∉ answerIds) :
    ¬Says t N (contextRest E p req) := by
  simp only [answerIds, List.mem_append, not_or] at hN
  unfold contextRest
  simp only [says_inOrder_cons]
  rintro (h | h | h | h | h)
  · exact hN.1.1.1 ((checkAgainstRequest_only E p req).says h)
  · exact hN.1.1.2 (((checkNegotiation_only E p req).says h).2.resolve_right id)
  · exact hN.1.2 (((checkCachedAnswer_only E p req).says h).2.resolve_right id)
  · split at h
    · exact says_nil h
    · exact hN.2 (((checkSettledAnswer_only E p req).says h).2.resolve_right id)
  · exact says_inOrder_nil h

theorem quiet_responseMessage {p : Placed} (hf : ¬Foreign E p.resp.toMessage N)
    (hN : N ∉ messageIds) : ¬Says p.here N
      (checkMessage E p.here p.resp.toMessage p.isTls (responseTransformed E p) (some p.status)) := by
  refine quiet_message hf hN ?_
  intro h
  have h1 := ((responseTransformed_only E p).says h).2.resolve_right id
  have h2 : responseTransformedIds ⊆ messageIds := by decide
  exact hN (h2 h1)

theorem quiet_requestMessage {req : Request} (hf : ¬Foreign E req.toMessage N)
    (hN : N ∉ messageIds) : ¬Says .req N
      (checkMessage E .req req.toMessage req.isTls (messageTransformed E .req req.fields) none) := by
  refine quiet_message hf hN ?_
  intro h
  have h1 := ((messageTransformed_only E .req req.fields).says h).2.resolve_right id
  have h2 : messageTransformedIds ⊆ messageIds := by decide
  exact hN (h2 h1)

theorem quiet_part {t t' : Target} {ids : List Nat} {f : Nat → Prop} {R : Prop} {acts : List Act}
    (h : Plain (On t' ids f) R acts) (hN : N ∉ ids) (hf : ¬f N) : ¬Says t N acts :=
  fun hs => (h.says hs).2.elim hN hf

theorem quiet_skipped {t : Target} {c : Prop} [Decidable c] {acts : List Act} (h : ¬Says t N acts) :
    ¬Says t N (if c then [] else acts) := by
  split
  · exact says_nil
  · exact h

/-- The message of a response of the exchange. -/
theorem foreign_resp {i : Nat} {r : Response} (ha : Apart E ex N) (hr : ex.responses[i]? = some r)
    (hN : N ∉ outerIds) : ¬Foreign E r.toMessage N := by
  simp only [outerIds, List.mem_cons, not_or] at hN
  exact foreign_apart ha hN.1 hN.2.1 (.inr ⟨r, List.mem_of_getElem? hr, rfl⟩)

theorem foreign_req {req : Request} (ha : Apart E ex N) (hr : ex.request = some req)
    (hN : N ∉ outerIds) : ¬Foreign E req.toMessage N := by
  simp only [outerIds, List.mem_cons, not_or] at hN
  exact foreign_apart ha hN.1 hN.2.1 (.inl ⟨req, hr, rfl⟩)

theorem outer_resp (h : N ∉ outerIds) : N ∉ [1013, 1026, 1304, 1305] :=
  fun h' => h ((show [1013, 1026, 1304, 1305] ⊆ outerIds by decide) h')

theorem outer_req (h : N ∉ outerIds) : N ∉ [1013, 1026, 1236] :=
  fun h' => h ((show [1013, 1026, 1236] ⊆ outerIds by decide) h')

section
variable (hok : exchangeRaises E ex = false) (ha : Apart E ex N) {i : Nat}
include hok ha

theorem from_message (h0 : N ∉ outerIds) (h1 : N ∉ checkStatusIds ++ checkResponseHeadersIds)
    (h2 : N ∉ checkSettledResponseIds) (h3 : N ∉ answerIds) :
    ReportedId E ex (.resp i) N ↔ ∃ r, ex.responses[i]? = some r ∧ Says (.resp i) N
      (checkMessage E (.resp i) r.toMessage (Placed.isTls ⟨i, r, ex.request⟩)
        (responseTransformed E ⟨i, r, ex.request⟩) (some r.status)) := by
  rw [reported_resp hok ha (outer_resp h0)]
  refine exists_congr fun r => and_congr_right fun hr => ?_
  rw [List.mem_append, not_or] at h1
  simp only [quiet_contextRest h3, and_false, exists_false, or_false]
  unfold itselfRest
  simp only [says_inOrder_cons, quiet_part (checkStatus_only E _) h1.1 id,
    quiet_part (checkResponseHeaders_only E _) h1.2 id,
    quiet_skipped (quiet_part (checkSettledResponse_only E _) h2 id), says_inOrder_nil, or_false]
  exact Iff.rfl

theorem from_status (h0 : N ∉ outerIds) (h1 : N ∉ messageIds) (h2 : N ∉ checkResponseHeadersIds)
    (h3 : N ∉ checkSettledResponseIds) (h4 : N ∉ answerIds) :
    ReportedId E ex (.resp i) N ↔ ∃ r, ex.responses[i]? = some r ∧
      Says (.resp i) N (checkStatus E ⟨i, r, ex.request⟩) := by
  rw [reported_resp hok ha (outer_resp h0)]
  refine exists_congr fun r => and_congr_right fun hr => ?_
  have hm := quiet_responseMessage (p := ⟨i, r, ex.request⟩) (foreign_resp ha hr h0) h1
  simp only [quiet_contextRest h4, and_false, exists_false, or_false]
  unfold itselfRest
  simp only [says_inOrder_cons, show (Placed.here ⟨i, r, ex.request⟩) = .resp i from rfl] at hm ⊢
  simp only [hm, quiet_part (checkResponseHeaders_only E _) h2 id,
    quiet_skipped (quiet_part (checkSettledResponse_only E _) h3 id), says_inOrder_nil, or_false,
    false_or]

theorem from_headers (h0 : N ∉ outerIds) (h1 : N ∉ messageIds) (h2 : N ∉ checkStatusIds)
    (h3 : N ∉ checkSettledResponseIds) (h4 : N ∉ answerIds) :
    ReportedId E ex (.resp i) N ↔ ∃ r, ex.responses[i]? = some r ∧
      Says (.resp i) N (checkResponseHeaders E ⟨i, r, ex.request⟩) := by
  rw [reported_resp hok ha (outer_resp h0)]
  refine exists_congr fun r => and_congr_right fun hr => ?_
  have hm := quiet_responseMessage (p := ⟨i, r, ex.request⟩) (foreign_resp ha hr h0) h1
  simp only [quiet_contextRest h4, and_false, exists_false, or_false]
  unfold itselfRest
  simp only [says_inOrder_cons, show (Placed.here ⟨i, r, ex.request⟩) = .resp i from rfl] at hm ⊢
  simp only [hm, quiet_part (checkStatus_only E _) h2 id,
    quiet_skipped (quiet_part (checkSettledResponse_only E _) h3 id), says_inOrder_nil, or_false,
    false_or]

theorem from_settled (h0 : N ∉ outerIds) (h1 : N ∉ messageIds) (h2 : N ∉ checkStatusIds)
    (h3 : N ∉ checkResponseHeadersIds) (h4 : N ∉ answerIds) :
    ReportedId E ex (.resp i) N ↔ ∃ r, ex.responses[i]? = some r ∧ r.status ≠ 103 ∧
      Says (.resp i) N (checkSettledResponse E ⟨i, r, ex.request⟩) := by
  rw [reported_resp hok ha (outer_resp h0)]
  refine exists_congr fun r => and_congr_right fun hr => ?_
  have hm := quiet_responseMessage (p := ⟨i, r, ex.request⟩) (foreign_resp ha hr h0) h1
  simp only [quiet_contextRest h4, and_false, exists_false, or_false]
  unfold itselfRest
  simp only [says_inOrder_cons, show (Placed.here ⟨i, r, ex.request⟩) = .resp i from rfl] at hm ⊢
  simp only [hm, quiet_part (checkStatus_only E _) h2 id,
    quiet_part (checkResponseHeaders_only E _) h3 id, says_inOrder_nil, or_false, false_or]
  by_cases h : r.status = 103
  · rw [if_pos (show Placed.status ⟨i, r, ex.request⟩ = 103 from h)]
    simp [h]
  · rw [if_neg (show ¬Placed.status ⟨i, r, ex.request⟩ = 103 from h)]
    simp [h]

omit hok in
theorem quiet_itselfRest {r : Response} (hr : ex.responses[i]? = some r) (h0 : N ∉ outerIds)
    (h1 : N ∉ messageIds) (h2 : N ∉ checkStatusIds ++ checkResponseHeadersIds)
    (h3 : N ∉ checkSettledResponseIds) : ¬Says (.resp i) N (itselfRest E ⟨i, r, ex.request⟩) := by
  have hm := quiet_responseMessage (p := ⟨i, r, ex.request⟩) (foreign_resp ha hr h0) h1
  rw [List.mem_append, not_or] at h2
  unfold itselfRest
  simp only [says_inOrder_cons, show (Placed.here ⟨i, r, ex.request⟩) = .resp i from rfl] at hm ⊢
  simp only [hm, quiet_part (checkStatus_only E _) h2.1 id,
    quiet_part (checkResponseHeaders_only E _) h2.2 id,
    quiet_skipped (quiet_part (checkSettledResponse_only E _) h3 id), says_inOrder_nil, or_false,
    not_false_eq_true]

theorem from_context (h0 : N ∉ outerIds)
    (h1 : N ∉ messageIds) (h2 : N ∉ checkStatusIds ++ checkResponseHeadersIds)
    (h3 : N ∉ checkSettledResponseIds) :
    ReportedId E ex (.resp i) N ↔ ∃ r req, ex.responses[i]? = some r ∧ ex.request = some req ∧
      Says (.resp i) N (contextRest E ⟨i, r, ex.request⟩ req) := by
  rw [reported_resp hok ha (outer_resp h0)]
  constructor
  · rintro ⟨r, hr, h | ⟨req, hreq, h⟩⟩
    · exact absurd h (quiet_itselfRest ha hr h0 h1 h2 h3)
    · exact ⟨r, req, hr, hreq, h⟩
  · rintro ⟨r, req, hr, hreq, h⟩
    exact ⟨r, hr, .inr ⟨req, hreq, h⟩⟩

theorem from_against (h0 : N ∉ outerIds)
    (h1 : N ∉ messageIds) (h2 : N ∉ checkStatusIds ++ checkResponseHeadersIds)
    (h3 : N ∉ checkSettledResponseIds) (h4 : N ∉ checkNegotiationIds ++ checkCachedAnswerIds)
    (h5 : N ∉ checkSettledAnswerIds) :
    ReportedId E ex (.resp i) N ↔ ∃ r req, ex.responses[i]? = some r ∧ ex.request = some req ∧
      Says (.resp i) N (checkAgainstRequest E ⟨i, r, ex.request⟩ req) := by
  rw [from_context hok ha h0 h1 h2 h3]
  rw [List.mem_append, not_or] at h4
  unfold contextRest
  simp only [says_inOrder_cons, quiet_part (checkNegotiation_only E _ _) h4.1 id,
    quiet_part (checkCachedAnswer_only E _ _) h4.2 id,
    quiet_skipped (quiet_part (checkSettledAnswer_only E _ _) h5 id), says_inOrder_nil, or_false]

theorem from_negotiation (h0 : N ∉ outerIds)
    (h1 : N ∉ messageIds) (h2 : N ∉ checkStatusIds ++ checkResponseHeadersIds)
    (h3 : N ∉ checkSettledResponseIds) (h4 : N ∉ checkAgainstRequestIds ++ checkCachedAnswerIds)
    (h5 : N ∉ checkSettledAnswerIds) :
    ReportedId E ex (.resp i) N ↔ ∃ r req, ex.responses[i]? = some r ∧ ex.request = some req ∧
      Says (.resp i) N (checkNegotiation E ⟨i, r, ex.request⟩ req) := by
  rw [from_context hok ha h0 h1 h2 h3]
  rw [List.mem_append, not_or] at h4
  unfold contextRest
  have hq : ∀ p req, ¬Says (.resp i) N (checkAgainstRequest E p req) :=
    fun p req h => h4.1 ((checkAgainstRequest_only E p req).says h)
  simp only [says_inOrder_cons, hq,
    quiet_part (checkCachedAnswer_only E _ _) h4.2 id,
    quiet_skipped (quiet_part (checkSettledAnswer_only E _ _) h5 id), says_inOrder_nil, or_false,
    false_or]

theorem from_cached (h0 : N ∉ outerIds)
    (h1 : N ∉ messageIds) (h2 : N ∉ checkStatusIds ++ checkResponseHeadersIds)
    (h3 : N ∉ checkSettledResponseIds) (h4 : N ∉ checkAgainstRequestIds ++ checkNegotiationIds)
    (h5 : N ∉ checkSettledAnswerIds) :
    ReportedId E ex (.resp i) N ↔ ∃ r req, ex.responses[i]? = some r ∧ ex.request = some req ∧
      Says (.resp i) N (checkCachedAnswer E ⟨i, r, ex.request⟩ req) := by
  rw [from_context hok ha h0 h1 h2 h3]
  rw [List.mem_append, not_or] at h4
  unfold contextRest
  have hq : ∀ p req, ¬Says (.resp i) N (checkAgainstRequest E p req) :=
    fun p req h => h4.1 ((checkAgainstRequest_only E p req).says h)
  simp only [says_inOrder_cons, hq,
    quiet_part (checkNegotiation_only E _ _) h4.2 id,
    quiet_skipped (quiet_part (checkSettledAnswer_only E _ _) h5 id), says_inOrder_nil, or_false,
    false_or]

theorem from_answer (h0 : N ∉ outerIds)
    (h1 : N ∉ messageIds) (h2 : N ∉ checkStatusIds ++ checkResponseHeadersIds)
    (h3 : N ∉ checkSettledResponseIds) (h4 : N ∉ checkAgainstRequestIds ++ checkNegotiationIds)
    (h5 : N ∉ checkCachedAnswerIds) :
    ReportedId E ex (.resp i) N ↔ ∃ r req, ex.responses[i]? = some r ∧ ex.request = some req ∧
      r.status ≠ 103 ∧ Says (.resp i) N (checkSettledAnswer E ⟨i, r, ex.request⟩ req) := by
  rw [from_context hok ha h0 h1 h2 h3]
  rw [List.mem_append, not_or] at h4
  unfold contextRest
  have hq : ∀ p req, ¬Says (.resp i) N (checkAgainstRequest E p req) :=
    fun p req h => h4.1 ((checkAgainstRequest_only E p req).says h)
  simp only [says_inOrder_cons, hq,
    quiet_part (checkNegotiation_only E _ _) h4.2 id,
    quiet_part (checkCachedAnswer_only E _ _) h5 id, says_inOrder_nil, or_false, false_or]
  refine exists_congr fun r => exists_congr fun req => and_congr_right fun hr =>
    and_congr_right fun hreq => ?_
  by_cases h : r.status = 103
  · rw [if_pos (show Placed.status ⟨i, r, ex.request⟩ = 103 from h)]
    simp [h]
  · rw [if_neg (show ¬Placed.status ⟨i, r, ex.request⟩ = 103 from h)]
    simp [h]

theorem from_requestMessage (h0 : N ∉ outerIds) (h1 : N ∉ checkRequestBasicsIds)
    (h2 : N ∉ checkRequestCachingIds) (h3 : N ∉ checkRequestExtrasIds) :
    ReportedId E ex .req N ↔ ∃ req, ex.request = some req ∧ Says .req N
      (checkMessage E .req req.toMessage req.isTls (messageTransformed E .req req.fields) none) := by
  rw [reported_req hok ha (outer_req h0)]
  refine exists_congr fun req => and_congr_right fun hreq => ?_
  unfold requestRest
  simp only [says_inOrder_cons,
    quiet_part (checkRequestBasics_only E req) h1 (foreign_req ha hreq h0),
    quiet_part (checkRequestCaching_only E req) h2 id,
    quiet_part (checkRequestExtras_only E req) h3 id, says_inOrder_nil, or_false]

theorem from_basics (h0 : N ∉ outerIds) (h1 : N ∉ messageIds)
    (h2 : N ∉ checkRequestCachingIds) (h3 : N ∉ checkRequestExtrasIds) :
    ReportedId E ex .req N ↔ ∃ req, ex.request = some req ∧ Says .req N (checkRequestBasics E req) := by
  rw [reported_req hok ha (outer_req h0)]
  refine exists_congr fun req => and_congr_right fun hreq => ?_
  unfold requestRest
  simp only [says_inOrder_cons, quiet_requestMessage (foreign_req ha hreq h0) h1,
    quiet_part (checkRequestCaching_only E req) h2 id,
    quiet_part (checkRequestExtras_only E req) h3 id, says_inOrder_nil, or_false, false_or]

theorem from_caching (h0 : N ∉ outerIds) (h1 : N ∉ messageIds)
    (h2 : N ∉ checkRequestBasicsIds) (h3 : N ∉ checkRequestExtrasIds) :
    ReportedId E ex .req N ↔ ∃ req, ex.request = some req ∧ Says .req N (checkRequestCaching E req) := by
  rw [reported_req hok ha (outer_req h0)]
  refine exists_congr fun req => and_congr_right fun hreq => ?_
  unfold requestRest
  simp only [says_inOrder_cons, quiet_requestMessage (foreign_req ha hreq h0) h1,
    quiet_part (checkRequestBasics_only E req) h2 (foreign_req ha hreq h0),
    quiet_part (checkRequestExtras_only E req) h3 id, says_inOrder_nil, or_false, false_or]

theorem from_extras (h0 : N ∉ outerIds) (h1 : N ∉ messageIds)
    (h2 : N ∉ checkRequestBasicsIds) (h3 : N ∉ checkRequestCachingIds) :
    ReportedId E ex .req N ↔ ∃ req, ex.request = some req ∧ Says .req N (checkRequestExtras E req) := by
  rw [reported_req hok ha (outer_req h0)]
  refine exists_congr fun req => and_congr_right fun hreq => ?_
  unfold requestRest
  simp only [says_inOrder_cons, quiet_requestMessage (foreign_req ha hreq h0) h1,
    quiet_part (checkRequestBasics_only E req) h2 (foreign_req ha hreq h0),
    quiet_part (checkRequestCaching_only E req) h3 id, says_inOrder_nil, or_false, false_or]

end

/-! ## Tactics for one notice -/

macro "at_status" hok:term:max ha:term:max : tactic => `(tactic| (
  rw [from_status $hok $ha (by decide) (by decide) (by decide) (by decide) (by decide)]
  refine exists_congr fun r => and_congr_right fun hr => ?_
  unfold checkStatus
  dsimp only [Placed.here, Placed.status, Placed.fields]
  locate))

macro "at_headers" hok:term:max ha:term:max : tactic => `(tactic| (
  rw [from_headers $hok $ha (by decide) (by decide) (by decide) (by decide) (by decide)]
  refine exists_congr fun r => and_congr_right fun hr => ?_
  unfold checkResponseHeaders
  dsimp only [Placed.here, Placed.status, Placed.fields]
  locate))

macro "at_settled" hok:term:max ha:term:max : tactic => `(tactic| (
  rw [from_settled $hok $ha (by decide) (by decide) (by decide) (by decide) (by decide)]
  refine exists_congr fun r => and_congr_right fun hr => and_congr_right fun hs => ?_
  unfold checkSettledResponse
  dsimp only [Placed.here, Placed.status, Placed.fields]
  locate))

macro "at_against" hok:term:max ha:term:max : tactic => `(tactic| (
  rw [from_against $hok $ha (by decide) (by decide) (by decide) (by decide) (by decide) (by decide)]
  refine exists_congr fun r => exists_congr fun req => and_congr_right fun hr =>
    and_congr_right fun hreq => ?_
  unfold checkAgainstRequest
  dsimp only [Placed.here, Placed.status, Placed.fields]
  locate))

macro "at_negotiation" hok:term:max ha:term:max : tactic => `(tactic| (
  rw [from_negotiation $hok $ha (by decide) (by decide) (by decide) (by decide) (by decide)
    (by decide)]
  refine exists_congr fun r => exists_congr fun req => and_congr_right fun hr =>
    and_congr_right fun hreq => ?_
  unfold checkNegotiation
  dsimp only [Placed.here, Placed.status, Placed.fields]
  locate))

macro "at_cached" hok:term:max ha:term:max : tactic => `(tactic| (
  rw [from_cached $hok $ha (by decide) (by decide) (by decide) (by decide) (by decide) (by decide)]
  refine exists_congr fun r => exists_congr fun req => and_congr_right fun hr =>
    and_congr_right fun hreq => ?_
  unfold checkCachedAnswer
  dsimp only [Placed.here, Placed.status, Placed.fields]
  locate))

macro "at_answer" hok:term:max ha:term:max : tactic => `(tactic| (
  rw [from_answer $hok $ha (by decide) (by decide) (by decide) (by decide) (by decide) (by decide)]
  refine exists_congr fun r => exists_congr fun req => and_congr_right fun hr =>
    and_congr_right fun hreq => and_congr_right fun hs => ?_
  unfold checkSettledAnswer
  dsimp only [Placed.here, Placed.status, Placed.fields]
  locate))

macro "at_basics" hok:term:max ha:term:max : tactic => `(tactic| (
  rw [from_basics $hok $ha (by decide) (by decide) (by decide) (by decide)]
  refine exists_congr fun req => and_congr_right fun hreq => ?_
  have hf := foreign_req $ha hreq (by decide)
  unfold checkRequestBasics
  dsimp only
  locate))

macro "at_caching" hok:term:max ha:term:max : tactic => `(tactic| (
  rw [from_caching $hok $ha (by decide) (by decide) (by decide) (by decide)]
  refine exists_congr fun req => and_congr_right fun hreq => ?_
  unfold checkRequestCaching
  dsimp only
  locate))

macro "at_extras" hok:term:max ha:term:max : tactic => `(tactic| (
  rw [from_extras $hok $ha (by decide) (by decide) (by decide) (by decide)]
  refine exists_congr fun req => and_congr_right fun hreq => ?_
  unfold checkRequestExtras
  dsimp only
  locate))

theorem says_ite {t : Target} {N : Nat} {c : Prop} [Decidable c] {a b : List Act} :
    Says t N (if c then a else b) ↔ (c ∧ Says t N a) ∨ (¬c ∧ Says t N b) := by
  split <;> simp_all

theorem informational_iff (r : Response) : isInformational r.status = true ↔ StatusClass r 1 := by
  simp only [isInformational, StatusClass, decide_eq_true_eq]; omega

theorem successful_iff (r : Response) : isSuccessful r.status = true ↔ StatusClass r 2 := by
  simp only [isSuccessful, StatusClass, decide_eq_true_eq]; omega

theorem redirection_iff (r : Response) : redirection r.status = true ↔ StatusClass r 3 := by
  simp only [redirection, StatusClass, decide_eq_true_eq]; omega

theorem clientError_iff (r : Response) : clientError r.status = true ↔ StatusClass r 4 := by
  simp only [clientError, StatusClass, decide_eq_true_eq]; omega

theorem http1_iff (v : Option Str) :
    isHttp1 v = true ↔ v = some (str "HTTP/1.0") ∨ v = some (str "HTTP/1.1") := by
  simp [isHttp1]

theorem media_iff (h : Sensible E) (m : Msg) {w : String} (hw : (str w).all (· < 128) = true) :
    E.contentTypeIs m w = true ↔ HasMediaType E m w := by
  unfold Env.contentTypeIs HasMediaType
  rw [okay_last h.lower (by decide)]
  simp only [same_word' h hw]

theorem noCache_iff (h : Sensible E) (m : Msg) : E.pragmaNoCache m = true ↔
    ∃ x, Listed E m "Pragma" E.grammars.pragma x ∧ IsNoCache x := by
  unfold Env.pragmaNoCache
  rw [any_pragma h]
  refine exists_congr fun x => and_congr_right fun _ => ?_
  cases x <;> simp [PragmaValue.isNoCache, IsNoCache]

theorem noBody_iff (h : Sensible E) (req : Request) : req.hasBody E = some false ↔ NoBody E req := by
  unfold Request.hasBody NoBody Version
  rw [← content_iff, ← http1_iff, ← present_has h.lower (by decide), ← present_has h.lower (by decide)]
  by_cases h1 : truthyBody req.body = true
  · simp [h1]
  · by_cases h2 : isHttp1 req.version = true
    · simp [h1, h2]
    · simp [h1, h2]

theorem tls_false (req : Request) : req.isTls = some false ↔ req.scheme = some (str "http") := by
  unfold Request.isTls
  by_cases h : req.scheme = some (str "http")
  · simp [h]
  · by_cases h' : req.scheme = some (str "https")
    · simp [h']
    · simp [h, h']

theorem compare_iff {α β : Type} (f : α → β → Bool) (a : PyVal α) (b : PyVal β) :
    compareView f a b = true ↔ ∃ x y, a = .val x ∧ b = .val y ∧ f x y = true := by
  cases a <;> cases b <;> simp [compareView, PyVal.okay]

theorem okay_val {α : Type} (a : PyVal α) : a.okay = true ↔ ∃ x, a = .val x := by
  cases a <;> simp [PyVal.okay]

theorem names_carries {m : Msg} {P : Str → Prop} {names : List String}
    (h : ∀ n, P n ↔ OneOf E n names) : (∃ n, n ∈ E.names m ∧ P n) ↔ Carries E m names := by
  simp only [h]
  exact names_oneOf

theorem oneOf_diff {n : Str} {l l' l'' : List String}
    (h1 : ∀ a ∈ l, a ∈ l'' ∨ ∃ b ∈ l', asciiLower (str b) = asciiLower (str a))
    (h2 : ∀ a ∈ l'', a ∈ l ∧ ∀ b ∈ l', asciiLower (str b) ≠ asciiLower (str a)) :
    ¬OneOf E n l' ∧ OneOf E n l ↔ OneOf E n l'' := by
  constructor
  · rintro ⟨hn, a, ha, he⟩
    rcases h1 a ha with h | ⟨b, hb, h⟩
    · exact ⟨a, h, he⟩
    · exact absurd ⟨b, hb, he.trans h.symm⟩ hn
  · rintro ⟨a, ha, he⟩
    refine ⟨?_, a, (h2 a ha).1, he⟩
    rintro ⟨b, hb, he'⟩
    exact (h2 a ha).2 b hb (he'.symm.trans he)

theorem oneOf_two {n : Str} {a b : String} :
    ¬IsWord E n a ∧ ¬IsWord E n b ↔ ¬OneOf E n [a, b] := by
  simp [OneOf, IsWord]

theorem oneOf_any (h : Sensible E) {n : Str} {l : List String}
    (hl : ∀ a ∈ l, (str a).all (· < 128) = true) :
    (l.any fun x => E.same n (str x)) = true ↔ OneOf E n l := by
  rw [List.any_eq_true]
  constructor
  · rintro ⟨a, ha, he⟩
    exact ⟨a, ha, (same_word' h (hl a ha)).1 he⟩
  · rintro ⟨a, ha, he⟩
    exact ⟨a, ha, (same_word' h (hl a ha)).2 he⟩

theorem clearly_nil {m : Msg} {p : Str → Bool} {names : List String}
    (h : ∀ n, p n = true ↔ OneOf E n names) : clearly E m p = [] ↔ ¬Carries E m names := by
  rw [← names_oneOf, clearly, List.filter_eq_nil_iff]
  simp only [h]
  constructor
  · rintro h' ⟨n, hn, ho⟩
    exact h' n hn ho
  · intro h' n hn ho
    exact h' ⟨n, hn, ho⟩

theorem not_iff_false {b : Bool} {P : Prop} (h : b = true ↔ P) : b = false ↔ ¬P := by
  rw [← h]; cases b <;> simp

/-- Put what a check looks at in terms of raw entries. -/
macro "raw" hE:term:max : tactic => `(tactic| simp (disch := first | decide | rfl) only [
  says_whenever, says_say, says_each, says_inOrder_cons, says_inOrder_nil, says_nil, says_ite,
  and_true, or_false, false_or, true_and, and_false, false_and, Bool.and_eq_true, Bool.or_eq_true,
  Bool.not_eq_eq_eq_not, Bool.not_true, beq_iff_eq, bne_iff_ne, decide_eq_true_eq,
  Nat.reduceEqDiff, not_true_eq_false, not_false_eq_true, exists_false, reduceCtorEq,
  present_has (Sensible.lower $hE), absent_has (Sensible.lower $hE),
  okay_last (Sensible.lower $hE), content_iff, empty_iff,
  same_word' $hE, option_has' $hE, chunked_iff $hE, warning_iff $hE, allows_iff $hE,
  mem_acceptPatch $hE, mem_cacheControl $hE, mem_connection $hE, mem_link $hE, mem_pragma $hE,
  mem_te $hE, mem_trailer $hE, mem_transferEncoding $hE, mem_upgrade $hE, mem_warning $hE,
  any_te $hE, any_upgrade $hE, any_pragma $hE, any_warning $hE,
  forRequest_iff $hE, forResponse_iff $hE, precondition_iff $hE, conneg_iff $hE, describing_iff $hE,
  not_iff_false (option_has' $hE _ _), not_iff_false (same_word' $hE _),
  definesBody_true, definesBody_false, safe_true, cacheable_true, cacheable_false,
  informational_iff, successful_iff, redirection_iff, clientError_iff,
  and_assoc, Version, http1_iff, media_iff $hE, noCache_iff $hE, noBody_iff $hE, tls_false,
  compare_iff, okay_val, single_last (Sensible.lower $hE), Env.chunked, Classical.not_not,
  not_iff_false (media_iff $hE _ _), not_iff_false (noCache_iff $hE _),
  not_iff_false (truthy_iff $hE _ _), not_iff_false (warning_iff $hE _ _),
  not_iff_false (notGiven_iff $hE _ _), not_iff_false (allows_iff $hE _ _),
  not_iff_false (redirection_iff _), not_or, ne_eq,
  Bool.or_eq_false_iff, beq_eq_false_iff_ne, names_oneOf, truthy_iff $hE, unqualified_iff $hE, notGiven_iff $hE])

end Httpolice.Lemmas.Check
