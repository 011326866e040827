import Verif.Lemmas.Locate

/-!
# Finding the notices that requests and responses have in common
-/

namespace Httpolice.Lemmas.Check

open Httpolice.Model Httpolice.Spec Httpolice.Props

variable {E : Env} {ex : Exchange} {N : Nat}

/-- IDs of the parts of `check_request` other than `check_message`. -/
def requestOwnIds : List Nat := checkRequestBasicsIds ++ checkRequestCachingIds ++ checkRequestExtrasIds

/-- IDs of the parts of `check_response` other than `check_message`. -/
def responseOwnIds : List Nat :=
  checkStatusIds ++ checkResponseHeadersIds ++ checkSettledResponseIds ++ answerIds

/-- Checks report nothing on the exchange itself. -/
theorem exch_quiet {c : Complaint Ctx} (hok : exchangeRaises E ex = false) :
    ¬Reported E ex .exch c := by
  intro hc
  rw [reported_iff hok (reported_present hc), mem_exchangeActs] at hc
  rcases hc with ⟨req, hreq, hc | hc⟩ | ⟨i, r, hr, hc⟩ | ⟨i, r, req, _, _, _, _, _, hc⟩
  · cases (plain_requestStart (l := []) (R := True) req (says_of_mem hc)).1
  · cases ((plain_requestRest E req).says (says_of_mem hc)).1
  · unfold forResponseActs at hc
    rw [List.mem_append] at hc
    rcases hc with hc | hc
    · split at hc
      · simp [say] at hc
      · cases hc
    · rcases says_checkResponse (says_of_mem hc) with ⟨h', _⟩ | ⟨h', _⟩ <;> cases h'
  · cases hc

section
variable (hok : exchangeRaises E ex = false) (ha : Apart E ex N)
include hok ha

theorem from_common {t : Target} (h0 : N ∉ outerIds) (h1 : N ∉ requestOwnIds) (h2 : N ∉ responseOwnIds) :
    ReportedId E ex t N ↔ match t with
      | .req => ∃ req, ex.request = some req ∧ Says .req N
        (checkMessage E .req req.toMessage req.isTls (messageTransformed E .req req.fields) none)
      | .resp i => ∃ r, ex.responses[i]? = some r ∧ Says (.resp i) N
        (checkMessage E (.resp i) r.toMessage (Placed.isTls ⟨i, r, ex.request⟩)
          (responseTransformed E ⟨i, r, ex.request⟩) (some r.status))
      | .exch => False := by
  simp only [requestOwnIds, responseOwnIds, List.mem_append, not_or] at h1 h2
  cases t with
  | req => exact from_requestMessage hok ha h0 h1.1.1 h1.1.2 h1.2
  | resp i =>
    exact from_message hok ha h0 (by rw [List.mem_append, not_or]; exact h2.1.1) h2.1.2 h2.2
  | exch => exact iff_false_intro fun ⟨c, hc, _⟩ => exch_quiet hok hc

/-- The part of the checks that applies to all messages. -/
theorem from_any {t : Target} (h0 : N ∉ outerIds) (h1 : N ∉ requestOwnIds) (h2 : N ∉ responseOwnIds)
    (h3 : N ∉ checkHeadersIds) (h4 : N ∉ [1189, 1190] ++ checkSettledMessageIds) :
    ReportedId E ex t N ↔ OnMessage ex t fun msg =>
      Says t N (checkAnyMessage E t msg (ex.request.bind Request.isTls)) := by
  rw [from_common hok ha h0 h1 h2]
  rw [List.mem_append, not_or] at h4
  have key : ∀ {t : Target} {msg : Message} {tls} {tr : Option Bool × List Act} {st : Option Int},
      ¬Foreign E msg N → Plain (On t [1189, 1190] fun _ => False) True tr.2 →
      (Says t N (checkMessage E t msg tls tr st) ↔ Says t N (checkAnyMessage E t msg tls)) := by
    intro t msg tls tr st hf htr
    unfold checkMessage
    rw [says_inOrder_cons, says_inOrder_cons, says_inOrder_cons]
    constructor
    · rintro (h | h | h | h)
      · exact absurd h (quiet_of ((checkHeaders_only E t msg msg.fields).ne h3 hf))
      · exact h
      · split at h
        · exact absurd h says_nil
        · unfold checkSettledMessage at h
          simp only [says_inOrder_cons] at h
          have hq := quiet_part (t := t) (checkSettledMessage_only E t msg tr.1) h4.2 id
          unfold checkSettledMessage at hq
          simp only [says_inOrder_cons, not_or] at hq
          rcases h with h | h | h | h | h | h
          · exact absurd h hq.1
          · exact absurd h (quiet_part htr h4.1 id)
          · exact absurd h hq.2.2.1
          · exact absurd h hq.2.2.2.1
          · exact absurd h hq.2.2.2.2.1
          · exact absurd h hq.2.2.2.2.2
      · exact absurd h says_inOrder_nil
    · intro h
      exact .inr (.inl h)
  cases t with
  | req =>
    refine exists_congr fun req => and_congr_right fun hreq => ?_
    rw [key (foreign_req ha hreq h0) ?_, hreq]
    · rfl
    · exact (messageTransformed_only E .req req.fields).mono
        (fun _ i h => ⟨h.1, h.2.imp_left fun h' =>
          (show messageTransformedIds ⊆ [1189, 1190] by decide) h'⟩) fun _ => trivial
  | resp i =>
    refine exists_congr fun r => and_congr_right fun hr => ?_
    rw [key (foreign_resp ha hr h0) ?_]
    · rfl
    · exact (responseTransformed_only E ⟨i, r, ex.request⟩).mono
        (fun _ i h => ⟨h.1, h.2.imp_left fun h' =>
          (show responseTransformedIds ⊆ [1189, 1190] by decide) h'⟩) fun _ => trivial
  | exch => exact Iff.rfl

/-- The loop over headers. -/
theorem from_loop {t : Target} (h0 : N ∉ outerIds) (h1 : N ∉ requestOwnIds) (h2 : N ∉ responseOwnIds)
    (h3 : N ∉ checkAnyMessageIds) (h4 : N ∉ [1189, 1190] ++ checkSettledMessageIds) :
    ReportedId E ex t N ↔ OnMessage ex t fun msg => Says t N (checkHeaders E t msg.fields) := by
  rw [from_common hok ha h0 h1 h2]
  rw [List.mem_append, not_or] at h4
  have key : ∀ {t : Target} {msg : Message} {tls} {tr : Option Bool × List Act} {st : Option Int},
      ¬Foreign E msg N → Plain (On t [1189, 1190] fun _ => False) True tr.2 →
      (Says t N (checkMessage E t msg tls tr st) ↔ Says t N (checkHeaders E t msg.fields)) := by
    intro t msg tls tr st hf htr
    unfold checkMessage
    rw [says_inOrder_cons, says_inOrder_cons, says_inOrder_cons]
    constructor
    · rintro (h | h | h | h)
      · exact h
      · exact absurd h (quiet_of ((checkAnyMessage_only E t msg tls).ne h3 hf))
      · split at h
        · exact absurd h says_nil
        · unfold checkSettledMessage at h
          simp only [says_inOrder_cons] at h
          have hq := quiet_part (t := t) (checkSettledMessage_only E t msg tr.1) h4.2 id
          unfold checkSettledMessage at hq
          simp only [says_inOrder_cons, not_or] at hq
          rcases h with h | h | h | h | h | h
          · exact absurd h hq.1
          · exact absurd h (quiet_part htr h4.1 id)
          · exact absurd h hq.2.2.1
          · exact absurd h hq.2.2.2.1
          · exact absurd h hq.2.2.2.2.1
          · exact absurd h hq.2.2.2.2.2
      · exact absurd h says_inOrder_nil
    · intro h
      exact .inl h
  cases t with
  | req =>
    refine exists_congr fun req => and_congr_right fun hreq => ?_
    rw [key (foreign_req ha hreq h0) ?_]
    exact (messageTransformed_only E .req req.fields).mono
      (fun _ i h => ⟨h.1, h.2.imp_left fun h' =>
        (show messageTransformedIds ⊆ [1189, 1190] by decide) h'⟩) fun _ => trivial
  | resp i =>
    refine exists_congr fun r => and_congr_right fun hr => ?_
    rw [key (foreign_resp ha hr h0) ?_]
    exact (responseTransformed_only E ⟨i, r, ex.request⟩).mono
      (fun _ i h => ⟨h.1, h.2.imp_left fun h' =>
        (show responseTransformedIds ⊆ [1189, 1190] by decide) h'⟩) fun _ => trivial
  | exch => exact Iff.rfl

omit hok ha in
/-- Whether a proxy transformed the message. -/
theorem transformed_req (h : Sensible E) {t : Target} (m : Msg) :
    (messageTransformed E t m).1 = some true ↔ Warns E m 214 := by
  unfold messageTransformed
  rw [← warning_iff h]
  by_cases hw : E.hasWarning m 214 = true <;> simp [hw]

omit hok ha in
theorem transformed_resp (h : Sensible E) (p : Placed) :
    (responseTransformed E p).1 = some true ↔
      p.resp.status ≠ 103 ∧ (p.resp.status = 203 ∨ Warns E p.resp.fields 214) := by
  unfold responseTransformed Placed.status
  by_cases h1 : p.resp.status = 103
  · simp [h1]
  · by_cases h2 : p.resp.status = 203
    · simp [h2]
    · rw [if_neg h1, if_neg h2, ← warning_iff h]
      unfold messageTransformed Placed.fields
      by_cases hw : E.hasWarning p.resp.fields 214 = true <;> simp [hw, h1, h2]

/-- The part that is skipped for 103 (Early Hints). -/
theorem from_settledMessage (hE : Sensible E) {t : Target} (h0 : N ∉ outerIds) (h1 : N ∉ requestOwnIds)
    (h2 : N ∉ responseOwnIds) (h3 : N ∉ checkHeadersIds ++ checkAnyMessageIds) (h4 : N ∉ [1189, 1190]) :
    ReportedId E ex t N ↔ OnSettled ex t fun msg => ∃ tr : Option Bool,
      (tr = some true ↔ Transformed E ex t) ∧ Says t N (checkSettledMessage E t msg (tr, [])) := by
  rw [from_common hok ha h0 h1 h2]
  rw [List.mem_append, not_or] at h3
  have key : ∀ {t : Target} {msg : Message} {tls} {tr : Option Bool × List Act} {st : Option Int},
      ¬Foreign E msg N → Plain (On t [1189, 1190] fun _ => False) True tr.2 →
      (Says t N (checkMessage E t msg tls tr st) ↔ st ≠ some 103 ∧
        Says t N (checkSettledMessage E t msg (tr.1, []))) := by
    intro t msg tls tr st hf htr
    unfold checkMessage
    rw [says_inOrder_cons, says_inOrder_cons, says_inOrder_cons]
    have hs : Says t N (checkSettledMessage E t msg tr) ↔
        Says t N (checkSettledMessage E t msg (tr.1, [])) := by
      unfold checkSettledMessage
      simp only [says_inOrder_cons, says_nil, quiet_part htr h4 id]
    have hb : ((st == some 103) = true) ↔ st = some 103 := beq_iff_eq
    rw [says_ite, hb, hs]
    constructor
    · rintro (h | h | h | h)
      · exact absurd h (quiet_of ((checkHeaders_only E t msg msg.fields).ne h3.1 hf))
      · exact absurd h (quiet_of ((checkAnyMessage_only E t msg tls).ne h3.2 hf))
      · rcases h with ⟨_, h⟩ | h
        · exact absurd h says_nil
        · exact h
      · exact absurd h says_inOrder_nil
    · intro h
      exact .inr (.inr (.inl (.inr h)))
  have hc : ∀ (o : Option Bool) (P : Prop) (Q : Option Bool → Prop), (o = some true ↔ P) →
      (∀ o', (o' = some true ↔ o = some true) → (Q o' ↔ Q o)) →
      (Q o ↔ ∃ tr : Option Bool, (tr = some true ↔ P) ∧ Q tr) := by
    intro o P Q ho hQ
    constructor
    · intro h
      exact ⟨o, ho, h⟩
    · rintro ⟨tr, ht, h⟩
      exact (hQ tr (ht.trans ho.symm)).1 h
  have hQ : ∀ {t : Target} {msg : Message} {o o' : Option Bool}, (o' = some true ↔ o = some true) →
      (Says t N (checkSettledMessage E t msg (o', [])) ↔
        Says t N (checkSettledMessage E t msg (o, []))) := by
    intro t msg o o' h
    unfold checkSettledMessage
    have : (o' == some true) = (o == some true) := by
      rw [Bool.eq_iff_iff, beq_iff_eq, beq_iff_eq]; exact h
    simp only [this]
  cases t with
  | req =>
    refine exists_congr fun req => and_congr_right fun hreq => ?_
    rw [key (foreign_req ha hreq h0) ?_]
    · dsimp only
      rw [← hc (messageTransformed E .req req.fields).1 _
        (fun o => Says .req N (checkSettledMessage E .req req.toMessage (o, [])))]
      · simp
      · rw [transformed_req hE]
        unfold Transformed OnRequest
        simp [hreq]
      · exact fun o' h => hQ h
    · exact (messageTransformed_only E .req req.fields).mono
        (fun _ i h => ⟨h.1, h.2.imp_left fun h' =>
          (show messageTransformedIds ⊆ [1189, 1190] by decide) h'⟩) fun _ => trivial
  | resp i =>
    refine exists_congr fun r => and_congr_right fun hr => ?_
    rw [key (foreign_resp ha hr h0) ?_]
    · dsimp only
      rw [← hc (responseTransformed E ⟨i, r, ex.request⟩).1 _
        (fun o => Says (.resp i) N (checkSettledMessage E (.resp i) r.toMessage (o, [])))]
      · simp
      · rw [transformed_resp hE]
        unfold Transformed OnResponse
        simp [hr]
      · exact fun o' h => hQ h
    · exact (responseTransformed_only E ⟨i, r, ex.request⟩).mono
        (fun _ i h => ⟨h.1, h.2.imp_left fun h' =>
          (show responseTransformedIds ⊆ [1189, 1190] by decide) h'⟩) fun _ => trivial
  | exch => exact Iff.rfl

end

theorem onMessage_congr {P Q : Message → Prop} {t : Target}
    (h : ∀ msg, InExchange ex t msg → (P msg ↔ Q msg)) : OnMessage ex t P ↔ OnMessage ex t Q := by
  cases t with
  | req => exact exists_congr fun req => and_congr_right fun hq => h _ ⟨req, hq, rfl⟩
  | resp i => exact exists_congr fun r => and_congr_right fun hr => h _ ⟨r, hr, rfl⟩
  | exch => exact Iff.rfl

theorem onSettled_congr {P Q : Message → Prop} {t : Target} (h : ∀ msg, P msg ↔ Q msg) :
    OnSettled ex t P ↔ OnSettled ex t Q := by
  cases t with
  | req => exact exists_congr fun req => and_congr_right fun hq => h _
  | resp i => exact exists_congr fun r => and_congr_right fun hr => and_congr_right fun _ => h _
  | exch => exact Iff.rfl

end Httpolice.Lemmas.Check
