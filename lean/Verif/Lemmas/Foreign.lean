import Verif.Lemmas.HeaderNotices

/-!
# Notices that the checks do not report themselves
-/

namespace Httpolice.Lemmas.Check

open Httpolice.Model Httpolice.Spec Httpolice.Props

variable {E : Env} {ex : Exchange} {N : Nat}

/-- Notices that only views and payloads report. -/
theorem at_foreign (hok : exchangeRaises E ex = false) (ht : ∀ forms s r, E.parseTarget forms s = some r → ∀ n ∈ r.2, n.id ≠ N)
    (hl : LowersAscii E.lower) (hk : CaseBlind E) (h : N ∉ ownIds) (t : Target) :
    ReportedId E ex t N ↔ OnMessage ex t fun msg =>
      (∃ e ∈ msg.fields.headers ++ msg.fields.trailers, ViewSays E msg.fields e.name N) ∨ ∃ n ∈ msg.payload.notes, n.1 = N := by
  simp only [ownIds, List.mem_append, List.mem_cons, List.not_mem_nil, or_false, not_or] at h
  obtain ⟨⟨⟨hq, hi⟩, hx⟩, h1, h2, h3⟩ := h
  have hf : ∀ {msg : Message}, Foreign E msg N →
      (∃ e ∈ msg.fields.headers ++ msg.fields.trailers, ViewSays E msg.fields e.name N) ∨ ∃ n ∈ msg.payload.notes, n.1 = N := by
    rintro msg (⟨name, hv⟩ | hn | ⟨forms, s, r, hr, n, hn, hid⟩)
    · have hv := (ids_view hl).mp hv
      obtain ⟨e, he, hname⟩ := viewSays_entry hv
      exact .inl ⟨e, he, (viewSays_case hk hname).mpr hv⟩
    · exact .inr hn
    · exact absurd hid (ht forms s r hr n hn)
  have hb : ∀ {t : Target} {msg : Message} {tls tr st}, ((∃ e ∈ msg.fields.headers ++ msg.fields.trailers, ViewSays E msg.fields e.name N) ∨
      ∃ n ∈ msg.payload.notes, n.1 = N) → Says t N (checkMessage E t msg tls tr st) := by
    rintro t msg tls tr st (he | ⟨n, hn, hid⟩)
    · rw [← mem_names (P := fun n => ViewSays E msg.fields n N) fun a b hab => (viewSays_case hk hab).mp] at he
      obtain ⟨n, hn, hv⟩ := he
      obtain ⟨x, hx, hid⟩ := (ids_view hl).mpr hv
      unfold checkMessage
      rw [says_inOrder_cons]
      refine .inl ?_
      unfold checkHeaders
      rw [says_inOrder_cons, says_each]
      refine .inl ⟨n, hn, ?_⟩
      rw [says_inOrder_cons, says_inOrder_cons, says_each]
      refine .inr (.inl ⟨x, hx, ?_⟩)
      rw [← hid]
      exact ⟨⟨x.id, _⟩, .head _, rfl⟩
    · unfold checkMessage
      rw [says_inOrder_cons, says_inOrder_cons]
      refine .inr (.inl ?_)
      unfold checkAnyMessage
      rw [says_inOrder_cons, says_each]
      refine .inl ⟨n, hn, ?_⟩
      rw [says_say]
      exact ⟨rfl, hid.symm⟩
  cases t with
  | exch => exact iff_of_false (fun ⟨c, hc, _⟩ => exch_quiet hok hc) id
  | req =>
    constructor
    · rintro ⟨c, hc, rfl⟩
      rw [reported_iff hok (reported_present hc), mem_exchangeActs] at hc
      rcases hc with ⟨req, hreq, hc | hc⟩ | ⟨i, r, hr, hc⟩ | ⟨i, r, req, _, _, _, _, _, hc⟩
      · exact ⟨req, hreq, hf (plain_requestStart (l := []) (R := True) req (says_of_mem hc)).2⟩
      · exact ⟨req, hreq, hf (((plain_requestRest E req).says (says_of_mem hc)).2.resolve_left hq)⟩
      · unfold forResponseActs at hc
        rw [List.mem_append] at hc
        rcases hc with hc | hc
        · split at hc
          · simp [say] at hc
          · cases hc
        · rcases says_checkResponse (says_of_mem hc) with ⟨h', _⟩ | ⟨_, h', _⟩
          · cases h'
          · exact absurd h' h1
      · cases hc
    · rintro ⟨req, hreq, he⟩
      have hp : Present ex .req := by
        show ex.request.isSome = true
        rw [hreq]; rfl
      obtain ⟨c, hc, hid⟩ : Says .req N (requestRest E req) := by
        unfold requestRest
        rw [says_inOrder_cons]
        exact .inl (hb he)
      exact ⟨c, (reported_iff hok hp c).2 ((mem_exchangeActs E).2 (.inl ⟨req, hreq, .inr hc⟩)), hid⟩
  | resp i =>
    constructor
    · rintro ⟨c, hc, rfl⟩
      rw [reported_iff hok (reported_present hc), mem_exchangeActs] at hc
      rcases hc with ⟨req, hreq, hc | hc⟩ | ⟨j, r, hr, hc⟩ | ⟨j, r, req, _, _, _, _, _, hc⟩
      · cases (plain_requestStart (l := []) (R := True) req (says_of_mem hc)).1
      · cases ((plain_requestRest E req).says (says_of_mem hc)).1
      · unfold forResponseActs at hc
        rw [List.mem_append] at hc
        rcases hc with hc | hc
        · split at hc
          · simp only [say, List.mem_singleton, Act.op.injEq, BoardOp.complain.injEq] at hc
            exact absurd (congrArg Complaint.id hc.2) h2
          · cases hc
        · have hj : (ex.responses.take j).length = j := by
            have := (List.getElem?_eq_some_iff.1 hr).1
            rw [List.length_take]; omega
          rw [hj] at hc
          rcases says_checkResponse (says_of_mem hc) with ⟨h', hs⟩ | ⟨h', _⟩
          · cases h'
            exact ⟨r, hr, hf ((hs.resolve_left hi).resolve_left hx)⟩
          · cases h'
      · simp only [Act.op.injEq, BoardOp.complain.injEq] at hc
        exact absurd (congrArg Complaint.id hc.2) h3
    · rintro ⟨r, hr, he⟩
      have hlt := (List.getElem?_eq_some_iff.1 hr).1
      have hj : (ex.responses.take i).length = i := by rw [List.length_take]; omega
      obtain ⟨c, hc, hid⟩ : Says (.resp i) N (checkResponse E ⟨i, r, ex.request⟩) := by
        unfold checkResponse
        rw [checkResponseItself_eq, says_append, says_append]
        refine .inl (.inr ?_)
        unfold itselfRest
        rw [says_inOrder_cons]
        exact .inl (hb he)
      refine ⟨c, (reported_iff hok (show Present ex (.resp i) from hlt) c).2
        ((mem_exchangeActs E).2 (.inr (.inl ⟨i, r, hr, ?_⟩))), hid⟩
      unfold forResponseActs
      rw [hj]
      exact List.mem_append_right _ hc

end Httpolice.Lemmas.Check
