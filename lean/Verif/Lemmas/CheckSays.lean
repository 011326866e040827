import Verif.Lemmas.CheckAlone

/-!
# Which objects the checks report on
-/

namespace Httpolice.Lemmas.Check

open Httpolice.Model Httpolice.Spec Httpolice.Props

variable {E : Env}

theorem reported_present {ex : Exchange} {t : Target} {c : Complaint Ctx}
    (h : Reported E ex t c) : Present ex t := by
  obtain ⟨b, hb, _⟩ := h
  unfold checkExchange at hb
  rw [get_run] at hb
  cases t with
  | exch => exact trivial
  | req =>
    show ex.request.isSome = true
    cases hr : ex.request with
    | none => rw [hr] at hb; simp [ExchBoards.fresh, ExchBoards.get] at hb
    | some req => rfl
  | resp i =>
    show i < ex.responses.length
    refine Nat.lt_of_not_le fun hle => ?_
    rw [ExchBoards.fresh] at hb
    simp only [ExchBoards.get] at hb
    rw [List.getElem?_eq_none (by simpa using hle)] at hb
    simp at hb

theorem foreign_apart {ex : Exchange} {id : Nat} (h : Apart E ex id) (h1 : id ≠ 1013)
    (h2 : id ≠ 1026) {msg : Message}
    (hm : (∃ req, ex.request = some req ∧ msg = req.toMessage) ∨
      ∃ r ∈ ex.responses, msg = r.toMessage) : ¬Foreign E msg id := by
  rintro (⟨name, n, hn, hi⟩ | ⟨n, hn, hi⟩ | ⟨forms, s, r, hr, n, hn, hi⟩)
  · rcases viewNotes_id E hn with h' | h' | ⟨e, h'⟩
    · exact h1 (hi ▸ h')
    · exact h2 (hi ▸ h')
    · exact h.headers name e n h' hi
  · rcases hm with ⟨req, hreq, rfl⟩ | ⟨r, hr, rfl⟩
    · exact h.request req hreq n hn hi
    · exact h.responses r hr n hn hi
  · exact h.target forms s r hr n hn hi

theorem plain_requestStart {l : List Nat} {R : Prop} (req : Request) {t : Target} {id : Nat}
    (h : Says t id (requestStart E req)) : t = .req ∧ Foreign E req.toMessage id := by
  unfold requestStart at h
  rw [says_append] at h
  rcases h with h | h
  · have := (plain_viewNotes E .req (l := []) (R := True) req.toMessage req.fields
      (str "HTTPolice-Silence")).says h
    exact ⟨this.1, this.2.resolve_left (by simp)⟩
  · exact absurd h says_silence

theorem says_itselfStart {p : Placed} {t : Target} {id : Nat}
    (h : Says t id (itselfStart E p)) : t = p.here ∧ Foreign E p.resp.toMessage id := by
  unfold itselfStart at h
  rw [says_append] at h
  rcases h with h | h
  · have := (plain_viewNotes E p.here (l := []) (R := True) p.resp.toMessage p.fields
      (str "HTTPolice-Silence")).says h
    exact ⟨this.1, this.2.resolve_left (by simp)⟩
  · exact absurd h says_silence

/-- Every notice that checking one response reports. -/
theorem says_checkResponse {p : Placed} {t : Target} {id : Nat} (h : Says t id (checkResponse E p)) :
    (t = p.here ∧ (id ∈ allItselfIds ∨ id ∈ allContextIds ∨ Foreign E p.resp.toMessage id)) ∨
      (t = .req ∧ id = 1236 ∧ ∃ req, p.req = some req) := by
  unfold checkResponse at h
  rw [checkResponseItself_eq, says_append, says_append] at h
  rcases h with (h | h) | h
  · have := says_itselfStart h
    exact .inl ⟨this.1, .inr (.inr this.2)⟩
  · obtain ⟨h1, h2 | h2⟩ := (plain_itselfRest E p).says h
    · exact .inl ⟨h1, .inl h2⟩
    · exact .inl ⟨h1, .inr (.inr h2)⟩
  · split at h
    · next req hreq =>
      rw [checkResponseInContext_eq, says_append] at h
      rcases h with h | h
      · exact absurd h says_silence
      · rcases (plain_contextRest E p req).says h with h | h
        · exact .inl ⟨h.1, .inr (.inl h.2)⟩
        · exact .inr ⟨h.1, h.2, req, hreq⟩
    · exact absurd h says_nil

theorem says_of_mem {t : Target} {c : Complaint Ctx} {acts : List Act}
    (h : Act.op (.complain t c) ∈ acts) : Says t c.id acts := ⟨c, h, rfl⟩

theorem firstFinal_iff {l : List Response} {j : Nat} :
    firstFinal l = some j ↔ ∃ r, l[j]? = some r ∧ Final r ∧ ∀ k s, k < j → l[k]? = some s → ¬Final s := by
  have hf : ∀ r : Response, (!isInformational r.status) = true ↔ Final r := by
    intro r; simp [isInformational, Final]; omega
  unfold firstFinal
  rw [List.findIdx?_eq_some_iff_getElem]
  constructor
  · rintro ⟨h, h1, h2⟩
    refine ⟨l[j], List.getElem?_eq_getElem h, (hf _).1 h1, ?_⟩
    intro k s hk hs hfin
    have hlt : k < l.length := Nat.lt_trans hk h
    have := h2 k hk
    rw [List.getElem?_eq_getElem hlt, Option.some.injEq] at hs
    subst hs
    exact this ((hf _).2 hfin)
  · rintro ⟨r, hr, h1, h2⟩
    obtain ⟨h, rfl⟩ := List.getElem?_eq_some_iff.1 hr
    refine ⟨h, (hf _).2 h1, ?_⟩
    intro k hk hh
    exact h2 k _ hk (List.getElem?_eq_getElem (Nat.lt_trans hk h)) ((hf _).1 hh)

end Httpolice.Lemmas.Check
