import Verif.Lemmas.Catalogue
import Verif.Props.Payload

/-!
# Every notice reported can be shown (C92)
-/

namespace Httpolice.Props

open Httpolice.Model Httpolice.Spec Httpolice.Lemmas Httpolice.Lemmas.Check

/-- **C92**: an ID stands for one notice of the catalogue. -/
theorem C92_unique : (noticeRows.map NoticeRow.id).Nodup := by decide +kernel

/-- What is reported was among the actions, also if there was an exception. -/
theorem reported_acts {E : Env} {ex : Exchange} {t : Target} {c : Complaint Ctx}
    (h : Reported E ex t c) : Act.op (.complain t c) ∈ exchangeActs E ex := by
  obtain ⟨b, hb, hc⟩ := h
  refine untilRaise_sub _ _ ?_
  unfold checkExchange at hb
  rw [get_run] at hb
  cases hget : (ExchBoards.fresh Ctx ex.request.isSome ex.responses.length).get t with
  | none => rw [hget] at hb; cases hb
  | some b0 =>
    have h0 : b0 = Board.new := by
      cases t with
      | exch => exact (Option.some.inj hget).symm
      | req =>
        simp only [ExchBoards.fresh, ExchBoards.get] at hget
        split at hget
        · exact (Option.some.inj hget).symm
        · cases hget
      | resp i =>
        simp only [ExchBoards.fresh, ExchBoards.get, List.getElem?_replicate] at hget
        split at hget
        · exact (Option.some.inj hget).symm
        · cases hget
    subst h0
    rw [hget] at hb
    obtain rfl := Option.some.inj hb
    have h0 : FirstReports ([] : List (Complaint Ctx)) (Board.new (Ctx := Ctx)).stored :=
      ⟨by simp [Board.new], by simp [Board.new], by simp [Board.new]⟩
    have key := board_foldl t (untilRaise (exchangeActs E ex)) Board.new [] h0
    have := (key.1.mem c).1 hc
    rwa [List.nil_append, mem_reportedOn] at this

/-- **C92**: whatever a check reports is in the catalogue, and all that its text refers to is there
to be shown; whatever the headers and payloads are taken for, and also if checking the exchange
raised an exception later. -/
theorem C92_shown {E : Env} {ex : Exchange} {t : Target} {c : Complaint Ctx} (h : Reported E ex t c)
    (ha : Apart E ex c.id) (h1 : c.id ≠ 1013) (h2 : c.id ≠ 1026) : Shown E ex t c := by
  rcases kept_exchangeActs E ex t c (reported_acts h) with hs | hs
  · exact hs
  · have hv : ∀ msg : Message, (∀ n ∈ msg.payload.notes, n.1 ≠ c.id) → ¬Outer E msg c := by
      rintro msg hp (⟨name, n, hn, hid⟩ | hm | ⟨f, s, r, hr, n, hn, hid⟩)
      · rcases viewNotes_id E hn with h | h | ⟨e, h⟩
        · exact h1 (hid ▸ h)
        · exact h2 (hid ▸ h)
        · exact ha.headers _ _ n h hid
      · exact hp _ hm rfl
      · exact ha.target f s r hr n hn hid
    cases t with
    | exch => exact hs.elim
    | req =>
      obtain ⟨req, hreq, ho⟩ := hs
      exact absurd ho (hv _ (ha.request req hreq))
    | resp i =>
      obtain ⟨r, hr, ho⟩ := hs
      exact absurd ho (hv _ (ha.responses r (List.mem_of_getElem? hr)))

section
variable {W : World} (hW : Ready W) {base : Env} (hl : LowersAscii base.lower)
  {L : Libs} {given : Target → Assigned} {ex : Exchange}

include hl in
/-- The keys of what is reported about payloads. -/
theorem notes_fit (a : Assigned) (msg : Message) (full : Bool) :
    ∀ n ∈ (loaded (W.all base) W.codings L a msg full).notes,
      fits .either false n.1 (n.2.map Prod.fst) = true := by
  intro n hn
  simp only [loaded, payloadOf, List.mem_append] at hn
  rcases hn with (((hn | hn) | hn) | hn) | hn
  · obtain ⟨k, hk, rfl⟩ := List.mem_map.1 hn
    rcases coding_ids L a msg (all_ascii (W := W) hl) k hk with h | h
    · simp only [h]
      rw [if_neg (by decide)]
      simp only [List.map_cons, List.map_nil]; decide +kernel
    · simp only [h]
      rw [if_pos trivial]
      simp only [List.map_cons, List.map_nil]; decide +kernel
  · unfold jsonNotes at hn
    repeat' split at hn
    all_goals first
      | cases hn; done
      | (obtain rfl := List.mem_singleton.1 hn; simp only [List.map_cons, List.map_nil]; decide +kernel)
  · unfold xmlNotes at hn
    repeat' split at hn
    all_goals first
      | cases hn; done
      | (obtain rfl := List.mem_singleton.1 hn; simp only [List.map_cons, List.map_nil]; decide +kernel)
  · split at hn
    · obtain ⟨d, _, hn⟩ := List.mem_flatMap.1 hn
      cases d with
      | noBoundary => obtain rfl := List.mem_singleton.1 hn; decide +kernel
      | noStart => obtain rfl := List.mem_singleton.1 hn; decide +kernel
      | other => cases hn
    · cases hn
  · split at hn
    · unfold urlEncodedNotes at hn
      split at hn
      · obtain rfl := List.mem_singleton.1 hn
        simp only [List.map_cons, List.map_nil]; decide +kernel
      · cases hn
    · cases hn

include hW hl in
theorem outer_closed {t : Target} {c : Complaint Ctx}
    (h : Reported (W.all base) (loadPayloads L (W.all base) W.codings given ex) t c) :
    Shown (W.all base) (loadPayloads L (W.all base) W.codings given ex) t c ∨
      (c.id = 1000 ∨ c.id = 1013 ∨ c.id = 1026 ∨ ∃ l ∈ forms.map FormRow.ids, c.id ∈ l) := by
  rcases kept_exchangeActs _ _ t c (reported_acts h) with hs | hs
  · exact .inl hs
  · have hv : ∀ msg : Message, Outer (W.all base) msg c → (c.id, c.ctx) ∈ msg.payload.notes ∨
        (c.id = 1000 ∨ c.id = 1013 ∨ c.id = 1026 ∨ ∃ l ∈ forms.map FormRow.ids, c.id ∈ l) := by
      rintro msg (⟨name, n, hn, hid⟩ | hm | ⟨f, s, r, hr, n, hn, hid⟩)
      · refine .inr ?_
        rw [← hid]
        rcases viewNotes_id _ hn with h | h | ⟨e, h⟩
        · exact .inr (.inl h)
        · exact .inr (.inr (.inl h))
        · obtain ⟨r, hr, _, ⟨_, h⟩ | ⟨_, rfl⟩⟩ := C90_ids hW (base := W.around base) (around_ascii hl) name e n h
          · exact .inr (.inr (.inr ⟨_, List.mem_map.mpr ⟨r, hr, rfl⟩, h⟩))
          · exact .inl rfl
      · exact .inl hm
      · rw [target_quiet hW f s r hr] at hn
        cases hn
    cases t with
    | exch => exact hs.elim
    | req =>
      obtain ⟨req, hreq, ho⟩ := hs
      refine (hv _ ho).imp (fun hm => ?_) id
      unfold loadPayloads at hreq
      obtain ⟨q, _, rfl⟩ := Option.map_eq_some_iff.mp hreq
      have hf := notes_fit hl (given .req) q.toMessage true _ hm
      simp only [fits, Bool.and_eq_true] at hf
      exact shown_of_fitsOn contextGet_req (by simp) hf.1
    | resp i =>
      obtain ⟨r, hr, ho⟩ := hs
      refine (hv _ ho).imp (fun hm => ?_) id
      have hr := List.mem_of_getElem? hr
      unfold loadPayloads at hr
      obtain ⟨j, hj, rfl⟩ := List.mem_mapIdx.mp hr
      have hf := notes_fit hl (given (.resp j)) (ex.responses[j]).toMessage _ _ hm
      simp only [fits, Bool.and_eq_true] at hf
      exact shown_of_fitsOn contextGet_resp (by simp) hf.2

include hW hl in
/-- **C92**: the same, of everything that is reported about the messages themselves, their targets and
payloads, when headers are read by their grammars and payloads by their media types. -/
theorem C92_closed {t : Target} {c : Complaint Ctx}
    (h : Reported (W.all base) (loadPayloads L (W.all base) W.codings given ex) t c)
    (hN : c.id ∈ ownIds ∨ c.id ∈ payloadIds) :
    Shown (W.all base) (loadPayloads L (W.all base) W.codings given ex) t c := by
  have hx : ∀ n ∈ ownIds ++ payloadIds, ¬(n = 1000 ∨ n = 1013 ∨ n = 1026 ∨ ∃ l ∈ forms.map FormRow.ids, n ∈ l) := by
    decide +kernel
  exact (outer_closed hW hl h).resolve_right (hx _ (List.mem_append.2 hN))

include hW hl in
/-- **C92**: everything that is reported, by grammars of headers also, is in the catalogue. -/
theorem C92_catalogued {t : Target} {c : Complaint Ctx}
    (h : Reported (W.all base) (loadPayloads L (W.all base) W.codings given ex) t c) :
    ∃ row ∈ noticeRows, row.id = c.id := by
  rcases outer_closed hW hl h with ⟨row, hr, hid, _⟩ | hc
  · exact ⟨row, hr, hid⟩
  · have hx : ∀ n ∈ [1000, 1013, 1026] ++ (forms.map FormRow.ids).flatten,
        ∃ row ∈ noticeRows, row.id = n := by decide +kernel
    apply hx
    rw [List.mem_append, List.mem_flatten]
    simpa [or_assoc] using hc

end

section
open Toy

/-- C92: a notice about the request cannot be shown on a response that has none. -/
example (r : Response) : ¬Shown Toy.env ⟨none, [r]⟩ (.resp 0) ⟨1305, []⟩ := by
  rintro ⟨row, hr, hid, hp, _⟩
  have : ∀ row ∈ noticeRows, row.id = 1305 → ["msg", "request", "headers", "expect"] ∈ row.references := by
    decide +kernel
  obtain ⟨x, hx⟩ := hp _ (this row hr hid)
  simp [resolveReference, contextGet, getattr, List.lookup] at hx

/-- C92: nor can it without the data it refers to. -/
example (q : Request) : ¬Shown Toy.env ⟨some q, []⟩ .req ⟨1040, []⟩ := by
  rintro ⟨row, hr, hid, hp, _⟩
  have : ∀ row ∈ noticeRows, row.id = 1040 → ["char"] ∈ row.references := by decide +kernel
  obtain ⟨x, hx⟩ := hp _ (this row hr hid)
  simp [resolveReference, contextGet, List.lookup] at hx

/-- C92: the hypotheses can be met. -/
example {W : World} (hW : Ready W) : ∃ c, Reported (W.all Toy.env)
    (loadPayloads tools (W.all Toy.env) W.codings ungiven ⟨some { req "GET" [] with target := str "*" }, []⟩) .req c ∧
    c.id = 1045 ∧ Shown (W.all Toy.env)
    (loadPayloads tools (W.all Toy.env) W.codings ungiven ⟨some { req "GET" [] with target := str "*" }, []⟩) .req c := by
  have h : ReportedId (W.all Toy.env) (loadPayloads tools (W.all Toy.env) W.codings ungiven
      ⟨some { req "GET" [] with target := str "*" }, []⟩) .req 1045 := by
    refine (C91_notice_1045 hW toy_lower (tools_quiet hW _)).mpr ⟨_, rfl, ?_⟩
    rintro ⟨x | x | x | _, h1, h2⟩
    · obtain rfl : str "*" = x := h2
      exact absurd (origin_begins h1.2) (by decide +kernel)
    · obtain rfl : str "*" = x := h2
      obtain ⟨c, hc, e⟩ := absolute_begins h1.2
      rw [show (str "*").head? = some 42 by decide +kernel] at e
      cases e
      revert hc
      simp [IsLetter]
    · exact absurd h1.1 (by decide +kernel)
    · exact absurd (show str "GET" = str "OPTIONS" from h1) (by decide +kernel)
  obtain ⟨c, hc, hid⟩ := h
  exact ⟨c, hc, hid, C92_closed hW toy_lower hc (.inl (by rw [hid]; decide +kernel))⟩

end

end Httpolice.Props
