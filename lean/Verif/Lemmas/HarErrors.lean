import Verif.Lemmas.Har

/-!
# Lemmas on exceptions while reading HAR files
-/

namespace Httpolice.Lemmas

open Httpolice.Model Httpolice.Spec Httpolice.Props

/-- An exception that is reported as an input error. -/
def Soft (e : HarErr) : Prop := e = .key ∨ e = .type

theorem bind_err {α β : Type} {x : Except HarErr α} {f : α → Except HarErr β} {e : HarErr}
    (h : (x >>= f) = .error e) : x = .error e ∨ ∃ a, x = .ok a ∧ f a = .error e := by
  cases x with
  | error e' => exact .inl (by simpa [bind, Except.bind] using h)
  | ok a => exact .inr ⟨a, rfl, h⟩

theorem mapM_err {α β : Type} {f : α → Except HarErr β} {l : List α} {e : HarErr}
    (h : l.mapM f = .error e) : ∃ x ∈ l, f x = .error e := by
  induction l with
  | nil => simp [pure, Except.pure] at h
  | cons x l ih =>
    rw [List.mapM_cons] at h
    rcases bind_err h with h | ⟨y, hy, h⟩
    · exact ⟨x, by simp, h⟩
    · rcases bind_err h with h | ⟨ys, hys, h⟩
      · obtain ⟨z, hz, h⟩ := ih h
        exact ⟨z, by simp [hz], h⟩
      · simp [pure, Except.pure] at h

theorem mapM_mem {α β : Type} {f : α → Except HarErr β} {l : List α} {m : List β}
    (h : l.mapM f = .ok m) : ∀ y ∈ m, ∃ x ∈ l, f x = .ok y := by
  induction l generalizing m with
  | nil =>
    have : m = [] := by simpa [pure, Except.pure] using h.symm
    simp [this]
  | cons x l ih =>
    rw [List.mapM_cons] at h
    cases hx : f x with
    | error e => rw [hx] at h; simp [bind, Except.bind] at h
    | ok y =>
      cases hl : l.mapM f with
      | error e => rw [hx, hl] at h; simp [bind, Except.bind] at h
      | ok ys =>
        rw [hx, hl] at h
        have : m = y :: ys := by simpa [bind, Except.bind, pure, Except.pure] using h.symm
        subst this
        intro z hz
        rcases List.mem_cons.mp hz with rfl | hz
        · exact ⟨x, by simp, hx⟩
        · obtain ⟨w, hw, h⟩ := ih hl z hz
          exact ⟨w, by simp [hw], h⟩

theorem iter_err {j : Json} {e : HarErr} (h : j.iter = .error e) : Soft e := by
  cases j <;> simp [Json.iter] at h <;> exact .inr h.symm

theorem positive_err {j : Json} {e : HarErr} (h : j.isPositive = .error e) : Soft e := by
  cases j <;> simp [Json.isPositive] at h <;> exact .inr h.symm

theorem inside_err {j : Json} {s : Str} {e : HarErr} (h : j.has s = .error e) : Soft e := by
  cases j <;> simp [Json.has] at h <;> exact .inr h.symm

theorem get_err {j : Json} {k : String} {e : HarErr} (h : j.get k = .error e) : ∀ kvs, j ≠ .obj kvs := by
  rintro kvs rfl
  simp [Json.get] at h

/-- What went wrong while reading a message. -/
theorem message_err {L : HarLib} {m creator : Json} {e : HarErr}
    (h : L.processMessage m creator = .error e) : Soft e ∨ MessageDefect m := by
  unfold HarLib.processMessage at h
  rcases bind_err h with h | ⟨hs, hhs, h⟩
  · exact .inl (item_err h)
  rcases bind_err h with h | ⟨ds, hds, h⟩
  · exact .inl (iter_err h)
  rcases bind_err h with h | ⟨es, hes, h⟩
  · obtain ⟨d, _, h⟩ := mapM_err h
    rcases bind_err h with h | ⟨n, _, h⟩
    · exact .inl (item_err h)
    rcases bind_err h with h | ⟨v, _, h⟩
    · exact .inl (item_err h)
    · simp [pure, Except.pure] at h
  rcases bind_err h with h | ⟨v, hv, h⟩
  · exact .inl (item_err h)
  · refine .inr (.version v (item_ok.mp hv) ?_)
    rintro s rfl
    simp [pure, Except.pure] at h

/-- Where the values of headers come from. -/
theorem message_values {L : HarLib} {m creator : Json} {v : Option Str} {es : List (Str × Json)}
    (h : L.processMessage m creator = .ok (v, es)) :
    ∀ x ∈ es, ∃ xs i, Member m "headers" (.arr xs) ∧ i ∈ xs ∧ Member i "value" x.2 := by
  unfold HarLib.processMessage at h
  cases h1 : m.item "headers" with
  | error e => simp [h1, bind, Except.bind] at h
  | ok hs =>
    cases h2 : hs.iter with
    | error e => simp [h1, h2, bind, Except.bind] at h
    | ok ds =>
      cases h3 : (ds.mapM fun d => do
          let name ← d.item "name"
          let value ← d.item "value"
          pure (L.toText name, value) : Except HarErr (List (Str × Json))) with
      | error e => rw [h1] at h; simp only [bind, Except.bind] at h h3; rw [h2] at h; simp only [h3] at h; simp at h
      | ok raw =>
        have hes : es = (popPseudoHeaders raw).1 := by
          rw [h1] at h; simp only [bind, Except.bind] at h h3; rw [h2] at h; simp only [h3] at h
          cases h4 : m.item "httpVersion" with
          | error e => simp [h4] at h
          | ok w =>
            rw [h4] at h
            cases w with
            | text s => simp only [pure, Except.pure, Except.ok.injEq, Prod.mk.injEq] at h; exact h.2.symm
            | _ => simp at h
        intro x hx
        rw [hes, (C33_pop_pseudo_headers _).1] at hx
        obtain ⟨d, hd, hf⟩ := mapM_mem h3 x (List.mem_filter.mp hx).1
        cases hn : d.item "name" with
        | error e => simp [hn, bind, Except.bind] at hf
        | ok n =>
          cases hv : d.item "value" with
          | error e => simp [hn, hv, bind, Except.bind] at hf
          | ok w =>
            have hw : x.2 = w := by
              simp only [hn, hv, bind, Except.bind, pure, Except.pure, Except.ok.injEq] at hf
              rw [← hf]
            have hhas := item_ok.mp hv
            cases hs with
            | arr xs =>
              simp only [Json.iter, Except.ok.injEq] at h2
              subst h2
              exact ⟨xs, d, item_ok.mp h1, hd, hw ▸ hhas⟩
            | obj kvs =>
              simp only [Json.iter, Except.ok.injEq] at h2
              subst h2
              obtain ⟨kv, _, rfl⟩ := List.mem_map.mp hd
              obtain ⟨_, hbad⟩ := has_obj hhas
              simp at hbad
            | text s =>
              simp only [Json.iter, Except.ok.injEq] at h2
              subst h2
              obtain ⟨kv, _, rfl⟩ := List.mem_map.mp hd
              obtain ⟨_, hbad⟩ := has_obj hhas
              simp at hbad
            | _ => simp [Json.iter] at h2

theorem entries_err {L : HarLib} {m creator : Json} {v : Option Str} {es es' : List (Str × Json)} {e : HarErr}
    (h : L.processMessage m creator = .ok (v, es)) (hsub : ∀ x ∈ es', x ∈ es)
    (h' : HarLib.headerEntries es' = .error e) : MessageDefect m := by
  obtain ⟨x, hx, he⟩ := mapM_err h'
  obtain ⟨xs, i, h1, h2, h3⟩ := message_values h x (hsub x hx)
  refine .value xs i x.2 h1 h2 h3 fun s hs => ?_
  rw [hs] at he
  simp [HarLib.toBytes, bind, Except.bind, pure, Except.pure] at he

theorem requestText_err {data method creator : Json} {e : HarErr} {k : String} {w : Json}
    (ho : Member data k w) (h : HarLib.requestText data method creator = .error e) :
    Soft e ∨ ∃ v, Member data "postData" v ∧ v ≠ .null ∧ ∀ kvs, v ≠ .obj kvs := by
  unfold HarLib.requestText at h
  rcases bind_err h with h | ⟨post, hp, h⟩
  · obtain ⟨kvs, hk⟩ := has_obj ho
    exact absurd hk (get_err h kvs)
  cases post with
  | none => simp [pure, Except.pure] at h
  | some p =>
    have hp := get_some.mp hp
    by_cases ht : p.truthy = true
    · simp only [ht, if_true] at h
      rcases bind_err h with h | ⟨t, _, h⟩
      · refine .inr ⟨p, hp, ?_, get_err h⟩
        rintro rfl
        simp [Json.truthy] at ht
      · left
        cases t with
        | none => simp [pure, Except.pure] at h
        | some t =>
          by_cases htt : t.truthy = true
          · simp only [htt, if_true] at h
            split at h
            · rcases bind_err h with h | ⟨f, _, h⟩
              · exact inside_err h
              · simp [pure, Except.pure] at h
            · simp [pure, Except.pure] at h
          · simp [htt, pure, Except.pure] at h
    · simp [ht, pure, Except.pure] at h

theorem request_err {L : HarLib} {rq creator : Json} {e : HarErr}
    (h : L.processRequest rq creator = .error e) : Soft e ∨ RequestDefect L rq := by
  unfold HarLib.processRequest at h
  rcases bind_err h with h | ⟨⟨v, hs⟩, hm, h⟩
  · exact (message_err h).imp id .message
  rcases bind_err h with h | ⟨method, hme, h⟩
  · exact .inl (item_err h)
  rcases bind_err h with h | ⟨url, hurl, h⟩
  · exact .inl (item_err h)
  have hurl := item_ok.mp hurl
  rcases bind_err h with h | ⟨u, hu, h⟩
  · right
    unfold HarLib.parseUrl at h
    cases url with
    | text s =>
      cases hp : L.urlparse s with
      | none => exact .url s hurl hp
      | some u => simp [hp] at h
    | _ => exact .noUrl _ hurl (by simp)
  rcases bind_err h with h | ⟨size, hsize, h⟩
  · exact .inl (item_err h)
  rcases bind_err h with h | ⟨body, hb, h⟩
  · left
    unfold HarLib.requestBody at h
    split at h
    · simp at h
    · rcases bind_err h with h | ⟨p, _, h⟩
      · exact positive_err h
      · simp [pure, Except.pure] at h
  rcases bind_err h with h | ⟨⟨text, debug⟩, _, h⟩
  · rcases requestText_err hurl h with h | ⟨v, h1, h2, h3⟩
    · exact .inl h
    · exact .inr (.post v h1 h2 h3)
  rcases bind_err h with h | ⟨es, _, h⟩
  · exact .inr (.message (entries_err hm (fun _ h => h) h))
  · simp [pure, Except.pure] at h

theorem responseBody_err {rs creator : Json} {status : Int} {e : HarErr}
    (h : HarLib.responseBody rs creator status = .error e) : Soft e := by
  unfold HarLib.responseBody at h
  rcases bind_err h with h | ⟨size, _, h⟩
  · exact item_err h
  rcases bind_err h with h | ⟨empty, _, h⟩
  · split at h
    · simp [pure, Except.pure] at h
    · rcases bind_err h with h | ⟨c, _, h⟩
      · exact item_err h
      rcases bind_err h with h | ⟨n, _, h⟩
      · exact item_err h
      · simp [pure, Except.pure] at h
  split at h
  · simp [pure, Except.pure] at h
  split at h
  · simp [pure, Except.pure] at h
  rcases bind_err h with h | ⟨p, _, h⟩
  · exact positive_err h
  rcases bind_err h with h | ⟨q, _, h⟩
  · split at h
    · simp [pure, Except.pure] at h
    · rcases bind_err h with h | ⟨c, _, h⟩
      · exact item_err h
      rcases bind_err h with h | ⟨n, _, h⟩
      · exact item_err h
      · exact positive_err h
  · simp [pure, Except.pure] at h

theorem responseText_err {L : HarLib} {rs creator : Json} {b : Bool} {status : Int} {body : PyVal Str}
    {e : HarErr} (h : L.responseText rs creator b status body = .error e) : Soft e ∨ ResponseDefect L rs := by
  unfold HarLib.responseText at h
  rcases bind_err h with h | ⟨c, hc, h⟩
  · exact .inl (item_err h)
  have hc := item_ok.mp hc
  rcases bind_err h with h | ⟨t, ht, h⟩
  · exact .inr (.content c hc (get_err h))
  cases t with
  | none => simp [pure, Except.pure] at h
  | some t =>
    have ht := get_some.mp ht
    simp only at h
    split at h
    · rcases bind_err h with h | ⟨enc, henc, h⟩
      · obtain ⟨kvs, hk⟩ := has_obj ht
        exact absurd hk (get_err h kvs)
      cases enc with
      | none => simp [pure, Except.pure] at h
      | some enc =>
        have henc := get_some.mp henc
        by_cases hs : ∃ s, enc = .text s
        · obtain ⟨s, rfl⟩ := hs
          simp only at h
          split at h
          · left
            cases t with
            | text s =>
              simp only at h
              split at h
              · simp [pure, Except.pure] at h
              · split at h <;> simp [pure, Except.pure] at h
            | _ => simp at h; exact .inr h.symm
          · simp [pure, Except.pure] at h
        · exact .inr (.encoding c enc hc henc fun s he => hs ⟨s, he⟩)
    · simp [pure, Except.pure] at h

theorem response_err {L : HarLib} {rs creator : Json} {method : Str} {e : HarErr}
    (h : L.processResponse rs method creator = .error e) : Soft e ∨ ResponseDefect L rs := by
  unfold HarLib.processResponse at h
  rcases bind_err h with h | ⟨st, hst, h⟩
  · exact .inl (item_err h)
  have hst := item_ok.mp hst
  split at h
  · simp [pure, Except.pure] at h
  rcases bind_err h with h | ⟨⟨v, hs⟩, hm, h⟩
  · exact (message_err h).imp id .message
  rcases bind_err h with h | ⟨status, _, h⟩
  · unfold HarLib.toInt at h
    cases st with
    | text s =>
      cases hp : L.intOf s with
      | none => exact .inr (.status s hst hp)
      | some u => simp [hp] at h
    | float c t =>
      cases t with
      | none => exact .inr (.infinite c hst)
      | some n => simp at h
    | int n => simp at h
    | bool b => simp at h
    | _ => simp at h; exact .inl (.inr h.symm)
  rcases bind_err h with h | ⟨reason, _, h⟩
  · exact .inl (item_err h)
  simp only at h
  rcases bind_err h with h | ⟨body, _, h⟩
  · exact .inl (responseBody_err h)
  rcases bind_err h with h | ⟨es, _, h⟩
  · refine .inr (.message (entries_err hm ?_ h))
    intro x hx
    split at hx
    · exact (List.mem_filter.mp hx).1
    · exact hx
  rcases bind_err h with h | ⟨⟨b, d, t⟩, _, h⟩
  · exact responseText_err h
  · simp [pure, Except.pure] at h

theorem entry_err {L : HarLib} {d creator : Json} {e : HarErr}
    (h : L.processEntry d creator = .error e) : Soft e ∨ EntryDefect L d := by
  unfold HarLib.processEntry at h
  rcases bind_err h with h | ⟨rq, hrq, h⟩
  · exact .inl (item_err h)
  rcases bind_err h with h | ⟨req, _, h⟩
  · exact (request_err h).imp id fun h => .inl ⟨rq, item_ok.mp hrq, h⟩
  rcases bind_err h with h | ⟨rs, hrs, h⟩
  · exact .inl (item_err h)
  rcases bind_err h with h | ⟨resp, _, h⟩
  · exact (response_err h).imp id fun h => .inr ⟨rs, item_ok.mp hrs, h⟩
  · simp [pure, Except.pure] at h

theorem soft_end {e : HarErr} (h : Soft e) : HarLib.harEnd e = .inputError := by
  rcases h with rfl | rfl <;> rfl

/-! ## What is there if nothing goes wrong -/

theorem bind_ok {α β : Type} {x : Except HarErr α} {f : α → Except HarErr β} {b : β}
    (h : (x >>= f) = .ok b) : ∃ a, x = .ok a ∧ f a = .ok b := by
  cases x with
  | error e => simp [bind, Except.bind] at h
  | ok a => exact ⟨a, rfl, h⟩

theorem message_ok {L : HarLib} {m creator : Json} {r : Option Str × List (Str × Json)}
    (h : L.processMessage m creator = .ok r) : HasAll m ["headers", "httpVersion"] := by
  unfold HarLib.processMessage at h
  obtain ⟨hs, h1, h⟩ := bind_ok h
  obtain ⟨ds, _, h⟩ := bind_ok h
  obtain ⟨es, _, h⟩ := bind_ok h
  obtain ⟨v, h2, h⟩ := bind_ok h
  intro k hk
  simp only [List.mem_cons, List.not_mem_nil, or_false] at hk
  rcases hk with rfl | rfl
  · exact ⟨_, item_ok.mp h1⟩
  · exact ⟨_, item_ok.mp h2⟩

theorem request_ok {L : HarLib} {rq creator : Json} {r : HarLib.HarRequest}
    (h : L.processRequest rq creator = .ok r) :
    HasAll rq ["headers", "httpVersion", "method", "url", "bodySize"] := by
  unfold HarLib.processRequest at h
  obtain ⟨⟨v, hs⟩, h0, h⟩ := bind_ok h
  obtain ⟨me, h1, h⟩ := bind_ok h
  obtain ⟨url, h2, h⟩ := bind_ok h
  obtain ⟨u, _, h⟩ := bind_ok h
  obtain ⟨size, h3, h⟩ := bind_ok h
  have h0 := message_ok h0
  intro k hk
  simp only [List.mem_cons, List.not_mem_nil, or_false] at hk
  rcases hk with rfl | rfl | rfl | rfl | rfl
  · exact h0 _ (by simp)
  · exact h0 _ (by simp)
  · exact ⟨_, item_ok.mp h1⟩
  · exact ⟨_, item_ok.mp h2⟩
  · exact ⟨_, item_ok.mp h3⟩

theorem zero_ok {j : Json} (h : j.isZero = true) : IsZero j := by
  cases j <;> simp [Json.isZero] at h
  · simp [IsZero, h]
  · simp [IsZero, h]
  · simp [IsZero, h]

theorem response_ok {L : HarLib} {rs creator : Json} {method : Str} {r : Option HarLib.HarResponse}
    (h : L.processResponse rs method creator = .ok r) :
    ∃ st, Member rs "status" st ∧
      (IsZero st ∨ HasAll rs ["headers", "httpVersion", "statusText", "bodySize", "content"]) := by
  unfold HarLib.processResponse at h
  obtain ⟨st, hst, h⟩ := bind_ok h
  refine ⟨st, item_ok.mp hst, ?_⟩
  split at h
  · rename_i hz
    exact .inl (zero_ok hz)
  right
  obtain ⟨⟨v, hs⟩, h0, h⟩ := bind_ok h
  obtain ⟨n, _, h⟩ := bind_ok h
  obtain ⟨reason, h1, h⟩ := bind_ok h
  simp only at h
  obtain ⟨body, h2, h⟩ := bind_ok h
  obtain ⟨es, _, h⟩ := bind_ok h
  obtain ⟨t, h3, h⟩ := bind_ok h
  have h0 := message_ok h0
  unfold HarLib.responseBody at h2
  obtain ⟨size, h2, _⟩ := bind_ok h2
  unfold HarLib.responseText at h3
  obtain ⟨content, h3, _⟩ := bind_ok h3
  intro k hk
  simp only [List.mem_cons, List.not_mem_nil, or_false] at hk
  rcases hk with rfl | rfl | rfl | rfl | rfl
  · exact h0 _ (by simp)
  · exact h0 _ (by simp)
  · exact ⟨_, item_ok.mp h1⟩
  · exact ⟨_, item_ok.mp h2⟩
  · exact ⟨_, item_ok.mp h3⟩

theorem entry_ok {L : HarLib} {d creator : Json} {x : HarLib.HarRequest × List HarLib.HarResponse}
    (h : L.processEntry d creator = .ok x) : Complete d := by
  unfold HarLib.processEntry at h
  obtain ⟨rq, h1, h⟩ := bind_ok h
  obtain ⟨req, h2, h⟩ := bind_ok h
  obtain ⟨rs, h3, h⟩ := bind_ok h
  obtain ⟨resp, h4, h⟩ := bind_ok h
  obtain ⟨st, hst, hz⟩ := response_ok h4
  exact ⟨rq, rs, st, item_ok.mp h1, item_ok.mp h3, request_ok h2, hst, hz⟩

end Httpolice.Lemmas
