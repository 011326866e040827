import Verif.Spec.Har
import Verif.Props.Helpers

/-!
# Lemmas on HAR files
-/

namespace Httpolice.Lemmas

open Httpolice.Model Httpolice.Spec Httpolice.Props

/-! ## Members -/

theorem lookup_some {kvs : List (Str × Json)} {k : String} {v : Json} :
    Json.lookup kvs k = some v ↔ Member (.obj kvs) k v := by
  unfold Json.lookup Member
  constructor
  · intro h
    obtain ⟨p, hp, rfl⟩ := Option.map_eq_some_iff.mp h
    obtain ⟨hk, l, r, he, hl⟩ := List.find?_eq_some_iff_append.mp hp
    refine ⟨l, r, ?_, fun q hq hqk => ?_⟩
    · have : p.1 = str k := by simpa using hk
      rw [he, ← this]
    · have := hl q hq; simp [hqk] at this
  · rintro ⟨l, r, he, hl⟩
    have he := Json.obj.inj he
    have : List.find? (fun kv : Str × Json => kv.1 == str k) kvs = some (str k, v) := by
      refine List.find?_eq_some_iff_append.mpr ⟨by simp, l, r, he, fun q hq => ?_⟩
      simpa using hl q hq
    rw [this]; rfl

theorem lookup_none {kvs : List (Str × Json)} {k : String} :
    Json.lookup kvs k = none ↔ Lacks (.obj kvs) k := by
  unfold Json.lookup Lacks
  simp only [Option.map_eq_none_iff, List.find?_eq_none, beq_iff_eq]
  constructor
  · intro h; exact ⟨kvs, rfl, h⟩
  · rintro ⟨kvs', he, h⟩; rw [Json.obj.inj he]; exact h

theorem item_ok {j : Json} {k : String} {v : Json} : j.item k = .ok v ↔ Member j k v := by
  cases j with
  | obj kvs =>
    unfold Json.item
    rw [← lookup_some]
    cases h : Json.lookup kvs k <;> simp [h]
  | _ => constructor <;> intro h <;> first | (simp [Json.item] at h; done) | (obtain ⟨_, _, h, _⟩ := h; simp at h; done)

theorem item_err {j : Json} {k : String} {e : HarErr} : j.item k = .error e → e = .key ∨ e = .type := by
  cases j with
  | obj kvs =>
    unfold Json.item
    cases h : Json.lookup kvs k <;> intro h' <;> simp [h] at h'
    exact .inl h'.symm
  | _ => intro h; simp [Json.item] at h; exact .inr h.symm

theorem has_obj {j : Json} {k : String} {v : Json} (h : Member j k v) : ∃ kvs, j = .obj kvs :=
  let ⟨_, _, h, _⟩ := h; ⟨_, h⟩

theorem get_some {j : Json} {k : String} {v : Json} : j.get k = .ok (some v) ↔ Member j k v := by
  cases j with
  | obj kvs => rw [← lookup_some]; simp [Json.get]
  | _ => constructor <;> intro h <;> first | (simp [Json.get] at h; done) | (obtain ⟨_, _, h, _⟩ := h; simp at h; done)

theorem get_none {j : Json} {k : String} : j.get k = .ok none ↔ Lacks j k := by
  cases j with
  | obj kvs => rw [← lookup_none]; simp [Json.get]
  | _ => constructor <;> intro h <;> first | (simp [Json.get] at h; done) | (obtain ⟨_, h, _⟩ := h; simp at h; done)

theorem has_inj {j : Json} {k : String} {v w : Json} (h : Member j k v) (h' : Member j k w) : v = w := by
  have h := item_ok.mpr h
  rw [item_ok.mpr h'] at h
  exact (Except.ok.inj h).symm

theorem isText_iff {j : Json} {s : Str} : j.isText s = true ↔ j = .text s := by
  cases j <;> simp [Json.isText]

theorem isText_text (t s : Str) : (Json.text t).isText s = decide (t = s) := by
  by_cases h : t = s <;> simp [Json.isText, h]

/-! ## Numbers -/

theorem sign_zero {j : Json} {o : Ordering} (h : Sign j o) : j.isZero = (o == .eq) := by
  cases h with
  | negative n h => simp [Json.isZero]; omega
  | zero => rfl
  | positive n h => simp [Json.isZero]; omega
  | float => cases o <;> rfl

theorem sign_pos {j : Json} {o : Ordering} (h : Sign j o) : j.isPositive = .ok (o == .gt) := by
  cases h with
  | negative n h => simp [Json.isPositive]; omega
  | zero => rfl
  | positive n h => simp [Json.isPositive, h]
  | float => cases o <;> rfl

/-! ## Headers -/

theorem headers_read {L : HarLib} {items : List Json} {hs : List (Str × Str)}
    (h : Pairwise2 (fun i h => Member i "name" (.text h.1) ∧ Member i "value" (.text h.2)) items hs) :
    (items.mapM fun d => do
      let name ← d.item "name"
      let value ← d.item "value"
      pure (L.toText name, value) : Except HarErr (List (Str × Json))) =
    .ok (hs.map fun h => (h.1, .text h.2)) := by
  induction h with
  | nil => rfl
  | cons h _ ih =>
    rw [List.mapM_cons, ih, item_ok.mpr h.1, item_ok.mpr h.2]
    rfl

theorem entries_read (hs : List (Str × Str)) :
    HarLib.headerEntries (hs.map fun h => (h.1, Json.text h.2)) =
      .ok (hs.map fun h => ⟨h.1, encodeLatin1 h.2⟩) := by
  unfold HarLib.headerEntries
  induction hs with
  | nil => rfl
  | cons h hs ih =>
    rw [List.map_cons, List.mapM_cons, ih]
    rfl

theorem popped (hs : List (Str × Str)) :
    (popPseudoHeaders (hs.map fun h => (h.1, Json.text h.2))).1 =
      (hs.filter fun h => h.1.head? ≠ some 58).map fun h => (h.1, Json.text h.2) := by
  rw [(C33_pop_pseudo_headers _).1, List.filter_map]
  congr 1
  apply List.filter_congr
  intro h _
  have : IsPseudo (h.1, Json.text h.2) ↔ h.1.head? = some 58 := by
    unfold IsPseudo
    cases h.1 <;> simp
  simp [this]

theorem browser_iff {creator : Str} : HarLib.isBrowser (.text creator) = true ↔ Browser creator := by
  simp [HarLib.isBrowser, isText_text, Browser, or_assoc]

theorem message_read {L : HarLib} {m : Json} {creator : Str} {hs : List (Str × Str)} {v : Str}
    (hh : Headers m hs) (hv : Member m "httpVersion" (.text v)) :
    ∃ o, L.processMessage m (.text creator) =
      .ok (o, (hs.filter fun h => h.1.head? ≠ some 58).map fun h => (h.1, Json.text h.2)) ∧
      VersionOf creator m o := by
  obtain ⟨items, hi, hp⟩ := hh
  refine ⟨if (str "HTTP/").isPrefixOf v && !HarLib.isBrowser (.text creator) then some v else none, ?_, ?_⟩
  · unfold HarLib.processMessage
    rw [item_ok.mpr hi]
    simp only [bind, Except.bind, Json.iter]
    have := headers_read (L := L) hp
    simp only [bind, Except.bind] at this
    rw [this]
    simp only [popped, item_ok.mpr hv]
    rfl
  · refine ⟨v, hv, ?_⟩
    by_cases hb : Browser creator
    · have := browser_iff.mpr hb
      simp [this, hb]
    · have : HarLib.isBrowser (.text creator) = false := by
        cases h : HarLib.isBrowser (.text creator)
        · rfl
        · exact absurd (browser_iff.mp h) hb
      by_cases hp : str "HTTP/" <+: v
      · simp [this, hb, hp]
      · simp [this, hb, hp]

/-! ## Requests -/

theorem text_obj {j : Json} {t : Option Str} (h : Text j t) : ∃ kvs, j = .obj kvs := by
  cases t with
  | some t => exact has_obj h.2
  | none =>
    rcases h with (⟨kvs, h, _⟩ | h) | h
    · exact ⟨kvs, h⟩
    · exact has_obj h
    · exact has_obj h

theorem text_some {j : Json} {t : Str} (h : Text j (some t)) :
    j.get "text" = .ok (some (.text t)) ∧ (Json.text t).truthy = true := by
  refine ⟨get_some.mpr h.2, ?_⟩
  have := h.1
  cases t <;> simp_all [Json.truthy]

theorem text_none {j : Json} (h : Text j none) :
    j.get "text" = .ok none ∨ ∃ v, j.get "text" = .ok (some v) ∧ v.truthy = false := by
  rcases h with (h | h) | h
  · exact .inl (get_none.mpr h)
  · exact .inr ⟨_, get_some.mpr h, rfl⟩
  · exact .inr ⟨_, get_some.mpr h, rfl⟩

theorem obj_truthy {j : Json} {k : String} {v : Json} (h : Member j k v) : j.truthy = true := by
  obtain ⟨l, r, rfl, _⟩ := h
  cases l <;> rfl

theorem posted_read {rq : Json} {creator method : Str} {t : Option Str} (h : Posted rq t) :
    (∃ x, t = some x ∧ Debug creator method x) ∧
      HarLib.requestText rq (.text method) (.text creator) = .ok (none, true) ∨
    (¬ ∃ x, t = some x ∧ Debug creator method x) ∧
      HarLib.requestText rq (.text method) (.text creator) = .ok (t.map Json.text, false) := by
  have nothing : (¬ ∃ x, (none : Option Str) = some x ∧ Debug creator method x) := by simp
  rcases h with ⟨p, hp, ht⟩ | ⟨hu, rfl⟩
  · cases t with
    | some t =>
      obtain ⟨hg, htr⟩ := text_some ht
      have hpt := obj_truthy ht.2
      by_cases hf : creator = str "Fiddler" ∧ method = str "CONNECT"
      · by_cases hd : str "Fiddler" <:+: t
        · refine .inl ⟨⟨t, rfl, hf.1, hf.2, hd⟩, ?_⟩
          simp [HarLib.requestText, get_some.mpr hp, hg, hpt, htr, HarLib.isFiddler, isText_text, hf.1, hf.2,
            Json.has, hd, bind, Except.bind, pure, Except.pure]
        · refine .inr ⟨fun ⟨x, hx, hdx⟩ => ?_, ?_⟩
          · injection hx with hx; subst hx; exact hd hdx.2.2
          · simp [HarLib.requestText, get_some.mpr hp, hg, hpt, htr, HarLib.isFiddler, isText_text, hf.1, hf.2,
              Json.has, hd, bind, Except.bind, pure, Except.pure]
      · refine .inr ⟨fun ⟨x, hx, hdx⟩ => hf ⟨hdx.1, hdx.2.1⟩, ?_⟩
        simp [HarLib.requestText, get_some.mpr hp, hg, hpt, htr, HarLib.isFiddler, isText_text, hf,
              bind, Except.bind, pure, Except.pure]
    | none =>
      refine .inr ⟨nothing, ?_⟩
      by_cases hpt : p.truthy = true
      · rcases text_none ht with h | ⟨v, h, hv⟩
        · simp [HarLib.requestText, get_some.mpr hp, h, hpt, bind, Except.bind, pure, Except.pure]
        · simp [HarLib.requestText, get_some.mpr hp, h, hpt, hv, bind, Except.bind, pure, Except.pure]
      · simp [HarLib.requestText, get_some.mpr hp, hpt, bind, Except.bind, pure, Except.pure]
  · refine .inr ⟨nothing, ?_⟩
    rcases hu with h | h
    · simp [HarLib.requestText, get_none.mpr h, bind, Except.bind, pure, Except.pure]
    · simp [HarLib.requestText, get_some.mpr h, Json.truthy, bind, Except.bind, pure, Except.pure]

theorem body_read {n : Json} {o : Ordering} (h : Sign n o) : HarLib.requestBody n = .ok (sizedBody o) := by
  unfold HarLib.requestBody
  rw [sign_zero h, sign_pos h]
  cases o <;> rfl

theorem target_read {L : HarLib} {method url : Str} {u : UrlParts} {hs : List (Str × Str)} :
    TargetOf L method url u (hs.map fun h => ⟨h.1, encodeLatin1 h.2⟩)
      (L.requestTarget (.text method) (.text url) u (hs.map fun h => (h.1, Json.text h.2))) := by
  unfold TargetOf HarLib.requestTarget
  rw [isText_text]
  by_cases hm : method = str "CONNECT"
  · simp [hm]
  · by_cases hh : ∃ e ∈ hs, L.lower e.1 = L.lower (str "Host")
    · have h1 : ((hs.map fun h => (h.1, Json.text h.2)).any fun h => L.lower h.1 == L.lower (str "Host")) = true := by
        simpa using hh
      have h2 : ∃ e ∈ (hs.map fun h => (⟨h.1, encodeLatin1 h.2⟩ : Entry)), L.lower e.name = L.lower (str "Host") := by
        obtain ⟨e, he, h⟩ := hh
        exact ⟨_, List.mem_map.mpr ⟨e, he, rfl⟩, h⟩
      rw [if_neg hm, if_pos h2, if_neg (by simpa using hm), if_pos h1]
      cases hq : u.query <;> simp
    · have h1 : ((hs.map fun h => (h.1, Json.text h.2)).any fun h => L.lower h.1 == L.lower (str "Host")) = false := by
        simpa using hh
      have h2 : ¬ ∃ e ∈ (hs.map fun h => (⟨h.1, encodeLatin1 h.2⟩ : Entry)), L.lower e.name = L.lower (str "Host") := by
        rintro ⟨e, he, h⟩
        obtain ⟨e', he', rfl⟩ := List.mem_map.mp he
        exact hh ⟨e', he', h⟩
      rw [if_neg hm, if_neg h2, if_neg (by simpa using hm), if_neg (by simp [h1])]
      rfl

theorem request_read {L : HarLib} {creator : Str} {rq : Json} (h : ValidRequest L rq) :
    ∃ r, L.processRequest rq (.text creator) = .ok r ∧ RequestOf L creator rq r := by
  obtain ⟨⟨⟨hs, hh⟩, v, hv⟩, ⟨method, hm⟩, ⟨url, u, hurl, hu⟩, ⟨n, o, hn, ho⟩, t, ht⟩ := h
  obtain ⟨version, hmsg, hver⟩ := message_read (L := L) (creator := creator) hh hv
  have key : ∀ text debug, HarLib.requestText rq (.text method) (.text creator) = .ok (text, debug) →
      L.processRequest rq (.text creator) = .ok ⟨u.scheme, method,
        L.requestTarget (.text method) (.text url) u ((hs.filter fun h => h.1.head? ≠ some 58).map fun h => (h.1, Json.text h.2)),
        version, (hs.filter fun h => h.1.head? ≠ some 58).map fun h => ⟨h.1, encodeLatin1 h.2⟩,
        if debug then .val [] else sizedBody o, text⟩ := by
    intro text debug htx
    simp only [HarLib.processRequest, hmsg, item_ok.mpr hm, item_ok.mpr hurl, HarLib.parseUrl, hu,
      item_ok.mpr hn, body_read ho, htx, entries_read, bind, Except.bind, pure, Except.pure,
      HarLib.toText]
  rcases posted_read (creator := creator) (method := method) ht with ⟨hd, htx⟩ | ⟨hd, htx⟩
  · exact ⟨_, key _ _ htx, hm, ⟨url, u, hurl, hu, rfl, target_read⟩, hver, ⟨hs, hh, rfl⟩,
      n, o, t, hn, ho, ht, .inl ⟨hd, rfl, rfl⟩⟩
  · exact ⟨_, key _ _ htx, hm, ⟨url, u, hurl, hu, rfl, target_read⟩, hver, ⟨hs, hh, rfl⟩,
      n, o, t, hn, ho, ht, .inr ⟨hd, rfl, rfl⟩⟩

/-! ## Responses -/

theorem responseBody_read {rs c n n' : Json} {creator : Str} {status : Int} {o o' : Ordering}
    (hc : Member rs "content" c) (hn : Member rs "bodySize" n) (ho : Sign n o) (hn' : Member c "size" n')
    (ho' : Sign n' o') :
    ∃ b, HarLib.responseBody rs (.text creator) status = .ok b ∧ BodyOf creator status o o' b := by
  have e1 := sign_zero ho
  have e2 := sign_zero ho'
  have p1 := sign_pos ho
  have p2 := sign_pos ho'
  by_cases h0 : o = .eq ∨ o' = .eq ∨ status = 304
  · refine ⟨_, ?_, .empty h0⟩
    by_cases h1 : o = .eq
    · subst h1
      simp [HarLib.responseBody, item_ok.mpr hn, e1, bind, Except.bind, pure, Except.pure]
    · have h2 : (o' == .eq || status == 304) = true := by simpa [h1] using h0
      have h1 : (o == .eq) = false := by simpa using h1
      simp only [HarLib.responseBody, item_ok.mpr hn, item_ok.mpr hc, item_ok.mpr hn', e1, e2, h1, h2,
        bind, Except.bind, pure, Except.pure]
      rfl
  · have h1 : (o == .eq) = false := by simp; intro h; exact h0 (.inl h)
    have h2 : (o' == .eq || status == 304) = false := by
      simp; exact ⟨fun h => h0 (.inr (.inl h)), fun h => h0 (.inr (.inr h))⟩
    by_cases hf : creator = str "Firefox"
    · refine ⟨_, ?_, .firefox h0 hf⟩
      simp only [HarLib.responseBody, item_ok.mpr hn, item_ok.mpr hc, item_ok.mpr hn', e1, e2, h1, h2,
        HarLib.isFirefox, isText_text, hf, bind, Except.bind, pure, Except.pure]
      rfl
    · by_cases hg : o = .gt ∨ o' = .gt
      · refine ⟨_, ?_, .some h0 hf hg⟩
        by_cases hg1 : o = .gt
        · simp [HarLib.responseBody, item_ok.mpr hn, item_ok.mpr hc, item_ok.mpr hn', e1, e2, p1, h1, h2,
            HarLib.isFirefox, isText_text, hf, hg1, bind, Except.bind, pure, Except.pure]
        · have hg2 : o' = .gt := by simpa [hg1] using hg
          simp [HarLib.responseBody, item_ok.mpr hn, item_ok.mpr hc, item_ok.mpr hn', e1, e2, p1, p2, h1, h2,
            HarLib.isFirefox, isText_text, hf, hg1, hg2, bind, Except.bind, pure, Except.pure]
          exact fun h => h0 (.inr (.inr h))
      · have hl1 : o = .lt := by cases o <;> simp_all
        have hl2 : o' = .lt := by cases o' <;> simp_all
        refine ⟨_, ?_, .unknown (fun h => h0 (.inr (.inr h))) hf hl1 hl2⟩
        simp [HarLib.responseBody, item_ok.mpr hn, item_ok.mpr hc, item_ok.mpr hn', e1, e2, p1, p2, h1, h2,
            HarLib.isFirefox, isText_text, hf, hl1, hl2, bind, Except.bind, pure, Except.pure]
        exact fun h => h0 (.inr (.inr h))

theorem responseText_read {L : HarLib} {rs c : Json} {creator method : Str} {status : Int} {b : PyVal Str}
    (hc : Member rs "content" c) (ht : ∃ t, Text c t)
    (he : Lacks c "encoding" ∨ ∃ e, Member c "encoding" (.text e)) :
    ∃ d t r, L.responseText rs (.text creator) (method == str "CONNECT") status b = .ok r ∧
      ContentOf L c status d t ∧
      ((∃ x, d = some x ∧ Tunnel creator method status ∧ str "Fiddler" <:+: x) ∧ r = (.val [], none, none) ∨
       (¬ ∃ x, d = some x ∧ Tunnel creator method status ∧ str "Fiddler" <:+: x) ∧ r = (b, d, t)) := by
  have nothing : ∀ P : Prop, (¬ ∃ x, (none : Option Str) = some x ∧ Tunnel creator method status ∧ str "Fiddler" <:+: x) := by
    simp
  obtain ⟨t, ht⟩ := ht
  cases t with
  | none =>
    refine ⟨none, none, _, ?_, .nothing (.inr ht), .inr ⟨nothing True, rfl⟩⟩
    rcases text_none ht with h | ⟨v, h, hv⟩
    · simp [HarLib.responseText, item_ok.mpr hc, h, bind, Except.bind, pure, Except.pure]
    · simp [HarLib.responseText, item_ok.mpr hc, h, hv, bind, Except.bind, pure, Except.pure]
  | some t =>
    obtain ⟨hg, htr⟩ := text_some ht
    by_cases h304 : status = 304
    · refine ⟨none, none, _, ?_, .nothing (.inl h304), .inr ⟨nothing True, rfl⟩⟩
      simp [HarLib.responseText, item_ok.mpr hc, hg, htr, h304, bind, Except.bind, pure, Except.pure]
    · rcases he with he | ⟨e, he⟩
      · refine ⟨none, _, _, ?_, .text t h304 ht he, .inr ⟨nothing True, rfl⟩⟩
        simp [HarLib.responseText, item_ok.mpr hc, hg, htr, h304, get_none.mpr he, bind, Except.bind, pure, Except.pure]
      · by_cases hb : L.lower e = str "base64"
        · cases hd : L.b64decode t with
          | none =>
            refine ⟨none, none, _, ?_, .garbled t e ht he hb hd, .inr ⟨nothing True, rfl⟩⟩
            simp [HarLib.responseText, item_ok.mpr hc, hg, htr, h304, get_some.mpr he, hb, hd, bind, Except.bind, pure, Except.pure]
          | some d =>
            by_cases hx : Tunnel creator method status ∧ str "Fiddler" <:+: d
            · refine ⟨some d, none, _, ?_, .bytes t e d h304 ht he hb hd, .inl ⟨⟨d, rfl, hx⟩, rfl⟩⟩
              obtain ⟨⟨h1, h2, h3, h4⟩, h5⟩ := hx
              simp [HarLib.responseText, item_ok.mpr hc, hg, htr, h304, get_some.mpr he, hb, hd,
                HarLib.isFiddler, isText_text, h1, h2, h3, h4, h5, bind, Except.bind, pure, Except.pure]
            · refine ⟨some d, none, _, ?_, .bytes t e d h304 ht he hb hd, .inr ⟨?_, rfl⟩⟩
              · have hx' : ¬ ((creator = str "Fiddler" ∧ method = str "CONNECT") ∧ 200 ≤ status ∧ status ≤ 299) ∨
                    ¬ str "Fiddler" <:+: d := by
                  by_cases h5 : str "Fiddler" <:+: d
                  · left; rintro ⟨⟨h1, h2⟩, h3, h4⟩; exact hx ⟨⟨h1, h2, h3, h4⟩, h5⟩
                  · exact .inr h5
                have hx'' : (HarLib.isFiddler (.text creator) && (method == str "CONNECT") &&
                    decide (200 ≤ status ∧ status ≤ 299) && decide (str "Fiddler" <:+: d)) = false := by
                  rw [Bool.eq_false_iff]
                  simp only [HarLib.isFiddler, isText_text, ne_eq, Bool.and_eq_true, decide_eq_true_eq, beq_iff_eq]
                  rintro ⟨⟨⟨h1, h2⟩, h3⟩, h4⟩
                  exact hx ⟨⟨h1, h2, h3⟩, h4⟩
                simp [HarLib.responseText, item_ok.mpr hc, hg, htr, h304, get_some.mpr he, hb, hd,
                  bind, Except.bind, pure, Except.pure]
                intro a1 a2 a3 a4 a5
                exact absurd a5 (by simp_all)
              · rintro ⟨x, hx', h⟩; injection hx' with hx'; subst hx'; exact hx h
        · refine ⟨none, none, _, ?_, .other e he hb, .inr ⟨nothing True, rfl⟩⟩
          simp [HarLib.responseText, item_ok.mpr hc, hg, htr, h304, get_some.mpr he, hb, bind, Except.bind, pure, Except.pure]

theorem debug_filter {L : HarLib} (hs : List (Str × Str)) :
    ((hs.map fun h => (h.1, Json.text h.2)).filter fun h => !L.debugHeader h.1) =
      (hs.filter fun h => ¬ DebugHeader L h.1).map fun h => (h.1, Json.text h.2) := by
  rw [List.filter_map]
  congr 1
  apply List.filter_congr
  intro h _
  have : L.debugHeader h.1 = true ↔ DebugHeader L h.1 := by
    simp [HarLib.debugHeader, DebugHeader, or_assoc]
  by_cases hd : DebugHeader L h.1
  · simp [hd, this.mpr hd]
  · have h2 : L.debugHeader h.1 = false := by
      cases h : L.debugHeader h.1
      · rfl
      · exact absurd (this.mp h) hd
    simp [hd, h2]

theorem response_read {L : HarLib} {creator method : Str} {rs : Json} (h : ValidResponse rs) :
    (Member rs "status" (.int 0) ∧ L.processResponse rs method (.text creator) = .ok none) ∨
    ∃ r, L.processResponse rs method (.text creator) = .ok (some r) ∧ r.status ≠ 0 ∧
      ResponseOf L creator method rs r := by
  obtain ⟨⟨⟨hs, hh⟩, v, hv⟩, ⟨st, hst⟩, ⟨reason, hre⟩, ⟨n, o, hn, ho⟩, c, hc, ⟨n', o', hn', ho'⟩, ht, he⟩ := h
  by_cases h0 : st = 0
  · subst h0
    left
    refine ⟨hst, ?_⟩
    simp [HarLib.processResponse, item_ok.mpr hst, Json.isZero, bind, Except.bind, pure, Except.pure]
  · right
    have hz : (st == 0) = false := by simpa using h0
    obtain ⟨version, hmsg, hver⟩ := message_read (L := L) (creator := creator) hh hv
    obtain ⟨b, hb, hbo⟩ := responseBody_read (creator := creator) (status := st) hc hn ho hn' ho'
    obtain ⟨d, t, r, hr, hco, hcase⟩ := responseText_read (L := L) (creator := creator) (method := method)
      (status := st) (b := b) hc ht he
    have content : ∀ (es : List Entry), ∃ c n o n' o' d t b, Member rs "content" c ∧ Member rs "bodySize" n ∧ Sign n o ∧
        Member c "size" n' ∧ Sign n' o' ∧ BodyOf creator st o o' b ∧ ContentOf L c st d t ∧
        ((∃ x, d = some x ∧ Tunnel creator method st ∧ str "Fiddler" <:+: x) ∧
            r.1 = .val [] ∧ r.2.1 = none ∧ r.2.2 = none ∨
         (¬ ∃ x, d = some x ∧ Tunnel creator method st ∧ str "Fiddler" <:+: x) ∧
            r.1 = b ∧ r.2.1 = d ∧ r.2.2 = t) := by
      intro _
      refine ⟨c, n, o, n', o', d, t, b, hc, hn, ho, hn', ho', hbo, hco, ?_⟩
      rcases hcase with ⟨h, rfl⟩ | ⟨h, rfl⟩
      · exact .inl ⟨h, rfl, rfl, rfl⟩
      · exact .inr ⟨h, rfl, rfl, rfl⟩
    by_cases htun : Tunnel creator method st
    · have hcond : (HarLib.isFiddler (.text creator) && (method == str "CONNECT") &&
          decide (200 ≤ st ∧ st ≤ 299)) = true := by
        obtain ⟨h1, h2, h3, h4⟩ := htun
        simp [HarLib.isFiddler, isText_text, h1, h2, h3, h4]
      refine ⟨⟨version, st, some reason, ((hs.filter fun h => h.1.head? ≠ some 58).filter fun h => ¬ DebugHeader L h.1).map
        fun h => ⟨h.1, encodeLatin1 h.2⟩, r.1, r.2.1, r.2.2⟩, ?_, h0, hst, ⟨reason, hre, rfl⟩, hver,
        ⟨hs, hs.filter fun h => ¬ DebugHeader L h.1, hh, ?_, .inl ⟨htun, rfl⟩⟩, content []⟩
      · simp only [HarLib.processResponse, item_ok.mpr hst, Json.isZero, hz, hmsg, HarLib.toInt, item_ok.mpr hre,
          hcond, debug_filter, hb, hr, bind, Except.bind, pure, Except.pure, HarLib.toText]
        simp only [Bool.false_eq_true, if_false, if_true, entries_read]
      · unfold EntriesOf
        simp only
        rw [List.filter_filter, List.filter_filter]
        congr 1
        apply List.filter_congr
        intro h _
        rw [Bool.and_comm]
    · have hcond : (HarLib.isFiddler (.text creator) && (method == str "CONNECT") &&
          decide (200 ≤ st ∧ st ≤ 299)) = false := by
        rw [Bool.eq_false_iff]
        simp only [HarLib.isFiddler, isText_text, ne_eq, Bool.and_eq_true, decide_eq_true_eq, beq_iff_eq]
        rintro ⟨⟨h1, h2⟩, h3⟩
        exact htun ⟨h1, h2, h3⟩
      refine ⟨⟨version, st, some reason, (hs.filter fun h => h.1.head? ≠ some 58).map
        fun h => ⟨h.1, encodeLatin1 h.2⟩, r.1, r.2.1, r.2.2⟩, ?_, h0, hst, ⟨reason, hre, rfl⟩, hver,
        ⟨hs, hs, hh, (by rfl : EntriesOf hs ((hs.filter fun h => h.1.head? ≠ some 58).map
          fun h => ⟨h.1, encodeLatin1 h.2⟩)), .inr ⟨htun, rfl⟩⟩, content []⟩
      simp only [HarLib.processResponse, item_ok.mpr hst, Json.isZero, hz, hmsg, HarLib.toInt, item_ok.mpr hre,
          hcond, hb, hr, bind, Except.bind, pure, Except.pure, HarLib.toText]
      simp only [Bool.false_eq_true, if_false, entries_read]

theorem entry_read {L : HarLib} {creator : Str} {e : Json} (h : ValidEntry L e) :
    ∃ x, L.processEntry e (.text creator) = .ok x ∧ ExchangeOf L creator e x := by
  obtain ⟨⟨rq, hrq, hvq⟩, rs, hrs, hvs⟩ := h
  obtain ⟨r, hr, hro⟩ := request_read (creator := creator) hvq
  rcases response_read (L := L) (creator := creator) (method := r.method) hvs with ⟨h0, hn⟩ | ⟨s, hs, hne, hso⟩
  · refine ⟨(r, []), ?_, ⟨rq, hrq, hro⟩, rs, hrs, .inl ⟨h0, rfl⟩⟩
    simp only [HarLib.processEntry, item_ok.mpr hrq, hr, item_ok.mpr hrs, hn, bind, Except.bind, pure, Except.pure]
    rfl
  · refine ⟨(r, [s]), ?_, ⟨rq, hrq, hro⟩, rs, hrs, .inr ⟨s, rfl, hne, hso⟩⟩
    simp only [HarLib.processEntry, item_ok.mpr hrq, hr, item_ok.mpr hrs, hs, bind, Except.bind, pure, Except.pure]
    rfl

end Httpolice.Lemmas
