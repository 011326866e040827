import Verif.Spec.Notices
import Verif.Lemmas.CheckAlone

/-!
# Header views in terms of raw entries
-/

namespace Httpolice.Lemmas.Check

open Httpolice.Model Httpolice.Spec Httpolice.Props

/-- The headers that the checks name. -/
def checkedNames : List String := [
  "Accept", "Accept-Charset", "Accept-Encoding", "Accept-Language", "Accept-Patch", "Accept-Post",
  "Age", "Allow", "Alt-Svc", "Authorization",
  "Cache-Control", "Connection", "Content-Disposition", "Content-Length", "Content-Location",
  "Content-Range", "Content-Type", "Date", "ETag", "Expect", "Expires", "HTTP2-Settings",
  "HTTPolice-Silence", "Host", "If-Match", "If-Modified-Since", "If-None-Match", "If-Range",
  "Last-Modified", "Link", "Location", "Max-Forwards", "Pragma", "Prefer", "Preference-Applied",
  "Proxy-Authenticate", "Proxy-Authorization", "Range", "Referer", "Retry-After",
  "Strict-Transport-Security", "TE",
  "Trailer", "Transfer-Encoding", "Upgrade", "User-Agent", "Vary", "Via", "WWW-Authenticate",
  "Warning"]

theorem checked_ascii : ∀ name ∈ checkedNames, ∀ c ∈ str name, c < 128 := by decide +kernel

variable {E : Env}

theorem checked_trailer (hl : LowersAscii E.lower) {name : String} (hn : name ∈ checkedNames) :
    E.badForTrailer (str name) = decide (name ∈ notInTrailers) := by
  rw [badForTrailer_eq hl (checked_ascii name hn)]
  revert name
  decide +kernel

theorem usable_eq (hl : LowersAscii E.lower) {name : String} (hn : name ∈ checkedNames) (m : Msg) :
    usable E.lower (E.badForTrailer (str name)) m (str name) =
      (fieldsFor m name).filter fun e => E.lower e.name = asciiLower (str name) := by
  rw [checked_trailer hl hn, usable, named_eq hl (checked_ascii name hn),
    named_eq hl (checked_ascii name hn), fieldsFor, List.filter_append]
  by_cases h : name ∈ notInTrailers <;> simp [h]

theorem present_has (hl : LowersAscii E.lower) {name : String} (hn : name ∈ checkedNames) (m : Msg) :
    E.present m name = true ↔ Has E m name := by
  rw [present_iff, usable_eq hl hn]
  constructor
  · intro h
    obtain ⟨e, he⟩ := List.exists_mem_of_ne_nil _ h
    rw [List.mem_filter] at he
    exact ⟨e, he.1, show _ = _ from of_decide_eq_true he.2⟩
  · rintro ⟨e, he, h⟩ hnil
    have : e ∈ List.filter (fun e => decide (E.lower e.name = asciiLower (str name))) (fieldsFor m name) :=
      List.mem_filter.2 ⟨he, decide_eq_true (show _ = _ from h)⟩
    rw [hnil] at this
    cases this

theorem absent_has (hl : LowersAscii E.lower) {name : String} (hn : name ∈ checkedNames) (m : Msg) :
    E.absent m name = true ↔ ¬Has E m name := by
  rw [← present_has hl hn]
  simp [Env.absent]

theorem mem_items (hl : LowersAscii E.lower) {name : String} (hn : name ∈ checkedNames) {V : Type}
    (m : Msg) (p : Entry → Parsed V) (hp : ∀ e v, p e ≠ .single v) (x : V) :
    x ∈ E.items m name p ↔ Listed E m name p x := by
  rw [items_eq m name p hp, usable_eq hl hn, List.mem_flatMap]
  constructor
  · rintro ⟨e, he, hx⟩
    rw [List.mem_filter] at he
    refine ⟨e, he.1, show _ = _ from of_decide_eq_true he.2, ?_⟩
    split at hx
    · next l h => exact ⟨l, h, hx⟩
    · cases hx
  · rintro ⟨e, he, hh, l, hpe, hx⟩
    exact ⟨e, List.mem_filter.2 ⟨he, decide_eq_true (show _ = _ from hh)⟩, by rw [hpe]; exact hx⟩

theorem any_items (hl : LowersAscii E.lower) {name : String} (hn : name ∈ checkedNames) {V : Type}
    (m : Msg) (p : Entry → Parsed V) (hp : ∀ e v, p e ≠ .single v) (f : V → Bool) :
    (E.items m name p).any f = true ↔ ∃ x, Listed E m name p x ∧ f x = true := by
  rw [List.any_eq_true]
  simp only [mem_items hl hn m p hp]

theorem single_last (hl : LowersAscii E.lower) {name : String} (hn : name ∈ checkedNames) {V : Type}
    (m : Msg) (p : Entry → Option V) (v : V) :
    E.single m name p = .val v ↔ LastOf E m name p v := by
  unfold Env.single
  rw [(C26_single _ _ _ _).1]
  dsimp only
  rw [usable_eq hl hn]
  unfold LastOf HasName
  constructor
  · intro hv
    cases hg : ((fieldsFor m name).filter
        fun e => decide (E.lower e.name = asciiLower (str name))).getLast? with
    | none => rw [hg] at hv; simp at hv
    | some e =>
      rw [hg] at hv
      obtain ⟨x, y, e1, e2, e3⟩ := getLast_filter.1 hg
      refine ⟨x, e, y, e1, of_decide_eq_true e2, fun b hb => of_decide_eq_false (e3 b hb), ?_⟩
      simp only [Option.map_some] at hv
      cases hp : p e with
      | none => rw [hp] at hv; simp at hv
      | some w => rw [hp] at hv; simp at hv; rw [hv]
  · rintro ⟨x, e, y, e1, e2, e3, hp⟩
    have hg := getLast_filter (p := fun e : Entry => decide (E.lower e.name = asciiLower (str name)))
      (l := fieldsFor m name) (a := e) |>.2
        ⟨x, y, e1, decide_eq_true e2, fun b hb => decide_eq_false (e3 b hb)⟩
    rw [hg]
    simp [hp]

theorem okay_last (hl : LowersAscii E.lower) {name : String} (hn : name ∈ checkedNames) {V : Type}
    (m : Msg) (p : Entry → Option V) (f : V → Bool) :
    okayAnd (E.single m name p) f = true ↔ ∃ v, LastOf E m name p v ∧ f v = true := by
  rw [okayAnd_iff]
  simp only [single_last hl hn]

theorem same_word (hl : LowersAscii E.lower) {x : Str} {w : String} (hw : ∀ c ∈ str w, c < 128) :
    E.same x (str w) = true ↔ IsWord E x w := by
  unfold Env.same IsWord
  rw [beq_iff_eq, hl _ hw]

theorem option_has (h : Sensible E) (m : Msg) {o : String} (ho : ∀ c ∈ str o, c < 128) :
    E.inConnection m o = true ↔ HasOption E m o := by
  unfold Env.inConnection HasOption
  rw [any_items h.lower (by decide) m _ h.connection]
  simp only [same_word h.lower ho]

theorem content_iff (b : PyVal Str) : truthyBody b = true ↔ HasContent b := by
  cases b <;> simp [truthyBody, HasContent]

theorem mem_acceptPatch (h : Sensible E) (m : Msg) (x) :
    x ∈ E.items m "Accept-Patch" E.grammars.acceptPatch ↔ Listed E m "Accept-Patch" E.grammars.acceptPatch x :=
  mem_items h.lower (by decide) m _ h.acceptPatch x

theorem any_acceptPatch (h : Sensible E) (m : Msg) (f) :
    (E.items m "Accept-Patch" E.grammars.acceptPatch).any f = true ↔
      ∃ x, Listed E m "Accept-Patch" E.grammars.acceptPatch x ∧ f x = true :=
  any_items h.lower (by decide) m _ h.acceptPatch f

theorem mem_allow (h : Sensible E) (m : Msg) (x) :
    x ∈ E.items m "Allow" E.grammars.allow ↔ Listed E m "Allow" E.grammars.allow x :=
  mem_items h.lower (by decide) m _ h.allow x

theorem any_allow (h : Sensible E) (m : Msg) (f) :
    (E.items m "Allow" E.grammars.allow).any f = true ↔
      ∃ x, Listed E m "Allow" E.grammars.allow x ∧ f x = true :=
  any_items h.lower (by decide) m _ h.allow f

theorem mem_cacheControl (h : Sensible E) (m : Msg) (x) :
    x ∈ E.items m "Cache-Control" E.grammars.cacheControl ↔ Listed E m "Cache-Control" E.grammars.cacheControl x :=
  mem_items h.lower (by decide) m _ h.cacheControl x

theorem any_cacheControl (h : Sensible E) (m : Msg) (f) :
    (E.items m "Cache-Control" E.grammars.cacheControl).any f = true ↔
      ∃ x, Listed E m "Cache-Control" E.grammars.cacheControl x ∧ f x = true :=
  any_items h.lower (by decide) m _ h.cacheControl f

theorem mem_connection (h : Sensible E) (m : Msg) (x) :
    x ∈ E.items m "Connection" E.grammars.connection ↔ Listed E m "Connection" E.grammars.connection x :=
  mem_items h.lower (by decide) m _ h.connection x

theorem any_connection (h : Sensible E) (m : Msg) (f) :
    (E.items m "Connection" E.grammars.connection).any f = true ↔
      ∃ x, Listed E m "Connection" E.grammars.connection x ∧ f x = true :=
  any_items h.lower (by decide) m _ h.connection f

theorem mem_link (h : Sensible E) (m : Msg) (x) :
    x ∈ E.items m "Link" E.grammars.link ↔ Listed E m "Link" E.grammars.link x :=
  mem_items h.lower (by decide) m _ h.link x

theorem any_link (h : Sensible E) (m : Msg) (f) :
    (E.items m "Link" E.grammars.link).any f = true ↔
      ∃ x, Listed E m "Link" E.grammars.link x ∧ f x = true :=
  any_items h.lower (by decide) m _ h.link f

theorem mem_pragma (h : Sensible E) (m : Msg) (x) :
    x ∈ E.items m "Pragma" E.grammars.pragma ↔ Listed E m "Pragma" E.grammars.pragma x :=
  mem_items h.lower (by decide) m _ h.pragma x

theorem any_pragma (h : Sensible E) (m : Msg) (f) :
    (E.items m "Pragma" E.grammars.pragma).any f = true ↔
      ∃ x, Listed E m "Pragma" E.grammars.pragma x ∧ f x = true :=
  any_items h.lower (by decide) m _ h.pragma f

theorem mem_prefer (h : Sensible E) (m : Msg) (x) :
    x ∈ E.items m "Prefer" E.grammars.prefer ↔ Listed E m "Prefer" E.grammars.prefer x :=
  mem_items h.lower (by decide) m _ h.prefer x

theorem any_prefer (h : Sensible E) (m : Msg) (f) :
    (E.items m "Prefer" E.grammars.prefer).any f = true ↔
      ∃ x, Listed E m "Prefer" E.grammars.prefer x ∧ f x = true :=
  any_items h.lower (by decide) m _ h.prefer f

theorem mem_preferenceApplied (h : Sensible E) (m : Msg) (x) :
    x ∈ E.items m "Preference-Applied" E.grammars.preferenceApplied ↔ Listed E m "Preference-Applied" E.grammars.preferenceApplied x :=
  mem_items h.lower (by decide) m _ h.preferenceApplied x

theorem any_preferenceApplied (h : Sensible E) (m : Msg) (f) :
    (E.items m "Preference-Applied" E.grammars.preferenceApplied).any f = true ↔
      ∃ x, Listed E m "Preference-Applied" E.grammars.preferenceApplied x ∧ f x = true :=
  any_items h.lower (by decide) m _ h.preferenceApplied f

theorem mem_te (h : Sensible E) (m : Msg) (x) :
    x ∈ E.items m "TE" E.grammars.te ↔ Listed E m "TE" E.grammars.te x :=
  mem_items h.lower (by decide) m _ h.te x

theorem any_te (h : Sensible E) (m : Msg) (f) :
    (E.items m "TE" E.grammars.te).any f = true ↔
      ∃ x, Listed E m "TE" E.grammars.te x ∧ f x = true :=
  any_items h.lower (by decide) m _ h.te f

theorem mem_trailer (h : Sensible E) (m : Msg) (x) :
    x ∈ E.items m "Trailer" E.grammars.trailer ↔ Listed E m "Trailer" E.grammars.trailer x :=
  mem_items h.lower (by decide) m _ h.trailer x

theorem any_trailer (h : Sensible E) (m : Msg) (f) :
    (E.items m "Trailer" E.grammars.trailer).any f = true ↔
      ∃ x, Listed E m "Trailer" E.grammars.trailer x ∧ f x = true :=
  any_items h.lower (by decide) m _ h.trailer f

theorem mem_transferEncoding (h : Sensible E) (m : Msg) (x) :
    x ∈ E.items m "Transfer-Encoding" E.grammars.transferEncoding ↔ Listed E m "Transfer-Encoding" E.grammars.transferEncoding x :=
  mem_items h.lower (by decide) m _ h.transferEncoding x

theorem any_transferEncoding (h : Sensible E) (m : Msg) (f) :
    (E.items m "Transfer-Encoding" E.grammars.transferEncoding).any f = true ↔
      ∃ x, Listed E m "Transfer-Encoding" E.grammars.transferEncoding x ∧ f x = true :=
  any_items h.lower (by decide) m _ h.transferEncoding f

theorem mem_upgrade (h : Sensible E) (m : Msg) (x) :
    x ∈ E.items m "Upgrade" E.grammars.upgrade ↔ Listed E m "Upgrade" E.grammars.upgrade x :=
  mem_items h.lower (by decide) m _ h.upgrade x

theorem any_upgrade (h : Sensible E) (m : Msg) (f) :
    (E.items m "Upgrade" E.grammars.upgrade).any f = true ↔
      ∃ x, Listed E m "Upgrade" E.grammars.upgrade x ∧ f x = true :=
  any_items h.lower (by decide) m _ h.upgrade f

theorem mem_warning (h : Sensible E) (m : Msg) (x) :
    x ∈ E.items m "Warning" E.grammars.warning ↔ Listed E m "Warning" E.grammars.warning x :=
  mem_items h.lower (by decide) m _ h.warning x

theorem any_warning (h : Sensible E) (m : Msg) (f) :
    (E.items m "Warning" E.grammars.warning).any f = true ↔
      ∃ x, Listed E m "Warning" E.grammars.warning x ∧ f x = true :=
  any_items h.lower (by decide) m _ h.warning f

theorem same_word' (h : Sensible E) {x : Str} {w : String} (hw : (str w).all (· < 128) = true) :
    E.same x (str w) = true ↔ IsWord E x w :=
  same_word h.lower fun c hc => by simpa using List.all_eq_true.1 hw c hc

theorem option_has' (h : Sensible E) (m : Msg) {o : String} (ho : (str o).all (· < 128) = true) :
    E.inConnection m o = true ↔ HasOption E m o :=
  option_has h m fun c hc => by simpa using List.all_eq_true.1 ho c hc

theorem chunked_iff (h : Sensible E) (m : Msg) : E.chunked m = true ↔
    ∃ x, Listed E m "Transfer-Encoding" E.grammars.transferEncoding x ∧ IsWord E x "chunked" := by
  unfold Env.chunked
  rw [any_transferEncoding h]
  simp only [same_word' h (show (str "chunked").all (· < 128) = true by decide)]

theorem warning_iff (h : Sensible E) (m : Msg) (c : Nat) : E.hasWarning m c = true ↔ Warns E m c := by
  unfold Env.hasWarning Warns
  rw [any_warning h]
  simp only [beq_iff_eq]

theorem allows_iff (h : Sensible E) (m : Msg) (x : Str) : E.allows m x = true ↔
    Listed E m "Allow" E.grammars.allow x := by
  unfold Env.allows
  rw [any_allow h]
  simp only [beq_iff_eq, exists_eq_right]

theorem empty_iff (b : PyVal Str) : emptyBody b = true ↔ b = .val [] := by
  cases b <;> simp [emptyBody, List.isEmpty_iff]

/-! ## Tables -/

theorem mem_names {m : Msg} {P : Str → Prop} (hP : ∀ a b, E.lower a = E.lower b → P a → P b) :
    (∃ n ∈ E.names m, P n) ↔ ∃ e ∈ m.headers ++ m.trailers, P e.name := by
  have key : ∀ x, x ∈ (E.names m).map E.lower ↔ x ∈ (allNames m).map E.lower := by
    intro x
    rw [show E.names m = headerNames E.lower m from rfl, headerNames_lower, List.mem_eraseDups]
  simp only [allNames, List.map_map, List.mem_map] at key
  constructor
  · rintro ⟨n, hn, h⟩
    obtain ⟨e, he, hx⟩ := (key (E.lower n)).1 ⟨n, hn, rfl⟩
    exact ⟨e, he, hP _ _ hx.symm h⟩
  · rintro ⟨e, he, h⟩
    obtain ⟨n, hn, hx⟩ := (key (E.lower e.name)).2 ⟨e, he, rfl⟩
    exact ⟨n, hn, hP _ _ hx.symm h⟩

theorem flagKeys_ascii : ∀ r ∈ headerFlags, ∀ c ∈ str r.key, c < 128 := by decide +kernel

theorem flagKeys_apart : headerFlags.Pairwise fun a b =>
    asciiLower (str a.key) ≠ asciiLower (str b.key) := by decide +kernel

theorem find_of_apart {α β : Type} [BEq β] [LawfulBEq β] {l : List α} {k : α → β}
    (h : l.Pairwise fun a b => k a ≠ k b) {x : β} {a : α} :
    l.find? (fun r => k r == x) = some a ↔ a ∈ l ∧ k a = x := by
  induction l with
  | nil => simp
  | cons b l ih =>
    rw [List.pairwise_cons] at h
    rw [List.find?_cons]
    by_cases hb : k b = x
    · rw [show (k b == x) = true from beq_iff_eq.2 hb]
      constructor
      · intro e
        cases e
        exact ⟨List.mem_cons_self .., hb⟩
      · rintro ⟨ha, hx⟩
        rcases List.mem_cons.1 ha with rfl | ha
        · rfl
        · exact absurd (hb.trans hx.symm) (h.1 a ha)
    · rw [show (k b == x) = false from beq_eq_false_iff_ne.2 hb]
      dsimp only
      rw [ih h.2]
      constructor
      · rintro ⟨ha, hx⟩
        exact ⟨List.mem_cons_of_mem _ ha, hx⟩
      · rintro ⟨ha, hx⟩
        rcases List.mem_cons.1 ha with rfl | ha
        · exact absurd hx hb
        · exact ⟨ha, hx⟩

theorem flags_eq (hl : LowersAscii E.lower) (n : Str) {r : HeaderFlags} :
    E.flags n = some r ↔ r ∈ headerFlags ∧ asciiLower (str r.key) = E.lower n := by
  have hf : E.flags n = headerFlags.find? fun r => asciiLower (str r.key) == E.lower n :=
    find_congr fun r hr => by rw [Env.same, hl _ (flagKeys_ascii r hr)]
  rw [hf]
  exact find_of_apart flagKeys_apart

theorem flags_iff (hl : LowersAscii E.lower) (n : Str) (f : HeaderFlags → Bool) :
    (∃ r, E.flags n = some r ∧ f r = true) ↔
      ∃ name ∈ (headerFlags.filter f).map HeaderFlags.key, E.lower n = asciiLower (str name) := by
  simp only [flags_eq hl, List.mem_map, List.mem_filter]
  constructor
  · rintro ⟨r, ⟨h1, h2⟩, h3⟩
    exact ⟨_, ⟨r, ⟨h1, h3⟩, rfl⟩, h2.symm⟩
  · rintro ⟨_, ⟨r, ⟨h1, h3⟩, rfl⟩, h2⟩
    exact ⟨r, ⟨h1, h2.symm⟩, h3⟩

/-- The header is one of these. -/
def OneOf (E : Env) (n : Str) (names : List String) : Prop :=
  ∃ name ∈ names, E.lower n = asciiLower (str name)

theorem responseHeaders_eq : (headerFlags.filter fun r => r.forRequest == some false).map
    HeaderFlags.key = responseHeaders := by decide +kernel
theorem requestHeaders_eq : (headerFlags.filter fun r => r.forResponse == some false).map
    HeaderFlags.key = requestHeaders := by decide +kernel
theorem preconditions_eq : (headerFlags.filter HeaderFlags.precondition).map
    HeaderFlags.key = preconditions := by decide +kernel
theorem negotiation_eq : (headerFlags.filter HeaderFlags.proactiveConneg).map
    HeaderFlags.key = negotiation := by decide +kernel
theorem describing_eq : (headerFlags.filter HeaderFlags.representationMetadata).map
    HeaderFlags.key = describing := by decide +kernel

theorem forRequest_iff (h : Sensible E) (n : Str) :
    E.forRequest n = some false ↔ OneOf E n responseHeaders := by
  rw [OneOf, ← responseHeaders_eq, ← flags_iff h.lower, Env.forRequest]
  cases E.flags n <;> simp

theorem forResponse_iff (h : Sensible E) (n : Str) :
    E.forResponse n = some false ↔ OneOf E n requestHeaders := by
  rw [OneOf, ← requestHeaders_eq, ← flags_iff h.lower, Env.forResponse]
  cases E.flags n <;> simp

theorem precondition_iff (h : Sensible E) (n : Str) :
    E.isPrecondition n = true ↔ OneOf E n preconditions := by
  rw [OneOf, ← preconditions_eq, ← flags_iff h.lower, Env.isPrecondition]
  cases E.flags n <;> simp

theorem conneg_iff (h : Sensible E) (n : Str) :
    E.isProactiveConneg n = true ↔ OneOf E n negotiation := by
  rw [OneOf, ← negotiation_eq, ← flags_iff h.lower, Env.isProactiveConneg]
  cases E.flags n <;> simp

theorem describing_iff (h : Sensible E) (n : Str) :
    E.isReprMetadata n = true ↔ OneOf E n describing := by
  rw [OneOf, ← describing_eq, ← flags_iff h.lower, Env.isReprMetadata]
  cases E.flags n <;> simp

theorem names_oneOf {m : Msg} {names : List String} :
    (∃ n ∈ E.names m, OneOf E n names) ↔ Carries E m names := by
  rw [mem_names (P := fun n => OneOf E n names)]
  · rfl
  · rintro a b hab ⟨name, hn, he⟩
    exact ⟨name, hn, hab ▸ he⟩

theorem methodKeys_apart : methodRows.Pairwise fun a b => str a.key ≠ str b.key := by decide +kernel

theorem method_iff (s : Str) (f : MethodRow → Bool) :
    (∃ r, (methodRows.find? fun r => str r.key == s) = some r ∧ f r = true) ↔
      ∃ n ∈ (methodRows.filter f).map MethodRow.key, s = str n := by
  have hf : ∀ r, (methodRows.find? fun r => str r.key == s) = some r ↔ r ∈ methodRows ∧ str r.key = s :=
    fun r => find_of_apart (k := fun r : MethodRow => str r.key) methodKeys_apart
  simp only [hf, List.mem_map, List.mem_filter]
  constructor
  · rintro ⟨r, ⟨h1, h2⟩, h3⟩
    exact ⟨_, ⟨r, ⟨h1, h3⟩, rfl⟩, h2.symm⟩
  · rintro ⟨_, ⟨r, ⟨h1, h3⟩, rfl⟩, h2⟩
    exact ⟨r, ⟨h1, h2.symm⟩, h3⟩

theorem definesBody_true (req : Request) :
    definesBody req.method = some true ↔ IsMethod req methodsWithBody := by
  rw [IsMethod, show methodsWithBody =
    (methodRows.filter fun r => r.definesBody == some true).map MethodRow.key by decide +kernel,
    ← method_iff, definesBody]
  cases methodRows.find? fun r => str r.key == req.method <;> simp

theorem definesBody_false (req : Request) :
    definesBody req.method = some false ↔ IsMethod req methodsWithoutBody := by
  rw [IsMethod, show methodsWithoutBody =
    (methodRows.filter fun r => r.definesBody == some false).map MethodRow.key by decide +kernel,
    ← method_iff, definesBody]
  cases methodRows.find? fun r => str r.key == req.method <;> simp

theorem safe_true (req : Request) : methodSafe req.method = some true ↔ IsMethod req safeMethods := by
  rw [IsMethod, show safeMethods =
    (methodRows.filter fun r => r.safe == some true).map MethodRow.key by decide +kernel,
    ← method_iff, methodSafe]
  cases methodRows.find? fun r => str r.key == req.method <;> simp

theorem cacheable_true (req : Request) :
    methodCacheable req.method = some true ↔ IsMethod req cacheableMethods := by
  rw [IsMethod, show cacheableMethods =
    (methodRows.filter fun r => r.cacheable == some true).map MethodRow.key by decide +kernel,
    ← method_iff, methodCacheable]
  cases methodRows.find? fun r => str r.key == req.method <;> simp

theorem cacheable_false (req : Request) :
    methodCacheable req.method = some false ↔ IsMethod req uncacheableMethods := by
  rw [IsMethod, show uncacheableMethods =
    (methodRows.filter fun r => r.cacheable == some false).map MethodRow.key by decide +kernel,
    ← method_iff, methodCacheable]
  cases methodRows.find? fun r => str r.key == req.method <;> simp

/-! ## Cache directives -/

theorem multi_elems {V : Type} (m : Msg) (name : String) (p : Entry → Parsed V)
    (hp : ∀ e v, p e ≠ .single v) : ∃ xs, E.multi m name p = .elems xs := by
  unfold Env.multi
  have h := (C27_lists E.lower ⟨E.badForTrailer (str name), fun e => (p e, [])⟩ m (str name) (by
    rintro e _ ⟨v, hv⟩
    exact hp e v hv)).1
  exact ⟨_, h⟩

theorem directiveGet_oks {A : Type} (lower : Str → Str) (key : Str) (xs : List (Elem (Str × ArgVal A))) :
    directiveGet lower key xs = directiveGet lower key ((xs.filterMap fun x => match x with
      | .ok v => some v
      | .unavailable _ => none).map .ok) := by
  induction xs with
  | nil => rfl
  | cons x xs ih =>
    cases x with
    | unavailable i => simpa [directiveGet] using ih
    | ok v =>
      obtain ⟨d, a⟩ := v
      simp only [List.filterMap_cons, List.map_cons, directiveGet]
      split
      · rfl
      · exact ih

theorem cacheItems_eq (h : Sensible E) (m : Msg) :
    E.items m "Cache-Control" E.grammars.cacheControl = cacheDirectives E m := by
  rw [items_eq m _ _ h.cacheControl, usable_eq h.lower (by decide), cacheDirectives]
  congr 1
  funext e
  cases E.grammars.cacheControl e <;> rfl

theorem cache_eq (h : Sensible E) (m : Msg) (d : String) :
    E.cache m d = directiveGet E.lower (str d) ((cacheDirectives E m).map .ok) := by
  obtain ⟨xs, hx⟩ := multi_elems (E := E) m "Cache-Control" E.grammars.cacheControl h.cacheControl
  rw [← cacheItems_eq h]
  unfold Env.cache Env.items
  rw [hx]
  dsimp only
  rw [directiveGet_oks]
  congr 3
  funext x
  cases x <;> rfl

/-- What the first directive of a name says. -/
def foundOf {A : Type} : ArgVal A → Found A
  | .none => .true
  | a => .arg a

theorem directiveGet_first {A : Type} {lower : Str → Str} {key : Str} {l : List (Str × ArgVal A)}
    {f : Found A} (hf : f ≠ .none) :
    directiveGet lower key (l.map .ok) = f ↔ ∃ l1 d a l2, l = l1 ++ (d, a) :: l2 ∧
      lower d = lower key ∧ (∀ x ∈ l1, lower x.1 ≠ lower key) ∧ foundOf a = f := by
  induction l with
  | nil => simp [directiveGet, Ne.symm hf]
  | cons x l ih =>
    obtain ⟨d, a⟩ := x
    rw [List.map_cons]
    by_cases h : lower d = lower key
    · have e : directiveGet lower key (.ok (d, a) :: l.map .ok) = foundOf a := by
        cases a <;> simp [directiveGet, h, foundOf]
      rw [e]
      constructor
      · intro ha
        exact ⟨[], d, a, l, rfl, h, by simp, ha⟩
      · rintro ⟨l1, d', a', l2, he, h1, h2, h3⟩
        cases l1 with
        | nil => cases he; exact h3
        | cons y l1 =>
          cases he
          exact absurd h (h2 _ (List.mem_cons_self ..))
    · have e : directiveGet lower key (.ok (d, a) :: l.map .ok) = directiveGet lower key (l.map .ok) := by
        simp [directiveGet, h]
      rw [e, ih]
      constructor
      · rintro ⟨l1, d', a', l2, rfl, h1, h2, h3⟩
        refine ⟨(d, a) :: l1, d', a', l2, rfl, h1, ?_, h3⟩
        intro x hx
        rcases List.mem_cons.1 hx with rfl | hx
        · exact h
        · exact h2 x hx
      · rintro ⟨l1, d', a', l2, he, h1, h2, h3⟩
        cases l1 with
        | nil => cases he; exact absurd h1 h
        | cons y l1 =>
          cases he
          exact ⟨l1, d', a', l2, rfl, h1, fun x hx => h2 x (List.mem_cons_of_mem _ hx), h3⟩

theorem cache_first (h : Sensible E) (m : Msg) {d : String} (hd : (str d).all (· < 128) = true)
    {f : Found CacheArg} (hf : f ≠ .none) :
    E.cache m d = f ↔ ∃ a, FirstDirective E m d a ∧ foundOf a = f := by
  have hl : E.lower (str d) = asciiLower (str d) :=
    h.lower _ fun c hc => by simpa using List.all_eq_true.1 hd c hc
  rw [cache_eq h, directiveGet_first hf]
  unfold FirstDirective IsWord
  rw [hl]
  constructor
  · rintro ⟨l1, d', a, l2, h1, h2, h3, h4⟩
    exact ⟨a, ⟨l1, d', l2, h1, h2, h3⟩, h4⟩
  · rintro ⟨a, ⟨l1, d', l2, h1, h2, h3⟩, h4⟩
    exact ⟨l1, d', a, l2, h1, h2, h3, h4⟩

theorem truthy_iff (h : Sensible E) (m : Msg) {d : String} (hd : (str d).all (· < 128) = true) :
    cacheTruthy (E.cache m d) = true ↔ Directs E m d := by
  constructor
  · intro ht
    have hf : E.cache m d ≠ .none := by intro e; rw [e] at ht; cases ht
    obtain ⟨a, ha, hfa⟩ := (cache_first h m hd hf).1 rfl
    refine ⟨a, ha, ?_⟩
    rw [← hfa] at ht
    cases a with
    | parsed p => cases p <;> simpa [foundOf, cacheTruthy, ArgStands] using ht
    | _ => simp_all [foundOf, cacheTruthy, ArgStands]
  · rintro ⟨a, ha, hs⟩
    have := (cache_first h m hd (f := foundOf a) (by cases a <;> simp [foundOf])).2 ⟨a, ha, rfl⟩
    rw [this]
    cases a with
    | parsed p => cases p <;> simpa [foundOf, cacheTruthy, ArgStands] using hs
    | _ => simp_all [foundOf, cacheTruthy, ArgStands]

theorem unqualified_iff (h : Sensible E) (m : Msg) {d : String} (hd : (str d).all (· < 128) = true) :
    cacheUnqualified (E.cache m d) = true ↔ DirectsFully E m d := by
  have key : ∀ a, FirstDirective E m d a → E.cache m d = foundOf a := fun a ha =>
    (cache_first h m hd (f := foundOf a) (by cases a <;> simp [foundOf])).2 ⟨a, ha, rfl⟩
  constructor
  · intro ht
    have hf : E.cache m d ≠ .none := by intro e; rw [e] at ht; cases ht
    obtain ⟨a, ha, hfa⟩ := (cache_first h m hd hf).1 rfl
    rw [← hfa] at ht
    unfold DirectsFully
    cases a with
    | none => exact .inl ha
    | parsed p =>
      cases p with
      | num n =>
        simp only [foundOf, cacheUnqualified, beq_iff_eq] at ht
        subst ht
        exact .inr (.inr ha)
      | names l =>
        simp only [foundOf, cacheUnqualified, List.isEmpty_iff] at ht
        subst ht
        exact .inr (.inl ha)
    | _ => cases ht
  · rintro (ha | ha | ha) <;> rw [key _ ha] <;> rfl

/-- No directive of that name. -/
theorem notGiven_iff (h : Sensible E) (m : Msg) {d : String} (hd : (str d).all (· < 128) = true) :
    notGiven (E.cache m d) = true ↔ ¬∃ a, FirstDirective E m d a := by
  unfold notGiven
  rw [beq_iff_eq]
  constructor
  · rintro e ⟨a, ha⟩
    have := (cache_first h m hd (f := foundOf a) (by cases a <;> simp [foundOf])).2 ⟨a, ha, rfl⟩
    rw [e] at this
    cases a <;> cases this
  · intro hn
    refine Classical.byContradiction fun hf => ?_
    obtain ⟨a, ha, _⟩ := (cache_first h m hd hf).1 rfl
    exact hn ⟨a, ha⟩

end Httpolice.Lemmas.Check
