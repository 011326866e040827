import Verif.Lemmas.LocateMessage
import Verif.Lemmas.RawMore
import Verif.Spec.HeaderNotices

/-!
# Which notices come from views of headers
-/

namespace Httpolice.Lemmas.Check

open Httpolice.Model Httpolice.Spec Httpolice.Props

/-! ## One view -/

section
variable {V : Type} {lower : Str → Str} {k : HeaderKind V} {m : Msg} {name : Str} {N : Nat}

theorem ids_entries : (∃ n ∈ entryNotes lower k m name, n.id = N) ↔
    (∃ e ∈ usable lower k.badForTrailer m name, ∃ n ∈ (k.parse e).2, n.id = N) ∨
      (k.badForTrailer = true ∧ N = 1026 ∧ ∃ e ∈ named lower name m.trailers, True) := by
  unfold entryNotes usable
  cases hb : k.badForTrailer with
  | false =>
    simp only [Bool.false_eq_true, if_false, false_and, or_false, List.mem_append, List.mem_flatMap]
    constructor
    · rintro ⟨n, ⟨e, he, hn⟩ | ⟨e, he, hn⟩, hi⟩
      · exact ⟨e, .inl he, n, hn, hi⟩
      · exact ⟨e, .inr he, n, hn, hi⟩
    · rintro ⟨e, he | he, n, hn, hi⟩
      · exact ⟨n, .inl ⟨e, he, hn⟩, hi⟩
      · exact ⟨n, .inr ⟨e, he, hn⟩, hi⟩
  | true =>
    simp only [if_true, true_and, List.mem_append, List.mem_flatMap, List.append_nil, List.mem_singleton]
    constructor
    · rintro ⟨n, ⟨e, he, hn⟩ | ⟨e, he, rfl⟩, hi⟩
      · exact .inl ⟨e, he, n, hn, hi⟩
      · exact .inr ⟨hi.symm, e, he, trivial⟩
    · rintro (⟨e, he, n, hn, hi⟩ | ⟨rfl, e, he, _⟩)
      · exact ⟨n, .inl ⟨e, he, hn⟩, hi⟩
      · exact ⟨⟨1026, [e]⟩, .inr ⟨e, he, rfl⟩, rfl⟩

theorem ids_single : (∃ n ∈ (singleView lower k m name).notes, n.id = N) ↔
    (∃ n ∈ entryNotes lower k m name, n.id = N) ∨ (N = 1013 ∧ 1 < (usable lower k.badForTrailer m name).length) := by
  rw [(C26_single lower k m name).2.2]
  simp only [List.mem_append]
  constructor
  · rintro ⟨n, hn | hn, hi⟩
    · exact .inl ⟨n, hn, hi⟩
    · split at hn
      · next h =>
        rw [List.mem_singleton] at hn
        subst hn
        exact .inr ⟨hi.symm, h⟩
      · cases hn
  · rintro (⟨n, hn, hi⟩ | ⟨rfl, h⟩)
    · exact ⟨n, .inl hn, hi⟩
    · exact ⟨⟨1013, _⟩, .inr (by rw [if_pos h]; exact .head _), rfl⟩

theorem ids_multi : (∃ n ∈ (multiView lower k m name).notes, n.id = N) ↔
    (∃ n ∈ entryNotes lower k m name, n.id = N) ∨ (N = 1013 ∧ 1 < (usable lower k.badForTrailer m name).length ∧
      ∃ e ∈ usable lower k.badForTrailer m name, IsSingular (k.parse e).1) := by
  by_cases hs : ∃ e ∈ usable lower k.badForTrailer m name, IsSingular (k.parse e).1
  · obtain ⟨e, he, hv⟩ := hs
    by_cases h1 : (usable lower k.badForTrailer m name).length = 1
    · obtain ⟨a, ha⟩ := List.length_eq_one_iff.mp h1
      obtain rfl : e = a := by rw [ha] at he; simpa using he
      obtain ⟨v, hv⟩ := hv
      rw [(C27_singular_alone lower k m name e v ha hv).2]
      refine ⟨.inl, fun h => h.resolve_right fun h => ?_⟩
      omega
    · rw [(C27_singular_combined lower k m name e he hv h1).2]
      have hp := List.length_pos_of_mem he
      simp only [List.mem_append, List.mem_singleton]
      constructor
      · rintro ⟨n, hn | rfl, hi⟩
        · exact .inl ⟨n, hn, hi⟩
        · exact .inr ⟨hi.symm, by omega, e, he, hv⟩
      · rintro (⟨n, hn, hi⟩ | ⟨rfl, _⟩)
        · exact ⟨n, .inl hn, hi⟩
        · exact ⟨_, .inr rfl, rfl⟩
  · rw [(C27_lists lower k m name fun e he h => hs ⟨e, he, h⟩).2.2]
    exact ⟨.inl, fun h => h.resolve_right fun h => hs h.2.2⟩

theorem ids_unknown {bad : Bool} : (∃ n ∈ (unknownView lower bad m name).notes, n.id = N) ↔
    bad = true ∧ N = 1026 ∧ ∃ e ∈ named lower name m.trailers, True := by
  rw [(C26_unknown lower bad m name).2.2]
  cases bad with
  | false => simp
  | true =>
    simp only [if_true, List.mem_map, true_and, and_true]
    constructor
    · rintro ⟨n, ⟨e, he, rfl⟩, hi⟩
      exact ⟨hi.symm, e, he⟩
    · rintro ⟨rfl, e, he⟩
      exact ⟨_, ⟨e, he, rfl⟩, rfl⟩

end

theorem pair_of_many {α : Type} {l : List α} : 1 < l.length ↔ ∃ a b, [a, b].Sublist l := by
  constructor
  · intro h
    match l, h with
    | a :: b :: l, _ => exact ⟨a, b, by simp⟩
  · rintro ⟨a, b, h⟩
    exact h.length_le

theorem pair_with {α : Type} {l : List α} {P : α → Prop} : (1 < l.length ∧ ∃ e ∈ l, P e) ↔
    ∃ a b, [a, b].Sublist l ∧ (P a ∨ P b) := by
  constructor
  · rintro ⟨h, e, he, hp⟩
    obtain ⟨p, q, rfl⟩ := List.append_of_mem he
    cases p with
    | cons x p =>
      exact ⟨x, e, by simp, .inr hp⟩
    | nil =>
      match q, h with
      | x :: q, _ => exact ⟨e, x, by simp, .inl hp⟩
  · rintro ⟨a, b, h, hp⟩
    refine ⟨h.length_le, ?_⟩
    rcases hp with hp | hp
    · exact ⟨a, h.subset (by simp), hp⟩
    · exact ⟨b, h.subset (by simp), hp⟩

theorem pair_filter {α : Type} {p : α → Bool} {l : List α} {a b : α} :
    [a, b].Sublist (l.filter p) ↔ [a, b].Sublist l ∧ p a = true ∧ p b = true := by
  constructor
  · intro h
    refine ⟨h.trans (List.filter_sublist), ?_, ?_⟩
    · exact (List.mem_filter.mp (h.subset (by simp))).2
    · exact (List.mem_filter.mp (h.subset (by simp))).2
  · rintro ⟨h, ha, hb⟩
    have := h.filter p
    simpa [ha, hb] using this

/-! ## Tables -/

variable {E : Env}

theorem row_of (hl : LowersAscii E.lower) (name : Str) (r : HeaderRow) :
    (headerRows.find? fun r => E.lower (str r.key) = E.lower name) = some r ↔ IsHeader E name r := by
  have hf : (headerRows.find? fun r => E.lower (str r.key) = E.lower name) =
      headerRows.find? fun r => asciiLower (str r.key) == E.lower name :=
    find_congr fun r hr => by
      rw [hl _ (rowKeys_ascii r hr)]
      by_cases h : asciiLower (str r.key) = E.lower name <;> simp [h]
  rw [hf, find_of_apart (k := fun r : HeaderRow => asciiLower (str r.key)) rowKeys_apart]
  exact and_congr_right fun _ => eq_comm

theorem barred_iff (hl : LowersAscii E.lower) (name : Str) : E.badForTrailer name = true ↔ Barred E name := by
  have hf : (headerRows.find? fun r => E.same (str r.key) name) =
      headerRows.find? fun r => E.lower (str r.key) = E.lower name :=
    find_congr fun r hr => by
      unfold Env.same
      by_cases h : E.lower (str r.key) = E.lower name <;> simp [h]
  unfold Env.badForTrailer Barred
  rw [hf]
  cases h : headerRows.find? fun r => E.lower (str r.key) = E.lower name with
  | none =>
    constructor
    · nofun
    · rintro ⟨r, hr, _⟩
      rw [← row_of hl, h] at hr
      cases hr
  | some r =>
    have := (row_of hl name r).mp h
    refine ⟨fun hb => ⟨r, this, hb⟩, ?_⟩
    rintro ⟨r', hr', hb⟩
    rw [← row_of hl, h] at hr'
    cases hr'
    exact hb

theorem hsts_special : ∀ r ∈ headerRows, r.key = "Strict-Transport-Security" → r.rule = some .special := by
  decide +kernel

theorem hsts_found : ∀ r ∈ headerRows, asciiLower (str r.key) = asciiLower (str "Strict-Transport-Security") →
    r.key = "Strict-Transport-Security" := by
  decide +kernel

/-- What a header's view says. -/
def ViewSays (E : Env) (m : Msg) (name : Str) (N : Nat) : Prop :=
  ((Sole E name ∨ Several E name) ∧ ∃ e ∈ usable E.lower (E.badForTrailer name) m name, ∃ n ∈ (E.kind name e).2, n.id = N) ∨
  (Barred E name ∧ N = 1026 ∧ ∃ e ∈ named E.lower name m.trailers, True) ∨
  (N = 1013 ∧ ∃ a b, [a, b].Sublist (usable E.lower (E.badForTrailer name) m name) ∧
    (Sole E name ∨ (Several E name ∧ (IsSingular (E.kind name a).1 ∨ IsSingular (E.kind name b).1))))

/-- What a header's view reports. -/
theorem ids_view (hl : LowersAscii E.lower) {m : Msg} {name : Str} {N : Nat} :
    (∃ n ∈ E.viewNotes m name, n.id = N) ↔ ViewSays E m name N := by
  obtain ⟨c, hc, h1, h2, h3, h4⟩ := C49_no_assertion E.lower hl name
  have hs1 : ∀ {r}, IsHeader E name r → r.rule = none → ¬(Sole E name ∨ Several E name) := by
    intro r hr hn h
    have hx : ∀ r', IsHeader E name r' → r' = r := fun r' hr' =>
      Option.some.inj (((row_of hl name r').mpr hr').symm.trans ((row_of hl name r).mpr hr))
    rcases h with ⟨r', hr', h⟩ | ⟨r', hr', h⟩
    · obtain rfl := hx r' hr'
      rcases h with h | h
      · rw [hn] at h; cases h
      · rw [hsts_special _ hr.1 h] at hn; cases hn
    · obtain rfl := hx r' hr'
      rcases h with h | h
      · rw [hn] at h; cases h
      · rw [h.1] at hn; cases hn
  unfold Env.viewNotes
  rw [hc]
  have hone : ∀ r, IsHeader E name r → ruleFor E.lower name = r.rule := fun r hr => by
    unfold ruleFor
    rw [(row_of hl name r).mpr hr]
    rfl
  have hrow : ∀ q, ruleFor E.lower name = some q → ∃ r, IsHeader E name r ∧ r.rule = some q := by
    intro q hq
    unfold ruleFor at hq
    cases h : headerRows.find? fun r => E.lower (str r.key) = E.lower name with
    | none => rw [h] at hq; cases hq
    | some r => rw [h] at hq; exact ⟨r, (row_of hl name r).mp h, hq⟩
  have hno : ruleFor E.lower name = none → ¬(Sole E name ∨ Several E name) := by
    rintro hq (⟨r, hr, h⟩ | ⟨r, hr, h⟩)
    · exact hs1 hr ((hone r hr).symm.trans hq) (.inl ⟨r, hr, h⟩)
    · exact hs1 hr ((hone r hr).symm.trans hq) (.inr ⟨r, hr, h⟩)
  have single : Sole E name → ¬Several E name →
      ((∃ n ∈ (singleView E.lower ⟨E.badForTrailer name, E.kind name⟩ m name).notes, n.id = N) ↔ ViewSays E m name N) := fun hS hM => by
    rw [ids_single, ids_entries, pair_of_many]
    unfold ViewSays
    dsimp only
    rw [barred_iff hl]
    constructor
    · rintro ((h | h) | ⟨h, a, b, hp⟩)
      · exact .inl ⟨.inl hS, h⟩
      · exact .inr (.inl h)
      · exact .inr (.inr ⟨h, a, b, hp, .inl hS⟩)
    · rintro (⟨_, h⟩ | h | ⟨h, a, b, hp, _⟩)
      · exact .inl (.inl h)
      · exact .inl (.inr h)
      · exact .inr ⟨h, a, b, hp⟩
  have multi : Several E name → ¬Sole E name →
      ((∃ n ∈ (multiView E.lower ⟨E.badForTrailer name, E.kind name⟩ m name).notes, n.id = N) ↔ ViewSays E m name N) := fun hM hS => by
    rw [ids_multi, ids_entries, pair_with]
    unfold ViewSays
    dsimp only
    rw [barred_iff hl]
    constructor
    · rintro ((h | h) | ⟨h, a, b, hp, hs⟩)
      · exact .inl ⟨.inr hM, h⟩
      · exact .inr (.inl h)
      · exact .inr (.inr ⟨h, a, b, hp, .inr ⟨hM, hs⟩⟩)
    · rintro (⟨_, h⟩ | h | ⟨h, a, b, hp, hx⟩)
      · exact .inl (.inl h)
      · exact .inl (.inr h)
      · exact .inr ⟨h, a, b, hp, (hx.resolve_left hS).2⟩
  have huniq : ∀ {r r'}, IsHeader E name r → IsHeader E name r' → r' = r := fun hr hr' =>
    Option.some.inj (((row_of hl name _).mpr hr').symm.trans ((row_of hl name _).mpr hr))
  cases c with
  | single =>
    obtain ⟨r, hr, hq⟩ := hrow _ (h1.mp rfl)
    refine single ⟨r, hr, .inl hq⟩ ?_
    rintro ⟨r', hr', h⟩
    obtain rfl := huniq hr hr'
    rw [hq] at h
    simp at h
  | multi =>
    obtain ⟨r, hr, hq⟩ := hrow _ (h2.mp rfl)
    refine multi ⟨r, hr, .inl hq⟩ ?_
    rintro ⟨r', hr', h⟩
    obtain rfl := huniq hr hr'
    rcases h with h | h
    · rw [hq] at h; simp at h
    · rw [hsts_special _ hr.1 h] at hq; simp at hq
  | unknown =>
    dsimp only
    rw [ids_unknown, barred_iff hl]
    unfold ViewSays
    have := hno (h3.mp rfl)
    rw [not_or] at this
    constructor
    · exact fun h => .inr (.inl h)
    · rintro (⟨h, _⟩ | h | ⟨_, a, b, _, h⟩)
      · exact absurd h (not_or.mpr this)
      · exact h
      · exact absurd h (not_or.mpr ⟨this.1, fun h => this.2 h.1⟩)
  | special s =>
    have hsm : s ∈ specialCases ∧ E.lower (str s) = E.lower name := by
      unfold viewClass at hc
      split at hc
      · next s' hf =>
        split at hc
        · cases hc
          exact ⟨List.mem_of_find?_eq_some hf, by simpa using List.find?_some hf⟩
        · cases hc
      · split at hc <;> cases hc
    obtain ⟨r, hr, hq⟩ := hrow _ (h4.mp ⟨s, rfl, hsm.2⟩)
    have hkey : s = "Strict-Transport-Security" ↔ r.key = "Strict-Transport-Security" := by
      have : E.lower (str s) = asciiLower (str r.key) := hsm.2.trans hr.2
      rw [hl _ (special_ascii s hsm.1)] at this
      constructor
      · rintro rfl
        exact hsts_found r hr.1 this.symm
      · intro h
        rw [h] at this
        have h' : ∀ s ∈ specialCases, asciiLower (str s) = asciiLower (str "Strict-Transport-Security") →
            s = "Strict-Transport-Security" := by decide +kernel
        exact h' s hsm.1 this
    dsimp only
    by_cases hk : s = "Strict-Transport-Security"
    · rw [if_pos hk]
      refine single ⟨r, hr, .inr (hkey.mp hk)⟩ ?_
      rintro ⟨r', hr', h⟩
      obtain rfl := huniq hr hr'
      rcases h with h | h
      · rw [hq] at h; simp at h
      · exact h.2 (hkey.mp hk)
    · rw [if_neg hk]
      refine multi ⟨r, hr, .inr ⟨hq, fun h => hk (hkey.mpr h)⟩⟩ ?_
      rintro ⟨r', hr', h⟩
      obtain rfl := huniq hr hr'
      rcases h with h | h
      · rw [hq] at h; simp at h
      · exact hk (hkey.mpr h)

/-! ## An exchange -/

/-- All IDs that the checks themselves report. -/
def ownIds : List Nat := allRequestIds ++ allItselfIds ++ allContextIds ++ [1236, 1304, 1305]

theorem viewSays_entry {m : Msg} {name : Str} {N : Nat} (h : ViewSays E m name N) :
    ∃ e ∈ m.headers ++ m.trailers, E.lower e.name = E.lower name := by
  have hu : ∀ e ∈ usable E.lower (E.badForTrailer name) m name, e ∈ m.headers ++ m.trailers ∧ E.lower e.name = E.lower name := by
    intro e he
    unfold usable at he
    rw [List.mem_append] at he
    rcases he with he | he
    · unfold named at he
      rw [List.mem_filter, decide_eq_true_eq] at he
      exact ⟨List.mem_append_left _ he.1, he.2.symm⟩
    · split at he
      · cases he
      · unfold named at he
        rw [List.mem_filter, decide_eq_true_eq] at he
        exact ⟨List.mem_append_right _ he.1, he.2.symm⟩
  rcases h with ⟨_, e, he, _⟩ | ⟨_, _, e, he, _⟩ | ⟨_, a, b, hp, _⟩
  · exact ⟨e, hu e he⟩
  · unfold named at he
    rw [List.mem_filter, decide_eq_true_eq] at he
    exact ⟨e, List.mem_append_right _ he.1, he.2.symm⟩
  · exact ⟨a, hu a (hp.subset (by simp))⟩

theorem sole_case {a b : Str} (h : E.lower a = E.lower b) : Sole E a ↔ Sole E b := by
  unfold Sole IsHeader
  rw [h]

theorem several_case {a b : Str} (h : E.lower a = E.lower b) : Several E a ↔ Several E b := by
  unfold Several IsHeader
  rw [h]

theorem barred_case {a b : Str} (h : E.lower a = E.lower b) : Barred E a ↔ Barred E b := by
  unfold Barred IsHeader
  rw [h]

theorem viewSays_case (hk : CaseBlind E) {m : Msg} {a b : Str} {N : Nat} (h : E.lower a = E.lower b) :
    ViewSays E m a N ↔ ViewSays E m b N := by
  have hb : E.badForTrailer a = E.badForTrailer b := by
    unfold Env.badForTrailer Env.same
    rw [h]
  have hn : ∀ es, named E.lower a es = named E.lower b es := fun es => by
    unfold named
    rw [h]
  unfold ViewSays usable
  rw [hk a b h, hb, hn, hn, sole_case h, several_case h, barred_case h]

variable {ex : Exchange} {N : Nat}

/-- Notices that only views report. -/
theorem at_views (hok : exchangeRaises E ex = false) (ha : NotElsewhere E ex N) (hl : LowersAscii E.lower) (hk : CaseBlind E)
    (h : N ∉ ownIds) (t : Target) :
    ReportedId E ex t N ↔ OnMessage ex t fun msg =>
      ∃ e ∈ msg.fields.headers ++ msg.fields.trailers, ViewSays E msg.fields e.name N := by
  simp only [ownIds, List.mem_append, List.mem_cons, List.not_mem_nil, or_false, not_or] at h
  obtain ⟨⟨⟨hq, hi⟩, hx⟩, h1, h2, h3⟩ := h
  have hf : ∀ {msg : Message}, ((∃ req, ex.request = some req ∧ msg = req.toMessage) ∨ ∃ r ∈ ex.responses, msg = r.toMessage) →
      Foreign E msg N → ∃ e ∈ msg.fields.headers ++ msg.fields.trailers, ViewSays E msg.fields e.name N := by
    rintro msg hm (⟨name, hv⟩ | ⟨n, hn, hid⟩ | ⟨forms, s, r, hr, n, hn, hid⟩)
    · have hv := (ids_view hl).mp hv
      obtain ⟨e, he, hname⟩ := viewSays_entry hv
      exact ⟨e, he, (viewSays_case hk hname).mpr hv⟩
    · rcases hm with ⟨req, hreq, rfl⟩ | ⟨r, hr, rfl⟩
      · exact absurd hid (ha.request req hreq n hn)
      · exact absurd hid (ha.responses r hr n hn)
    · exact absurd hid (ha.target forms s r hr n hn)
  have hb : ∀ {t : Target} {msg : Message} {tls tr st}, (∃ e ∈ msg.fields.headers ++ msg.fields.trailers, ViewSays E msg.fields e.name N) →
      Says t N (checkMessage E t msg tls tr st) := by
    intro t msg tls tr st he
    rw [← mem_names (P := fun n => ViewSays E msg.fields n N) fun a b hab => (viewSays_case hk hab).mp] at he
    obtain ⟨n, hn, hv⟩ := he
    obtain ⟨x, hx, hid⟩ := (ids_view hl).mpr hv
    unfold checkMessage
    rw [says_inOrder_cons]
    refine .inl ?_
    unfold checkHeaders
    rw [says_inOrder_cons, says_each]
    refine .inl ⟨n, hn, ?_⟩
    rw [says_inOrder_cons, says_inOrder_cons, says_each]
    refine .inr (.inl ⟨x, hx, ?_⟩)
    rw [← hid]
    exact ⟨⟨x.id, _⟩, .head _, rfl⟩
  cases t with
  | exch => exact iff_of_false (fun ⟨c, hc, _⟩ => exch_quiet hok hc) id
  | req =>
    constructor
    · rintro ⟨c, hc, rfl⟩
      rw [reported_iff hok (reported_present hc), mem_exchangeActs] at hc
      rcases hc with ⟨req, hreq, hc | hc⟩ | ⟨i, r, hr, hc⟩ | ⟨i, r, req, _, _, _, _, _, hc⟩
      · exact ⟨req, hreq, hf (.inl ⟨req, hreq, rfl⟩) (plain_requestStart (l := []) (R := True) req (says_of_mem hc)).2⟩
      · exact ⟨req, hreq, hf (.inl ⟨req, hreq, rfl⟩) (((plain_requestRest E req).says (says_of_mem hc)).2.resolve_left hq)⟩
      · unfold forResponseActs at hc
        rw [List.mem_append] at hc
        rcases hc with hc | hc
        · split at hc
          · simp [say] at hc
          · cases hc
        · rcases says_checkResponse (says_of_mem hc) with ⟨h', _⟩ | ⟨_, h', _⟩
          · cases h'
          · exact absurd h' h1
      · cases hc
    · rintro ⟨req, hreq, he⟩
      have hp : Present ex .req := by
        show ex.request.isSome = true
        rw [hreq]; rfl
      obtain ⟨c, hc, hid⟩ : Says .req N (requestRest E req) := by
        unfold requestRest
        rw [says_inOrder_cons]
        exact .inl (hb he)
      exact ⟨c, (reported_iff hok hp c).2 ((mem_exchangeActs E).2 (.inl ⟨req, hreq, .inr hc⟩)), hid⟩
  | resp i =>
    constructor
    · rintro ⟨c, hc, rfl⟩
      rw [reported_iff hok (reported_present hc), mem_exchangeActs] at hc
      rcases hc with ⟨req, hreq, hc | hc⟩ | ⟨j, r, hr, hc⟩ | ⟨j, r, req, _, _, _, _, _, hc⟩
      · cases (plain_requestStart (l := []) (R := True) req (says_of_mem hc)).1
      · cases ((plain_requestRest E req).says (says_of_mem hc)).1
      · unfold forResponseActs at hc
        rw [List.mem_append] at hc
        rcases hc with hc | hc
        · split at hc
          · simp only [say, List.mem_singleton, Act.op.injEq, BoardOp.complain.injEq] at hc
            exact absurd (congrArg Complaint.id hc.2) h2
          · cases hc
        · have hj : (ex.responses.take j).length = j := by
            have := (List.getElem?_eq_some_iff.1 hr).1
            rw [List.length_take]; omega
          rw [hj] at hc
          rcases says_checkResponse (says_of_mem hc) with ⟨h', hs⟩ | ⟨h', _⟩
          · cases h'
            refine ⟨r, hr, hf (.inr ⟨r, List.mem_of_getElem? hr, rfl⟩) ?_⟩
            exact (hs.resolve_left hi).resolve_left hx
          · cases h'
      · simp only [Act.op.injEq, BoardOp.complain.injEq] at hc
        exact absurd (congrArg Complaint.id hc.2) h3
    · rintro ⟨r, hr, he⟩
      have hlt := (List.getElem?_eq_some_iff.1 hr).1
      have hj : (ex.responses.take i).length = i := by rw [List.length_take]; omega
      obtain ⟨c, hc, hid⟩ : Says (.resp i) N (checkResponse E ⟨i, r, ex.request⟩) := by
        unfold checkResponse
        rw [checkResponseItself_eq, says_append, says_append]
        refine .inl (.inr ?_)
        unfold itselfRest
        rw [says_inOrder_cons]
        exact .inl (hb he)
      refine ⟨c, (reported_iff hok (show Present ex (.resp i) from hlt) c).2
        ((mem_exchangeActs E).2 (.inr (.inl ⟨i, r, hr, ?_⟩))), hid⟩
      unfold forResponseActs
      rw [hj]
      exact List.mem_append_right _ hc

/-- What is left of `ViewSays` when it is about entries. -/
theorem says_of_entry (hl : LowersAscii E.lower) (hk : CaseBlind E) (h13 : N ≠ 1013) (h26 : N ≠ 1026) (m : Msg) :
    (∃ e ∈ m.headers ++ m.trailers, ViewSays E m e.name N) ↔
      ∃ e, Counts E m e ∧ (Sole E e.name ∨ Several E e.name) ∧ ∃ n ∈ (E.kind e.name e).2, n.id = N := by
  constructor
  · rintro ⟨x, _, ⟨hc, e, he, hn⟩ | ⟨_, h, _⟩ | ⟨h, _⟩⟩
    · unfold usable named at he
      rw [List.mem_append, List.mem_filter, decide_eq_true_eq] at he
      rcases he with ⟨hm, hx⟩ | he
      · rw [sole_case hx, several_case hx] at hc
        rw [hk _ _ hx] at hn
        exact ⟨e, .inl hm, hc, hn⟩
      · split at he
        · cases he
        · next hb =>
          rw [List.mem_filter, decide_eq_true_eq] at he
          obtain ⟨hm, hx⟩ := he
          rw [barred_iff hl, barred_case hx] at hb
          rw [sole_case hx, several_case hx] at hc
          rw [hk _ _ hx] at hn
          exact ⟨e, .inr ⟨hm, hb⟩, hc, hn⟩
    · exact absurd h h26
    · exact absurd h h13
  · rintro ⟨e, hm, hc, hn⟩
    refine ⟨e, ?_, .inl ⟨hc, e, ?_, hn⟩⟩
    · rcases hm with hm | hm
      · exact List.mem_append_left _ hm
      · exact List.mem_append_right _ hm.1
    · unfold usable named
      rw [List.mem_append, List.mem_filter, decide_eq_true_eq]
      rcases hm with hm | ⟨hm, hb⟩
      · exact .inl ⟨hm, rfl⟩
      · rw [← barred_iff hl] at hb
        rw [if_neg hb, List.mem_filter, decide_eq_true_eq]
        exact .inr ⟨hm, rfl⟩

theorem says_trailer (h : ∀ name e, ∀ n ∈ (E.kind name e).2, n.id ≠ 1026) (m : Msg) :
    (∃ e ∈ m.headers ++ m.trailers, ViewSays E m e.name 1026) ↔ ∃ e ∈ m.trailers, Barred E e.name := by
  constructor
  · rintro ⟨x, _, ⟨hc, e, he, n, hn, hid⟩ | ⟨hb, _, e, he, _⟩ | ⟨h, _⟩⟩
    · exact absurd hid (h _ _ n hn)
    · unfold named at he
      rw [List.mem_filter, decide_eq_true_eq] at he
      exact ⟨e, he.1, (barred_case he.2).mp hb⟩
    · cases h
  · rintro ⟨e, he, hb⟩
    refine ⟨e, List.mem_append_right _ he, .inr (.inl ⟨hb, rfl, e, ?_, trivial⟩)⟩
    unfold named
    rw [List.mem_filter, decide_eq_true_eq]
    exact ⟨he, rfl⟩

theorem says_repeated (hl : LowersAscii E.lower) (hk : CaseBlind E) (h : ∀ name e, ∀ n ∈ (E.kind name e).2, n.id ≠ 1013) (m : Msg) :
    (∃ e ∈ m.headers ++ m.trailers, ViewSays E m e.name 1013) ↔ ∃ a b, TwoOf E m a b ∧
      (Sole E a.name ∨ (Several E a.name ∧ (IsSingular (E.kind a.name a).1 ∨ IsSingular (E.kind b.name b).1))) := by
  have hu : ∀ name a b, [a, b].Sublist (usable E.lower (E.badForTrailer name) m name) ↔
      (E.lower name = E.lower a.name ∧ E.lower name = E.lower b.name) ∧
        ([a, b].Sublist m.headers ∨ (¬Barred E name ∧ [a, b].Sublist (m.headers ++ m.trailers))) := by
    intro name a b
    unfold usable named
    rw [← barred_iff hl]
    cases E.badForTrailer name with
    | true =>
      simp only [if_true, List.append_nil, pair_filter, decide_eq_true_eq, not_true, false_and, or_false]
      exact and_comm
    | false =>
      simp only [Bool.false_eq_true, if_false, ← List.filter_append, pair_filter, decide_eq_true_eq, not_false_eq_true, true_and]
      constructor
      · exact fun h => ⟨h.2, .inr h.1⟩
      · rintro ⟨h1, h2 | h2⟩
        · exact ⟨h2.trans (List.sublist_append_left _ _), h1⟩
        · exact ⟨h2, h1⟩
  constructor
  · rintro ⟨x, _, ⟨hc, e, he, n, hn, hid⟩ | ⟨_, h, _⟩ | ⟨_, a, b, hp, hc⟩⟩
    · exact absurd hid (h _ _ n hn)
    · cases h
    · obtain ⟨⟨h1, h2⟩, hs⟩ := (hu _ _ _).mp hp
      rw [barred_case h1] at hs
      rw [sole_case h1, several_case h1, hk _ _ h1, ← hk _ _ h1, hk _ _ h1] at hc
      refine ⟨a, b, ⟨h1.symm.trans h2, hs⟩, ?_⟩
      rw [hk _ _ (h2.symm.trans h1)]
      exact hc
  · rintro ⟨a, b, ⟨hn, hs⟩, hc⟩
    refine ⟨a, ?_, .inr (.inr ⟨rfl, a, b, (hu _ _ _).mpr ⟨⟨rfl, hn⟩, hs⟩, ?_⟩)⟩
    · rcases hs with hs | ⟨_, hs⟩
      · exact List.mem_append_left _ (hs.subset (by simp))
      · exact hs.subset (by simp)
    · rw [hk _ _ hn.symm] at hc
      exact hc

end Httpolice.Lemmas.Check
