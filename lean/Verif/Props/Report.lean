import Verif.Spec.Report
import Verif.Props.Text

/-!
# C41: the text report (`httpolice/reports/text.py`)
-/

namespace Httpolice.Props
open Httpolice.Model Httpolice.Spec

/-! ## Lines -/

theorem linesOf_line {l s : Str} (h : 10 ∉ l) : linesOf (l ++ 10 :: s) = l :: linesOf s := by
  induction l with
  | nil => simp [linesOf]
  | cons c l ih =>
    have hc : c ≠ 10 := fun e => h (by simp [e])
    rw [List.cons_append, linesOf, if_neg hc, ih fun hm => h (List.mem_cons_of_mem _ hm)]

/-- Text that consists of the given lines. -/
def Made (s : Str) (ls : List Str) : Prop := (∀ l ∈ ls, 10 ∉ l) ∧ s = ls.flatMap (· ++ [10])

theorem made_nil : Made [] [] := ⟨by simp, rfl⟩

theorem made_append {s t : Str} {ls ms : List Str} (hs : Made s ls) (ht : Made t ms) :
    Made (s ++ t) (ls ++ ms) := by
  refine ⟨fun l hl => ?_, by rw [hs.2, ht.2, List.flatMap_append]⟩
  rcases List.mem_append.1 hl with h | h
  · exact hs.1 l h
  · exact ht.1 l h

theorem made_flatMap {α : Type} {xs : List α} {f : α → Str} {g : α → List Str}
    (h : ∀ x ∈ xs, Made (f x) (g x)) : Made (xs.flatMap f) (xs.flatMap g) := by
  induction xs with
  | nil => exact made_nil
  | cons x xs ih =>
    simp only [List.flatMap_cons]
    exact made_append (h x List.mem_cons_self) (ih fun y hy => h y (List.mem_cons_of_mem _ hy))

theorem made_lines {s : Str} {ls : List Str} (h : Made s ls) : linesOf s = ls := by
  obtain ⟨h1, rfl⟩ := h
  induction ls with
  | nil => rfl
  | cons l ls ih =>
    rw [List.flatMap_cons, List.append_assoc, List.singleton_append,
      linesOf_line (h1 l List.mem_cons_self), ih fun m hm => h1 m (List.mem_cons_of_mem _ hm)]

/-! ## Characters -/

theorem printable_mem {s : Str} {c : Nat} (h : c ∈ printable s) : c = 0xFFFD ∨ (c ∈ s ∧ ¬ Forbidden c) := by
  obtain ⟨i, hi⟩ := List.mem_iff_getElem?.1 h
  rw [C42_printable] at hi
  cases hs : s[i]? with
  | none => rw [hs] at hi; cases hi
  | some x =>
    rw [hs] at hi
    simp only [Option.map_some, Option.some.injEq] at hi
    split at hi
    next => exact .inl hi.symm
    next hf => exact .inr (hi ▸ ⟨List.mem_of_getElem? hs, hf⟩)

theorem pieceText_mem {ps : List Str} {c : Nat} (h : c ∈ pieceText ps) :
    c = 0xFFFD ∨ ((∃ p ∈ ps, c ∈ p) ∧ ¬ Forbidden c) := by
  rw [pieceText, List.mem_flatten] at h
  obtain ⟨l, hl, hc⟩ := h
  obtain ⟨p, hp, rfl⟩ := List.mem_map.1 hl
  rcases printable_mem hc with h | ⟨h, hf⟩
  · exact .inl h
  · exact .inr ⟨⟨p, hp, h⟩, hf⟩

theorem stripText_mem {s : Str} {c : Nat} (h : c ∈ stripText s) : c ∈ s := by
  rw [stripText, List.mem_reverse] at h
  have := (List.dropWhile_sublist _).subset h
  rw [List.mem_reverse] at this
  exact (List.dropWhile_sublist _).subset this

theorem detypo_mem {s : Str} {c : Nat} (h : c ∈ detypographize s) :
    c ∈ s ∨ c ∈ [0x22, 0x27, 0x2D, 0x20] := by
  rw [C42_detypographize, List.mem_flatMap] at h
  obtain ⟨x, hx, hc⟩ := h
  unfold plainText at hc
  have e1 : str "\"" = [0x22] := by decide
  have e2 : str "'" = [0x27] := by decide
  have e3 : str "--" = [0x2D, 0x2D] := by decide
  have e4 : str "-" = [0x2D] := by decide
  have e5 : str " " = [0x20] := by decide
  rw [e1, e2, e3, e4, e5] at hc
  repeat' split at hc
  all_goals simp at hc ⊢
  all_goals first
    | (right; omega)
    | (left; rw [hc]; exact hx)

theorem ellipsize_mem {s : Str} {n : Int} {c : Nat} (h : c ∈ ellipsize s n) : c ∈ s ∨ c = 46 := by
  unfold ellipsize at h
  split at h
  · exact .inl h
  · rcases List.mem_append.1 h with h | h
    · left
      unfold pyTake at h
      split at h <;> exact List.mem_of_mem_take h
    · right
      have : str "..." = [46, 46, 46] := by decide
      rw [this] at h
      simpa using h

theorem toString_digits {n c : Nat} (h : c ∈ decimalText n) : 48 ≤ c ∧ c ≤ 57 := by
  rw [decimalText, str, List.mem_map] at h
  obtain ⟨x, hx, rfl⟩ := h
  have e : (toString n).toList = Nat.toDigits 10 n := by
    rw [show toString n = n.repr from rfl, Nat.repr]
    exact String.toList_ofList
  rw [e] at hx
  have := Nat.isDigit_of_mem_toDigits (by omega) (by omega) hx
  simp only [Char.isDigit, Bool.and_eq_true, decide_eq_true_eq] at this
  have h1 : (48 : Nat) ≤ x.val.toNat := this.1
  have h2 : x.val.toNat ≤ 57 := this.2
  exact ⟨h1, h2⟩

theorem intText_chars {n : Int} {c : Nat} (h : c ∈ intText n) : c = 45 ∨ (48 ≤ c ∧ c ≤ 57) := by
  cases n with
  | ofNat k => exact .inr (toString_digits h)
  | negSucc k =>
    rcases List.mem_cons.1 h with h | h
    · exact .inl h
    · exact .inr (toString_digits h)

/-! ## C41 -/

theorem complaintLine_eq (c : TComplaint) : complaintLine c = noticeLine c ++ [10] := by
  have e : str "\n" = [10] := by decide
  rw [complaintLine, noticeLine, e]
  cases c.severity <;> rfl

/-- No notices, no trace: exchanges without notices can be left out. -/
theorem C41_silent (a b : List TExch) (e : TExch) (h : noticesOf e = []) :
    textReport (a ++ e :: b) = textReport (a ++ b) := by
  have hb : exchangeBlock e = [] := by
    simp only [noticesOf, List.append_eq_nil_iff, List.flatMap_eq_nil_iff] at h
    obtain ⟨⟨h1, h2⟩, h3⟩ := h
    have hr : e.responses.flatMap responseBlock = [] := by
      rw [List.flatMap_eq_nil_iff]
      intro r hr
      simp [responseBlock, h2 r hr, writeIfAny]
    rw [exchangeBlock, hr, h3]
    cases hq : e.request with
    | none => simp [writeIfAny, requestLines]
    | some r =>
      have := h1 r (by simp [hq])
      simp [this, writeIfAny, requestLines]
  simp [textReport, hb]

/-- The report of an exchange with notices is its marker, the lines of the request, for every response
with notices its marker and its lines, and the lines of the exchange. Exchanges are reported one after
the other. -/
theorem C41_block (a : List TExch) (e : TExch) (h : noticesOf e ≠ []) :
    textReport (a ++ [e]) = textReport a ++ exchangeMarker e ++
      (e.request.toList.flatMap fun r => r.complaints.flatMap complaintLine) ++
      ((e.responses.filter fun r => !r.complaints.isEmpty).flatMap fun r =>
        responseMarker r ++ r.complaints.flatMap complaintLine) ++
      e.complaints.flatMap complaintLine := by
  have line_ne : ∀ c, complaintLine c ≠ [] := by
    intro c hc
    rw [complaintLine_eq] at hc
    simp at hc
  have lines_ne : ∀ cs : List TComplaint, cs.flatMap complaintLine = [] → cs = [] := by
    intro cs hcs
    cases cs with
    | nil => rfl
    | cons c cs =>
      rw [List.flatMap_cons, List.append_eq_nil_iff] at hcs
      exact absurd hcs.1 (line_ne c)
  have hresp : e.responses.flatMap responseBlock =
      (e.responses.filter fun r => !r.complaints.isEmpty).flatMap fun r =>
        responseMarker r ++ r.complaints.flatMap complaintLine := by
    generalize e.responses = rs
    induction rs with
    | nil => rfl
    | cons r rs ih =>
      rw [List.flatMap_cons, ih]
      cases hc : r.complaints with
      | nil => simp [responseBlock, hc, writeIfAny]
      | cons c cs =>
        have : responseBlock r = responseMarker r ++ r.complaints.flatMap complaintLine := by
          rw [responseBlock, writeIfAny, if_neg]
          rw [List.isEmpty_iff]
          intro h0
          rw [lines_ne _ h0] at hc
          cases hc
        simp [this, hc]
  have hreq : requestLines e.request = e.request.toList.flatMap fun r => r.complaints.flatMap complaintLine := by
    cases e.request <;> simp [requestLines]
  have hblock : exchangeBlock e = exchangeMarker e ++
      ((e.request.toList.flatMap fun r => r.complaints.flatMap complaintLine) ++
        ((e.responses.filter fun r => !r.complaints.isEmpty).flatMap fun r =>
          responseMarker r ++ r.complaints.flatMap complaintLine) ++
        e.complaints.flatMap complaintLine) := by
    rw [exchangeBlock, hreq, hresp, writeIfAny, if_neg]
    rw [List.isEmpty_iff]
    intro h0
    apply h
    simp only [List.append_eq_nil_iff, List.flatMap_eq_nil_iff] at h0
    obtain ⟨⟨h1, h2⟩, h3⟩ := h0
    simp only [noticesOf, List.append_eq_nil_iff, List.flatMap_eq_nil_iff]
    refine ⟨⟨fun r hr => ?_, fun r hr => ?_⟩, ?_⟩
    · exact lines_ne _ (List.flatMap_eq_nil_iff.2 (h1 r hr))
    · apply Classical.byContradiction
      intro hne
      have := h2 r (List.mem_filter.2 ⟨hr, by simpa using hne⟩)
      exact hne (lines_ne _ (List.flatMap_eq_nil_iff.2 this.2))
    · exact lines_ne _ (List.flatMap_eq_nil_iff.2 h3)
  simp [textReport, hblock]

/-- Markers are single lines of at most 79 characters, 60 for responses, if method, target and reason
phrase have no line feeds. -/
theorem C41_markers (e : TExch) (r : TResp) :
    (∃ m, exchangeMarker e = m ++ str "\n" ∧ m.length ≤ 79 ∧
      ((∀ q, e.request = some q → 10 ∉ q.method ∧ 10 ∉ q.target) → 10 ∉ m)) ∧
    (∃ m, responseMarker r = m ++ str "\n" ∧ m.length ≤ 60 ∧ (10 ∉ r.phrase → 10 ∉ m)) := by
  have pr : ∀ {s : Str}, 10 ∉ s → 10 ∉ printable s := by
    intro s hs hm
    rcases printable_mem hm with h | ⟨h, _⟩
    · cases h
    · exact hs h
  refine ⟨⟨_, rfl, (C42_ellipsize _ 79 (by omega)).2.2, ?_⟩, ⟨_, rfl,
    (C42_ellipsize _ 60 (by omega)).2.2, ?_⟩⟩
  · intro hq hm
    rcases ellipsize_mem hm with h | h
    · cases hr : e.request with
      | none =>
        rw [hr] at h
        dsimp only at h
        revert h
        split <;> decide
      | some q =>
        rw [hr] at h
        obtain ⟨h1, h2⟩ := hq q hr
        simp only [List.mem_append] at h
        rcases h with ((h | h) | h) | h
        · revert h; decide
        · exact pr h1 h
        · revert h; decide
        · exact pr h2 h
    · cases h
  · intro hq hm
    rcases ellipsize_mem hm with h | h
    · simp only [List.mem_append] at h
      rcases h with ((h | h) | h) | h
      · revert h; decide
      · have := intText_chars h; omega
      · revert h; decide
      · exact pr hq h
    · cases h

theorem noticeLine_single {c : TComplaint} (h : ∀ t ∈ c.title, 10 ∉ t) : 10 ∉ noticeLine c := by
  intro hm
  simp only [noticeLine, List.mem_append] at hm
  rcases hm with ((hm | hm) | hm) | hm
  · revert hm
    cases c.severity <;> decide
  · have := toString_digits hm; omega
  · revert hm; decide
  · rcases detypo_mem hm with hm | hm
    · rcases pieceText_mem (stripText_mem hm) with hm | ⟨⟨p, hp, hm⟩, _⟩
      · cases hm
      · exact h p hp hm
    · revert hm; decide

theorem marker_dash {s : Str} {n : Int} (hn : n = 79 ∨ n = 60)
    (h : ∃ t, s = str "------------" ++ t) : (ellipsize s n).head? = some 45 := by
  obtain ⟨t, rfl⟩ := h
  unfold ellipsize
  split
  · rfl
  · rcases hn with rfl | rfl <;> rfl

/-- The lines of the report that are not markers, i.e. do not start with a dash, are those of all
notices in order, if no shown text contains a line feed. -/
theorem C41_notices (es : List TExch) (h : ∀ e ∈ es, OneLiners e) :
    (linesOf (textReport es)).filter (fun l => l.head? != some 45) =
      (es.flatMap noticesOf).map noticeLine := by
  -- lines of each part, and what remains of them
  have notices : ∀ cs : List TComplaint, (∀ c ∈ cs, ∀ t ∈ c.title, 10 ∉ t) →
      Made (cs.flatMap complaintLine) (cs.map noticeLine) := by
    intro cs hcs
    have := made_flatMap (f := complaintLine) (g := fun c => [noticeLine c]) (xs := cs) (by
      intro c hc
      refine ⟨?_, by rw [complaintLine_eq]; simp⟩
      intro l hl
      rw [List.mem_singleton.1 hl]
      exact noticeLine_single (hcs c hc))
    simpa [List.flatMap_singleton', ← List.map_eq_flatMap] using this
  have notMarker : ∀ cs : List TComplaint,
      (cs.map noticeLine).filter (fun l => l.head? != some 45) = cs.map noticeLine := by
    intro cs
    rw [List.filter_eq_self]
    intro l hl
    obtain ⟨c, _, rfl⟩ := List.mem_map.1 hl
    rw [noticeLine]
    cases c.severity <;> rfl
  have part : ∀ (m v : Str) (ls : List Str), 10 ∉ m → m.head? = some 45 → Made v ls →
      ∃ ks, Made (writeIfAny (m ++ [10]) v) ks ∧
        ks.filter (fun l => l.head? != some 45) = ls.filter (fun l => l.head? != some 45) := by
    intro m v ls hm hd hv
    rw [writeIfAny]
    split
    next h0 =>
      rw [List.isEmpty_iff] at h0
      subst h0
      have : ls = [] := by
        have := made_lines hv
        rw [← this]; rfl
      subst this
      exact ⟨[], made_nil, rfl⟩
    next =>
      refine ⟨m :: ls, ?_, ?_⟩
      · have : Made (m ++ [10]) [m] := ⟨by simpa using hm, by simp⟩
        exact made_append this hv
      · simp [hd]
  have nl : str "\n" = [10] := by decide
  have resp : ∀ r : TResp, 10 ∉ r.phrase → (∀ c ∈ r.complaints, ∀ t ∈ c.title, 10 ∉ t) →
      ∃ ks, Made (responseBlock r) ks ∧
        ks.filter (fun l => l.head? != some 45) = r.complaints.map noticeLine := by
    intro r h1 h2
    obtain ⟨m, hm, _, hm10⟩ := (C41_markers ⟨none, [], []⟩ r).2
    have hd : m.head? = some 45 := by
      have : m = ellipsize (str "------------ response: " ++ intText r.status ++ str " " ++
          printable r.phrase) 60 := by
        rw [responseMarker] at hm
        exact (List.append_cancel_right hm).symm
      rw [this]
      exact marker_dash (.inr rfl) ⟨str " response: " ++ intText r.status ++ str " " ++
        printable r.phrase, by simp [str]⟩
    obtain ⟨ks, k1, k2⟩ := part m _ _ (hm10 h1) hd (notices r.complaints h2)
    rw [notMarker] at k2
    rw [nl] at hm
    rw [responseBlock, hm]
    exact ⟨ks, k1, k2⟩
  have resps : ∀ rs : List TResp, (∀ r ∈ rs, 10 ∉ r.phrase) →
      (∀ r ∈ rs, ∀ c ∈ r.complaints, ∀ t ∈ c.title, 10 ∉ t) →
      ∃ ks, Made (rs.flatMap responseBlock) ks ∧
        ks.filter (fun l => l.head? != some 45) = (rs.flatMap (·.complaints)).map noticeLine := by
    intro rs
    induction rs with
    | nil => exact fun _ _ => ⟨[], made_nil, rfl⟩
    | cons r rs ih =>
      intro h1 h2
      obtain ⟨ks, k1, k2⟩ := ih (fun q hq => h1 q (List.mem_cons_of_mem _ hq))
        fun q hq => h2 q (List.mem_cons_of_mem _ hq)
      obtain ⟨js, j1, j2⟩ := resp r (h1 r List.mem_cons_self) (h2 r List.mem_cons_self)
      refine ⟨js ++ ks, ?_, ?_⟩
      · rw [List.flatMap_cons]
        exact made_append j1 k1
      · rw [List.filter_append, j2, k2, List.flatMap_cons, List.map_append]
  have exch : ∀ e : TExch, OneLiners e → ∃ ks, Made (exchangeBlock e) ks ∧
      ks.filter (fun l => l.head? != some 45) = (noticesOf e).map noticeLine := by
    rintro e ⟨h1, h2, h3⟩
    obtain ⟨m, hm, _, hm10⟩ := (C41_markers e ⟨0, [], []⟩).1
    have hd : m.head? = some 45 := by
      rw [exchangeMarker] at hm
      rw [← List.append_cancel_right hm]
      refine marker_dash (.inl rfl) ?_
      split
      · exact ⟨str " request: " ++ _ ++ str " " ++ _, by simp [str]; rfl⟩
      · split
        · exact ⟨[], rfl⟩
        · exact ⟨str " unknown request", rfl⟩
    have hin : ∀ c, (c ∈ e.request.toList.flatMap (·.complaints) ∨
        c ∈ e.responses.flatMap (·.complaints) ∨ c ∈ e.complaints) → ∀ t ∈ c.title, 10 ∉ t := by
      intro c hc
      refine h3 c ?_
      simp only [noticesOf, List.mem_append]
      rcases hc with hc | hc | hc
      · exact .inl (.inl hc)
      · exact .inl (.inr hc)
      · exact .inr hc
    obtain ⟨rs, r1, r2⟩ := resps e.responses h2 fun r hr c hc =>
      hin c (.inr (.inl (List.mem_flatMap.2 ⟨r, hr, hc⟩)))
    have hreq : Made (requestLines e.request)
        ((e.request.toList.flatMap (·.complaints)).map noticeLine) := by
      cases hq : e.request with
      | none => exact made_nil
      | some r =>
        simp only [Option.toList_some, List.flatMap_cons, List.flatMap_nil, List.append_nil]
        exact notices _ fun c hc => hin c (.inl (by rw [hq]; simpa using hc))
    have hown := notices e.complaints fun c hc => hin c (.inr (.inr hc))
    obtain ⟨ks, k1, k2⟩ := part m _ _ (hm10 h1) hd (made_append (made_append hreq r1) hown)
    rw [nl] at hm
    rw [exchangeBlock, hm]
    refine ⟨ks, k1, ?_⟩
    rw [k2, List.filter_append, List.filter_append, notMarker, notMarker, r2, noticesOf,
      List.map_append, List.map_append]
  have all : ∀ es : List TExch, (∀ e ∈ es, OneLiners e) → ∃ ks, Made (textReport es) ks ∧
      ks.filter (fun l => l.head? != some 45) = (es.flatMap noticesOf).map noticeLine := by
    intro es
    induction es with
    | nil => exact fun _ => ⟨[], made_nil, rfl⟩
    | cons e es ih =>
      intro h
      obtain ⟨ks, k1, k2⟩ := ih fun q hq => h q (List.mem_cons_of_mem _ hq)
      obtain ⟨js, j1, j2⟩ := exch e (h e List.mem_cons_self)
      refine ⟨js ++ ks, made_append j1 k1, ?_⟩
      rw [List.filter_append, j2, k2, List.flatMap_cons, List.map_append]
  obtain ⟨ks, k1, k2⟩ := all es h
  rw [made_lines k1, k2]

/-- Whatever the data, the report has only characters that can be written as UTF-8 (no surrogates), and
no control characters other than tab, line feed and carriage return. -/
theorem C41_encodable (es : List TExch) : ∀ c ∈ textReport es, ¬ Forbidden c := by
  have pr : ∀ {s : Str} {c : Nat}, c ∈ printable s → ¬ Forbidden c := by
    intro s c hc
    exact (C42_printable_clean s).2.1 c hc
  have lit : ∀ {s : Str}, (∀ c ∈ s, ¬ Forbidden c) → ∀ {c : Nat}, c ∈ s → ¬ Forbidden c :=
    by intro s h c hc; exact h c hc
  have dig : ∀ {n c : Nat}, c ∈ decimalText n → ¬ Forbidden c := by
    intro n c hc
    have := toString_digits hc
    unfold Forbidden
    omega
  have line : ∀ {x : TComplaint} {c : Nat}, c ∈ complaintLine x → ¬ Forbidden c := by
    intro x c hc
    simp only [complaintLine, List.mem_append] at hc
    rcases hc with ((((hc | hc) | hc) | hc) | hc) | hc
    · revert hc
      cases x.severity <;> exact lit (by decide)
    · exact lit (by decide) hc
    · exact dig hc
    · exact lit (by decide) hc
    · rcases detypo_mem hc with hc | hc
      · rcases pieceText_mem (stripText_mem hc) with rfl | ⟨_, hf⟩
        · decide
        · exact hf
      · exact lit (by decide) hc
    · exact lit (by decide) hc
  have ell : ∀ {s : Str} {n : Int}, (∀ c ∈ s, ¬ Forbidden c) → ∀ c ∈ ellipsize s n, ¬ Forbidden c := by
    intro s n h c hc
    rcases ellipsize_mem hc with hc | rfl
    · exact h c hc
    · decide
  have rm : ∀ {r : TResp} {c : Nat}, c ∈ responseMarker r → ¬ Forbidden c := by
    intro r c hc
    rw [responseMarker] at hc
    rcases List.mem_append.1 hc with hc | hc
    · refine ell ?_ c hc
      intro d hd
      simp only [List.mem_append] at hd
      rcases hd with ((hd | hd) | hd) | hd
      · exact lit (by decide) hd
      · have := intText_chars hd
        unfold Forbidden
        omega
      · exact lit (by decide) hd
      · exact pr hd
    · exact lit (by decide) hc
  have em : ∀ {e : TExch} {c : Nat}, c ∈ exchangeMarker e → ¬ Forbidden c := by
    intro e c hc
    rw [exchangeMarker] at hc
    rcases List.mem_append.1 hc with hc | hc
    · refine ell ?_ c hc
      intro d hd
      split at hd
      · simp only [List.mem_append] at hd
        rcases hd with ((hd | hd) | hd) | hd
        · exact lit (by decide) hd
        · exact pr hd
        · exact lit (by decide) hd
        · exact pr hd
      · split at hd <;> exact lit (by decide) hd
    · exact lit (by decide) hc
  have wi : ∀ {a b : Str}, (∀ c ∈ a, ¬ Forbidden c) → (∀ c ∈ b, ¬ Forbidden c) →
      ∀ c ∈ writeIfAny a b, ¬ Forbidden c := by
    intro a b ha hb c hc
    rw [writeIfAny] at hc
    split at hc
    · cases hc
    · rcases List.mem_append.1 hc with hc | hc
      · exact ha c hc
      · exact hb c hc
  have lines : ∀ cs : List TComplaint, ∀ c ∈ cs.flatMap complaintLine, ¬ Forbidden c := by
    intro cs c hc
    obtain ⟨x, _, hx⟩ := List.mem_flatMap.1 hc
    exact line hx
  intro c hc
  obtain ⟨e, _, he⟩ := List.mem_flatMap.1 hc
  refine wi (fun _ h => em h) ?_ c he
  intro d hd
  rcases List.mem_append.1 hd with hd | hd
  · rcases List.mem_append.1 hd with hd | hd
    · cases hq : e.request with
      | none => rw [hq] at hd; cases hd
      | some r => rw [hq] at hd; exact lines _ d hd
    · obtain ⟨r, _, hr⟩ := List.mem_flatMap.1 hd
      exact wi (fun _ h => rm h) (lines _) d hr
  · exact lines _ d hd

/-! ## Examples -/

/-- A request with a notice, two responses the first of which has none, and an exchange without
notices. -/
def sampleReport : List TExch :=
  [⟨some ⟨str "GET", str "/", [⟨.error, 1031, [str "Host header is ", str "missing"]⟩]⟩,
    [⟨100, str "Continue", []⟩, ⟨200, str "OK", [⟨.comment, 1277, [str " Obsolete ‘X-’ prefix"]⟩]⟩], []⟩,
   ⟨some ⟨str "GET", str "/", []⟩, [], []⟩, ⟨none, [], [⟨.error, 1006, [str "Syntax\x00error"]⟩]⟩]

set_option maxRecDepth 10000 in
example : textReport sampleReport =
    str "------------ request: GET /\nE 1031 Host header is missing\n------------ response: 200 OK\nC 1277 Obsolete 'X-' prefix\n------------\nE 1006 Syntax�error\n" := by
  decide +kernel

example : ∀ e ∈ sampleReport, OneLiners e := by
  intro e he
  refine ⟨?_, ?_, ?_⟩
  · intro r hr
    simp only [sampleReport, List.mem_cons, List.not_mem_nil, or_false] at he
    rcases he with rfl | rfl | rfl <;> simp at hr <;> subst hr <;> decide
  · revert e; decide
  · revert e; decide

/-- A line feed in a title would make two lines. -/
example : (linesOf (textReport [⟨none, [], [⟨.error, 1, [str "a\nb"]⟩]⟩])).length = 3 := by
  decide +kernel

end Httpolice.Props
