import Verif.Lemmas.Runs
import Verif.Spec.Analysis

/-!
# Lemmas about the codings of bodies
-/

namespace Httpolice.Lemmas

open Httpolice.Model
open Httpolice.Spec

theorem reports_append (a b : List FNote) : codingReports (a ++ b) = codingReports a ++ codingReports b := by
  simp [codingReports]

theorem reports_lines (cs : List (Nat × Nat)) : codingReports (lineNotes cs) = [] := by
  unfold codingReports lineNotes
  rw [List.map_eq_nil_iff, List.filter_eq_nil_iff]
  intro n hn
  obtain ⟨c, -, rfl⟩ := List.mem_map.1 hn
  simp

/-- The decoders of framing are those. -/
structure Decodes (env : FrameEnv) (L : Codecs) : Prop where
  gunzip : env.gunzip = L.gunzip
  inflate : env.inflate = L.inflate

theorem decode_taken {env : FrameEnv} {L : Codecs} (hd : Decodes env L) (cs : List Coding) (b : Str) :
    Taken L cs b (decodeCodings env cs (.bytes b)).1 (codingReports (decodeCodings env cs (.bytes b)).2) := by
  induction cs generalizing b with
  | nil => exact .inl ⟨b, .nothing b, rfl, rfl⟩
  | cons c cs ih =>
    have stop : ∀ ids, decodeTransferCoding env b c = (.unavailable (some b), ids) → Obstacle L b c (codingReports ids) →
        Taken L (c :: cs) b (decodeCodings env (c :: cs) (.bytes b)).1
          (codingReports (decodeCodings env (c :: cs) (.bytes b)).2) := by
      intro ids h ho
      simp only [decodeCodings, h, decode_unavailable, List.append_nil]
      exact .inr ⟨[], c, cs, b, rfl, .nothing b, ho, rfl⟩
    have go : ∀ b', decodeTransferCoding env b c = (.bytes b', []) →
        (∀ ks d, Peeled L ks b' d → Peeled L (c :: ks) b d) →
        Taken L (c :: cs) b (decodeCodings env (c :: cs) (.bytes b)).1
          (codingReports (decodeCodings env (c :: cs) (.bytes b)).2) := by
      intro b' h hp
      simp only [decodeCodings, h, List.nil_append]
      rcases ih b' with ⟨d, h1, h2, h3⟩ | ⟨pre, k, post, d, rfl, h2, h3, h4⟩
      · exact .inl ⟨d, hp _ _ h1, h2, h3⟩
      · exact .inr ⟨c :: pre, k, post, d, rfl, hp _ _ h2, h3, h4⟩
    cases c with
    | chunked => exact stop _ rfl rfl
    | other => exact stop _ rfl rfl
    | unavailable => exact stop _ rfl rfl
    | gzip =>
      cases h : env.gunzip b with
      | none => exact stop [plainNote 1027] (by simp only [decodeTransferCoding, h]) ⟨by rw [← hd.gunzip, h], rfl⟩
      | some b' => exact go b' (by simp only [decodeTransferCoding, h]) fun ks d hp => .gzip (by rw [← hd.gunzip, h]) hp
    | deflate =>
      cases h : env.inflate b with
      | none => exact stop [plainNote 1027] (by simp only [decodeTransferCoding, h]) ⟨by rw [← hd.inflate, h], rfl⟩
      | some b' => exact go b' (by simp only [decodeTransferCoding, h]) fun ks d hp => .deflate (by rw [← hd.inflate, h]) hp

/-- What a body with codings is, read from `s`. -/
def CodedBody (L : Codecs) (before : List Coding) (s : SS) (res : BodyRes) : Prop :=
  (res.body = .unavailable none ∧ (⟨1005, none⟩ ∈ res.notes ∨ ⟨1298, none⟩ ∈ res.notes) ∧ codingReports res.notes = []) ∨
  ∃ (g : WChunked) (data rest : Str), s.rest = g.bytes ++ rest ∧ g.Holds data res.trailers ∧
    Taken L before.reverse data res.body (codingReports res.notes)

theorem chunked_coded {env : FrameEnv} {L : Codecs} (hd : Decodes env L) {s s' : SS} {r : BodyRes} (cs : List Coding)
    (h : parseChunked s = .ok r s') (hc : s.complaints = []) :
    CodedBody L cs.reverse s ⟨(decodeCodings env cs r.body).1, r.trailers,
      r.notes ++ (decodeCodings env cs r.body).2⟩ ∧ ⟨1001, none⟩ ∉ r.notes ++ (decodeCodings env cs r.body).2 := by
  have hlines := parseChunked_lines h hc
  have hfail : r.body = .unavailable none → r.notes = [plainNote 1005] ∨ r.notes = [plainNote 1298] := by
    intro hb
    unfold parseChunked at h
    split at h
    · cases h; exact .inl rfl
    · cases h; exact .inr rfl
    · cases h
    · simp only [Out.ok.injEq] at h
      obtain ⟨rfl, rfl⟩ := h
      cases hb
  have hdec : ∀ b, ∀ n ∈ (decodeCodings env cs b).2, n.id ≠ 1001 := by
    intro b n hn
    have := decode_1298 env cs b n hn
    omega
  rcases hlines with ⟨hb, _, _, _⟩ | ⟨g, data, h1, h2, h3, h4, h5⟩
  · rw [hb, decode_unavailable, List.append_nil]
    rcases hfail hb with hn | hn <;> rw [hn]
    · exact ⟨.inl ⟨rfl, .inl (by simp [plainNote]), rfl⟩, by simp [plainNote]⟩
    · exact ⟨.inl ⟨rfl, .inr (by simp [plainNote]), rfl⟩, by simp [plainNote]⟩
  · refine ⟨.inr ⟨g, data, s'.rest, h3, h1, ?_⟩, ?_⟩
    · simp only [h2, h5, List.reverse_reverse]
      rw [reports_append, reports_lines, List.nil_append]
      exact decode_taken hd cs data
    · rw [List.mem_append]
      rintro (hn | hn)
      · rw [h5] at hn
        simp [lineNotes] at hn
      · exact hdec _ _ hn rfl

theorem request_coded {env : FrameEnv} {L : Codecs} (hd : Decodes env L) {es : List Entry} {s s' : SS} {res : BodyRes}
    (h : parseRequestBody env es s = .ok res s') (hc : s.complaints = []) {cs : List Coding} {c : Coding}
    (hte : codings env es = cs ++ [c]) :
    (c = .chunked ∧ CodedBody L cs s res ∧ ⟨1001, none⟩ ∉ res.notes) ∨
    (c ≠ .chunked ∧ res.body = .unavailable none ∧ res.trailers = [] ∧ res.notes = [⟨1001, none⟩] ∧ s'.sane = false ∧ s'.rest = s.rest) := by
  unfold parseRequestBody at h
  rw [codings_eq, hte, List.reverse_append, List.reverse_singleton, List.singleton_append] at h
  simp only at h
  by_cases hcc : c = .chunked
  · subst hcc
    rw [if_pos rfl] at h
    cases hp : parseChunked s with
    | exc e s1 => rw [hp] at h; cases h
    | ok r s1 =>
      rw [hp] at h
      simp only [Out.ok.injEq] at h
      obtain ⟨rfl, rfl⟩ := h
      have := chunked_coded hd cs.reverse hp hc
      rw [List.reverse_reverse] at this
      exact .inl ⟨rfl, this⟩
  · rw [if_neg hcc] at h
    simp only [Out.ok.injEq] at h
    obtain ⟨rfl, rfl⟩ := h
    rw [decode_unavailable]
    exact .inr ⟨hcc, rfl, rfl, rfl, rfl, rfl⟩

theorem request_plain {env : FrameEnv} {es : List Entry} {s s' : SS} {res : BodyRes}
    (h : parseRequestBody env es s = .ok res s') (hte : codings env es = []) :
    codingReports res.notes = [] ∧ ⟨1001, none⟩ ∉ res.notes := by
  unfold parseRequestBody at h
  rw [codings_eq, hte] at h
  simp only [List.reverse_nil] at h
  split at h
  · unfold processContentLength at h
    split at h
    · cases h; exact ⟨rfl, by simp⟩
    · cases h; exact ⟨rfl, by simp⟩
    · split at h
      · cases h; exact ⟨by decide, by simp [plainNote]⟩
      · split at h
        · cases h; exact ⟨by decide, by simp [plainNote]⟩
        · cases h
        · cases h; exact ⟨rfl, by simp⟩
  · cases h; exact ⟨rfl, by simp⟩

theorem response_coded {env : FrameEnv} {L : Codecs} (hd : Decodes env L) {m : Option Str} {st : Nat} {es : List Entry}
    {s s' : SS} {res : BodyRes} (h : parseResponseBody env m st es s = .ok res s') (hc : s.complaints = [])
    (hb : HasBody m st) {cs : List Coding} {c : Coding} (hte : codings env es = cs ++ [c]) :
    (c = .chunked ∧ CodedBody L cs s res) ∨
    (c ≠ .chunked ∧ Taken L (c :: cs.reverse) s.rest res.body (codingReports res.notes) ∧ s'.rest = []) := by
  unfold parseResponseBody at h
  rw [if_neg (by have := hb.interim; omega), if_neg (by
    rintro ⟨h1, h2⟩
    apply hb.connect
    simp only [successful, Bool.and_eq_true, decide_eq_true_eq] at h2
    exact ⟨h1, h2⟩), if_neg (by
    have h1 := hb.interim; have h2 := hb.s204; have h3 := hb.s304; have h4 := hb.head
    simp only [informational, Bool.and_eq_true, decide_eq_true_eq]
    rintro (h | h | h | h)
    · exact h1 h
    · exact h2 h
    · exact h3 h
    · exact h4 h)] at h
  rw [codings_eq, hte, List.reverse_append, List.reverse_singleton, List.singleton_append] at h
  simp only at h
  by_cases hcc : c = .chunked
  · subst hcc
    rw [if_pos rfl] at h
    cases hp : parseChunked s with
    | exc e s1 => rw [hp] at h; cases h
    | ok r s1 =>
      rw [hp] at h
      simp only [if_true, Out.ok.injEq] at h
      obtain ⟨rfl, rfl⟩ := h
      have := (chunked_coded hd cs.reverse hp hc).1
      rw [List.reverse_reverse] at this
      exact .inl ⟨rfl, this⟩
  · rw [if_neg hcc] at h
    cases hp : readToEnd s with
    | exc e s1 => rw [hp] at h; cases h
    | ok r s1 =>
      rw [hp] at h
      simp only [if_neg hcc, Out.ok.injEq] at h
      obtain ⟨rfl, rfl⟩ := h
      unfold readToEnd at hp
      split at hp
      · cases hp
      · rename_i b s2 hr
        cases hp
        unfold SS.read at hr
        rw [if_neg (by decide)] at hr
        simp only [SS.taken] at hr
        rw [if_neg (by omega)] at hr
        cases hr
        exact .inr ⟨hcc, decode_taken hd _ _, by simp [SS.advance]⟩

/-! ## IDs -/

theorem lineFaults_ids {off : Nat} {l : WLine} : ∀ c ∈ lineFaults off l, c.1 = 1016 ∨ c.1 = 1224 := by
  intro c hc
  unfold lineFaults at hc
  split at hc
  · simp at hc
  · rw [List.mem_singleton] at hc; subst hc; simp

theorem foldFaults_ids : ∀ fs off, ∀ c ∈ foldFaults off fs, c.1 = 1016 ∨ c.1 = 1224 := by
  intro fs
  induction fs with
  | nil => simp [foldFaults]
  | cons f fs ih =>
    intro off c hc
    simp only [foldFaults, List.mem_append, List.mem_singleton] at hc
    rcases hc with (hc | hc) | hc
    · subst hc; simp
    · exact lineFaults_ids c hc
    · exact ih _ c hc

theorem blockFaults_ids : ∀ fs off, ∀ c ∈ blockFaults off fs, c.1 = 1016 ∨ c.1 = 1224 := by
  intro fs
  induction fs with
  | nil => simp [blockFaults]
  | cons f fs ih =>
    intro off c hc
    simp only [blockFaults, List.mem_append] at hc
    rcases hc with (hc | hc) | hc
    · exact lineFaults_ids c hc
    · exact foldFaults_ids _ _ c hc
    · exact ih _ c hc

theorem chunksFaults_ids : ∀ cs off, ∀ c ∈ chunksFaults off cs, c.1 = 1016 ∨ c.1 = 1224 := by
  intro cs
  induction cs with
  | nil => simp [chunksFaults]
  | cons k cs ih =>
    intro off c hc
    obtain ⟨l, d, cr⟩ := k
    simp only [chunksFaults, List.mem_append] at hc
    rcases hc with (hc | hc) | hc
    · exact lineFaults_ids c hc
    · exact lineFaults_ids c hc
    · exact ih _ c hc

theorem heading_ids {hs : WHeading} {off : Nat} : ∀ n ∈ lineNotes (hs.faults off), n.id = 1016 ∨ n.id = 1224 := by
  intro n hn
  obtain ⟨c, hc, rfl⟩ := List.mem_map.1 hn
  simp only [WHeading.faults, List.mem_append] at hc
  rcases hc with (hc | hc) | hc
  · exact lineFaults_ids c hc
  · exact blockFaults_ids _ _ c hc
  · exact lineFaults_ids c hc

theorem framing_ids {g : WChunked} {off : Nat} : ∀ n ∈ lineNotes (g.faults off), n.id = 1016 ∨ n.id = 1224 := by
  intro n hn
  obtain ⟨c, hc, rfl⟩ := List.mem_map.1 hn
  simp only [WChunked.faults, List.mem_append] at hc
  rcases hc with ((hc | hc) | hc) | hc
  · exact chunksFaults_ids _ _ c hc
  · exact lineFaults_ids c hc
  · exact blockFaults_ids _ _ c hc
  · exact lineFaults_ids c hc

/-- IDs of notices about bodies, other than 1011 and 1012. -/
def bodyIds : List Nat := [1001, 1002, 1003, 1004, 1005, 1016, 1027, 1224, 1298]

theorem decode_ids (env : FrameEnv) (cs : List Coding) (b : Body) : ∀ n ∈ (decodeCodings env cs b).2, n.id ∈ bodyIds := by
  intro n hn
  have := decode_1298 env cs b n hn
  simp only [bodyIds, List.mem_cons, List.not_mem_nil, or_false]
  omega

theorem chunked_ids {s s' : SS} {r : BodyRes} (h : parseChunked s = .ok r s') (hc : s.complaints = []) :
    ∀ n ∈ r.notes, n.id ∈ bodyIds := by
  have hl := parseChunked_lines h hc
  unfold parseChunked at h
  split at h
  · cases h; simp [plainNote, bodyIds]
  · cases h; simp [plainNote, bodyIds]
  · cases h
  · simp only [Out.ok.injEq] at h
    obtain ⟨rfl, rfl⟩ := h
    rcases hl with ⟨hb, _⟩ | ⟨g, data, _, _, _, _, h5⟩
    · cases hb
    · rw [h5]
      intro n hn
      rcases framing_ids n hn with h | h <;> rw [h] <;> decide

theorem sized_ids {n : PyVal Nat} {s s' : SS} {res : BodyRes} (h : processContentLength n s = .ok res s') :
    ∀ n ∈ res.notes, n.id ∈ bodyIds := by
  unfold processContentLength at h
  split at h
  · cases h; simp
  · cases h; simp
  · split at h
    · cases h; simp [plainNote, bodyIds]
    · split at h
      · cases h; simp [plainNote, bodyIds]
      · cases h
      · cases h; simp

theorem requestBody_ids {env : FrameEnv} {es : List Entry} {s s' : SS} {res : BodyRes}
    (h : parseRequestBody env es s = .ok res s') (hc : s.complaints = []) : ∀ n ∈ res.notes, n.id ∈ bodyIds := by
  unfold parseRequestBody at h
  split at h
  · rename_i c cs hte
    simp only at h
    split at h
    · cases h
    · rename_i r s1 hr
      simp only [Out.ok.injEq] at h
      obtain ⟨rfl, rfl⟩ := h
      intro n hn
      rcases List.mem_append.1 hn with hn | hn
      · split at hr
        · exact chunked_ids hr hc n hn
        · cases hr
          simp only [List.mem_singleton] at hn
          subst hn
          simp [plainNote, bodyIds]
      · exact decode_ids env _ _ n hn
  · split at h
    · exact sized_ids h
    · cases h; simp

theorem responseBody_ids {env : FrameEnv} {m : Option Str} {st : Nat} {es : List Entry} {s s' : SS} {res : BodyRes}
    (h : parseResponseBody env m st es s = .ok res s') (hc : s.complaints = []) : ∀ n ∈ res.notes, n.id ∈ 1011 :: 1012 :: bodyIds := by
  have toEnd : ∀ {s s' : SS} {r : BodyRes}, readToEnd s = .ok r s' → r.notes = [] := by
    intro s s' r h
    unfold readToEnd at h
    split at h
    · cases h
    · cases h; rfl
  unfold parseResponseBody at h
  split at h
  · cases h; simp [plainNote, bodyIds]
  · split at h
    · cases h; simp [plainNote, bodyIds]
    · split at h
      · cases h; simp
      · split at h
        · simp only at h
          split at h
          · cases h
          · rename_i r s1 hr
            simp only [Out.ok.injEq] at h
            obtain ⟨rfl, rfl⟩ := h
            intro n hn
            rcases List.mem_append.1 hn with hn | hn
            · split at hr
              · exact List.mem_cons_of_mem _ (List.mem_cons_of_mem _ (chunked_ids hr hc n hn))
              · rw [toEnd hr] at hn; cases hn
            · exact List.mem_cons_of_mem _ (List.mem_cons_of_mem _ (decode_ids env _ _ n hn))
        · split at h
          · rw [toEnd h]; simp
          · exact fun n hn => List.mem_cons_of_mem _ (List.mem_cons_of_mem _ (sized_ids h n hn))

/-! ## Complaint boxes -/

/-- The IDs that boxes have. -/
def boxIds : List Nat := [1006, 1007, 1008, 1009, 1010]

theorem boxIf_ids {b : Bool} {k id : Nat} (hk : k ∈ boxIds) (h : Yield.box id ∈ boxIf b k) : id ∈ boxIds := by
  unfold boxIf at h
  split at h
  · rw [List.mem_singleton] at h
    cases h
    exact hk
  · cases h

theorem requestLoop_boxes (env : FrameEnv) (fuel : Nat) (i : SS) (o : Option SS) (id : Nat)
    (h : Yield.box id ∈ (requestLoop env fuel i o).1) : id ∈ boxIds := by
  induction fuel generalizing i o with
  | zero => cases h
  | succ fuel ih =>
    unfold requestLoop at h
    split at h
    · split at h
      · cases h
      · simp only [List.mem_cons, Yield.box.injEq] at h
        rcases h with rfl | h
        · decide
        · exact ih _ _ h
      · split at h
        · simp only [List.mem_cons, reduceCtorEq, false_or] at h
          exact ih _ _ h
        · split at h
          · split at h
            · cases h
            · simp only [List.cons_append, List.mem_cons, reduceCtorEq, false_or, List.mem_append] at h
              rcases h with h | h
              · exact boxIf_ids (by decide) h
              · exact ih _ _ h
          · simp only [List.mem_cons, reduceCtorEq, false_or] at h
            exact ih _ _ h
    · cases h

theorem responseLoop_boxes (env : FrameEnv) (fuel : Nat) (o : SS) (id : Nat)
    (h : Yield.box id ∈ (responseLoop env fuel o).1) : id ∈ boxIds := by
  induction fuel generalizing o with
  | zero => cases h
  | succ fuel ih =>
    unfold responseLoop at h
    split at h
    · split at h
      · cases h
      · simp only [List.mem_append] at h
        rcases h with (h | h) | h
        · split at h
          · cases h
          · simp at h
        · exact boxIf_ids (by decide) h
        · exact ih _ h
    · cases h

theorem finish_boxes (env : FrameEnv) (i o : Option SS) (id : Nat)
    (h : Yield.box id ∈ (finishStreams env i o).1) : id ∈ boxIds := by
  unfold finishStreams at h
  simp only at h
  split at h
  · exact boxIf_ids (by decide) h
  · split at h
    · split at h
      · simp only [List.mem_append] at h
        rcases h with (h | h) | h
        · exact boxIf_ids (by decide) h
        · exact boxIf_ids (by decide) h
        · exact responseLoop_boxes _ _ _ _ h
      · simp only [List.mem_append] at h
        rcases h with ((h | h) | h) | h
        · exact boxIf_ids (by decide) h
        · exact boxIf_ids (by decide) h
        · exact responseLoop_boxes _ _ _ _ h
        · exact boxIf_ids (by decide) h
    · simp only [List.mem_append] at h
      rcases h with h | h
      · exact boxIf_ids (by decide) h
      · exact boxIf_ids (by decide) h

theorem streams_boxes (env : FrameEnv) (i o : Option SS) (id : Nat)
    (h : Yield.box id ∈ (parseStreams env i o).1) : id ∈ boxIds := by
  unfold parseStreams at h
  split at h
  · exact finish_boxes _ _ _ _ h
  · rename_i i0
    have hr := requestLoop_boxes env (i0.rest.length + 2) i0 o id
    split at h
    · rename_i ys e he
      rw [he] at hr
      exact hr h
    · rename_i ys i' o' he
      rw [he] at hr
      simp only [List.mem_append] at h
      rcases h with h | h
      · exact hr h
      · exact finish_boxes _ _ _ _ h

end Httpolice.Lemmas
