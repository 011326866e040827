import Verif.Model.Framing
import Verif.Lemmas.Stream
import Verif.Spec.Framing

/-!
# Lemmas about message framing: progress, failures, complaints
-/

namespace Httpolice.Lemmas

open Httpolice.Model

/-- A parse error, after which the stream is not sane. -/
def Bad (e : Exc) (s : SS) : Prop := (∃ p, e = .parse p) ∧ s.sane = false

/-- New complaints are about lines read in between. -/
def Logs (s s' : SS) : Prop :=
  ∃ new, s'.complaints = s.complaints ++ new ∧ ∀ c ∈ new, s.pos ≤ c.2 ∧ c.2 < s'.pos

theorem Logs.refl (s : SS) : Logs s s := ⟨[], by simp, by simp⟩

theorem Logs.trans {a b c : SS} (h : Logs a b) (h' : Logs b c) (s : Step a b) (s' : Step b c) :
    Logs a c := by
  obtain ⟨n1, e1, p1⟩ := h
  obtain ⟨n2, e2, p2⟩ := h'
  refine ⟨n1 ++ n2, by rw [e2, e1, List.append_assoc], ?_⟩
  intro x hx
  have := s.pos_le
  have := s'.pos_le
  rcases List.mem_append.1 hx with hx | hx
  · have := p1 x hx; omega
  · have := p2 x hx; omega

theorem readline_logs {s s' : SS} {r : Str} (h : s.readline = .ok r s') : Logs s s' := by
  have hlt := readline_lt h
  rcases line_cases maxLineLength s.rest with ⟨a, t, hs, ha, hl⟩ | h'
  · rw [readline_found s a t hs ha hl] at h
    cases h
    by_cases h13 : a.getLast? = some 13
    · exact ⟨[], by simp [h13], by simp⟩
    · refine ⟨[(1224, s.pos)], by simp [h13], ?_⟩
      intro c hc
      rw [List.mem_singleton] at hc
      subst hc
      simp only at hlt ⊢
      omega
  · rw [readline_notfound s h'] at h; cases h

theorem readline_ends {s s' : SS} {r : Str} (h : s.readline = .ok r s') :
    ∃ p, s.rest = p ++ [10] ++ s'.rest := by
  rcases line_cases maxLineLength s.rest with ⟨a, t, hs, ha, hl⟩ | h'
  · rw [readline_found s a t hs ha hl] at h
    cases h
    exact ⟨a, by simp [hs]⟩
  · rw [readline_notfound s h'] at h; cases h

theorem ends_of_step {s s1 s2 : SS} (st : Step s s1) (h : ∃ p, s1.rest = p ++ [10] ++ s2.rest) :
    ∃ p, s.rest = p ++ [10] ++ s2.rest := by
  obtain ⟨n, _, hr, _⟩ := st.adv
  obtain ⟨p, hp⟩ := h
  refine ⟨s.rest.take n ++ p, ?_⟩
  rw [List.append_assoc, List.append_assoc, ← List.append_assoc p, ← hp, hr, List.take_append_drop]

theorem readlineend_logs {s s' : SS} {u : Unit} (h : s.readlineend = .ok u s') : Logs s s' :=
  readline_logs (readlineend_ok h)

theorem read_logs {s s' : SS} {n : Int} {r : Str} (h : s.read n = .ok r s') : Logs s s' :=
  ⟨[], by simp [read_complaints h], by simp⟩

theorem Step.of_ok {α : Type} {o : Out α} {a : α} {s s' : SS} (h : Step s (state o))
    (he : o = .ok a s') : Step s s' := by rw [he] at h; exact h

theorem Step.of_exc {α : Type} {o : Out α} {e : Exc} {s s' : SS} (h : Step s (state o))
    (he : o = .exc e s') : Step s s' := by rw [he] at h; exact h

/-! ## Header fields -/

theorem contLines_step (fuel : Nat) (s : SS) : Step s (state (contLines fuel s)) := by
  induction fuel generalizing s with
  | zero => exact Step.refl s
  | succ fuel ih =>
    unfold contLines
    split
    · have h1 := Step.trans (complaints_step s _) (readline_step (s.complain 1016 s.pos))
      cases hr : (s.complain 1016 s.pos).readline with
      | exc e s' => exact h1.of_exc hr
      | ok r s' =>
        have h2 := h1.of_ok hr
        simp only
        cases hc : contLines fuel s' with
        | exc e s2 => exact Step.trans h2 ((ih s').of_exc hc)
        | ok vs s2 => exact Step.trans h2 ((ih s').of_ok hc)
    · exact Step.refl s

theorem contLines_exc (fuel : Nat) {s s' : SS} {e : Exc} (hf : s.rest.length < fuel)
    (h : contLines fuel s = .exc e s') : Bad e s' := by
  induction fuel generalizing s with
  | zero => omega
  | succ fuel ih =>
    unfold contLines at h
    split at h
    · have h1 := Step.trans (complaints_step s _) (readline_step (s.complain 1016 s.pos))
      cases hr : (s.complain 1016 s.pos).readline with
      | exc e1 s1 =>
        rw [hr] at h; cases h
        exact ⟨⟨_, (readline_exc hr).1⟩, (readline_exc hr).2⟩
      | ok r s1 =>
        have hlt : s.pos < s1.pos := readline_lt (s := s.complain 1016 s.pos) hr
        have hlen := (h1.of_ok hr).len
        rw [hr] at h
        simp only at h
        cases hc : contLines fuel s1 with
        | exc e2 s2 =>
          rw [hc] at h; cases h
          exact ih (by omega) hc
        | ok vs s2 => rw [hc] at h; cases h
    · cases h

theorem contLines_logs (fuel : Nat) {s s' : SS} {vs : List Str}
    (h : contLines fuel s = .ok vs s') : Logs s s' ∧ s'.sane = s.sane := by
  induction fuel generalizing s vs with
  | zero => cases h
  | succ fuel ih =>
    unfold contLines at h
    split at h
    · have h1 := Step.trans (complaints_step s _) (readline_step (s.complain 1016 s.pos))
      cases hr : (s.complain 1016 s.pos).readline with
      | exc e1 s1 => rw [hr] at h; cases h
      | ok r s1 =>
        have hlt : s.pos < s1.pos := readline_lt (s := s.complain 1016 s.pos) hr
        have hs1 : s1.sane = s.sane := by
          have := readline_sane hr; exact this
        obtain ⟨new, hn, hp⟩ := readline_logs hr
        have hlog : Logs s s1 := by
          refine ⟨(1016, s.pos) :: new, by rw [hn]; simp [SS.complain], ?_⟩
          intro c hc
          rcases List.mem_cons.1 hc with rfl | hc
          · simp only; omega
          · exact hp c hc
        rw [hr] at h
        simp only at h
        cases hc : contLines fuel s1 with
        | exc e2 s2 => rw [hc] at h; cases h
        | ok vs2 s2 =>
          rw [hc] at h; cases h
          have := ih hc
          exact ⟨hlog.trans this.1 (h1.of_ok hr) ((contLines_step fuel s1).of_ok hc),
            by rw [this.2, hs1]⟩
    · cases h
      exact ⟨Logs.refl _, rfl⟩

theorem headerLoop_step (fuel : Nat) (s : SS) : Step s (state (headerLoop fuel s)) := by
  induction fuel generalizing s with
  | zero => exact Step.refl s
  | succ fuel ih =>
    unfold headerLoop
    split
    · exact Step.refl s
    · have h1 := readline_step s
      cases hr : s.readline with
      | exc e s' => exact h1.of_exc hr
      | ok line s' =>
        have h2 := h1.of_ok hr
        simp only
        cases hp : partitionOn 58 line with
        | none => exact Step.trans h2 (insane_step _)
        | some nv =>
          obtain ⟨name, v⟩ := nv
          simp only
          cases hc : contLines fuel s' with
          | exc e s2 => exact Step.trans h2 ((contLines_step fuel s').of_exc hc)
          | ok vs s2 =>
            have h3 := Step.trans h2 ((contLines_step fuel s').of_ok hc)
            simp only
            cases hh : headerLoop fuel s2 with
            | exc e s3 => exact Step.trans h3 ((ih s2).of_exc hh)
            | ok es s3 => exact Step.trans h3 ((ih s2).of_ok hh)

theorem headerLoop_exc (fuel : Nat) {s s' : SS} {e : Exc} (hf : s.rest.length < fuel)
    (h : headerLoop fuel s = .exc e s') : Bad e s' := by
  induction fuel generalizing s with
  | zero => omega
  | succ fuel ih =>
    unfold headerLoop at h
    split at h
    · cases h
    · cases hr : s.readline with
      | exc e1 s1 =>
        rw [hr] at h; cases h
        exact ⟨⟨_, (readline_exc hr).1⟩, (readline_exc hr).2⟩
      | ok line s1 =>
        have hlt := readline_lt hr
        have hlen := ((readline_step s).of_ok hr).len
        rw [hr] at h
        simp only at h
        cases hp : partitionOn 58 line with
        | none =>
          rw [hp] at h
          simp only [SS.error, Out.exc.injEq] at h
          exact ⟨⟨_, h.1.symm⟩, by rw [← h.2]⟩
        | some nv =>
          obtain ⟨name, v⟩ := nv
          rw [hp] at h
          simp only at h
          cases hc : contLines fuel s1 with
          | exc e2 s2 =>
            rw [hc] at h; cases h
            exact contLines_exc fuel (by omega) hc
          | ok vs s2 =>
            have hlen2 := ((contLines_step fuel s1).of_ok hc).len
            have hle2 := ((contLines_step fuel s1).of_ok hc).pos_le
            rw [hc] at h
            simp only at h
            cases hh : headerLoop fuel s2 with
            | exc e3 s3 =>
              rw [hh] at h; cases h
              exact ih (by omega) hh
            | ok es s3 => rw [hh] at h; cases h

theorem headerLoop_logs (fuel : Nat) {s s' : SS} {es : List Entry}
    (h : headerLoop fuel s = .ok es s') : Logs s s' ∧ s'.sane = s.sane := by
  induction fuel generalizing s es with
  | zero => cases h
  | succ fuel ih =>
    unfold headerLoop at h
    split at h
    · cases h; exact ⟨Logs.refl _, rfl⟩
    · cases hr : s.readline with
      | exc e1 s1 => rw [hr] at h; cases h
      | ok line s1 =>
        have hst1 := (readline_step s).of_ok hr
        rw [hr] at h
        simp only at h
        cases hp : partitionOn 58 line with
        | none => rw [hp] at h; cases h
        | some nv =>
          obtain ⟨name, v⟩ := nv
          rw [hp] at h
          simp only at h
          cases hc : contLines fuel s1 with
          | exc e2 s2 => rw [hc] at h; cases h
          | ok vs s2 =>
            have hst2 := (contLines_step fuel s1).of_ok hc
            rw [hc] at h
            simp only at h
            cases hh : headerLoop fuel s2 with
            | exc e3 s3 => rw [hh] at h; cases h
            | ok es2 s3 =>
              rw [hh] at h; cases h
              have h1 := readline_logs hr
              have h2 := contLines_logs fuel hc
              have h3 := ih hh
              refine ⟨(h1.trans h2.1 hst1 hst2).trans h3.1 (hst1.trans hst2)
                ((headerLoop_step fuel s2).of_ok hh), ?_⟩
              rw [h3.2, h2.2, readline_sane hr]

theorem headerFields_step (s : SS) : Step s (state (parseHeaderFields s)) := headerLoop_step _ s

theorem headerFields_exc {s s' : SS} {e : Exc} (h : parseHeaderFields s = .exc e s') : Bad e s' :=
  headerLoop_exc _ (Nat.lt_succ_self _) h

theorem headerFields_logs {s s' : SS} {es : List Entry} (h : parseHeaderFields s = .ok es s') :
    Logs s s' ∧ s'.sane = s.sane := headerLoop_logs _ h

/-! ## Headings -/

theorem reqHeading_step' (s : SS) : Step (state s.readline) (state (parseRequestHeading s)) := by
  unfold parseRequestHeading
  cases hr : s.readline with
  | exc e s' => exact Step.refl s'
  | ok line s1 =>
    have h1 : Step s1 s1 := Step.refl s1
    show Step s1 _
    simp only
    split
    · split
      · have h2 := headerFields_step s1
        cases hh : parseHeaderFields s1 with
        | exc e s2 => exact h1.trans (h2.of_exc hh)
        | ok es s2 =>
          have h2 := h1.trans (h2.of_ok hh)
          have h3 := readlineend_step s2
          simp only
          cases hl : s2.readlineend with
          | exc e s3 => exact h2.trans (h3.of_exc hl)
          | ok u s3 => exact (h2.trans (h3.of_ok hl)).trans (complaints_step _ _)
      · exact h1.trans (insane_step _)
    · exact h1.trans (insane_step _)

theorem reqHeading_step (s : SS) : Step s (state (parseRequestHeading s)) :=
  (readline_step s).trans (reqHeading_step' s)

theorem reqHeading_touched (s : SS) (hi : s.eof = true → s.rest = []) :
    (state (parseRequestHeading s)).eof = true ↔ (state (parseRequestHeading s)).rest = [] :=
  (reqHeading_step' s).touch (readline_touched s hi)

theorem bad_of_readline {s s' : SS} {e : Exc} (h : s.readline = .exc e s') : Bad e s' :=
  ⟨⟨_, (readline_exc h).1⟩, (readline_exc h).2⟩

theorem bad_of_error {α : Type} {s s' : SS} {p : Nat} {e : Exc}
    (h : (s.error p : Out α) = .exc e s') : Bad e s' := by
  simp only [SS.error, Out.exc.injEq] at h
  exact ⟨⟨_, h.1.symm⟩, by rw [← h.2]⟩

theorem reqHeading_exc {s s' : SS} {e : Exc} (h : parseRequestHeading s = .exc e s') : Bad e s' := by
  unfold parseRequestHeading at h
  cases hr : s.readline with
  | exc e1 s1 => rw [hr] at h; cases h; exact bad_of_readline hr
  | ok line s1 =>
    rw [hr] at h
    simp only at h
    split at h
    · split at h
      · cases hh : parseHeaderFields s1 with
        | exc e2 s2 => rw [hh] at h; cases h; exact headerFields_exc hh
        | ok es s2 =>
          rw [hh] at h
          simp only at h
          cases hl : s2.readlineend with
          | exc e3 s3 => rw [hl] at h; cases h; exact readlineend_exc hl
          | ok u s3 => rw [hl] at h; cases h
      · exact bad_of_error h
    · exact bad_of_error h

/-- What a successful request heading tells. -/
theorem reqHeading_ok {s s' : SS} {hd : ReqHeading} (h : parseRequestHeading s = .ok hd s') :
    hd.start = s.pos ∧ s.pos < s'.pos ∧ s'.complaints = [] ∧ s'.sane = s.sane ∧
    (∃ new, hd.notes = lineNotes (s.complaints ++ new) ∧ ∀ c ∈ new, s.pos ≤ c.2 ∧ c.2 < s'.pos) ∧ ∃ p, s.rest = p ++ [10] ++ s'.rest := by
  unfold parseRequestHeading at h
  cases hr : s.readline with
  | exc e1 s1 => rw [hr] at h; cases h
  | ok line s1 =>
    rw [hr] at h
    simp only at h
    split at h
    · split at h
      · cases hh : parseHeaderFields s1 with
        | exc e2 s2 => rw [hh] at h; cases h
        | ok es s2 =>
          rw [hh] at h
          simp only at h
          cases hl : s2.readlineend with
          | exc e3 s3 => rw [hl] at h; cases h
          | ok u s3 =>
            rw [hl] at h; cases h
            have st1 := (readline_step s).of_ok hr
            have st2 := (headerFields_step s1).of_ok hh
            have st3 := (readlineend_step s2).of_ok hl
            have lg := (readline_logs hr).trans ((headerFields_logs hh).1.trans
              (readlineend_logs hl) st2 st3) st1 (st2.trans st3)
            have hlt := readline_lt hr
            have := st2.pos_le
            have := st3.pos_le
            refine ⟨rfl, ?_, rfl, ?_, ?_, ?_⟩
            · simp only [SS.dumpComplaints]; omega
            · simp only [SS.dumpComplaints]
              rw [readline_sane (readlineend_ok hl), (headerFields_logs hh).2, readline_sane hr]
            · obtain ⟨new, hn, hp⟩ := lg
              exact ⟨new, by simp [SS.dumpComplaints, hn], hp⟩
            · have he := ends_of_step (st1.trans st2) (readline_ends (readlineend_ok hl))
              exact he
      · cases h
    · cases h

theorem respHeading_step' (s : SS) : Step (state s.readline) (state (parseResponseHeading s)) := by
  unfold parseResponseHeading
  cases hr : s.readline with
  | exc e s' => exact Step.refl s'
  | ok line s1 =>
    have h1 : Step s1 s1 := Step.refl s1
    show Step s1 _
    simp only
    split
    · exact h1.trans (insane_step _)
    · split
      · split
        · exact h1.trans (insane_step _)
        · have h2 := headerFields_step s1
          cases hh : parseHeaderFields s1 with
          | exc e s2 => exact h1.trans (h2.of_exc hh)
          | ok es s2 =>
            have h2 := h1.trans (h2.of_ok hh)
            have h3 := readlineend_step s2
            simp only
            cases hl : s2.readlineend with
            | exc e s3 => exact h2.trans (h3.of_exc hl)
            | ok u s3 => exact (h2.trans (h3.of_ok hl)).trans (complaints_step _ _)
      · exact h1.trans (insane_step _)

theorem respHeading_step (s : SS) : Step s (state (parseResponseHeading s)) :=
  (readline_step s).trans (respHeading_step' s)

theorem respHeading_touched (s : SS) (hi : s.eof = true → s.rest = []) :
    (state (parseResponseHeading s)).eof = true ↔ (state (parseResponseHeading s)).rest = [] :=
  (respHeading_step' s).touch (readline_touched s hi)

theorem respHeading_exc {s s' : SS} {e : Exc} (h : parseResponseHeading s = .exc e s') :
    Bad e s' := by
  unfold parseResponseHeading at h
  cases hr : s.readline with
  | exc e1 s1 => rw [hr] at h; cases h; exact bad_of_readline hr
  | ok line s1 =>
    rw [hr] at h
    simp only at h
    split at h
    · exact bad_of_error h
    · split at h
      · split at h
        · exact bad_of_error h
        · cases hh : parseHeaderFields s1 with
          | exc e2 s2 => rw [hh] at h; cases h; exact headerFields_exc hh
          | ok es s2 =>
            rw [hh] at h
            simp only at h
            cases hl : s2.readlineend with
            | exc e3 s3 => rw [hl] at h; cases h; exact readlineend_exc hl
            | ok u s3 => rw [hl] at h; cases h
      · exact bad_of_error h

/-- What a successful response heading tells. -/
theorem respHeading_ok {s s' : SS} {hd : RespHeading} (h : parseResponseHeading s = .ok hd s') :
    hd.start = s.pos ∧ s.pos < s'.pos ∧ s'.complaints = [] ∧ s'.sane = s.sane ∧
    (∃ new, hd.notes = lineNotes (s.complaints ++ new) ∧ ∀ c ∈ new, s.pos ≤ c.2 ∧ c.2 < s'.pos) ∧ ∃ p, s.rest = p ++ [10] ++ s'.rest := by
  unfold parseResponseHeading at h
  cases hr : s.readline with
  | exc e1 s1 => rw [hr] at h; cases h
  | ok line s1 =>
    rw [hr] at h
    simp only at h
    split at h
    · cases h
    · split at h
      · split at h
        · cases h
        · cases hh : parseHeaderFields s1 with
          | exc e2 s2 => rw [hh] at h; cases h
          | ok es s2 =>
            rw [hh] at h
            simp only at h
            cases hl : s2.readlineend with
            | exc e3 s3 => rw [hl] at h; cases h
            | ok u s3 =>
              rw [hl] at h; cases h
              have st1 := (readline_step s).of_ok hr
              have st2 := (headerFields_step s1).of_ok hh
              have st3 := (readlineend_step s2).of_ok hl
              have lg := (readline_logs hr).trans ((headerFields_logs hh).1.trans
                (readlineend_logs hl) st2 st3) st1 (st2.trans st3)
              have hlt := readline_lt hr
              have := st2.pos_le
              have := st3.pos_le
              refine ⟨rfl, ?_, rfl, ?_, ?_, ?_⟩
              · simp only [SS.dumpComplaints]; omega
              · simp only [SS.dumpComplaints]
                rw [readline_sane (readlineend_ok hl), (headerFields_logs hh).2, readline_sane hr]
              · obtain ⟨new, hn, hp⟩ := lg
                exact ⟨new, by simp [SS.dumpComplaints, hn], hp⟩
              · have he := ends_of_step (st1.trans st2) (readline_ends (readlineend_ok hl))
                exact he
      · cases h

/-! ## Bodies -/

/-- The rest of the stream, taken to be at the start of a line, has a line with a negative chunk
size. -/
def NegLine (s : SS) : Prop :=
  ∃ p a q n, s.rest = p ++ a ++ [10] ++ q ∧ (p = [] ∨ ∃ p', p = p' ++ [10]) ∧ 10 ∉ a ∧
    chunkSize (stripCR a) = some n ∧ n < -1

/-- A failure inside chunked framing: a parse error or an oversized body (the stream is not sane
afterwards), or a `ValueError` because of a negative chunk size, given in a line of the stream. -/
def ChunkBad (s0 : SS) (e : Exc) (s : SS) : Prop :=
  (((∃ p, e = .parse p) ∨ ∃ n, e = .tooLong n) ∧ s.sane = false) ∨ (e = .value ∧ NegLine s0)

theorem NegLine.mono {a b : SS} (h : NegLine b) (hab : ∃ p, a.rest = p ++ [10] ++ b.rest) :
    NegLine a := by
  obtain ⟨p0, h0⟩ := hab
  obtain ⟨p, l, q, n, h1, h2, h3⟩ := h
  refine ⟨p0 ++ [10] ++ p, l, q, n, by rw [h0, h1]; simp, Or.inr ?_, h3⟩
  rcases h2 with rfl | ⟨p', rfl⟩
  · exact ⟨p0, by simp⟩
  · exact ⟨p0 ++ [10] ++ p', by simp⟩

theorem ChunkBad.mono {a b s : SS} {e : Exc} (h : ChunkBad b e s)
    (hab : ∃ p, a.rest = p ++ [10] ++ b.rest) : ChunkBad a e s := by
  rcases h with h | ⟨h, h1⟩
  · exact Or.inl h
  · exact Or.inr ⟨h, h1.mono hab⟩

theorem chunkBad_of_bad {s0 s : SS} {e : Exc} (h : Bad e s) : ChunkBad s0 e s :=
  Or.inl ⟨Or.inl h.1, h.2⟩

theorem parseChunk_step (s : SS) (n : Nat) : Step s (state (parseChunk s n)) := by
  have h1 := readline_step s
  unfold parseChunk
  cases hr : s.readline with
  | exc e s' => exact h1.of_exc hr
  | ok line s1 =>
    have h1 := h1.of_ok hr
    simp only
    split
    · exact h1.trans (insane_step _)
    · split
      · exact h1
      · split
        · exact h1.trans (insane_step _)
        · rename_i size _ _ _
          have h2 := read_step s1 size
          cases hh : s1.read size with
          | exc e s2 => exact h1.trans (h2.of_exc hh)
          | ok d s2 =>
            have h2 := h1.trans (h2.of_ok hh)
            have h3 := readlineend_step s2
            simp only
            cases hl : s2.readlineend with
            | exc e s3 => exact h2.trans (h3.of_exc hl)
            | ok u s3 => exact h2.trans (h3.of_ok hl)

theorem parseChunk_exc {s s' : SS} {n : Nat} {e : Exc} (h : parseChunk s n = .exc e s') :
    ChunkBad s e s' := by
  unfold parseChunk at h
  cases hr : s.readline with
  | exc e1 s1 => rw [hr] at h; cases h; exact chunkBad_of_bad (bad_of_readline hr)
  | ok line s1 =>
    rw [hr] at h
    simp only at h
    cases hc : chunkSize line with
    | none => rw [hc] at h; exact chunkBad_of_bad (bad_of_error h)
    | some size =>
      rw [hc] at h
      simp only at h
      split at h
      · cases h
      · split at h
        · cases h
          exact Or.inl ⟨Or.inr ⟨_, rfl⟩, rfl⟩
        · cases hh : s1.read size with
          | exc e2 s2 =>
            rw [hh] at h; cases h
            rcases read_exc hh with ⟨h1, h2⟩ | ⟨h1, h2⟩
            · rcases line_cases maxLineLength s.rest with ⟨a, t, hs, ha, hl⟩ | h'
              · rw [readline_found s a t hs ha hl] at hr
                cases hr
                exact Or.inr ⟨h1, [], a, t, size, by simp [hs], Or.inl rfl, ha, hc, h2⟩
              · rw [readline_notfound s h'] at hr; cases hr
            · exact chunkBad_of_bad ⟨⟨_, h1⟩, h2⟩
          | ok d s2 =>
            rw [hh] at h
            simp only at h
            cases hl : s2.readlineend with
            | exc e3 s3 => rw [hl] at h; cases h; exact chunkBad_of_bad (readlineend_exc hl)
            | ok u s3 => rw [hl] at h; cases h

/-- A chunk read successfully. -/
theorem parseChunk_ok {s s' : SS} {n : Nat} {r : Option Str} (h : parseChunk s n = .ok r s') :
    s.pos < s'.pos ∧ Logs s s' ∧ s'.sane = s.sane ∧ (∃ p, s.rest = p ++ [10] ++ s'.rest) ∧
    (∀ d, r = some d → d.length + n ≤ maxBodySize ∧ d ≠ []) := by
  unfold parseChunk at h
  cases hr : s.readline with
  | exc e1 s1 => rw [hr] at h; cases h
  | ok line s1 =>
    have hlt := readline_lt hr
    rw [hr] at h
    simp only at h
    cases hc : chunkSize line with
    | none => rw [hc] at h; cases h
    | some size =>
      rw [hc] at h
      simp only at h
      split at h
      · cases h
        exact ⟨hlt, readline_logs hr, readline_sane hr, readline_ends hr, by simp⟩
      · split at h
        · cases h
        · rename_i hne hle
          cases hh : s1.read size with
          | exc e2 s2 => rw [hh] at h; cases h
          | ok d s2 =>
            rw [hh] at h
            simp only at h
            cases hl : s2.readlineend with
            | exc e3 s3 => rw [hl] at h; cases h
            | ok u s3 =>
              rw [hl] at h; cases h
              have st1 := (readline_step s).of_ok hr
              have st2 := (read_step s1 size).of_ok hh
              have st3 := (readlineend_step s2).of_ok hl
              have := st2.pos_le
              have := st3.pos_le
              refine ⟨by omega, (readline_logs hr).trans ((read_logs hh).trans
                (readlineend_logs hl) st2 st3) st1 (st2.trans st3), ?_,
                ends_of_step (st1.trans st2) (readline_ends (readlineend_ok hl)), ?_⟩
              · rw [readline_sane (readlineend_ok hl), read_sane hh, readline_sane hr]
              · intro d' hd'
                cases hd'
                by_cases hneg : size < 0
                · -- size is -1: everything is read, and the line end is missing
                  exfalso
                  have h1 : ¬size < -1 := by
                    intro hlt'
                    unfold SS.read at hh
                    rw [if_pos hlt'] at hh
                    cases hh
                  have h2 : size = -1 := by omega
                  subst h2
                  unfold SS.read at hh
                  rw [if_neg (by omega)] at hh
                  have ht : s1.taken (-1) = s1.rest := by simp [SS.taken]
                  rw [ht] at hh
                  simp only at hh
                  rw [if_neg (by omega)] at hh
                  cases hh
                  have hempty : (s1.advance s1.rest.length).rest = [] := by simp [SS.advance]
                  have := readline_notfound (s1.advance s1.rest.length) (by rw [hempty]; simp)
                  rw [readlineend_ok hl] at this
                  cases this
                · obtain ⟨k, rfl⟩ := Int.eq_ofNat_of_zero_le (Int.not_lt.1 hneg)
                  have hk := read_nat hh
                  refine ⟨?_, ?_⟩
                  · rw [hk.2.1]; omega
                  · intro hnil
                    rw [hnil] at hk
                    have : k = 0 := by simpa using hk.2.1.symm
                    exact hne (by simp [this])

theorem chunkLoop_step (fuel : Nat) (s : SS) (data : Str) :
    Step s (state (chunkLoop fuel s data)) := by
  induction fuel generalizing s data with
  | zero => exact Step.refl s
  | succ fuel ih =>
    unfold chunkLoop
    have h1 := parseChunk_step s data.length
    cases hc : parseChunk s data.length with
    | exc e s' => exact h1.of_exc hc
    | ok r s' =>
      have h1 := h1.of_ok hc
      cases r with
      | none => exact h1
      | some d => exact h1.trans (ih s' _)

theorem chunkLoop_exc (fuel : Nat) {s s' : SS} {data : Str} {e : Exc} (hf : s.rest.length < fuel)
    (h : chunkLoop fuel s data = .exc e s') : ChunkBad s e s' := by
  induction fuel generalizing s data with
  | zero => omega
  | succ fuel ih =>
    unfold chunkLoop at h
    cases hc : parseChunk s data.length with
    | exc e1 s1 => rw [hc] at h; cases h; exact parseChunk_exc hc
    | ok r s1 =>
      rw [hc] at h
      have st := (parseChunk_step s data.length).of_ok hc
      have hlen := st.len
      have hlt := (parseChunk_ok hc).1
      cases r with
      | none => cases h
      | some d => exact (ih (by omega) h).mono (parseChunk_ok hc).2.2.2.1

theorem chunkLoop_ok (fuel : Nat) {s s' : SS} {data r : Str} (hd : data.length ≤ maxBodySize)
    (h : chunkLoop fuel s data = .ok r s') :
    s.pos < s'.pos ∧ Logs s s' ∧ s'.sane = s.sane ∧ r.length ≤ maxBodySize := by
  induction fuel generalizing s data with
  | zero => cases h
  | succ fuel ih =>
    unfold chunkLoop at h
    cases hc : parseChunk s data.length with
    | exc e1 s1 => rw [hc] at h; cases h
    | ok o s1 =>
      rw [hc] at h
      have st := (parseChunk_step s data.length).of_ok hc
      obtain ⟨hlt, hlog, hsane, _, hsize⟩ := parseChunk_ok hc
      cases o with
      | none => cases h; exact ⟨hlt, hlog, hsane, hd⟩
      | some d =>
        simp only at h
        have hd' := (hsize d rfl).1
        obtain ⟨i1, i2, i3, i4⟩ := ih (by rw [List.length_append]; omega) h
        exact ⟨by omega, hlog.trans i2 st ((chunkLoop_step fuel s1 _).of_ok h), by rw [i3, hsane], i4⟩

theorem chunkedRaw_step (s : SS) : Step s (state (parseChunkedRaw s)) := by
  have h1 := chunkLoop_step (s.rest.length + 1) s []
  unfold parseChunkedRaw
  cases hr : chunkLoop (s.rest.length + 1) s [] with
  | exc e s' => exact h1.of_exc hr
  | ok data s1 =>
    have h1 := h1.of_ok hr
    simp only
    have h2 := headerFields_step s1
    cases hh : parseHeaderFields s1 with
    | exc e s2 => exact h1.trans (h2.of_exc hh)
    | ok es s2 =>
      have h2 := h1.trans (h2.of_ok hh)
      have h3 := readlineend_step s2
      simp only
      cases hl : s2.readlineend with
      | exc e s3 => exact h2.trans (h3.of_exc hl)
      | ok u s3 => exact h2.trans (h3.of_ok hl)

theorem chunkedRaw_exc {s s' : SS} {e : Exc} (h : parseChunkedRaw s = .exc e s') :
    ChunkBad s e s' := by
  unfold parseChunkedRaw at h
  cases hr : chunkLoop (s.rest.length + 1) s [] with
  | exc e1 s1 => rw [hr] at h; cases h; exact chunkLoop_exc _ (Nat.lt_succ_self _) hr
  | ok data s1 =>
    rw [hr] at h
    simp only at h
    cases hh : parseHeaderFields s1 with
    | exc e2 s2 => rw [hh] at h; cases h; exact chunkBad_of_bad (headerFields_exc hh)
    | ok es s2 =>
      rw [hh] at h
      simp only at h
      cases hl : s2.readlineend with
      | exc e3 s3 => rw [hl] at h; cases h; exact chunkBad_of_bad (readlineend_exc hl)
      | ok u s3 => rw [hl] at h; cases h

theorem chunkedRaw_ok {s s' : SS} {data : Str} {tr : List Entry}
    (h : parseChunkedRaw s = .ok (data, tr) s') :
    s.pos < s'.pos ∧ Logs s s' ∧ s'.sane = s.sane ∧ data.length ≤ maxBodySize := by
  unfold parseChunkedRaw at h
  cases hr : chunkLoop (s.rest.length + 1) s [] with
  | exc e1 s1 => rw [hr] at h; cases h
  | ok data1 s1 =>
    rw [hr] at h
    simp only at h
    cases hh : parseHeaderFields s1 with
    | exc e2 s2 => rw [hh] at h; cases h
    | ok es s2 =>
      rw [hh] at h
      simp only at h
      cases hl : s2.readlineend with
      | exc e3 s3 => rw [hl] at h; cases h
      | ok u s3 =>
        rw [hl] at h; cases h
        have st1 := (chunkLoop_step _ s []).of_ok hr
        have st2 := (headerFields_step s1).of_ok hh
        have st3 := (readlineend_step s2).of_ok hl
        have := st2.pos_le
        have := st3.pos_le
        obtain ⟨c1, c2, c3, c4⟩ := chunkLoop_ok _ (by simp) hr
        refine ⟨by omega, c2.trans ((headerFields_logs hh).1.trans (readlineend_logs hl) st2 st3) st1
          (st2.trans st3), ?_, c4⟩
        rw [readline_sane (readlineend_ok hl), (headerFields_logs hh).2, c3]

/-- The line notices of a body are about lines read in between; if the stream is still sane, no
complaint is left on it. -/
structure BodyOk (s s' : SS) (ns : List FNote) : Prop where
  step : Step s s'
  notes : s.complaints = [] → ∀ n ∈ ns, ∀ l, n.line = some l → s.pos ≤ l ∧ l < s'.pos
  clean : s.complaints = [] → s'.sane = true → s'.complaints = []

theorem plain_line (id : Nat) : (plainNote id).line = none := rfl

theorem BodyOk.plain {s s' : SS} {ns : List FNote} (st : Step s s')
    (hn : ∀ n ∈ ns, n.line = none) (hc : s'.sane = true → s'.complaints = s.complaints) :
    BodyOk s s' ns :=
  ⟨st, fun _ n h l hl => by (rw [hn n h] at hl; cases hl), fun h hs => by rw [hc hs, h]⟩

theorem chunked_ok {s s' : SS} {r : BodyRes} (h : parseChunked s = .ok r s') :
    BodyOk s s' r.notes := by
  have st := chunkedRaw_step s
  unfold parseChunked at h
  cases hr : parseChunkedRaw s with
  | exc e s1 =>
    have hb := chunkedRaw_exc hr
    rw [hr] at h st
    have hbad : ∀ e, ChunkBad s e s1 → e ≠ .value → s1.sane = false := by
      intro e hb hne
      rcases hb with hb | hb
      · exact hb.2
      · exact absurd hb.1 hne
    cases e with
    | parse p =>
      cases h
      exact BodyOk.plain st (by simp [plain_line]) (by rw [hbad _ hb (by simp)]; simp)
    | tooLong n =>
      cases h
      exact BodyOk.plain st (by simp [plain_line]) (by rw [hbad _ hb (by simp)]; simp)
    | value => cases h
    | diverge => cases h
  | ok p s1 =>
    obtain ⟨data, tr⟩ := p
    rw [hr] at h st
    cases h
    obtain ⟨c1, ⟨new, hnew, hp⟩, c3, c4⟩ := chunkedRaw_ok hr
    refine ⟨st.trans (complaints_step _ _), ?_, ?_⟩
    · intro h0 n hn l hl
      simp only [SS.dumpComplaints, lineNotes, hnew, h0, List.nil_append, List.mem_map] at hn
      obtain ⟨c, hc, rfl⟩ := hn
      cases hl
      exact hp c hc
    · intro _ _; rfl

theorem chunked_exc {s s' : SS} {e : Exc} (h : parseChunked s = .exc e s') :
    e = .value ∧ ChunkBad s e s' := by
  unfold parseChunked at h
  cases hr : parseChunkedRaw s with
  | exc e1 s1 =>
    have hb := chunkedRaw_exc hr
    rw [hr] at h
    cases e1 with
    | parse p => cases h
    | tooLong n => cases h
    | value => cases h; exact ⟨rfl, hb⟩
    | diverge =>
      exfalso
      rcases hb with ⟨(⟨p, hp⟩ | ⟨n, hn⟩), _⟩ | ⟨hv, _⟩
      · cases hp
      · cases hn
      · cases hv
  | ok p s1 => obtain ⟨d, t⟩ := p; rw [hr] at h; cases h

theorem decode_notes (env : FrameEnv) (cs : List Coding) (b : Body) :
    ∀ n ∈ (decodeCodings env cs b).2, n.line = none := by
  induction cs generalizing b with
  | nil => simp [decodeCodings]
  | cons c cs ih =>
    cases b with
    | unavailable i => simp [decodeCodings]
    | bytes b =>
      simp only [decodeCodings, List.mem_append]
      rintro n (hn | hn)
      · cases c <;> simp only [decodeTransferCoding] at hn
        · simp at hn; rw [hn]; rfl
        · split at hn <;> simp at hn
          rw [hn]; rfl
        · split at hn <;> simp at hn
          rw [hn]; rfl
        · simp at hn; rw [hn]; rfl
        · simp at hn
      · exact ih _ n hn

theorem BodyOk.add {s s' : SS} {ns ns' : List FNote} (h : BodyOk s s' ns)
    (hn : ∀ n ∈ ns', n.line = none) : BodyOk s s' (ns ++ ns') :=
  { step := h.step
    clean := h.clean
    notes := by
      intro h0 n hm l hl
      rcases List.mem_append.1 hm with hm | hm
      · exact h.notes h0 n hm l hl
      · rw [hn n hm] at hl; cases hl }

theorem contentLength_ok {s s' : SS} {n : PyVal Nat} {r : BodyRes}
    (h : processContentLength n s = .ok r s') : BodyOk s s' r.notes := by
  unfold processContentLength at h
  split at h
  · cases h; exact BodyOk.plain (insane_step _) (by simp) (by simp)
  · cases h; exact BodyOk.plain (insane_step _) (by simp) (by simp)
  · rename_i n
    split at h
    · cases h; exact BodyOk.plain (insane_step _) (by simp [plain_line]) (by simp)
    · have st := read_step s n
      cases hr : s.read n with
      | exc e s1 =>
        rw [hr] at h st
        cases e with
        | parse p =>
          cases h
          refine BodyOk.plain st (by simp [plain_line]) ?_
          rcases read_exc hr with ⟨h1, _⟩ | ⟨_, h2⟩
          · cases h1
          · rw [h2]; simp
        | tooLong n => cases h
        | value => cases h
        | diverge => cases h
      | ok b s1 =>
        rw [hr] at h st
        cases h
        exact BodyOk.plain st (by simp) (fun _ => read_complaints hr)

theorem contentLength_exc {s s' : SS} {n : PyVal Nat} {e : Exc}
    (h : processContentLength n s = .exc e s') : False := by
  unfold processContentLength at h
  split at h
  · cases h
  · cases h
  · rename_i n
    split at h
    · cases h
    · cases hr : s.read n with
      | exc e1 s1 =>
        have hb := read_exc hr
        rw [hr] at h
        rcases hb with ⟨h1, h2⟩ | ⟨h1, h2⟩
        · omega
        · subst h1; cases h
      | ok b s1 => rw [hr] at h; cases h

theorem reqBody_ok {env : FrameEnv} {es : List Entry} {s s' : SS} {r : BodyRes}
    (h : parseRequestBody env es s = .ok r s') : BodyOk s s' r.notes := by
  unfold parseRequestBody at h
  split at h
  · rename_i c cs _
    by_cases hc : c = .chunked
    · simp only [hc, if_true] at h
      cases hp : parseChunked s with
      | exc e s1 => rw [hp] at h; cases h
      | ok r1 s1 =>
        rw [hp] at h; cases h
        exact (chunked_ok hp).add (decode_notes env cs r1.body)
    · simp only [hc, if_false] at h
      cases h
      exact (BodyOk.plain (insane_step s) (by simp [plain_line]) (by simp)).add
        (decode_notes env cs _)
  · split at h
    · exact contentLength_ok h
    · cases h; exact BodyOk.plain (Step.refl s) (by simp) (fun _ => rfl)

theorem reqBody_exc {env : FrameEnv} {es : List Entry} {s s' : SS} {e : Exc}
    (h : parseRequestBody env es s = .exc e s') : e = .value ∧ ChunkBad s e s' := by
  unfold parseRequestBody at h
  split at h
  · rename_i c cs _
    by_cases hc : c = .chunked
    · simp only [hc, if_true] at h
      cases hp : parseChunked s with
      | exc e1 s1 => rw [hp] at h; cases h; exact chunked_exc hp
      | ok r1 s1 => rw [hp] at h; cases h
    · simp only [hc, if_false] at h
      cases h
  · split at h
    · exact (contentLength_exc h).elim
    · cases h

theorem readToEnd_ok {s s' : SS} {r : BodyRes} (h : readToEnd s = .ok r s') :
    BodyOk s s' r.notes ∧ s'.eof = true := by
  unfold readToEnd at h
  have st := read_step s (-1)
  cases hr : s.read (-1) with
  | exc e s1 => rw [hr] at h; cases h
  | ok b s1 =>
    rw [hr] at h st; cases h
    refine ⟨BodyOk.plain st (by simp) (fun _ => read_complaints hr), ?_⟩
    unfold SS.read at hr
    rw [if_neg (by omega)] at hr
    have ht : s.taken (-1) = s.rest := by simp [SS.taken]
    rw [ht] at hr
    simp only at hr
    rw [if_neg (by omega)] at hr
    cases hr
    simp [SS.advance]

theorem readToEnd_exc {s s' : SS} {e : Exc} (h : readToEnd s = .exc e s') : False := by
  unfold readToEnd at h
  cases hr : s.read (-1) with
  | exc e1 s1 =>
    unfold SS.read at hr
    rw [if_neg (by omega)] at hr
    simp only at hr
    rw [if_neg (by omega)] at hr
    cases hr
  | ok b s1 => rw [hr] at h; cases h

theorem respBody_ok {env : FrameEnv} {m : Option Str} {st : Nat} {es : List Entry} {s s' : SS}
    {r : BodyRes} (h : parseResponseBody env m st es s = .ok r s') : BodyOk s s' r.notes := by
  unfold parseResponseBody at h
  split at h
  · cases h; exact BodyOk.plain (insane_step s) (by simp [plain_line]) (by simp)
  · split at h
    · cases h; exact BodyOk.plain (insane_step s) (by simp [plain_line]) (by simp)
    · split at h
      · cases h; exact BodyOk.plain (Step.refl s) (by simp) (fun _ => rfl)
      · split at h
        · rename_i c cs _
          by_cases hc : c = .chunked
          · simp only [hc, if_true] at h
            cases hp : parseChunked s with
            | exc e s1 => rw [hp] at h; cases h
            | ok r1 s1 =>
              rw [hp] at h; cases h
              exact (chunked_ok hp).add (decode_notes env cs r1.body)
          · simp only [hc, if_false] at h
            cases hp : readToEnd s with
            | exc e s1 => rw [hp] at h; cases h
            | ok r1 s1 =>
              rw [hp] at h; cases h
              exact (readToEnd_ok hp).1.add (decode_notes env _ r1.body)
        · split at h
          · exact (readToEnd_ok h).1
          · exact contentLength_ok h

theorem respBody_exc {env : FrameEnv} {m : Option Str} {st : Nat} {es : List Entry} {s s' : SS}
    {e : Exc} (h : parseResponseBody env m st es s = .exc e s') : e = .value ∧ ChunkBad s e s' := by
  unfold parseResponseBody at h
  split at h
  · cases h
  · split at h
    · cases h
    · split at h
      · cases h
      · split at h
        · rename_i c cs _
          by_cases hc : c = .chunked
          · simp only [hc, if_true] at h
            cases hp : parseChunked s with
            | exc e s1 => rw [hp] at h; cases h; exact chunked_exc hp
            | ok r1 s1 => rw [hp] at h; cases h
          · simp only [hc, if_false] at h
            cases hp : readToEnd s with
            | exc e s1 => exact (readToEnd_exc hp).elim
            | ok r1 s1 => rw [hp] at h; cases h
        · split at h
          · exact (readToEnd_exc h).elim
          · exact (contentLength_exc h).elim

end Httpolice.Lemmas
