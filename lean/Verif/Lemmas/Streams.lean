import Verif.Lemmas.Framing

/-!
# Lemmas about `parse_streams`: messages and loops
-/

namespace Httpolice.Lemmas

open Httpolice.Model
open Httpolice.Spec

/-- A message parsed from `s`, leaving `s'`. -/
structure MsgOk (s s' : SS) (m : FMsg) : Prop where
  start : m.start = s.pos
  stop : m.stop = s'.pos
  lt : s.pos < s'.pos
  step : Step s s'
  own : s.complaints = [] → OwnLines m
  clean : s.complaints = [] → s'.sane = true → s'.complaints = []
  touched : (s.eof = true → s.rest = []) → (s'.eof = true ↔ s'.rest = [])

theorem request_some {env : FrameEnv} {s s' : SS} {r : FReq}
    (h : parseRequest env s = .ok (some r) s') : MsgOk s s' r.msg := by
  have hst := reqHeading_step s
  have hto := reqHeading_touched s
  unfold parseRequest at h
  cases hh : parseRequestHeading s with
  | exc e s1 =>
    rw [hh] at h
    cases e <;> cases h
  | ok hd s1 =>
    rw [hh] at h hst hto
    simp only at h
    obtain ⟨a1, a2, a3, a4, ⟨new, hn, hp⟩, a6⟩ := reqHeading_ok hh
    cases hb : parseRequestBody env hd.entries s1 with
    | exc e s2 => rw [hb] at h; cases h
    | ok b s2 =>
      rw [hb] at h; cases h
      have hbo := reqBody_ok hb
      have hle := hbo.step.pos_le
      refine ⟨a1, rfl, by omega, Step.trans hst hbo.step, ?_, fun _ hs => hbo.clean a3 hs,
        fun hi => hbo.step.touch (hto hi)⟩
      intro h0 n hn' l hl
      simp only [a1]
      rcases List.mem_append.1 hn' with hn' | hn'
      · rw [hn, h0] at hn'
        simp only [List.nil_append, lineNotes, List.mem_map] at hn'
        obtain ⟨c, hc, rfl⟩ := hn'
        cases hl
        have := hp c hc
        omega
      · have := hbo.notes a3 n hn' l hl
        omega

theorem request_none {env : FrameEnv} {s s' : SS} (h : parseRequest env s = .ok none s') :
    Step s s' ∧ s'.sane = false ∧
      ((s.eof = true → s.rest = []) → (s'.eof = true ↔ s'.rest = [])) := by
  have hst := reqHeading_step s
  have hto := reqHeading_touched s
  unfold parseRequest at h
  cases hh : parseRequestHeading s with
  | exc e s1 =>
    have hb := reqHeading_exc hh
    rw [hh] at h hst hto
    cases e <;> cases h
    exact ⟨hst, hb.2, hto⟩
  | ok hd s1 =>
    rw [hh] at h
    simp only at h
    cases hb : parseRequestBody env hd.entries s1 with
    | exc e s2 => rw [hb] at h; cases h
    | ok b s2 => rw [hb] at h; cases h

/-- What holds for a response that ends HTTP on its connection. -/
def SwitchOk (method : Option Str) (r : FResp) : Prop :=
  (r.status = 101 → r.msg.body = .bytes [] ∧ plainNote 1011 ∈ r.msg.notes) ∧
  (r.status ≠ 101 → method = some (str "CONNECT") → successful r.status →
    r.msg.body = .bytes [] ∧ plainNote 1012 ∈ r.msg.notes)

/-- Responses parsed from `s` for one request, leaving `s'`. -/
structure RespsOk (method : Option Str) (s s' : SS) (rs : List FResp) (box : Bool) : Prop where
  step : Step s s'
  tiles : Tiles s.pos (rs.map (·.msg)) s'.pos
  own : (s.sane = true → s.complaints = []) → ∀ r ∈ rs, OwnLines r.msg
  clean : (s.sane = true → s.complaints = []) → s'.sane = true → s'.complaints = []
  touched : (s.eof = true ↔ s.rest = []) → (s'.eof = true ↔ s'.rest = [])
  touched' : s.good = true → (s.eof = true → s.rest = []) → (s'.eof = true ↔ s'.rest = [])
  progress : s.good = true → s.pos < s'.pos ∨ s'.good = false
  interim : ∀ r ∈ rs.dropLast, Interim r
  boxed : box = true → s'.sane = false
  final : box = false → s'.good = true → ∃ r, rs.getLast? = some r ∧ ¬Interim r
  switched : ∀ r ∈ rs, SwitchOk method r
  stops : ∀ r ∈ rs, r.status = 101 ∨ (method = some (str "CONNECT") ∧ successful r.status = true) →
    s'.sane = false
  nonempty : s.good = true → rs = [] → box = true

theorem Interim_iff (r : FResp) :
    Interim r ↔ ¬((!informational r.status) = true ∨ r.status = 101) := by
  simp only [Interim, informational, Bool.not_eq_true', not_or, Bool.not_eq_false,
    Bool.and_eq_true, decide_eq_true_eq]
  omega

theorem respBody_switch {env : FrameEnv} {m : Option Str} {st : Nat} {es : List Entry} {s s' : SS}
    {r : BodyRes} (h : parseResponseBody env m st es s = .ok r s') :
    (st = 101 → r.body = .bytes [] ∧ plainNote 1011 ∈ r.notes ∧ s'.sane = false) ∧
    (st ≠ 101 → m = some (str "CONNECT") → successful st = true →
      r.body = .bytes [] ∧ plainNote 1012 ∈ r.notes ∧ s'.sane = false) := by
  unfold parseResponseBody at h
  split at h
  · rename_i h1
    cases h
    exact ⟨fun _ => ⟨rfl, by simp, rfl⟩, fun h2 => absurd h1 h2⟩
  · rename_i h1
    split at h
    · cases h
      exact ⟨fun h2 => absurd h2 h1, fun _ _ _ => ⟨rfl, by simp, rfl⟩⟩
    · rename_i h2
      exact ⟨fun h3 => absurd h3 h1, fun _ h3 h4 => absurd ⟨h3, h4⟩ h2⟩

/-- One response. -/
theorem response_msg {env : FrameEnv} {m : Option Str} {s s1 s2 : SS} {hd : RespHeading}
    {r : BodyRes} (hh : parseResponseHeading s = .ok hd s1)
    (hb : parseResponseBody env m hd.status hd.entries s1 = .ok r s2) :
    MsgOk s s2 ⟨hd.start, hd.entries, r.trailers, r.body, hd.notes ++ r.notes, s2.pos⟩ := by
  have hst := (respHeading_step s).of_ok hh
  have hto := respHeading_touched s
  rw [hh] at hto
  obtain ⟨a1, a2, a3, a4, ⟨new, hn, hp⟩, a6⟩ := respHeading_ok hh
  have hbo := respBody_ok hb
  have hle := hbo.step.pos_le
  refine ⟨a1, rfl, by omega, Step.trans hst hbo.step, ?_, fun _ hs => hbo.clean a3 hs,
    fun hi => hbo.step.touch (hto hi)⟩
  intro h0 n hn' l hl
  simp only [a1]
  rcases List.mem_append.1 hn' with hn' | hn'
  · rw [hn, h0] at hn'
    simp only [List.nil_append, lineNotes, List.mem_map] at hn'
    obtain ⟨c, hc, rfl⟩ := hn'
    cases hl
    have := hp c hc
    omega
  · have := hbo.notes a3 n hn' l hl
    omega

theorem good_sane {s : SS} (h : s.good = true) : s.sane = true := by
  simp only [SS.good, Bool.and_eq_true] at h; exact h.1

theorem good_eof {s : SS} (h : s.good = true) : s.eof = false := by
  simp only [SS.good, Bool.and_eq_true, Bool.not_eq_true'] at h; exact h.2

theorem insane_good {s : SS} (h : s.sane = false) : s.good = false := by simp [SS.good, h]

theorem eof_good {s : SS} (h : s.eof = true) : s.good = false := by simp [SS.good, h]

theorem responses_ok {env : FrameEnv} {m : Option Str} (fuel : Nat) {s s' : SS} {rs : List FResp}
    {box : Bool} (h : parseResponses env m fuel s = .ok (rs, box) s') : RespsOk m s s' rs box := by
  induction fuel generalizing s rs box with
  | zero => cases h
  | succ fuel ih =>
    unfold parseResponses at h
    split at h
    · rename_i hg
      have hst := respHeading_step s
      have hto := respHeading_touched s
      cases hh : parseResponseHeading s with
      | exc e s1 =>
        have hbad := respHeading_exc hh
        obtain ⟨⟨p, rfl⟩, hsane⟩ := hbad
        rw [hh] at h hst hto
        simp only [Out.ok.injEq, Prod.mk.injEq] at h
        obtain ⟨⟨rfl, rfl⟩, rfl⟩ := h
        exact {
          step := hst
          tiles := hst.pos_le
          own := by simp
          clean := by intro _ h2; rw [hsane] at h2; cases h2
          touched := hst.touch
          touched' := fun _ => hto
          progress := fun _ => Or.inr (insane_good hsane)
          interim := by simp
          boxed := fun _ => hsane
          final := by simp
          switched := by simp
          stops := by simp
          nonempty := by simp }
      | ok hd s1 =>
        rw [hh] at h
        simp only at h
        cases hb : parseResponseBody env m hd.status hd.entries s1 with
        | exc e s2 => rw [hb] at h; cases h
        | ok r s2 =>
          rw [hb] at h
          simp only at h
          have hm := response_msg hh hb
          have hsw := respBody_switch hb
          have hswok : SwitchOk m ⟨hd.version, hd.status, hd.reason,
              ⟨hd.start, hd.entries, r.trailers, r.body, hd.notes ++ r.notes, s2.pos⟩⟩ :=
            ⟨fun h1 => ⟨(hsw.1 h1).1, List.mem_append_right _ (hsw.1 h1).2.1⟩,
             fun h1 h2 h3 => ⟨(hsw.2 h1 h2 h3).1, List.mem_append_right _ (hsw.2 h1 h2 h3).2.1⟩⟩
          have hstop : hd.status = 101 ∨
              (m = some (str "CONNECT") ∧ successful hd.status = true) → s2.sane = false := by
            rintro (h1 | ⟨h1, h2⟩)
            · exact (hsw.1 h1).2.2
            · by_cases h3 : hd.status = 101
              · exact (hsw.1 h3).2.2
              · exact (hsw.2 h3 h1 h2).2.2
          split at h
          · rename_i hfin
            simp only [Out.ok.injEq, Prod.mk.injEq] at h
            obtain ⟨⟨rfl, rfl⟩, rfl⟩ := h
            exact {
              step := hm.step
              tiles := ⟨hm.start, by rw [hm.stop]; exact hm.lt, Nat.le_refl _⟩
              own := by
                intro h0 x hx
                rw [List.mem_singleton] at hx
                subst hx
                exact hm.own (h0 (good_sane hg))
              clean := fun h0 => hm.clean (h0 (good_sane hg))
              touched := hm.step.touch
              touched' := fun _ => hm.touched
              progress := fun _ => Or.inl hm.lt
              interim := by simp
              boxed := by simp
              final := fun _ _ => ⟨_, rfl, by rw [Interim_iff]; exact fun hc => hc hfin⟩
              switched := by
                intro x hx
                rw [List.mem_singleton] at hx
                subst hx
                exact hswok
              stops := by
                intro x hx
                rw [List.mem_singleton] at hx
                subst hx
                exact hstop
              nonempty := by simp }
          · rename_i hfin
            cases hr : parseResponses env m fuel s2 with
            | exc e s3 => rw [hr] at h; cases h
            | ok p s3 =>
              obtain ⟨rs2, box2⟩ := p
              rw [hr] at h
              simp only [Out.ok.injEq, Prod.mk.injEq] at h
              obtain ⟨⟨rfl, rfl⟩, rfl⟩ := h
              have hi := ih hr
              have hle := hi.step.pos_le
              have hlt := hm.lt
              exact {
                step := hm.step.trans hi.step
                tiles := by
                  refine ⟨hm.start, ?_, ?_⟩
                  · rw [hm.stop]; exact hm.lt
                  · exact hi.tiles
                own := by
                  intro h0 x hx
                  rcases List.mem_cons.1 hx with rfl | hx
                  · exact hm.own (h0 (good_sane hg))
                  · exact hi.own (fun h2 => hm.clean (h0 (good_sane hg)) h2) x hx
                clean := fun h0 => hi.clean fun h2 => hm.clean (h0 (good_sane hg)) h2
                touched := fun ht => hi.step.touch (hm.step.touch ht)
                touched' := fun _ ht => hi.step.touch (hm.touched ht)
                progress := fun _ => Or.inl (by omega)
                interim := by
                  intro x hx
                  cases rs2 with
                  | nil => simp at hx
                  | cons y ys =>
                    rw [List.dropLast_cons_of_ne_nil (by simp)] at hx
                    rcases List.mem_cons.1 hx with rfl | hx
                    · rw [Interim_iff]; exact hfin
                    · exact hi.interim x hx
                boxed := hi.boxed
                final := by
                  intro h1 h2
                  obtain ⟨x, hx, hxf⟩ := hi.final h1 h2
                  refine ⟨x, ?_, hxf⟩
                  cases rs2 with
                  | nil => simp at hx
                  | cons y ys => rw [List.getLast?_cons_cons]; exact hx
                switched := by
                  intro x hx
                  rcases List.mem_cons.1 hx with rfl | hx
                  · exact hswok
                  · exact hi.switched x hx
                stops := by
                  intro x hx hc
                  rcases List.mem_cons.1 hx with rfl | hx
                  · have h2 := hstop hc
                    cases h3 : s3.sane with
                    | false => rfl
                    | true => rw [hi.step.sane h3] at h2; cases h2
                  · exact hi.stops x hx hc
                nonempty := by simp }
    · rename_i hg
      simp only [Out.ok.injEq, Prod.mk.injEq] at h
      obtain ⟨⟨rfl, rfl⟩, rfl⟩ := h
      exact {
        step := Step.refl s
        tiles := Nat.le_refl _
        own := by simp
        clean := id
        touched := id
        touched' := fun h1 => absurd h1 hg
        progress := fun h1 => absurd h1 hg
        interim := by simp
        boxed := by simp
        final := fun _ h1 => absurd h1 hg
        switched := by simp
        stops := by simp
        nonempty := fun h1 => absurd h1 hg }

/-- A negative line that is not the first one. -/
def NegLine' (s : SS) : Prop :=
  ∃ p a q n, s.rest = p ++ [10] ++ a ++ [10] ++ q ∧ 10 ∉ a ∧
    chunkSize (stripCR a) = some n ∧ n < -1

theorem NegLine'.mono {a b : SS} (h : NegLine' b) (st : Step a b) : NegLine' a := by
  obtain ⟨p, l, q, n, h1, h2⟩ := h
  obtain ⟨k, _, hr, _⟩ := st.adv
  refine ⟨a.rest.take k ++ p, l, q, n, ?_, h2⟩
  have h3 := List.take_append_drop k a.rest
  rw [← hr, h1] at h3
  exact h3.symm.trans (by simp only [List.append_assoc])

theorem NegLine.after {a b : SS} (h : NegLine b) (hb : ∃ p, a.rest = p ++ [10] ++ b.rest) :
    NegLine' a := by
  obtain ⟨p0, h0⟩ := hb
  obtain ⟨p, l, q, n, h1, h2, h3⟩ := h
  rcases h2 with rfl | ⟨p', rfl⟩
  · exact ⟨p0, l, q, n, by rw [h0, h1]; simp, h3⟩
  · exact ⟨p0 ++ [10] ++ p', l, q, n, by rw [h0, h1]; simp, h3⟩

theorem request_exc {env : FrameEnv} {s s' : SS} {e : Exc}
    (h : parseRequest env s = .exc e s') : e = .value ∧ NegLine' s := by
  unfold parseRequest at h
  cases hh : parseRequestHeading s with
  | exc e1 s1 =>
    obtain ⟨p, hp⟩ := (reqHeading_exc hh).1
    rw [hh] at h
    cases hp
    cases h
  | ok hd s1 =>
    rw [hh] at h
    simp only at h
    cases hb : parseRequestBody env hd.entries s1 with
    | exc e2 s2 =>
      rw [hb] at h; cases h
      obtain ⟨h1, h2⟩ := reqBody_exc hb
      refine ⟨h1, ?_⟩
      subst h1
      rcases h2 with ⟨(⟨p, hp⟩ | ⟨n, hp⟩), _⟩ | ⟨_, h2⟩
      · cases hp
      · cases hp
      · exact h2.after (reqHeading_ok hh).2.2.2.2.2
    | ok b s2 => rw [hb] at h; cases h

theorem responses_exc {env : FrameEnv} {m : Option Str} (fuel : Nat) {s s' : SS} {e : Exc}
    (hf : s.rest.length < fuel) (h : parseResponses env m fuel s = .exc e s') :
    e = .value ∧ NegLine' s := by
  induction fuel generalizing s with
  | zero => omega
  | succ fuel ih =>
    unfold parseResponses at h
    split at h
    · cases hh : parseResponseHeading s with
      | exc e1 s1 =>
        obtain ⟨p, hp⟩ := (respHeading_exc hh).1
        rw [hh] at h
        cases hp
        cases h
      | ok hd s1 =>
        rw [hh] at h
        simp only at h
        cases hb : parseResponseBody env m hd.status hd.entries s1 with
        | exc e2 s2 =>
          rw [hb] at h; cases h
          obtain ⟨h1, h2⟩ := respBody_exc hb
          refine ⟨h1, ?_⟩
          subst h1
          rcases h2 with ⟨(⟨p, hp⟩ | ⟨n, hp⟩), _⟩ | ⟨_, h2⟩
          · cases hp
          · cases hp
          · exact h2.after (respHeading_ok hh).2.2.2.2.2
        | ok r s2 =>
          rw [hb] at h
          simp only at h
          have hm := response_msg hh hb
          split at h
          · cases h
          · cases hr : parseResponses env m fuel s2 with
            | exc e3 s3 =>
              rw [hr] at h; cases h
              have hlen := hm.step.len
              have hlt := hm.lt
              obtain ⟨h1, h2⟩ := ih (by omega) hr
              exact ⟨h1, h2.mono hm.step⟩
            | ok p s3 => obtain ⟨rs, b⟩ := p; rw [hr] at h; cases h
    · cases h

/-! ## Tiles -/

theorem Tiles.append {a b c : Nat} {xs ys : List FMsg} (h1 : Tiles a xs b) (h2 : Tiles b ys c)
    (hx : ys ≠ [] → xs = [] → a = b) (hl : ys ≠ [] → ∀ m, xs.getLast? = some m → m.stop = b) :
    Tiles a (xs ++ ys) c := by
  induction xs generalizing a with
  | nil =>
    cases ys with
    | nil => simp only [Tiles, List.append_nil] at h1 h2 ⊢; omega
    | cons y ys => rw [hx (by simp) rfl]; exact h2
  | cons x xs ih =>
    obtain ⟨p1, p2, p3⟩ := h1
    refine ⟨p1, p2, ?_⟩
    refine ih p3 ?_ ?_
    · intro h3 h4
      exact hl h3 x (by rw [h4]; rfl)
    · intro h3 m hm
      refine hl h3 m ?_
      cases xs with
      | nil => simp at hm
      | cons y ys' => rw [List.getLast?_cons_cons]; exact hm

/-- Unless a complaint box is returned, the responses extend to the end of what was read. -/
theorem responses_last {env : FrameEnv} {m : Option Str} (fuel : Nat) {s s' : SS} {rs : List FResp}
    {box : Bool} (h : parseResponses env m fuel s = .ok (rs, box) s') (hb : box = false) :
    (rs = [] → s' = s) ∧ ∀ r, rs.getLast? = some r → r.msg.stop = s'.pos := by
  induction fuel generalizing s rs box with
  | zero => cases h
  | succ fuel ih =>
    unfold parseResponses at h
    split at h
    · cases hh : parseResponseHeading s with
      | exc e s1 =>
        obtain ⟨⟨p, rfl⟩, hsane⟩ := respHeading_exc hh
        rw [hh] at h
        simp only [Out.ok.injEq, Prod.mk.injEq] at h
        obtain ⟨⟨rfl, rfl⟩, rfl⟩ := h
        cases hb
      | ok hd s1 =>
        rw [hh] at h
        simp only at h
        cases hb' : parseResponseBody env m hd.status hd.entries s1 with
        | exc e s2 => rw [hb'] at h; cases h
        | ok r s2 =>
          rw [hb'] at h
          simp only at h
          split at h
          · simp only [Out.ok.injEq, Prod.mk.injEq] at h
            obtain ⟨⟨rfl, rfl⟩, rfl⟩ := h
            refine ⟨by simp, ?_⟩
            intro x hx
            simp only [List.getLast?_singleton, Option.some.injEq] at hx
            rw [← hx]
          · cases hr : parseResponses env m fuel s2 with
            | exc e s3 => rw [hr] at h; cases h
            | ok p s3 =>
              obtain ⟨rs2, box2⟩ := p
              rw [hr] at h
              simp only [Out.ok.injEq, Prod.mk.injEq] at h
              obtain ⟨⟨rfl, rfl⟩, rfl⟩ := h
              have hi := ih hr hb
              refine ⟨by simp, ?_⟩
              intro x hx
              cases rs2 with
              | nil =>
                simp only [List.getLast?_singleton, Option.some.injEq] at hx
                rw [← hx, hi.1 rfl]
              | cons y ys =>
                rw [List.getLast?_cons_cons] at hx
                exact hi.2 x hx
    · simp only [Out.ok.injEq, Prod.mk.injEq] at h
      obtain ⟨⟨rfl, rfl⟩, rfl⟩ := h
      exact ⟨fun _ => rfl, by simp⟩

end Httpolice.Lemmas
