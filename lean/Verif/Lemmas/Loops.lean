import Verif.Lemmas.Streams

/-!
# Lemmas about the loops of `parse_streams`
-/

namespace Httpolice.Lemmas

open Httpolice.Model
open Httpolice.Spec

theorem requests_append (a b : List Yield) : requests (a ++ b) = requests a ++ requests b := by
  simp [requests]

theorem responses_append (a b : List Yield) : responses (a ++ b) = responses a ++ responses b := by
  simp [responses]

theorem requests_boxIf (b : Bool) (id : Nat) : requests (boxIf b id) = [] := by
  cases b <;> rfl

theorem responses_boxIf (b : Bool) (id : Nat) : responses (boxIf b id) = [] := by
  cases b <;> rfl

/-- After a response that ends HTTP, everything is quiet. -/
def SwitchEnds : List Yield → Prop
  | [] => True
  | .box _ :: ys => SwitchEnds ys
  | .exch req rs :: ys => ((∃ r ∈ rs, Ends req r) → Quiet ys) ∧ SwitchEnds ys

/-- Some response ends HTTP. -/
def HasSwitch (ys : List Yield) : Prop := ∃ req rs, .exch req rs ∈ ys ∧ ∃ r ∈ rs, Ends req r

theorem Quiet.append {a b : List Yield} (ha : Quiet a) (hb : Quiet b) : Quiet (a ++ b) := by
  refine ⟨by rw [requests_append, ha.1, hb.1]; rfl, by rw [responses_append, ha.2, hb.2]; rfl⟩

theorem quiet_boxIf (b : Bool) (id : Nat) : Quiet (boxIf b id) :=
  ⟨requests_boxIf b id, responses_boxIf b id⟩

theorem SwitchEnds.append {a b : List Yield} (ha : SwitchEnds a) (hb : SwitchEnds b)
    (h : HasSwitch a → Quiet b) : SwitchEnds (a ++ b) := by
  induction a with
  | nil => exact hb
  | cons y a ih =>
    have h' : HasSwitch a → Quiet b := by
      rintro ⟨req, rs, hm, hr⟩
      exact h ⟨req, rs, List.mem_cons_of_mem _ hm, hr⟩
    cases y with
    | box id => exact ih ha h'
    | exch req rs =>
      refine ⟨fun hx => ?_, ih ha.2 h'⟩
      exact Quiet.append (ha.1 hx) (h ⟨req, rs, List.mem_cons_self, hx⟩)

theorem switchEnds_boxIf (b : Bool) (id : Nat) : SwitchEnds (boxIf b id) := by
  cases b <;> simp [boxIf, SwitchEnds]

theorem hasSwitch_boxIf (b : Bool) (id : Nat) : ¬HasSwitch (boxIf b id) := by
  rintro ⟨req, rs, hm, _⟩
  cases b <;> simp [boxIf] at hm

theorem HasSwitch.append {a b : List Yield} (h : HasSwitch (a ++ b)) : HasSwitch a ∨ HasSwitch b := by
  obtain ⟨req, rs, hm, hr⟩ := h
  rcases List.mem_append.1 hm with hm | hm
  · exact Or.inl ⟨req, rs, hm, hr⟩
  · exact Or.inr ⟨req, rs, hm, hr⟩

theorem switchEnds_at {ys pre post : List Yield} {req : Option FReq} {rs : List FResp}
    (h : SwitchEnds ys) (he : ys = pre ++ .exch req rs :: post) (hr : ∃ r ∈ rs, Ends req r) :
    Quiet post := by
  induction pre generalizing ys with
  | nil => subst he; exact h.1 hr
  | cons y pre ih =>
    subst he
    cases y with
    | box id => exact ih (ys := pre ++ .exch req rs :: post) h rfl
    | exch q rs' => exact ih (ys := pre ++ .exch req rs :: post) h.2 rfl

/-- Unless the responses end with a final one, no responses follow. -/
def FinalEnds : List Yield → Prop
  | [] => True
  | .box _ :: ys => FinalEnds ys
  | .exch _ rs :: ys =>
    (responses ys ≠ [] → ∃ r, rs.getLast? = some r ∧ ¬Interim r) ∧ FinalEnds ys

/-- Some exchange lacks a final response. -/
def HasOpen (ys : List Yield) : Prop :=
  ∃ req rs, .exch req rs ∈ ys ∧ ¬∃ r, rs.getLast? = some r ∧ ¬Interim r

theorem FinalEnds.append {a b : List Yield} (ha : FinalEnds a) (hb : FinalEnds b)
    (h : HasOpen a → responses b = []) : FinalEnds (a ++ b) := by
  induction a with
  | nil => exact hb
  | cons y a ih =>
    have h' : HasOpen a → responses b = [] := by
      rintro ⟨req, rs, hm, hr⟩
      exact h ⟨req, rs, List.mem_cons_of_mem _ hm, hr⟩
    cases y with
    | box id => exact ih ha h'
    | exch req rs =>
      refine ⟨fun hx => ?_, ih ha.2 h'⟩
      have hx : responses (a ++ b) ≠ [] := hx
      rw [responses_append] at hx
      by_cases hf : ∃ r, rs.getLast? = some r ∧ ¬Interim r
      · exact hf
      · rw [h ⟨req, rs, List.mem_cons_self, hf⟩, List.append_nil] at hx
        exact ha.1 hx

theorem finalEnds_boxIf (b : Bool) (id : Nat) : FinalEnds (boxIf b id) := by
  cases b <;> simp [boxIf, FinalEnds]

theorem hasOpen_boxIf (b : Bool) (id : Nat) : ¬HasOpen (boxIf b id) := by
  rintro ⟨req, rs, hm, _⟩
  cases b <;> simp [boxIf] at hm

theorem HasOpen.append {a b : List Yield} (h : HasOpen (a ++ b)) : HasOpen a ∨ HasOpen b := by
  obtain ⟨req, rs, hm, hr⟩ := h
  rcases List.mem_append.1 hm with hm | hm
  · exact Or.inl ⟨req, rs, hm, hr⟩
  · exact Or.inr ⟨req, rs, hm, hr⟩

theorem finalEnds_at {ys pre post : List Yield} {req : Option FReq} {rs : List FResp}
    (h : FinalEnds ys) (he : ys = pre ++ .exch req rs :: post) (hr : responses post ≠ []) :
    ∃ r, rs.getLast? = some r ∧ ¬Interim r := by
  induction pre generalizing ys with
  | nil => subst he; exact h.1 hr
  | cons y pre ih =>
    subst he
    cases y with
    | box id => exact ih (ys := pre ++ .exch req rs :: post) h rfl
    | exch q rs' => exact ih (ys := pre ++ .exch req rs :: post) h.2 rfl

theorem Step.notgood {a b : SS} (h : Step a b) (hg : a.good = false) : b.good = false := by
  cases hs : b.sane with
  | false => exact insane_good hs
  | true =>
    have h1 := h.sane hs
    have h2 : a.eof = true := by
      cases he : a.eof with
      | true => rfl
      | false => simp [SS.good, h1, he] at hg
    exact eof_good (h.eof h2)

/-! ## The outbound stream -/

/-- Responses read off the outbound stream. -/
structure OutStep (o o' : SS) (rs : List FResp) : Prop where
  step : Step o o'
  tiles : Tiles o.pos (rs.map (·.msg)) o'.pos
  own : (o.sane = true → o.complaints = []) → ∀ r ∈ rs, OwnLines r.msg
  clean : (o.sane = true → o.complaints = []) → o'.sane = true → o'.complaints = []
  live : rs ≠ [] → o.good = true
  empty : o'.sane = true → rs = [] → o'.pos = o.pos
  last : o'.sane = true → ∀ r, rs.getLast? = some r → r.msg.stop = o'.pos

theorem OutStep.refl (o : SS) : OutStep o o [] :=
  ⟨Step.refl o, Nat.le_refl _, by simp, id, by simp, fun _ _ => rfl, by simp⟩

theorem OutStep.trans {a b c : SS} {rs rs' : List FResp} (h : OutStep a b rs)
    (h' : OutStep b c rs') : OutStep a c (rs ++ rs') := by
  refine ⟨h.step.trans h'.step, ?_, ?_, fun h0 => h'.clean (h.clean h0), ?_, ?_, ?_⟩
  · rw [List.map_append]
    refine Tiles.append h.tiles h'.tiles ?_ ?_
    · intro h1 h2
      have hs := good_sane (h'.live (by intro hn; exact h1 (by rw [hn]; rfl)))
      have hr : rs = [] := by simpa using h2
      exact (h.empty hs hr).symm
    · intro h1 m hm
      have hs := good_sane (h'.live (by intro hn; exact h1 (by rw [hn]; rfl)))
      rw [List.getLast?_map] at hm
      cases hl : rs.getLast? with
      | none => rw [hl] at hm; cases hm
      | some r =>
        rw [hl] at hm
        simp only [Option.map_some, Option.some.injEq] at hm
        rw [← hm]
        exact h.last hs r hl
  · intro h0 r hr
    rcases List.mem_append.1 hr with hr | hr
    · exact h.own h0 r hr
    · exact h'.own (h.clean h0) r hr
  · intro hne
    by_cases h1 : rs = []
    · have hg := h'.live (by intro h2; rw [h1, h2] at hne; exact hne rfl)
      cases ha : a.good with
      | true => rfl
      | false => rw [h.step.notgood ha] at hg; cases hg
    · exact h.live h1
  · intro hs hn
    have hn := List.append_eq_nil_iff.1 hn
    rw [h'.empty hs hn.2, h.empty (h'.step.sane hs) hn.1]
  · intro hs r hr
    rw [List.getLast?_append] at hr
    cases hl : rs'.getLast? with
    | none =>
      have hn : rs' = [] := by simpa using hl
      rw [hl] at hr
      simp only [Option.none_or] at hr
      rw [h'.empty hs hn]
      exact h.last (h'.step.sane hs) r hr
    | some r' =>
      rw [hl] at hr
      simp only [Option.some_or, Option.some.injEq] at hr
      rw [← hr]
      exact h'.last hs r' hl

theorem responses_live {env : FrameEnv} {m : Option Str} {fuel : Nat} {s s' : SS} {rs : List FResp}
    {box : Bool} (h : parseResponses env m fuel s = .ok (rs, box) s') (hne : rs ≠ []) :
    s.good = true := by
  cases fuel with
  | zero => cases h
  | succ fuel =>
    unfold parseResponses at h
    split at h
    · rename_i hg; exact hg
    · simp only [Out.ok.injEq, Prod.mk.injEq] at h
      exact absurd h.1.1.symm hne

theorem outStep_of_responses {env : FrameEnv} {m : Option Str} {fuel : Nat} {s s' : SS}
    {rs : List FResp} {box : Bool} (h : parseResponses env m fuel s = .ok (rs, box) s') :
    OutStep s s' rs := by
  have hr := responses_ok fuel h
  have hb : s'.sane = true → box = false := by
    intro hs
    cases hb : box with
    | false => rfl
    | true => rw [hr.boxed hb] at hs; cases hs
  refine ⟨hr.step, hr.tiles, hr.own, hr.clean, responses_live h, ?_, ?_⟩
  · intro hs hn
    rw [(responses_last fuel h (hb hs)).1 hn]
  · intro hs
    exact (responses_last fuel h (hb hs)).2

/-! ## Exchanges -/

/-- An exchange as it should be. -/
def ExchOk (req : Option FReq) (rs : List FResp) : Prop :=
  (∀ r ∈ rs.dropLast, Interim r) ∧ ∀ r ∈ rs, SwitchOk (req.map (·.method)) r

/-- The request loop. -/
structure ReqLoop (inb : SS) (outb : Option SS) (ys : List Yield) (inb' : SS)
    (outb' : Option SS) : Prop where
  step : Step inb inb'
  done : inb'.good = false
  tiles : Tiles inb.pos ((requests ys).map (·.msg)) inb'.pos
  own : (inb.sane = true → inb.complaints = []) → ∀ r ∈ requests ys, OwnLines r.msg
  touched : inb.good = true → (inb.eof = true → inb.rest = []) →
    (inb'.eof = true ↔ inb'.rest = [])
  kinds : ∀ y ∈ ys, (∃ q rs, y = .exch (some q) rs ∧ ExchOk (some q) rs) ∨ y = .box 1006 ∨
    y = .box 1009
  none : outb = none → outb' = none ∧ responses ys = []
  some : ∀ o, outb = some o → ∃ o', outb' = some o' ∧ OutStep o o' (responses ys) ∧
    ((o.eof = true ↔ o.rest = []) ∨ o' ≠ o → (o.eof = true → o.rest = []) →
      (o'.eof = true ↔ o'.rest = []))
  switch : SwitchEnds ys
  spoiled : HasSwitch ys → ∀ o', outb' = Option.some o' → o'.sane = false
  final : FinalEnds ys
  opened : HasOpen ys → ∀ o', outb' = Option.some o' → o'.good = false

theorem requestLoop_idle {env : FrameEnv} {fuel : Nat} {inb : SS} {outb : Option SS}
    (hg : inb.good = false) : requestLoop env (fuel + 1) inb outb = ([], .ok (inb, outb)) := by
  unfold requestLoop
  rw [if_neg (by rw [hg]; simp)]

theorem spoil_step (s : SS) (b : Bool) : Step s (s.spoil b) := by
  unfold SS.spoil
  split
  · exact insane_step s
  · exact Step.refl s

theorem spoil_pos (s : SS) (b : Bool) : (s.spoil b).pos = s.pos := by
  unfold SS.spoil; split <;> rfl

theorem spoil_complaints (s : SS) (b : Bool) : (s.spoil b).complaints = s.complaints := by
  unfold SS.spoil; split <;> rfl

theorem ends_iff (req : FReq) (r : FResp) :
    Ends (some req) r ↔ (r.status = 101 ∨ (req.method = str "CONNECT" ∧ successful r.status = true)) := by
  simp only [Ends, successful, Bool.and_eq_true, decide_eq_true_eq, Option.some.injEq,
    exists_eq_left']
  constructor
  · rintro (h | h)
    · exact Or.inl h
    · exact Or.inr ⟨h.1, by omega⟩
  · rintro (h | h)
    · exact Or.inl h
    · exact Or.inr ⟨h.1, by omega⟩

/-- A response that ends HTTP is the last one. -/
theorem ends_last {req : FReq} {rs : List FResp} (hi : ∀ r ∈ rs.dropLast, Interim r) {r : FResp}
    (hr : r ∈ rs) (he : Ends (some req) r) : rs.getLast? = some r := by
  have hni : ¬Interim r := by
    rintro ⟨h1, h2, h3⟩
    rcases he with he | ⟨q, _, _, h4, _⟩
    · exact h3 he
    · omega
  have hne : rs ≠ [] := by intro h; rw [h] at hr; simp at hr
  rw [← List.dropLast_concat_getLast hne] at hr
  rcases List.mem_append.1 hr with hr | hr
  · exact absurd (hi r hr) hni
  · rw [List.mem_singleton] at hr
    rw [hr]
    exact List.getLast?_eq_some_getLast hne

theorem switches_of_ends {req : FReq} {rs : List FResp} {r : FResp} (hl : rs.getLast? = some r)
    (he : Ends (some req) r) : switches req rs = true := by
  unfold switches
  rw [hl]
  rw [ends_iff] at he
  simp only [Bool.or_eq_true, beq_iff_eq, Bool.and_eq_true]
  exact he

theorem tiles_le {a b : Nat} {ms : List FMsg} (h : Tiles a ms b) : a ≤ b := by
  induction ms generalizing a with
  | nil => exact h
  | cons m ms ih =>
    obtain ⟨_, h2, h3⟩ := h
    have := ih h3
    omega

theorem requestLoop_ok {env : FrameEnv} (fuel : Nat) {inb inb' : SS} {outb outb' : Option SS}
    {ys : List Yield} (h : requestLoop env fuel inb outb = (ys, .ok (inb', outb'))) :
    ReqLoop inb outb ys inb' outb' := by
  induction fuel generalizing inb outb ys with
  | zero => simp [requestLoop] at h
  | succ fuel ih =>
    unfold requestLoop at h
    split at h
    · rename_i hg
      cases hp : parseRequest env inb with
      | exc e s1 => rw [hp] at h; simp at h
      | ok r s1 =>
        rw [hp] at h
        cases r with
        | none =>
          obtain ⟨n1, n2, n3⟩ := request_none hp
          simp only at h
          cases hl : requestLoop env fuel s1 outb with
          | mk ys2 r2 =>
            rw [hl] at h
            simp only [Prod.mk.injEq] at h
            obtain ⟨rfl, rfl⟩ := h
            have hi := ih hl
            exact {
              step := n1.trans hi.step
              done := hi.done
              tiles := by
                have : ys2 = [] ∧ inb' = s1 := by
                  cases fuel with
                  | zero => simp [requestLoop] at hl
                  | succ fuel =>
                    rw [requestLoop_idle (insane_good n2)] at hl
                    simp only [Prod.mk.injEq, Except.ok.injEq] at hl
                    exact ⟨hl.1.symm, hl.2.1.symm⟩
                obtain ⟨rfl, rfl⟩ := this
                exact n1.pos_le
              own := by
                intro _
                exact hi.own (by rw [n2]; simp)
              touched := fun _ hinv => hi.step.touch (n3 hinv)
              kinds := by
                intro y hy
                rcases List.mem_cons.1 hy with rfl | hy
                · exact Or.inr (Or.inl rfl)
                · exact hi.kinds y hy
              none := hi.none
              some := hi.some
              switch := hi.switch
              spoiled := by
                rintro ⟨req, rs, hm, hr⟩
                refine hi.spoiled ⟨req, rs, ?_, hr⟩
                rcases List.mem_cons.1 hm with hm | hm
                · cases hm
                · exact hm
              final := hi.final
              opened := by
                rintro ⟨req, rs, hm, hr⟩
                refine hi.opened ⟨req, rs, ?_, hr⟩
                rcases List.mem_cons.1 hm with hm | hm
                · cases hm
                · exact hm }
        | some req =>
          have hm := request_some hp
          simp only at h
          cases outb with
          | none =>
            simp only at h
            cases hl : requestLoop env fuel s1 none with
            | mk ys2 r2 =>
              rw [hl] at h
              simp only [Prod.mk.injEq] at h
              obtain ⟨rfl, rfl⟩ := h
              have hi := ih hl
              exact {
                step := hm.step.trans hi.step
                done := hi.done
                tiles := ⟨hm.start, by rw [hm.stop]; exact hm.lt, by rw [hm.stop]; exact hi.tiles⟩
                own := by
                  intro h0 r hr
                  rcases List.mem_cons.1 hr with rfl | hr
                  · exact hm.own (h0 (good_sane hg))
                  · exact hi.own (fun hs => hm.clean (h0 (good_sane hg)) hs) r hr
                touched := fun _ hinv => hi.step.touch (hm.touched hinv)
                kinds := by
                  intro y hy
                  rcases List.mem_cons.1 hy with rfl | hy
                  · exact Or.inl ⟨req, [], rfl, by simp [ExchOk]⟩
                  · exact hi.kinds y hy
                none := fun h0 => ⟨(hi.none h0).1, (hi.none h0).2⟩
                some := by simp
                switch := ⟨by simp, hi.switch⟩
                spoiled := by
                  intro _ o' ho'
                  rw [(hi.none rfl).1] at ho'
                  cases ho'
                final := ⟨fun hx => absurd (hi.none rfl).2 hx, hi.final⟩
                opened := by
                  intro _ o' ho'
                  rw [(hi.none rfl).1] at ho'
                  cases ho' }
          | some o =>
            simp only at h
            split at h
            · rename_i hog
              cases hr : parseResponses env (some req.method) (o.rest.length + 2) o with
              | exc e s2 => rw [hr] at h; simp at h
              | ok p o1 =>
                obtain ⟨rs, box⟩ := p
                rw [hr] at h
                simp only at h
                cases hl : requestLoop env fuel (s1.spoil (switches req rs)) (some o1) with
                | mk ys2 r2 =>
                  rw [hl] at h
                  simp only [Prod.mk.injEq] at h
                  obtain ⟨rfl, rfl⟩ := h
                  have hi := ih hl
                  have hro := responses_ok _ hr
                  have hos := outStep_of_responses hr
                  have hsp := spoil_step s1 (switches req rs)
                  obtain ⟨o', ho', hos', hto'⟩ := hi.some o1 rfl
                  have hrs : responses (Yield.exch (some req) rs :: boxIf box 1009 ++ ys2)
                      = rs ++ responses ys2 := by
                    rw [responses_append]
                    show (rs ++ responses (boxIf box 1009)) ++ _ = _
                    rw [responses_boxIf, List.append_nil]
                  have hrq : requests (Yield.exch (some req) rs :: boxIf box 1009 ++ ys2)
                      = req :: requests ys2 := by
                    rw [requests_append]
                    show (req :: requests (boxIf box 1009)) ++ _ = _
                    rw [requests_boxIf]; rfl
                  have hopen : (¬∃ r, rs.getLast? = some r ∧ ¬Interim r) → o1.good = false := by
                    intro hx
                    cases hb : box with
                    | true => exact insane_good (hro.boxed hb)
                    | false =>
                      cases hgo : o1.good with
                      | false => rfl
                      | true => exact absurd (hro.final hb hgo) hx
                  have hquiet : (∃ r ∈ rs, Ends (some req) r) → ys2 = [] := by
                    rintro ⟨r, hr1, hr2⟩
                    have hsw := switches_of_ends (ends_last hro.interim hr1 hr2) hr2
                    rw [hsw] at hl
                    cases fuel with
                    | zero => simp [requestLoop] at hl
                    | succ fuel =>
                      rw [requestLoop_idle (insane_good (by simp [SS.spoil]))] at hl
                      simp only [Prod.mk.injEq] at hl
                      exact hl.1.symm
                  exact {
                    step := (hm.step.trans hsp).trans hi.step
                    done := hi.done
                    tiles := by
                      rw [hrq]
                      refine ⟨hm.start, by rw [hm.stop]; exact hm.lt, ?_⟩
                      rw [hm.stop, ← spoil_pos s1 (switches req rs)]
                      exact hi.tiles
                    own := by
                      intro h0 r hr
                      rw [hrq] at hr
                      rcases List.mem_cons.1 hr with rfl | hr
                      · exact hm.own (h0 (good_sane hg))
                      · refine hi.own (fun hs => ?_) r hr
                        rw [spoil_complaints]
                        exact hm.clean (h0 (good_sane hg)) (hsp.sane hs)
                    touched := fun _ hinv => hi.step.touch (hsp.touch (hm.touched hinv))
                    kinds := by
                      intro y hy
                      rcases List.mem_append.1 hy with hy | hy
                      · rcases List.mem_cons.1 hy with rfl | hy
                        · exact Or.inl ⟨req, rs, rfl, hro.interim, hro.switched⟩
                        · cases box <;> simp [boxIf] at hy
                          exact Or.inr (Or.inr hy)
                      · exact hi.kinds y hy
                    none := by simp
                    some := by
                      intro o2 ho2
                      cases ho2
                      refine ⟨o', ho', ?_, ?_⟩
                      · rw [hrs]; exact hos.trans hos'
                      · intro _ hinv
                        exact hos'.step.touch (hro.touched' hog hinv)
                    switch := by
                      refine SwitchEnds.append (a := .exch (some req) rs :: boxIf box 1009) ?_
                        hi.switch ?_
                      · exact ⟨fun _ => quiet_boxIf _ _, switchEnds_boxIf _ _⟩
                      · rintro ⟨q, rs', hmem, hx⟩
                        rcases List.mem_cons.1 hmem with hmem | hmem
                        · cases hmem
                          rw [hquiet hx]
                          exact ⟨rfl, rfl⟩
                        · exact absurd ⟨q, rs', hmem, hx⟩ (hasSwitch_boxIf box 1009)
                    spoiled := by
                      intro hsw o2 ho2
                      rcases hsw.append (a := .exch (some req) rs :: boxIf box 1009) with hsw | hsw
                      · rw [ho'] at ho2
                        cases ho2
                        obtain ⟨q, rs', hmem, hx⟩ := hsw
                        rcases List.mem_cons.1 hmem with hmem | hmem
                        · cases hmem
                          obtain ⟨r, hr1, hr2⟩ := hx
                          rw [ends_iff] at hr2
                          have := hro.stops r hr1 (by
                            rcases hr2 with h | h
                            · exact Or.inl h
                            · exact Or.inr ⟨by rw [h.1], h.2⟩)
                          cases hs : o'.sane with
                          | false => rfl
                          | true => rw [hos'.step.sane hs] at this; cases this
                        · exact absurd ⟨q, rs', hmem, hx⟩ (hasSwitch_boxIf box 1009)
                      · exact hi.spoiled hsw o2 ho2
                    final := by
                      refine FinalEnds.append (a := .exch (some req) rs :: boxIf box 1009) ?_
                        hi.final ?_
                      · exact ⟨fun hx => absurd (responses_boxIf _ _) hx, finalEnds_boxIf _ _⟩
                      · rintro ⟨q, rs', hmem, hx⟩
                        rcases List.mem_cons.1 hmem with hmem | hmem
                        · cases hmem
                          have := hopen hx
                          cases hrn : responses ys2 with
                          | nil => rfl
                          | cons _ _ => rw [hos'.live (by rw [hrn]; simp)] at this; cases this
                        · exact absurd ⟨q, rs', hmem, hx⟩ (hasOpen_boxIf box 1009)
                    opened := by
                      intro hsw o2 ho2
                      rcases hsw.append (a := .exch (some req) rs :: boxIf box 1009) with hsw | hsw
                      · rw [ho'] at ho2
                        cases ho2
                        obtain ⟨q, rs', hmem, hx⟩ := hsw
                        rcases List.mem_cons.1 hmem with hmem | hmem
                        · cases hmem
                          exact hos'.step.notgood (hopen hx)
                        · exact absurd ⟨q, rs', hmem, hx⟩ (hasOpen_boxIf box 1009)
                      · exact hi.opened hsw o2 ho2 }
            · rename_i hog
              cases hl : requestLoop env fuel s1 (some o) with
              | mk ys2 r2 =>
                rw [hl] at h
                simp only [Prod.mk.injEq] at h
                obtain ⟨rfl, rfl⟩ := h
                have hi := ih hl
                exact {
                  step := hm.step.trans hi.step
                  done := hi.done
                  tiles := ⟨hm.start, by rw [hm.stop]; exact hm.lt, by rw [hm.stop]; exact hi.tiles⟩
                  own := by
                    intro h0 r hr
                    rcases List.mem_cons.1 hr with rfl | hr
                    · exact hm.own (h0 (good_sane hg))
                    · exact hi.own (fun hs => hm.clean (h0 (good_sane hg)) hs) r hr
                  touched := fun _ hinv => hi.step.touch (hm.touched hinv)
                  kinds := by
                    intro y hy
                    rcases List.mem_cons.1 hy with rfl | hy
                    · exact Or.inl ⟨req, [], rfl, by simp [ExchOk]⟩
                    · exact hi.kinds y hy
                  none := by simp
                  some := hi.some
                  switch := ⟨by simp, hi.switch⟩
                  spoiled := by
                    rintro ⟨q, rs', hmem, hx⟩
                    rcases List.mem_cons.1 hmem with hmem | hmem
                    · cases hmem
                      obtain ⟨r, hr1, _⟩ := hx
                      simp at hr1
                    · exact hi.spoiled ⟨q, rs', hmem, hx⟩
                  final := by
                    refine ⟨fun hx => ?_, hi.final⟩
                    obtain ⟨o', _, hos', _⟩ := hi.some o rfl
                    exact absurd (hos'.live hx) hog
                  opened := by
                    intro _ o2 ho2
                    obtain ⟨o', ho', hos', _⟩ := hi.some o rfl
                    rw [ho'] at ho2
                    cases ho2
                    exact hos'.step.notgood (by simpa using hog) }
    · rename_i hg
      simp only [Prod.mk.injEq, Except.ok.injEq] at h
      obtain ⟨rfl, rfl, rfl⟩ := h
      have hg' : inb.good = false := by simpa using hg
      exact {
        step := Step.refl _
        done := hg'
        tiles := Nat.le_refl _
        own := by simp [requests]
        touched := fun h1 => absurd h1 hg
        kinds := by simp
        none := fun h0 => ⟨h0, rfl⟩
        some := by
          intro o ho
          refine ⟨o, ho, OutStep.refl o, ?_⟩
          rintro (h1 | h1)
          · exact fun _ => h1
          · exact absurd rfl h1
        switch := trivial
        spoiled := by rintro ⟨_, _, hm, _⟩; simp at hm
        final := trivial
        opened := by rintro ⟨_, _, hm, _⟩; simp at hm }

/-- The response loop. -/
structure RespLoop (o : SS) (ys : List Yield) (o' : SS) : Prop where
  out : OutStep o o' (responses ys)
  done : o'.good = false
  noreq : requests ys = []
  kinds : ∀ y ∈ ys, (∃ rs, y = .exch none rs ∧ rs ≠ [] ∧ ExchOk none rs) ∨ y = .box 1009
  touched : o.good = true → (o.eof = true → o.rest = []) → (o'.eof = true ↔ o'.rest = [])
  nonempty : o.good = true → ys ≠ []
  switch : SwitchEnds ys
  final : FinalEnds ys

theorem responseLoop_idle {env : FrameEnv} {fuel : Nat} {o : SS} (hg : o.good = false) :
    responseLoop env (fuel + 1) o = ([], .ok o) := by
  unfold responseLoop
  rw [if_neg (by rw [hg]; simp)]

theorem responseLoop_ok {env : FrameEnv} (fuel : Nat) {o o' : SS} {ys : List Yield}
    (h : responseLoop env fuel o = (ys, .ok o')) : RespLoop o ys o' := by
  induction fuel generalizing o ys with
  | zero => simp [responseLoop] at h
  | succ fuel ih =>
    unfold responseLoop at h
    split at h
    · rename_i hg
      cases hr : parseResponses env none (o.rest.length + 2) o with
      | exc e s2 => rw [hr] at h; simp at h
      | ok p o1 =>
        obtain ⟨rs, box⟩ := p
        rw [hr] at h
        simp only at h
        cases hl : responseLoop env fuel o1 with
        | mk ys2 r2 =>
          rw [hl] at h
          simp only [Prod.mk.injEq] at h
          obtain ⟨rfl, rfl⟩ := h
          have hi := ih hl
          have hro := responses_ok _ hr
          have hos := outStep_of_responses hr
          -- the exchange, if any
          have key : ∀ first : List Yield,
              (first = [] ∧ rs = []) ∨ (first = [Yield.exch none rs] ∧ rs ≠ []) →
              RespLoop o (first ++ boxIf box 1009 ++ ys2) o' := by
            intro first hf
            have hfr : responses first = rs ∧ requests first = [] := by
              rcases hf with ⟨rfl, rfl⟩ | ⟨rfl, _⟩ <;> simp [responses, requests]
            have hopen : (¬∃ r, rs.getLast? = some r ∧ ¬Interim r) → o1.good = false := by
              intro hx
              cases hb : box with
              | true => exact insane_good (hro.boxed hb)
              | false =>
                cases hgo : o1.good with
                | false => rfl
                | true => exact absurd (hro.final hb hgo) hx
            have hsw : (∃ r ∈ rs, Ends none r) → ys2 = [] := by
              rintro ⟨r, hr1, hr2⟩
              have h101 : r.status = 101 := by
                rcases hr2 with h | ⟨q, hq, _⟩
                · exact h
                · cases hq
              have hs := hro.stops r hr1 (Or.inl h101)
              cases fuel with
              | zero => simp [responseLoop] at hl
              | succ fuel =>
                rw [responseLoop_idle (insane_good hs)] at hl
                simp only [Prod.mk.injEq] at hl
                exact hl.1.symm
            exact {
              out := by
                rw [responses_append, responses_append, responses_boxIf, hfr.1, List.append_nil]
                exact hos.trans hi.out
              done := hi.done
              noreq := by
                rw [requests_append, requests_append, requests_boxIf, hfr.2, hi.noreq]; rfl
              kinds := by
                intro y hy
                rcases List.mem_append.1 hy with hy | hy
                · rcases List.mem_append.1 hy with hy | hy
                  · rcases hf with ⟨rfl, _⟩ | ⟨rfl, hne⟩
                    · simp at hy
                    · rw [List.mem_singleton] at hy
                      exact Or.inl ⟨rs, hy, hne, hro.interim, hro.switched⟩
                  · cases box <;> simp [boxIf] at hy
                    exact Or.inr hy
                · exact hi.kinds y hy
              touched := fun _ hinv => hi.out.step.touch (hro.touched' hg hinv)
              nonempty := by
                intro _ hn
                rcases hf with ⟨rfl, hrs⟩ | ⟨rfl, _⟩
                · have hb := hro.nonempty hg hrs
                  rw [hb] at hn
                  simp [boxIf] at hn
                · simp at hn
              switch := by
                refine SwitchEnds.append ?_ hi.switch ?_
                · refine SwitchEnds.append ?_ (switchEnds_boxIf _ _) (fun _ => quiet_boxIf _ _)
                  rcases hf with ⟨rfl, _⟩ | ⟨rfl, _⟩
                  · trivial
                  · exact ⟨fun _ => ⟨rfl, rfl⟩, trivial⟩
                · rintro ⟨q, rs', hmem, hx⟩
                  rcases List.mem_append.1 hmem with hmem | hmem
                  · rcases hf with ⟨rfl, _⟩ | ⟨rfl, _⟩
                    · simp at hmem
                    · rw [List.mem_singleton] at hmem
                      cases hmem
                      rw [hsw hx]
                      exact ⟨rfl, rfl⟩
                  · exact absurd ⟨q, rs', hmem, hx⟩ (hasSwitch_boxIf box 1009)
              final := by
                refine FinalEnds.append ?_ hi.final ?_
                · refine FinalEnds.append ?_ (finalEnds_boxIf _ _) (fun _ => responses_boxIf _ _)
                  rcases hf with ⟨rfl, _⟩ | ⟨rfl, _⟩
                  · trivial
                  · exact ⟨fun hx => absurd rfl hx, trivial⟩
                · rintro ⟨q, rs', hmem, hx⟩
                  rcases List.mem_append.1 hmem with hmem | hmem
                  · rcases hf with ⟨rfl, _⟩ | ⟨rfl, _⟩
                    · simp at hmem
                    · rw [List.mem_singleton] at hmem
                      cases hmem
                      have := hopen hx
                      cases hrn : responses ys2 with
                      | nil => rfl
                      | cons _ _ => rw [hi.out.live (by rw [hrn]; simp)] at this; cases this
                  · exact absurd ⟨q, rs', hmem, hx⟩ (hasOpen_boxIf box 1009) }
          cases rs with
          | nil => exact key [] (Or.inl ⟨rfl, rfl⟩)
          | cons r rs => exact key [.exch none (r :: rs)] (Or.inr ⟨rfl, by simp⟩)
    · rename_i hg
      simp only [Prod.mk.injEq, Except.ok.injEq] at h
      obtain ⟨rfl, rfl⟩ := h
      exact {
        out := OutStep.refl o
        done := by simpa using hg
        noreq := rfl
        kinds := by simp
        touched := fun h1 => absurd h1 hg
        nonempty := fun h1 => absurd h1 hg
        switch := trivial
        final := trivial }

theorem responseLoop_exc {env : FrameEnv} (fuel : Nat) {o : SS} {ys : List Yield} {e : Exc}
    (h1 : 1 ≤ fuel) (hf : o.good = true → o.rest.length + 2 ≤ fuel)
    (h : responseLoop env fuel o = (ys, .error e)) : e = .value ∧ NegLine' o := by
  induction fuel generalizing o ys with
  | zero => omega
  | succ fuel ih =>
    unfold responseLoop at h
    split at h
    · rename_i hg
      have hf := hf hg
      cases hr : parseResponses env none (o.rest.length + 2) o with
      | exc e1 s2 =>
        rw [hr] at h
        simp only [Prod.mk.injEq, Except.error.injEq] at h
        obtain ⟨_, rfl⟩ := h
        exact responses_exc _ (by omega) hr
      | ok p o1 =>
        obtain ⟨rs, box⟩ := p
        rw [hr] at h
        simp only at h
        cases hl : responseLoop env fuel o1 with
        | mk ys2 r2 =>
          rw [hl] at h
          simp only [Prod.mk.injEq] at h
          obtain ⟨_, rfl⟩ := h
          have hro := responses_ok _ hr
          have hlen := hro.step.len
          obtain ⟨i1, i2⟩ := ih (by omega) (by
            intro hg'
            rcases hro.progress hg with hp | hp
            · omega
            · rw [hp] at hg'; cases hg') hl
          exact ⟨i1, i2.mono hro.step⟩
    · simp at h

theorem requestLoop_exc {env : FrameEnv} (fuel : Nat) {inb : SS} {outb : Option SS}
    {ys : List Yield} {e : Exc} (h1 : 1 ≤ fuel) (hf : inb.good = true → inb.rest.length + 2 ≤ fuel)
    (h : requestLoop env fuel inb outb = (ys, .error e)) :
    e = .value ∧ (NegLine' inb ∨ ∃ o, outb = some o ∧ NegLine' o) := by
  induction fuel generalizing inb outb ys with
  | zero => omega
  | succ fuel ih =>
    unfold requestLoop at h
    split at h
    · rename_i hg
      have hf := hf hg
      cases hp : parseRequest env inb with
      | exc e1 s1 =>
        rw [hp] at h
        simp only [Prod.mk.injEq, Except.error.injEq] at h
        obtain ⟨_, rfl⟩ := h
        have := request_exc hp
        exact ⟨this.1, Or.inl this.2⟩
      | ok r s1 =>
        rw [hp] at h
        cases r with
        | none =>
          obtain ⟨n1, n2, n3⟩ := request_none hp
          simp only at h
          cases hl : requestLoop env fuel s1 outb with
          | mk ys2 r2 =>
            rw [hl] at h
            simp only [Prod.mk.injEq] at h
            obtain ⟨_, rfl⟩ := h
            obtain ⟨i1, i2⟩ := ih (by omega) (by rw [insane_good n2]; simp) hl
            refine ⟨i1, ?_⟩
            rcases i2 with i2 | i2
            · exact Or.inl (i2.mono n1)
            · exact Or.inr i2
        | some req =>
          have hm := request_some hp
          have hlen := hm.step.len
          have hlt := hm.lt
          simp only at h
          cases outb with
          | none =>
            simp only at h
            cases hl : requestLoop env fuel s1 none with
            | mk ys2 r2 =>
              rw [hl] at h
              simp only [Prod.mk.injEq] at h
              obtain ⟨_, rfl⟩ := h
              obtain ⟨i1, i2⟩ := ih (by omega) (by intro _; omega) hl
              refine ⟨i1, ?_⟩
              rcases i2 with i2 | i2
              · exact Or.inl (i2.mono hm.step)
              · exact Or.inr i2
          | some o =>
            simp only at h
            split at h
            · cases hr : parseResponses env (some req.method) (o.rest.length + 2) o with
              | exc e2 s2 =>
                rw [hr] at h
                simp only [Prod.mk.injEq, Except.error.injEq] at h
                obtain ⟨_, rfl⟩ := h
                have := responses_exc _ (by omega) hr
                exact ⟨this.1, Or.inr ⟨o, rfl, this.2⟩⟩
              | ok p o1 =>
                obtain ⟨rs, box⟩ := p
                rw [hr] at h
                simp only at h
                cases hl : requestLoop env fuel (s1.spoil (switches req rs)) (some o1) with
                | mk ys2 r2 =>
                  rw [hl] at h
                  simp only [Prod.mk.injEq] at h
                  obtain ⟨_, rfl⟩ := h
                  have hsp := spoil_step s1 (switches req rs)
                  have hlen2 := hsp.len
                  have hp2 := spoil_pos s1 (switches req rs)
                  obtain ⟨i1, i2⟩ := ih (by omega) (by intro _; omega) hl
                  refine ⟨i1, ?_⟩
                  rcases i2 with i2 | ⟨o2, ho2, i2⟩
                  · exact Or.inl (i2.mono (hm.step.trans hsp))
                  · cases ho2
                    exact Or.inr ⟨o, rfl, i2.mono (responses_ok _ hr).step⟩
            · cases hl : requestLoop env fuel s1 (some o) with
              | mk ys2 r2 =>
                rw [hl] at h
                simp only [Prod.mk.injEq] at h
                obtain ⟨_, rfl⟩ := h
                obtain ⟨i1, i2⟩ := ih (by omega) (by intro _; omega) hl
                refine ⟨i1, ?_⟩
                rcases i2 with i2 | i2
                · exact Or.inl (i2.mono hm.step)
                · exact Or.inr i2
    · simp at h

/-! ## The whole -/

/-- Everything about a run of `parse_streams` that ends without an exception: `a` comes from the
request loop, `b` from the response loop. -/
structure Run (inb outb : Option SS) (ys : List Yield) (inb' outb' : Option SS)
    (a b : List Yield) (b8 : Bool) : Prop where
  shape : ys = a ++ boxIf (inb'.any fun s => !s.eof) 1007 ++ boxIf b8 1008 ++ b ++
    boxIf (outb'.any fun s => !s.eof) 1010
  kindsA : ∀ y ∈ a, (∃ q rs, y = .exch (some q) rs ∧ ExchOk (some q) rs) ∨ y = .box 1006 ∨
    y = .box 1009
  kindsB : ∀ y ∈ b, (∃ rs, y = .exch none rs ∧ rs ≠ [] ∧ ExchOk none rs) ∨ y = .box 1009
  b8 : b8 = (inb.isSome && !b.isEmpty)
  switch : SwitchEnds ys
  final : FinalEnds ys
  inNone : inb = none → inb' = none ∧ a = []
  inSome : ∀ i, inb = some i → ∃ i', inb' = some i' ∧ Step i i' ∧ i'.good = false ∧
    Tiles i.pos ((requests a).map (·.msg)) i'.pos ∧
    ((i.sane = true → i.complaints = []) → ∀ r ∈ requests a, OwnLines r.msg) ∧
    (i.good = true → (i.eof = true → i.rest = []) → (i'.eof = true ↔ i'.rest = []))
  outNone : outb = none → outb' = none ∧ responses (a ++ b) = [] ∧ b = []
  outSome : ∀ o, outb = some o → ∃ o', outb' = some o' ∧ OutStep o o' (responses (a ++ b)) ∧
    o'.good = false ∧
    (o.good = true → (o.eof = true → o.rest = []) → (o'.eof = true ↔ o'.rest = []))

theorem wrap_switch {a b : List Yield} (b7 b8 b10 : Bool) (ha : SwitchEnds a) (hb : SwitchEnds b)
    (h : HasSwitch a → Quiet b) :
    SwitchEnds (a ++ boxIf b7 1007 ++ boxIf b8 1008 ++ b ++ boxIf b10 1010) := by
  refine SwitchEnds.append (SwitchEnds.append (SwitchEnds.append (SwitchEnds.append ha
    (switchEnds_boxIf _ _) ?_) (switchEnds_boxIf _ _) ?_) hb ?_) (switchEnds_boxIf _ _) ?_
  · exact fun _ => quiet_boxIf _ _
  · exact fun _ => quiet_boxIf _ _
  · intro hx
    rcases hx.append with hx | hx
    · rcases hx.append with hx | hx
      · exact h hx
      · exact absurd hx (hasSwitch_boxIf _ _)
    · exact absurd hx (hasSwitch_boxIf _ _)
  · exact fun _ => quiet_boxIf _ _

theorem wrap_final {a b : List Yield} (b7 b8 b10 : Bool) (ha : FinalEnds a) (hb : FinalEnds b)
    (h : HasOpen a → responses b = []) :
    FinalEnds (a ++ boxIf b7 1007 ++ boxIf b8 1008 ++ b ++ boxIf b10 1010) := by
  refine FinalEnds.append (FinalEnds.append (FinalEnds.append (FinalEnds.append ha
    (finalEnds_boxIf _ _) ?_) (finalEnds_boxIf _ _) ?_) hb ?_) (finalEnds_boxIf _ _) ?_
  · exact fun _ => responses_boxIf _ _
  · exact fun _ => responses_boxIf _ _
  · intro hx
    rcases hx.append with hx | hx
    · rcases hx.append with hx | hx
      · exact h hx
      · exact absurd hx (hasOpen_boxIf _ _)
    · exact absurd hx (hasOpen_boxIf _ _)
  · exact fun _ => responses_boxIf _ _

theorem not_hasSwitch_nil : ¬HasSwitch [] := by rintro ⟨_, _, hm, _⟩; simp at hm

theorem not_hasOpen_nil : ¬HasOpen [] := by rintro ⟨_, _, hm, _⟩; simp at hm

theorem finish_ok {env : FrameEnv} {inb outb inb' outb' : Option SS} {ys : List Yield}
    (h : finishStreams env inb outb = (ys, .ok (inb', outb'))) :
    inb' = inb ∧ ∃ b b8, ys = boxIf (inb'.any fun s => !s.eof) 1007 ++ boxIf b8 1008 ++ b ++
        boxIf (outb'.any fun s => !s.eof) 1010 ∧
      b8 = (inb.isSome && !b.isEmpty) ∧
      ((outb = none ∧ outb' = none ∧ b = []) ∨
        ∃ o o', outb = some o ∧ outb' = some o' ∧ RespLoop o b o') := by
  unfold finishStreams at h
  simp only at h
  cases outb with
  | none =>
    simp only [Prod.mk.injEq, Except.ok.injEq] at h
    obtain ⟨rfl, rfl, rfl⟩ := h
    exact ⟨rfl, [], false, by simp [boxIf], by simp, Or.inl ⟨rfl, rfl, rfl⟩⟩
  | some o =>
    simp only at h
    split at h
    · rename_i hg
      cases hl : responseLoop env (o.rest.length + 2) o with
      | mk ys2 r2 =>
        rw [hl] at h
        cases r2 with
        | error e => simp at h
        | ok o' =>
          simp only [Prod.mk.injEq, Except.ok.injEq] at h
          obtain ⟨rfl, rfl, rfl⟩ := h
          have hr := responseLoop_ok _ hl
          refine ⟨rfl, ys2, inb.isSome, rfl, ?_, Or.inr ⟨o, o', rfl, rfl, hr⟩⟩
          have := hr.nonempty hg
          cases ys2 with
          | nil => exact absurd rfl this
          | cons => simp
    · rename_i hg
      simp only [Prod.mk.injEq, Except.ok.injEq] at h
      obtain ⟨rfl, rfl, rfl⟩ := h
      refine ⟨rfl, [], false, by simp [boxIf], by simp, Or.inr ⟨o, o, rfl, rfl, ?_⟩⟩
      have := responseLoop_ok 1 (responseLoop_idle (env := env) (fuel := 0) (o := o)
        (by simpa using hg))
      exact this

theorem parseStreams_ok {env : FrameEnv} {inb outb inb' outb' : Option SS} {ys : List Yield}
    (h : parseStreams env inb outb = (ys, .ok (inb', outb'))) :
    ∃ a b b8, Run inb outb ys inb' outb' a b b8 := by
  unfold parseStreams at h
  cases inb with
  | none =>
    simp only at h
    obtain ⟨rfl, b, b8, rfl, h8, ho⟩ := finish_ok h
    refine ⟨[], b, b8, ?_⟩
    rcases ho with ⟨rfl, rfl, rfl⟩ | ⟨o, o', rfl, rfl, hr⟩
    · exact {
        shape := by simp
        kindsA := by simp
        kindsB := by simp
        b8 := h8
        switch := wrap_switch (a := []) (b := [])
          ((none : Option SS).any fun s => !s.eof) b8
          ((none : Option SS).any fun s => !s.eof) trivial trivial (fun _ => ⟨rfl, rfl⟩)
        final := wrap_final (a := []) (b := [])
          ((none : Option SS).any fun s => !s.eof) b8
          ((none : Option SS).any fun s => !s.eof) trivial trivial (fun _ => rfl)
        inNone := by simp
        inSome := by simp
        outNone := by simp [responses]
        outSome := by simp }
    · exact {
        shape := by simp
        kindsA := by simp
        kindsB := hr.kinds
        b8 := h8
        switch := by
          have key := wrap_switch (a := []) (b := b) ((none : Option SS).any fun s => !s.eof) b8
            ((some o').any fun s => !s.eof) trivial hr.switch
            (fun hx => absurd hx not_hasSwitch_nil)
          exact key
        final := by
          have key := wrap_final (a := []) (b := b) ((none : Option SS).any fun s => !s.eof) b8
            ((some o').any fun s => !s.eof) trivial hr.final
            (fun hx => absurd hx not_hasOpen_nil)
          exact key
        inNone := by simp
        inSome := by simp
        outNone := by simp
        outSome := by
          intro o1 ho1
          cases ho1
          exact ⟨o', rfl, hr.out, hr.done, hr.touched⟩ }
  | some i =>
    simp only at h
    cases hl : requestLoop env (i.rest.length + 2) i outb with
    | mk a r =>
      rw [hl] at h
      cases r with
      | error e => simp at h
      | ok p =>
        obtain ⟨i', outb1⟩ := p
        simp only at h
        cases hf : finishStreams env (some i') outb1 with
        | mk ys2 r2 =>
          rw [hf] at h
          simp only [Prod.mk.injEq] at h
          obtain ⟨rfl, rfl⟩ := h
          have hq := requestLoop_ok _ hl
          obtain ⟨rfl, b, b8, rfl, h8, ho⟩ := finish_ok hf
          refine ⟨a, b, b8, ?_⟩
          have hin : ∀ i1, some i = some i1 → ∃ i2, some i' = some i2 ∧ Step i1 i2 ∧
              i2.good = false ∧ Tiles i1.pos ((requests a).map (·.msg)) i2.pos ∧
              ((i1.sane = true → i1.complaints = []) → ∀ r ∈ requests a, OwnLines r.msg) ∧
              (i1.good = true → (i1.eof = true → i1.rest = []) →
                (i2.eof = true ↔ i2.rest = [])) := by
            intro i1 hi1
            cases hi1
            exact ⟨i', rfl, hq.step, hq.done, hq.tiles, hq.own, hq.touched⟩
          rcases ho with ⟨rfl, rfl, rfl⟩ | ⟨o1, o2, rfl, rfl, hr⟩
          · have hnone : outb = none := by
              cases outb with
              | none => rfl
              | some o =>
                obtain ⟨o', ho', _⟩ := hq.some o rfl
                cases ho'
            exact {
              shape := by simp
              kindsA := hq.kinds
              kindsB := by simp
              b8 := by simpa using h8
              switch := by
                have := wrap_switch (b := []) ((some i').any fun s => !s.eof) b8
                  ((none : Option SS).any fun s => !s.eof) hq.switch trivial
                  (fun _ => ⟨rfl, rfl⟩)
                simpa only [List.append_assoc] using this
              final := by
                have := wrap_final (b := []) ((some i').any fun s => !s.eof) b8
                  ((none : Option SS).any fun s => !s.eof) hq.final trivial (fun _ => rfl)
                simpa only [List.append_assoc] using this
              inNone := by simp
              inSome := hin
              outNone := by
                intro h0
                rw [List.append_nil]
                exact ⟨rfl, (hq.none h0).2, rfl⟩
              outSome := by
                intro o ho
                rw [hnone] at ho
                cases ho }
          · exact {
              shape := by simp
              kindsA := hq.kinds
              kindsB := hr.kinds
              b8 := by simpa using h8
              switch := by
                have key : _ → SwitchEnds _ := wrap_switch (a := a) (b := b)
                  ((some i').any fun s => !s.eof) b8 ((some o2).any fun s => !s.eof)
                  hq.switch hr.switch
                simp only [List.append_assoc] at key ⊢
                refine key ?_
                intro hx
                have hs := hq.spoiled hx o1 rfl
                refine ⟨hr.noreq, ?_⟩
                cases hrn : responses b with
                | nil => rfl
                | cons _ _ =>
                  have := good_sane (hr.out.live (by rw [hrn]; simp))
                  rw [hs] at this; cases this
              final := by
                have key : _ → FinalEnds _ := wrap_final (a := a) (b := b)
                  ((some i').any fun s => !s.eof) b8 ((some o2).any fun s => !s.eof)
                  hq.final hr.final
                simp only [List.append_assoc] at key ⊢
                refine key ?_
                intro hx
                have hs := hq.opened hx o1 rfl
                cases hrn : responses b with
                | nil => rfl
                | cons _ _ =>
                  have := hr.out.live (by rw [hrn]; simp)
                  rw [hs] at this; cases this
              inNone := by simp
              inSome := hin
              outNone := by
                intro h0
                have := (hq.none h0).1
                cases this
              outSome := by
                intro o ho
                obtain ⟨o', ho', hos, hto⟩ := hq.some o ho
                cases ho'
                refine ⟨o2, rfl, ?_, hr.done, ?_⟩
                · rw [responses_append]; exact hos.trans hr.out
                · intro hg hinv
                  by_cases heq : o1 = o
                  · subst heq; exact hr.touched hg hinv
                  · exact hr.out.step.touch (hto (Or.inr heq) hinv) }

theorem parseStreams_exc {env : FrameEnv} {inb outb : Option SS} {ys : List Yield} {e : Exc}
    (h : parseStreams env inb outb = (ys, .error e)) :
    e = .value ∧ ((∃ i, inb = some i ∧ NegLine' i) ∨ ∃ o, outb = some o ∧ NegLine' o) := by
  have hfin : ∀ (inb outb : Option SS) (ys : List Yield),
      finishStreams env inb outb = (ys, .error e) →
      e = .value ∧ ∃ o, outb = some o ∧ NegLine' o := by
    intro inb outb ys h
    unfold finishStreams at h
    cases outb with
    | none => simp at h
    | some o =>
      simp only at h
      split at h
      · cases hl : responseLoop env (o.rest.length + 2) o with
        | mk ys2 r2 =>
          rw [hl] at h
          cases r2 with
          | ok o' => simp at h
          | error e' =>
            simp only [Prod.mk.injEq, Except.error.injEq] at h
            obtain ⟨_, rfl⟩ := h
            have := responseLoop_exc _ (by omega) (by simp) hl
            exact ⟨this.1, o, rfl, this.2⟩
      · simp at h
  unfold parseStreams at h
  cases inb with
  | none =>
    obtain ⟨h1, h2⟩ := hfin _ _ _ h
    exact ⟨h1, Or.inr h2⟩
  | some i =>
    simp only at h
    cases hl : requestLoop env (i.rest.length + 2) i outb with
    | mk a r =>
      rw [hl] at h
      cases r with
      | error e' =>
        simp only [Prod.mk.injEq, Except.error.injEq] at h
        obtain ⟨_, rfl⟩ := h
        obtain ⟨h1, h2⟩ := requestLoop_exc _ (by omega) (by simp) hl
        refine ⟨h1, ?_⟩
        rcases h2 with h2 | h2
        · exact Or.inl ⟨i, rfl, h2⟩
        · exact Or.inr h2
      | ok p =>
        obtain ⟨i', outb1⟩ := p
        simp only at h
        cases hf : finishStreams env (some i') outb1 with
        | mk ys2 r2 =>
          rw [hf] at h
          simp only [Prod.mk.injEq] at h
          obtain ⟨_, rfl⟩ := h
          obtain ⟨h1, o, ho, h2⟩ := hfin _ _ _ hf
          refine ⟨h1, Or.inr ?_⟩
          have hq := requestLoop_ok _ hl
          cases outb with
          | none => rw [(hq.none rfl).1] at ho; cases ho
          | some o0 =>
            obtain ⟨o', ho', hos, _⟩ := hq.some o0 rfl
            rw [ho'] at ho
            cases ho
            exact ⟨o0, rfl, h2.mono hos.step⟩

end Httpolice.Lemmas
