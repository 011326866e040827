import Verif.Lemmas.Loops

/-!
# Lemmas: where the messages come from
-/

namespace Httpolice.Lemmas

open Httpolice.Model
open Httpolice.Spec

/-- The stream is somewhere on `d`. -/
def On (d : Str) (s : SS) : Prop := s.rest = d.drop s.pos

theorem On.step {d : Str} {s s' : SS} (h : On d s) (st : Step s s') : On d s' := by
  obtain ⟨n, _, hr, hp⟩ := st.adv
  unfold On at *
  rw [hr, hp, h, List.drop_drop]

theorem on_new (d : Str) : On d (SS.new d) := by simp [On, SS.new]

/-- A request parsed at a place on `d`. -/
structure ReqFrom (env : FrameEnv) (d : Str) (req : FReq) (s s' : SS) : Prop where
  on : On d s
  complaints : s.complaints = []
  parsed : parseRequest env s = .ok (some req) s'

/-- Where the requests come from. -/
def ReqTrace (env : FrameEnv) (d : Str) : List Yield → Prop
  | [] => True
  | .exch (some req) _ :: ys =>
    (∃ s s', ReqFrom env d req s s' ∧ (s'.sane = true ∨ requests ys = [])) ∧ ReqTrace env d ys
  | _ :: ys => ReqTrace env d ys

/-- One response. -/
def OneResp (env : FrameEnv) (m : Option Str) (s : SS) (r : FResp) (s' : SS) : Prop :=
  ∃ h s1 res, parseResponseHeading s = .ok h s1 ∧
    parseResponseBody env m h.status h.entries s1 = .ok res s' ∧
    r = ⟨h.version, h.status, h.reason,
      ⟨h.start, h.entries, res.trailers, res.body, h.notes ++ res.notes, s'.pos⟩⟩

/-- A response parsed at a place on `d`. -/
structure RespFrom (env : FrameEnv) (d : Str) (m : Option Str) (r : FResp) (s s' : SS) : Prop where
  on : On d s
  complaints : s.complaints = []
  parsed : OneResp env m s r s'

/-- Where the responses of an exchange come from; `dead` if no responses come after them. -/
def RespsTrace (env : FrameEnv) (d : Str) (m : Option Str) (dead : Prop) (rs : List FResp) : Prop :=
  ∀ rs1 r rs2, rs = rs1 ++ r :: rs2 →
    ∃ s s', RespFrom env d m r s s' ∧ (s'.sane = true ∨ (rs2 = [] ∧ dead))

/-- Where the responses come from; `tail` if no responses come after these yields. -/
def RespTrace (env : FrameEnv) (d : Str) (tail : Prop) : List Yield → Prop
  | [] => True
  | .exch req rs :: ys =>
    RespsTrace env d (req.map (·.method)) (responses ys = [] ∧ tail) rs ∧ RespTrace env d tail ys
  | _ :: ys => RespTrace env d tail ys

theorem respsTrace_nil {env : FrameEnv} {d : Str} {m : Option Str} {dead : Prop} :
    RespsTrace env d m dead [] := by
  intro rs1 r rs2 h
  simp at h

theorem responses_origin {env : FrameEnv} {m : Option Str} {d : Str} (fuel : Nat) {s s' : SS}
    {rs : List FResp} {box : Bool} (h : parseResponses env m fuel s = .ok (rs, box) s')
    (hon : On d s) (hc : s.sane = true → s.complaints = []) :
    RespsTrace env d m (s'.sane = false) rs := by
  induction fuel generalizing s rs box with
  | zero => cases h
  | succ fuel ih =>
    unfold parseResponses at h
    split at h
    · rename_i hg
      have hst := respHeading_step s
      cases hh : parseResponseHeading s with
      | exc e s1 =>
        rw [hh] at h
        cases e with
        | parse p => cases h; exact respsTrace_nil
        | _ => cases h
      | ok hd s1 =>
        obtain ⟨_, _, hcl, _, _, _⟩ := respHeading_ok hh
        rw [hh] at h hst
        simp only at h
        cases hb : parseResponseBody env m hd.status hd.entries s1 with
        | exc e s2 => rw [hb] at h; cases h
        | ok res s2 =>
          have hbok := respBody_ok hb
          rw [hb] at h
          simp only at h
          have hone : OneResp env m s ⟨hd.version, hd.status, hd.reason,
              ⟨hd.start, hd.entries, res.trailers, res.body, hd.notes ++ res.notes, s2.pos⟩⟩ s2 :=
            ⟨hd, s1, res, hh, hb, rfl⟩
          have hfrom := RespFrom.mk hon (hc (good_sane hg)) hone
          have hst' : Step s s2 := Step.trans hst hbok.step
          split at h
          · simp only [Out.ok.injEq, Prod.mk.injEq] at h
            obtain ⟨⟨rfl, rfl⟩, rfl⟩ := h
            intro rs1 r rs2 heq
            cases rs1 with
            | nil =>
              simp only [List.nil_append, List.cons.injEq] at heq
              obtain ⟨rfl, rfl⟩ := heq
              refine ⟨s, s2, hfrom, ?_⟩
              cases s2.sane <;> simp
            | cons x rs1 => simp at heq
          · cases hr : parseResponses env m fuel s2 with
            | exc e s3 => rw [hr] at h; cases h
            | ok p s3 =>
              obtain ⟨rs', box'⟩ := p
              rw [hr] at h
              simp only [Out.ok.injEq, Prod.mk.injEq] at h
              obtain ⟨⟨rfl, rfl⟩, rfl⟩ := h
              have hih := ih hr (hon.step hst') (hbok.clean hcl)
              intro rs1 r rs2 heq
              cases rs1 with
              | nil =>
                simp only [List.nil_append, List.cons.injEq] at heq
                obtain ⟨rfl, rfl⟩ := heq
                refine ⟨s, s2, hfrom, ?_⟩
                cases hs2 : s2.sane with
                | true => exact Or.inl rfl
                | false =>
                  right
                  cases fuel with
                  | zero => cases hr
                  | succ fuel =>
                    unfold parseResponses at hr
                    rw [if_neg (by rw [insane_good hs2]; simp)] at hr
                    simp only [Out.ok.injEq, Prod.mk.injEq] at hr
                    exact ⟨hr.1.1.symm, by rw [← hr.2]; exact hs2⟩
              | cons x rs1 =>
                simp only [List.cons_append, List.cons.injEq] at heq
                exact hih rs1 r rs2 heq.2
    · simp only [Out.ok.injEq, Prod.mk.injEq] at h
      obtain ⟨⟨rfl, _⟩, _⟩ := h
      exact respsTrace_nil

theorem respsTrace_mono {env : FrameEnv} {d : Str} {m : Option Str} {p q : Prop} {rs : List FResp}
    (h : RespsTrace env d m p rs) (hpq : p → q) : RespsTrace env d m q rs := by
  intro rs1 r rs2 heq
  obtain ⟨s, s', h1, h2⟩ := h rs1 r rs2 heq
  refine ⟨s, s', h1, ?_⟩
  rcases h2 with h2 | ⟨h2, h3⟩
  · exact Or.inl h2
  · exact Or.inr ⟨h2, hpq h3⟩

theorem reqTrace_append {env : FrameEnv} {d : Str} {a b : List Yield} (ha : ReqTrace env d a)
    (hb : requests b = []) (hb' : ReqTrace env d b) : ReqTrace env d (a ++ b) := by
  induction a with
  | nil => exact hb'
  | cons y a ih =>
    cases y with
    | box id => exact ih ha
    | exch req rs =>
      cases req with
      | none => exact ih ha
      | some req =>
        obtain ⟨⟨s, s', h1, h2⟩, h3⟩ := ha
        refine ⟨⟨s, s', h1, ?_⟩, ih h3⟩
        rcases h2 with h2 | h2
        · exact Or.inl h2
        · right
          show requests (a ++ b) = []
          rw [requests_append, h2, hb]; rfl

theorem reqTrace_none {env : FrameEnv} {d : Str} {b : List Yield} (hb : requests b = []) :
    ReqTrace env d b := by
  induction b with
  | nil => trivial
  | cons y b ih =>
    cases y with
    | box id => exact ih hb
    | exch req rs =>
      cases req with
      | none => exact ih hb
      | some req => simp [requests] at hb

theorem respTrace_none {env : FrameEnv} {d : Str} {tail : Prop} {b : List Yield}
    (hb : responses b = []) : RespTrace env d tail b := by
  induction b with
  | nil => trivial
  | cons y b ih =>
    cases y with
    | box id => exact ih hb
    | exch req rs =>
      have : rs = [] ∧ responses b = [] := by simpa [responses] using hb
      refine ⟨?_, ih this.2⟩
      rw [this.1]
      exact respsTrace_nil

theorem respTrace_append {env : FrameEnv} {d : Str} {p q : Prop} {a b : List Yield}
    (ha : RespTrace env d p a) (hb : RespTrace env d q b) (hpq : p → responses b = [] ∧ q) :
    RespTrace env d q (a ++ b) := by
  induction a with
  | nil => exact hb
  | cons y a ih =>
    cases y with
    | box id => exact ih ha
    | exch req rs =>
      refine ⟨?_, ih ha.2⟩
      refine respsTrace_mono ha.1 ?_
      rintro ⟨h0, h1⟩
      refine ⟨?_, (hpq h1).2⟩
      show responses (a ++ b) = []
      rw [responses_append, h0, (hpq h1).1]; rfl

theorem requestLoop_origin {env : FrameEnv} {d e : Str} (fuel : Nat) {inb inb' : SS}
    {outb outb' : Option SS} {ys : List Yield}
    (h : requestLoop env fuel inb outb = (ys, .ok (inb', outb')))
    (hon : On d inb) (hc : inb.sane = true → inb.complaints = [])
    (hout : ∀ o, outb = some o → On e o ∧ (o.sane = true → o.complaints = [])) :
    ReqTrace env d ys ∧ RespTrace env e (∀ o, outb' = some o → o.sane = false) ys := by
  induction fuel generalizing inb outb ys with
  | zero => simp [requestLoop] at h
  | succ fuel ih =>
    unfold requestLoop at h
    split at h
    · rename_i hg
      cases hp : parseRequest env inb with
      | exc e s1 => rw [hp] at h; simp at h
      | ok r s1 =>
        rw [hp] at h
        cases r with
        | none =>
          obtain ⟨n1, n2, n3⟩ := request_none hp
          simp only at h
          cases hl : requestLoop env fuel s1 outb with
          | mk ys2 r2 =>
            rw [hl] at h
            simp only [Prod.mk.injEq] at h
            obtain ⟨rfl, rfl⟩ := h
            have hi := ih hl (hon.step n1) (by rw [n2]; simp) hout
            exact hi
        | some req =>
          have hm := request_some hp
          have hfrom := ReqFrom.mk hon (hc (good_sane hg)) hp
          simp only at h
          cases outb with
          | none =>
            simp only at h
            cases hl : requestLoop env fuel s1 none with
            | mk ys2 r2 =>
              rw [hl] at h
              simp only [Prod.mk.injEq] at h
              obtain ⟨rfl, rfl⟩ := h
              obtain ⟨i1, i2⟩ := ih hl (hon.step hm.step) (hm.clean (hc (good_sane hg))) hout
              refine ⟨⟨⟨inb, s1, hfrom, ?_⟩, i1⟩, ⟨respsTrace_nil, i2⟩⟩
              cases hs : s1.sane with
              | true => exact Or.inl rfl
              | false =>
                right
                cases fuel with
                | zero => simp [requestLoop] at hl
                | succ fuel =>
                  rw [requestLoop_idle (insane_good hs)] at hl
                  simp only [Prod.mk.injEq] at hl
                  rw [← hl.1]; rfl
          | some o =>
            obtain ⟨ho1, ho2⟩ := hout o rfl
            simp only at h
            split at h
            · rename_i hog
              cases hr : parseResponses env (some req.method) (o.rest.length + 2) o with
              | exc e s2 => rw [hr] at h; simp at h
              | ok p o1 =>
                obtain ⟨rs, box⟩ := p
                rw [hr] at h
                simp only at h
                cases hl : requestLoop env fuel (s1.spoil (switches req rs)) (some o1) with
                | mk ys2 r2 =>
                  rw [hl] at h
                  simp only [Prod.mk.injEq] at h
                  obtain ⟨rfl, rfl⟩ := h
                  have hro := responses_ok _ hr
                  have hsp := spoil_step s1 (switches req rs)
                  have hts := responses_origin _ hr ho1 ho2
                  have hrl := requestLoop_ok _ hl
                  obtain ⟨o', ho', hos', _⟩ := hrl.some o1 rfl
                  obtain ⟨i1, i2⟩ := ih hl ((hon.step hm.step).step hsp)
                    (fun hs => by
                      rw [spoil_complaints]
                      exact hm.clean (hc (good_sane hg)) (hsp.sane hs))
                    (by
                      intro x hx
                      cases hx
                      exact ⟨ho1.step hro.step, hro.clean ho2⟩)
                  have hq : requests (boxIf box 1009 ++ ys2) = requests ys2 := by
                    rw [requests_append, requests_boxIf]; rfl
                  have hq' : responses (boxIf box 1009 ++ ys2) = responses ys2 := by
                    rw [responses_append, responses_boxIf]; rfl
                  refine ⟨⟨⟨inb, s1, hfrom, ?_⟩, ?_⟩, ⟨?_, ?_⟩⟩
                  · cases hs : s1.sane with
                    | true => exact Or.inl rfl
                    | false =>
                      right
                      show requests (boxIf box 1009 ++ ys2) = []
                      rw [hq]
                      have hs' : (s1.spoil (switches req rs)).sane = false := by
                        unfold SS.spoil; split
                        · rfl
                        · exact hs
                      cases fuel with
                      | zero => simp [requestLoop] at hl
                      | succ fuel =>
                        rw [requestLoop_idle (insane_good hs')] at hl
                        simp only [Prod.mk.injEq] at hl
                        rw [← hl.1]; rfl
                  · cases box
                    · exact i1
                    · exact i1
                  · refine respsTrace_mono hts ?_
                    intro hs
                    refine ⟨?_, ?_⟩
                    · show responses (boxIf box 1009 ++ ys2) = []
                      rw [hq']
                      cases hrs : responses ys2 with
                      | nil => rfl
                      | cons x xs =>
                        have := hos'.live (by rw [hrs]; simp)
                        rw [insane_good hs] at this; cases this
                    · intro x hx
                      rw [ho'] at hx
                      cases hx
                      cases hs2 : o'.sane with
                      | false => rfl
                      | true =>
                        have := hos'.step.sane hs2
                        rw [hs] at this; cases this
                  · cases box
                    · exact i2
                    · exact i2
            · cases hl : requestLoop env fuel s1 (some o) with
              | mk ys2 r2 =>
                rw [hl] at h
                simp only [Prod.mk.injEq] at h
                obtain ⟨rfl, rfl⟩ := h
                obtain ⟨i1, i2⟩ := ih hl (hon.step hm.step) (hm.clean (hc (good_sane hg))) hout
                refine ⟨⟨⟨inb, s1, hfrom, ?_⟩, i1⟩, ⟨respsTrace_nil, i2⟩⟩
                cases hs : s1.sane with
                | true => exact Or.inl rfl
                | false =>
                  right
                  cases fuel with
                  | zero => simp [requestLoop] at hl
                  | succ fuel =>
                    rw [requestLoop_idle (insane_good hs)] at hl
                    simp only [Prod.mk.injEq] at hl
                    rw [← hl.1]; rfl
    · simp only [Prod.mk.injEq] at h
      rw [← h.1]
      exact ⟨trivial, trivial⟩

theorem responseLoop_origin {env : FrameEnv} {e : Str} (fuel : Nat) {o o' : SS} {ys : List Yield}
    (h : responseLoop env fuel o = (ys, .ok o')) (hon : On e o)
    (hc : o.sane = true → o.complaints = []) : RespTrace env e True ys := by
  induction fuel generalizing o ys with
  | zero => simp [responseLoop] at h
  | succ fuel ih =>
    unfold responseLoop at h
    split at h
    · rename_i hg
      cases hr : parseResponses env none (o.rest.length + 2) o with
      | exc e s2 => rw [hr] at h; simp at h
      | ok p o1 =>
        obtain ⟨rs, box⟩ := p
        rw [hr] at h
        simp only at h
        cases hl : responseLoop env fuel o1 with
        | mk ys2 r2 =>
          rw [hl] at h
          simp only [Prod.mk.injEq] at h
          obtain ⟨rfl, rfl⟩ := h
          have hro := responses_ok _ hr
          have hts := responses_origin _ hr hon hc
          have hi := ih hl (hon.step hro.step) (hro.clean hc)
          have hrl := responseLoop_ok _ hl
          have hq' : responses (boxIf box 1009 ++ ys2) = responses ys2 := by
            rw [responses_append, responses_boxIf]; rfl
          have hi' : RespTrace env e True (boxIf box 1009 ++ ys2) := by
            cases box
            · exact hi
            · exact hi
          split
          · exact hi'
          · refine ⟨?_, hi'⟩
            refine respsTrace_mono hts ?_
            intro hs
            refine ⟨?_, trivial⟩
            show responses (boxIf box 1009 ++ ys2) = []
            rw [hq']
            cases hrs : responses ys2 with
            | nil => rfl
            | cons x xs =>
              have := hrl.out.live (by rw [hrs]; simp)
              rw [insane_good hs] at this; cases this
    · simp only [Prod.mk.injEq] at h
      rw [← h.1]
      trivial

theorem finish_origin {env : FrameEnv} {e : Str} {inb outb inb' outb' : Option SS} {ys : List Yield}
    (h : finishStreams env inb outb = (ys, .ok (inb', outb')))
    (hout : ∀ o, outb = some o → On e o ∧ (o.sane = true → o.complaints = [])) :
    requests ys = [] ∧ RespTrace env e True ys ∧
      ((∀ o, outb = some o → o.sane = false) → responses ys = []) := by
  unfold finishStreams at h
  simp only at h
  have hbox : ∀ b id (l : List Yield), RespTrace env e True l →
      RespTrace env e True (boxIf b id ++ l) := by
    intro b id l hl
    cases b <;> exact hl
  cases outb with
  | none =>
    simp only [Prod.mk.injEq] at h
    rw [← h.1]
    refine ⟨requests_boxIf .., ?_, fun _ => responses_boxIf ..⟩
    rw [← List.append_nil (boxIf _ _)]
    exact hbox _ _ [] trivial
  | some o =>
    obtain ⟨ho1, ho2⟩ := hout o rfl
    simp only at h
    split at h
    · rename_i hg
      cases hl : responseLoop env (o.rest.length + 2) o with
      | mk ys2 r2 =>
        rw [hl] at h
        cases r2 with
        | error e => simp at h
        | ok o' =>
          simp only [Prod.mk.injEq] at h
          have hr := responseLoop_ok _ hl
          have ht := responseLoop_origin _ hl ho1 ho2
          rw [← h.1]
          refine ⟨?_, ?_, ?_⟩
          · simp [requests_append, requests_boxIf, hr.noreq]
          · simp only [List.append_assoc]
            refine hbox _ _ _ (hbox _ _ _ (respTrace_append (p := True) ht ?_ ?_))
            · rw [← List.append_nil (boxIf _ _)]
              exact hbox _ _ [] trivial
            · intro _; exact ⟨responses_boxIf .., trivial⟩
          · intro hx
            have := good_sane hg
            rw [hx o rfl] at this; cases this
    · simp only [Prod.mk.injEq] at h
      rw [← h.1]
      refine ⟨by simp [requests_append, requests_boxIf], ?_,
        fun _ => by simp [responses_append, responses_boxIf]⟩
      refine hbox _ _ _ ?_
      rw [← List.append_nil (boxIf _ _)]
      exact hbox _ _ [] trivial

theorem parseStreams_origin {env : FrameEnv} {inb outb : Option Str} {inb' outb' : Option SS}
    {ys : List Yield}
    (h : parseStreams env (inb.map SS.new) (outb.map SS.new) = (ys, .ok (inb', outb'))) :
    ReqTrace env (inb.getD []) ys ∧ RespTrace env (outb.getD []) True ys := by
  have hout : ∀ o, outb.map SS.new = some o → On (outb.getD []) o ∧
      (o.sane = true → o.complaints = []) := by
    intro o ho
    cases outb with
    | none => cases ho
    | some d =>
      cases ho
      exact ⟨on_new d, fun _ => rfl⟩
  unfold parseStreams at h
  cases inb with
  | none =>
    simp only [Option.map_none] at h
    obtain ⟨h1, h2, _⟩ := finish_origin h hout
    exact ⟨reqTrace_none h1, h2⟩
  | some d =>
    simp only [Option.map_some] at h
    cases hl : requestLoop env ((SS.new d).rest.length + 2) (SS.new d) (outb.map SS.new) with
    | mk a r =>
      rw [hl] at h
      cases r with
      | error e => simp at h
      | ok p =>
        obtain ⟨i', outb1⟩ := p
        simp only at h
        cases hf : finishStreams env (some i') outb1 with
        | mk ys2 r2 =>
          rw [hf] at h
          simp only [Prod.mk.injEq] at h
          obtain ⟨rfl, rfl⟩ := h
          obtain ⟨t1, t2⟩ := requestLoop_origin _ hl (on_new d) (fun _ => rfl) hout
          have hrl := requestLoop_ok _ hl
          obtain ⟨f1, f2, f3⟩ := finish_origin (e := outb.getD []) hf (by
            intro o ho
            cases outb with
            | none =>
              rw [(hrl.none rfl).1] at ho; cases ho
            | some d' =>
              obtain ⟨o', ho', hos, _⟩ := hrl.some _ rfl
              rw [ho'] at ho
              cases ho
              exact ⟨(on_new d').step hos.step, hos.clean fun _ => rfl⟩)
          refine ⟨reqTrace_append t1 f1 (reqTrace_none f1), respTrace_append t2 f2 ?_⟩
          intro hx
          exact ⟨f3 hx, trivial⟩

theorem reqTrace_at {env : FrameEnv} {d : Str} {ys pre post : List Yield} {req : FReq}
    {rs : List FResp} (h : ReqTrace env d ys) (hy : ys = pre ++ .exch (some req) rs :: post) :
    ∃ s s', ReqFrom env d req s s' ∧ (s'.sane = true ∨ requests post = []) := by
  subst hy
  induction pre with
  | nil => exact h.1
  | cons y pre ih =>
    cases y with
    | box id => exact ih h
    | exch q rs' =>
      cases q with
      | none => exact ih h
      | some q => exact ih h.2

theorem respTrace_at {env : FrameEnv} {d : Str} {ys pre post : List Yield} {req : Option FReq}
    {rs : List FResp} (h : RespTrace env d True ys) (hy : ys = pre ++ .exch req rs :: post) :
    RespsTrace env d (req.map (·.method)) (responses post = []) rs := by
  subst hy
  induction pre with
  | nil => exact respsTrace_mono h.1 And.left
  | cons y pre ih =>
    cases y with
    | box id => exact ih h
    | exch q rs' => exact ih h.2

end Httpolice.Lemmas
