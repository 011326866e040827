import Verif.Spec.Run
import Verif.Props.Texts
import Verif.Props.LinkText
import Verif.Props.Analysis
import Verif.Props.Cli
import Verif.Props.Inputs

/-!
# C98: a whole run of the command on combined files
-/

namespace Httpolice.Props

open Httpolice.Model Httpolice.Spec Httpolice.Lemmas Httpolice.Lemmas.Check

/-! ## What has been said when an exchange is yielded -/

theorem mem_noteOps {said : Target → FNote → Ctx} {t t' : Target} {notes : List FNote} {c : Complaint Ctx} :
    BoardOp.complain t c ∈ noteOps said t' notes ↔ t = t' ∧ ∃ n ∈ notes, c = ⟨n.id, said t n⟩ := by
  unfold noteOps
  rw [List.mem_map]
  constructor
  · rintro ⟨n, hn, h⟩
    cases h
    exact ⟨rfl, n, hn, rfl⟩
  · rintro ⟨rfl, n, hn, rfl⟩
    exact ⟨n, hn, rfl⟩

theorem no_silence_noteOps {said : Target → FNote → Ctx} {t t' : Target} {notes : List FNote} {ids : List Nat} :
    BoardOp.silence t ids ∉ noteOps said t' notes := by
  unfold noteOps
  rw [List.mem_map]
  rintro ⟨n, _, h⟩
  cases h

theorem mem_responseOps {said : Target → FNote → Ctx} {t : Target} {c : Complaint Ctx} (rs : List FResp) (k : Nat) :
    BoardOp.complain t c ∈ responseOps said k rs ↔
      ∃ i r, rs[i]? = some r ∧ t = .resp (k + i) ∧ ∃ n ∈ r.msg.notes, c = ⟨n.id, said t n⟩ := by
  induction rs generalizing k with
  | nil => simp [responseOps]
  | cons r rs ih =>
    rw [responseOps, List.mem_append, mem_noteOps, ih]
    constructor
    · rintro (⟨rfl, h⟩ | ⟨i, r', hr, rfl, h⟩)
      · exact ⟨0, r, rfl, rfl, h⟩
      · exact ⟨i + 1, r', by simpa using hr, by rw [Nat.add_right_comm, Nat.add_assoc], h⟩
    · rintro ⟨i, r', hr, ht, h⟩
      cases i with
      | zero =>
        simp only [List.getElem?_cons_zero, Option.some.injEq] at hr
        subst hr
        exact .inl ⟨ht, h⟩
      | succ i => exact .inr ⟨i, r', by simpa using hr, by rw [ht]; congr 1; omega, h⟩

theorem no_silence_responseOps {said : Target → FNote → Ctx} {t : Target} {ids : List Nat} (rs : List FResp) (k : Nat) :
    BoardOp.silence t ids ∉ responseOps said k rs := by
  induction rs generalizing k with
  | nil => simp [responseOps]
  | cons r rs ih =>
    rw [responseOps, List.mem_append]
    rintro (h | h)
    · exact no_silence_noteOps h
    · exact ih _ h

theorem mem_yieldOps {said : Target → FNote → Ctx} {y : Yield} {t : Target} {c : Complaint Ctx} :
    BoardOp.complain t c ∈ y.ops said ↔ ∃ n, FramingSays y t n ∧ c = ⟨n.id, said t n⟩ := by
  cases y with
  | box id =>
    unfold Yield.ops
    rw [mem_noteOps]
    cases t <;> simp [FramingSays]
  | exch req resps =>
    unfold Yield.ops
    rw [List.mem_append, mem_responseOps]
    cases req with
    | none =>
      cases t with
      | exch => simp [FramingSays]
      | req => simp [FramingSays]
      | resp i =>
        simp only [List.not_mem_nil, false_or, Nat.zero_add, Target.resp.injEq, FramingSays]
        constructor
        · rintro ⟨_, r, hr, rfl, n, hn, h⟩; exact ⟨n, ⟨r, hr, hn⟩, h⟩
        · rintro ⟨n, ⟨r, hr, hn⟩, h⟩; exact ⟨_, r, hr, rfl, n, hn, h⟩
    | some q =>
      simp only [mem_noteOps]
      cases t with
      | exch => simp [FramingSays]
      | req => simp [FramingSays]
      | resp i =>
        simp only [reduceCtorEq, false_and, false_or, Nat.zero_add, Target.resp.injEq, FramingSays]
        constructor
        · rintro ⟨_, r, hr, rfl, n, hn, h⟩; exact ⟨n, ⟨r, hr, hn⟩, h⟩
        · rintro ⟨n, ⟨r, hr, hn⟩, h⟩; exact ⟨_, r, hr, rfl, n, hn, h⟩

theorem no_silence_yieldOps {said : Target → FNote → Ctx} {y : Yield} {t : Target} {ids : List Nat} :
    BoardOp.silence t ids ∉ y.ops said := by
  cases y with
  | box id => exact no_silence_noteOps
  | exch req resps =>
    unfold Yield.ops
    rw [List.mem_append]
    rintro (h | h)
    · cases req with
      | none => cases h
      | some q => exact no_silence_noteOps h
    · exact no_silence_responseOps _ _ h

/-! ## One exchange -/

/-- The exchange that is checked is the one that was captured, with its payloads. -/
theorem exchange_eq (S : Setup) (scheme : Option Str) (y : Yield) :
    S.exchange scheme y = loadPayloads S.libs (S.world.all S.base) S.world.codings (fun _ => {}) (captured scheme y) := by
  cases y <;> rfl

theorem exchange_shape (S : Setup) (scheme : Option Str) (y : Yield) :
    (S.exchange scheme y).request.isSome = (captured scheme y).request.isSome ∧
      (S.exchange scheme y).responses.length = (captured scheme y).responses.length := by
  rw [exchange_eq]
  unfold loadPayloads
  simp

theorem says_present (S : Setup) (scheme : Option Str) {y : Yield} {t : Target} {n : FNote} (h : FramingSays y t n) :
    Present (S.exchange scheme y) t := by
  unfold Present
  rw [(exchange_shape S scheme y).1, (exchange_shape S scheme y).2]
  cases y with
  | box id => cases t <;> first | trivial | exact h.elim
  | exch req resps =>
    cases t with
    | exch => trivial
    | req =>
      cases req with
      | none => exact h.elim
      | some q => rfl
    | resp i =>
      have : ∃ r, resps[i]? = some r ∧ n ∈ r.msg.notes := by cases req <;> exact h
      obtain ⟨r, hr, _⟩ := this
      show i < (resps.map FResp.response).length
      rw [List.length_map]
      exact (List.getElem?_eq_some_iff.1 hr).1

theorem run_shape (ops : List (BoardOp Ctx)) (e : ExchBoards Ctx) :
    (e.run ops).request.isSome = e.request.isSome ∧ (e.run ops).responses.length = e.responses.length := by
  induction ops generalizing e with
  | nil => exact ⟨rfl, rfl⟩
  | cons o ops ih =>
    have h : (e.step o).request.isSome = e.request.isSome ∧ (e.step o).responses.length = e.responses.length := by
      cases o with
      | complain t c => cases t <;> simp [ExchBoards.step, ExchBoards.modify]
      | silence t ids => cases t <;> simp [ExchBoards.step, ExchBoards.modify, ExchBoards.silenceAll]
    have : e.run (o :: ops) = (e.step o).run ops := rfl
    rw [this, (ih _).1, (ih _).2]
    exact h

section
variable {S : Setup} (hW : Ready S.world) (hl : LowersAscii S.base.lower)
include hW hl

theorem raisesOn_iff (given : Target → Assigned) (ex : Exchange) :
    S.raisesOn (loadPayloads S.libs (S.world.all S.base) S.world.codings given ex) = true ↔ Raising S.base.lower ex :=
  C99_breaks hW hl

theorem raises_iff (scheme : Option Str) (y : Yield) : S.raises scheme y = true ↔ Breaks S scheme y := by
  unfold Setup.raises Breaks
  rw [exchange_eq]
  exact raisesOn_iff hW hl _ _

/-- What is on the objects of an exchange when it has been checked. -/
theorem reportOn_shown {ops : List (BoardOp Ctx)} {given : Target → Assigned} {ex0 ex : Exchange}
    (hex : ex = loadPayloads S.libs (S.world.all S.base) S.world.codings given ex0)
    (hno : ∀ t ids, BoardOp.silence t ids ∉ ops) (hpres : ∀ t c, BoardOp.complain t c ∈ ops → Present ex t)
    (hok : ¬Raising S.base.lower ex0) :
    ((S.reportOn ops ex).request.isSome = ex0.request.isSome ∧ (S.reportOn ops ex).responses.length = ex0.responses.length) ∧
    ∀ t c, (∃ obj, (S.reportOn ops ex).get t = some obj ∧ c ∈ obj.complaints) ↔
      (BoardOp.complain t c ∈ ops ∨ Spec.Reported (S.world.all S.base) ex t c) ∧ c.id ∉ S.silence ∧
        ¬SilencedText S.base.lower ex0 c.id t := by
  have hshape : ex.request.isSome = ex0.request.isSome ∧ ex.responses.length = ex0.responses.length := by
    rw [hex]; unfold loadPayloads; simp
  have hcalm : exchangeRaises (S.world.all S.base) ex = false := by
    have := mt (raisesOn_iff hW hl given ex0).1 hok
    rw [← hex] at this
    unfold Setup.raisesOn at this
    rw [Bool.or_eq_true, not_or, Bool.not_eq_true] at this
    exact this.1
  have hr : Act.raise ∉ exchangeActs (S.world.all S.base) ex := by
    intro hm
    have : exchangeRaises (S.world.all S.base) ex = true := by simpa [exchangeRaises] using hm
    rw [hcalm] at this
    cases this
  -- one history
  have hrun : S.reportOn ops ex = (ExchBoards.fresh Ctx ex.request.isSome ex.responses.length).run (ops ++
        ((if S.silence.isEmpty then [] else [BoardOp.silence .exch S.silence]) ++
          untilRaise (exchangeActs (S.world.all S.base) ex))) := by
    unfold Setup.reportOn processExchange
    simp only [ExchBoards.run, List.foldl_append]
    congr 1
    split <;> rfl
  generalize hops : ops ++ ((if S.silence.isEmpty then [] else [BoardOp.silence .exch S.silence]) ++
          untilRaise (exchangeActs (S.world.all S.base) ex)) = all at hrun
  have hsaid : ∀ t c, BoardOp.complain t c ∈ all ↔ BoardOp.complain t c ∈ ops ∨
      Act.op (.complain t c) ∈ exchangeActs (S.world.all S.base) ex := by
    intro t c
    rw [← hops, List.mem_append, List.mem_append, untilRaise_of_calm hr]
    refine or_congr .rfl ⟨fun h => h.resolve_left ?_, .inr⟩
    split <;> simp
  have hsil : ∀ t id, SilencedOn t all id ↔ id ∈ S.silence ∨
      ∃ t' ids, Act.op (.silence t' ids) ∈ exchangeActs (S.world.all S.base) ex ∧ (t' = t ∨ t' = .exch) ∧ id ∈ ids := by
    intro t id
    unfold SilencedOn
    rw [← hops]
    simp only [List.mem_append, untilRaise_of_calm hr]
    constructor
    · rintro ⟨t', ids, h | h | h, ht, hid⟩
      · exact absurd h (hno _ _)
      · split at h
        · cases h
        · simp only [List.mem_singleton, BoardOp.silence.injEq] at h
          exact .inl (h.2 ▸ hid)
      · exact .inr ⟨t', ids, h, ht, hid⟩
    · rintro (h | ⟨t', ids, h, ht, hid⟩)
      · refine ⟨.exch, S.silence, .inr (.inl ?_), .inr rfl, h⟩
        rw [if_neg]
        · exact List.mem_singleton.2 rfl
        · rw [List.isEmpty_iff]; rintro h0; rw [h0] at h; cases h
      · exact ⟨t', ids, .inr (.inr h), ht, hid⟩
  refine ⟨?_, ?_⟩
  · rw [hrun, (run_shape all _).1, (run_shape all _).2, ← hshape.1, ← hshape.2]
    simp only [ExchBoards.fresh, List.length_replicate, and_true]
    cases ex.request.isSome <;> rfl
  · intro t c
    by_cases ht : Present ex t
    · obtain ⟨b, l, hb, hf, hc, _⟩ := C24_silence_exact _ _ all t ht
      rw [hrun, hb]
      simp only [Option.some.injEq, exists_eq_left']
      rw [hc, hf.mem, mem_reportedOn, hsaid, hsil, not_or, silencing_iff _ (all_ascii hl)
        (fun e v => ((all_literate hW hl).httpoliceSilence e).2.2 v) _ ht, ← reported_iff hcalm ht]
      refine and_congr .rfl (and_congr .rfl (not_congr ?_))
      rw [hex]
      exact silenced_all hW hl t c.id
    · constructor
      · rintro ⟨obj, hobj, _⟩
        exfalso
        rw [hrun, get_run] at hobj
        cases t with
        | exch => exact ht trivial
        | req =>
          have : ¬ex.request.isSome = true := ht
          simp [ExchBoards.fresh, ExchBoards.get, this] at hobj
        | resp i =>
          have : ¬i < ex.responses.length := ht
          simp [ExchBoards.fresh, ExchBoards.get, this] at hobj
      · rintro ⟨h | h, _⟩
        · exact absurd (hpres _ _ h) ht
        · exact absurd (reported_present h) ht

theorem report_shown {scheme : Option Str} {y : Yield} (hok : ¬Breaks S scheme y) : ShownAs S (scheme, y) (S.report scheme y) := by
  obtain ⟨h1, h2⟩ := reportOn_shown hW hl (ops := y.ops S.said) (exchange_eq S scheme y) (fun _ _ => no_silence_yieldOps)
    (fun t c h => by
      obtain ⟨n, hn, _⟩ := mem_yieldOps.1 h
      exact says_present S scheme hn) hok
  refine ⟨h1, fun t c => ?_⟩
  unfold ToShow
  rw [← mem_yieldOps]
  exact h2 t c

/-! ## Files -/

theorem reportAll_calm {scheme : Option Str} {ys : List Yield} (h : ∀ y ∈ ys, ¬Breaks S scheme y) :
    ∃ bs, S.reportAll scheme ys = (bs, false) ∧ Pairwise2 (ShownAs S) (ys.map (scheme, ·)) bs := by
  induction ys with
  | nil => exact ⟨[], rfl, .nil⟩
  | cons y ys ih =>
    obtain ⟨bs, h1, h2⟩ := ih fun z hz => h z (List.mem_cons_of_mem _ hz)
    have hy := h y List.mem_cons_self
    refine ⟨S.report scheme y :: bs, ?_, .cons (report_shown hW hl hy) h2⟩
    rw [Setup.reportAll, if_neg (mt (raises_iff hW hl scheme y).1 hy), h1]

theorem reportAll_breaks {scheme : Option Str} {before after : List Yield} {y : Yield}
    (h : ∀ z ∈ before, ¬Breaks S scheme z) (hy : Breaks S scheme y) :
    ∃ bs, S.reportAll scheme (before ++ y :: after) = (bs, true) ∧
      Pairwise2 (ShownAs S) (before.map (scheme, ·)) bs := by
  induction before with
  | nil =>
    refine ⟨[], ?_, .nil⟩
    rw [List.nil_append, Setup.reportAll, if_pos ((raises_iff hW hl scheme y).2 hy)]
  | cons z zs ih =>
    obtain ⟨bs, h1, h2⟩ := ih fun x hx => h x (List.mem_cons_of_mem _ hx)
    have hz := h z List.mem_cons_self
    refine ⟨S.report scheme z :: bs, ?_, .cons (report_shown hW hl hz) h2⟩
    rw [List.cons_append, Setup.reportAll, if_neg (mt (raises_iff hW hl scheme z).1 hz), h1]

omit hW hl in
theorem parts_iff {file : Str × Option Str} {inbound outbound : Str} {scheme : Option Str} :
    CombinedParts S.decodeUtf8 file inbound outbound scheme ↔
      ∃ data text, file.2 = some data ∧ parseCombined S.decodeUtf8 file.1 data = .ok (inbound, outbound, scheme, text) := by
  unfold CombinedParts
  constructor
  · rintro ⟨data, p, r, text, h1, h2, h3, h4, h5⟩
    exact ⟨data, text, h1, (C38_split _ _ _ _ _ _ _).2 ⟨p, r, h2, h3, h4, h5⟩⟩
  · rintro ⟨data, text, h1, h⟩
    obtain ⟨p, r, h2, h3, h4, h5⟩ := (C38_split _ _ _ _ _ _ _).1 h
    exact ⟨data, p, r, text, h1, h2, h3, h4, h5⟩

omit hW hl in
theorem p2_append {α β : Type} {R : α → β → Prop} {as : List α} {bs : List β} {as' : List α} {bs' : List β}
    (h : Pairwise2 R as bs) (h' : Pairwise2 R as' bs') : Pairwise2 R (as ++ as') (bs ++ bs') := by
  induction h with
  | nil => exact h'
  | cons h _ ih => exact .cons h ih

theorem run_good {good : List (Str × Option Str)} {xs : List (Option Str × List Yield)} (h : Worked S good xs) (rest : List (Str × Option Str)) :
    ∃ bs, S.runCombined (good ++ rest) = (bs ++ (S.runCombined rest).1, (S.runCombined rest).2) ∧
      Pairwise2 (ShownAs S) (inTurn xs) bs := by
  unfold Worked at h
  induction h with
  | nil => exact ⟨[], rfl, .nil⟩
  | @cons f x good xs hx _ ih =>
    obtain ⟨bs, h1, h2⟩ := ih
    obtain ⟨⟨inb, outb, final, hp, hs⟩, hb⟩ := hx
    obtain ⟨data, text, hd, hc⟩ := parts_iff.1 hp
    obtain ⟨cs, k1, k2⟩ := reportAll_calm hW hl hb
    refine ⟨cs ++ bs, ?_, ?_⟩
    · obtain ⟨path, d⟩ := f
      subst hd
      rw [List.cons_append, Setup.runCombined, hc]
      simp only [hs, k1, h1, List.append_assoc]
      rfl
    · exact p2_append k2 h2

/-- **C98**: if all files can be worked through, every exchange captured in them is reported, in order, each with just the notices
that framing and the checks report and nothing silences. -/
theorem C98_shown {files : List (Str × Option Str)} {xs : List (Option Str × List Yield)} (h : Worked S files xs) :
    ∃ bs, S.runCombined files = (bs, .finished) ∧ Pairwise2 (ShownAs S) (inTurn xs) bs := by
  obtain ⟨bs, h1, h2⟩ := run_good hW hl h []
  rw [List.append_nil] at h1
  exact ⟨bs, by rw [h1]; simp [Setup.runCombined], h2⟩

/-- **C98**: a file that cannot be read, or has no markers, ends the run, with everything before it reported. -/
theorem C98_unreadable {files after : List (Str × Option Str)} {xs : List (Option Str × List Yield)} {file : Str × Option Str}
    (h : Worked S files xs) (hf : ¬∃ inbound outbound scheme, CombinedParts S.decodeUtf8 file inbound outbound scheme) :
    ∃ bs, S.runCombined (files ++ file :: after) = (bs, .inputError) ∧ Pairwise2 (ShownAs S) (inTurn xs) bs := by
  obtain ⟨bs, h1, h2⟩ := run_good hW hl h (file :: after)
  have : S.runCombined (file :: after) = ([], .inputError) := by
    obtain ⟨path, d⟩ := file
    cases d with
    | none => rw [Setup.runCombined]
    | some data =>
      rw [Setup.runCombined]
      split
      · rfl
      · rename_i hc
        exact absurd ⟨_, _, _, parts_iff.2 ⟨data, _, rfl, hc⟩⟩ hf
  exact ⟨bs, by rw [h1, this, List.append_nil], h2⟩

/-- **C98**: an exchange on which a check raises an exception ends the run, with everything before it reported. -/
theorem C98_broken {files after : List (Str × Option Str)} {xs : List (Option Str × List Yield)} {file : Str × Option Str}
    (h : Worked S files xs) {inbound outbound : Str} {scheme : Option Str} (hf : CombinedParts S.decodeUtf8 file inbound outbound scheme)
    {ys zs : List Yield} {y : Yield} (hs : (parseStreams (S.world.frame S.base.lower S.libs) (some (SS.new inbound))
      (some (SS.new outbound))).1 = ys ++ y :: zs) (hys : ∀ z ∈ ys, ¬Breaks S scheme z) (hy : Breaks S scheme y) :
    ∃ bs, S.runCombined (files ++ file :: after) = (bs, .otherError) ∧
      Pairwise2 (ShownAs S) (inTurn xs ++ ys.map (scheme, ·)) bs := by
  obtain ⟨bs, h1, h2⟩ := run_good hW hl h (file :: after)
  obtain ⟨cs, k1, k2⟩ := reportAll_breaks hW hl (after := zs) hys hy
  obtain ⟨data, text, hd, hc⟩ := parts_iff.1 hf
  have : S.runCombined (file :: after) = (cs, .otherError) := by
    obtain ⟨path, d⟩ := file
    subst hd
    rw [Setup.runCombined, hc]
    simp only [hs, k1, if_true]
  exact ⟨bs ++ cs, by rw [h1, this], p2_append h2 k2⟩

/-- **C98**: so does an exception from reading the streams (C13); what was read before is reported. -/
theorem C98_exception {files after : List (Str × Option Str)} {xs : List (Option Str × List Yield)} {file : Str × Option Str}
    (h : Worked S files xs) {inbound outbound : Str} {scheme : Option Str} (hf : CombinedParts S.decodeUtf8 file inbound outbound scheme)
    {ys : List Yield} {e : Exc} (hs : parseStreams (S.world.frame S.base.lower S.libs) (some (SS.new inbound))
      (some (SS.new outbound)) = (ys, .error e)) (hys : ∀ z ∈ ys, ¬Breaks S scheme z) :
    ∃ bs, S.runCombined (files ++ file :: after) = (bs, .otherError) ∧
      Pairwise2 (ShownAs S) (inTurn xs ++ ys.map (scheme, ·)) bs := by
  obtain ⟨bs, h1, h2⟩ := run_good hW hl h (file :: after)
  obtain ⟨cs, k1, k2⟩ := reportAll_calm hW hl hys
  obtain ⟨data, text, hd, hc⟩ := parts_iff.1 hf
  have : S.runCombined (file :: after) = (cs, .otherError) := by
    obtain ⟨path, d⟩ := file
    subst hd
    rw [Setup.runCombined, hc]
    simp only [hs, k1, Bool.false_eq_true, if_false]
  exact ⟨bs ++ cs, by rw [h1, this], p2_append h2 k2⟩

omit hW hl in
/-- **C98**: a file is worked through if no line of it starts with a minus sign and no response makes a check raise. -/
theorem C98_workable {file : Str × Option Str} {inbound outbound : Str} {scheme : Option Str}
    (hf : CombinedParts S.decodeUtf8 file inbound outbound scheme) (h1 : ¬MinusLine inbound) (h2 : ¬MinusLine outbound) :
    ∃ ys, Captured S file scheme ys := by
  obtain ⟨final, h⟩ := C13_no_exception_partial (S.world.frame S.base.lower S.libs) (some inbound) (some outbound)
    (by rintro _ h; cases h; exact h1) (by rintro _ h; cases h; exact h2)
  exact ⟨_, inbound, outbound, final, hf, Prod.ext rfl h⟩

/-! ## The exit status -/

theorem streams_catalogued {scheme : Option Str} {inb outb : Option Str} {ys : List Yield} {final : Option SS × Option SS}
    (hrun : runStreams (S.world.frame S.base.lower S.libs) inb outb = (ys, .ok final))
    {y : Yield} (hy : y ∈ ys) {t : Target} {c : Complaint Ctx} (h : ToShow S scheme y t c) :
    ∃ row ∈ noticeRows, row.id = c.id := by
  rcases h.1 with ⟨n, hn, rfl⟩ | h
  · have key : ∀ {a b}, FramingShown a b n.id → ∃ row ∈ noticeRows, row.id = n.id := fun ⟨row, hr, hid, _⟩ => ⟨row, hr, hid⟩
    cases y with
    | box id =>
      cases t with
      | exch =>
        obtain rfl : n = ⟨id, none⟩ := hn
        exact key (C93_shown_box (env := S.world.frame S.base.lower S.libs) (inb := inb) (outb := outb) (by rw [hrun]; exact hy))
      | req => exact hn.elim
      | resp i => exact hn.elim
    | exch req resps =>
      cases t with
      | exch => cases req <;> exact hn.elim
      | req =>
        cases req with
        | none => exact hn.elim
        | some q => exact key (C93_shown_request hrun hy n hn)
      | resp i =>
        have : ∃ r, resps[i]? = some r ∧ n ∈ r.msg.notes := by cases req <;> exact hn
        obtain ⟨r, hr, hn⟩ := this
        exact key (C93_shown_response hrun hy (List.mem_of_getElem? hr) n hn)
  · rw [exchange_eq] at h
    exact C92_catalogued hW hl h

theorem toShow_catalogued {file : Str × Option Str} {scheme : Option Str} {ys : List Yield} (hc : Captured S file scheme ys)
    {y : Yield} (hy : y ∈ ys) {t : Target} {c : Complaint Ctx} (h : ToShow S scheme y t c) :
    ∃ row ∈ noticeRows, row.id = c.id := by
  obtain ⟨inb, outb, final, _, hrun⟩ := hc
  have hrun : runStreams (S.world.frame S.base.lower S.libs) (some inb) (some outb) = (ys, .ok final) := hrun
  exact streams_catalogued hW hl hrun hy h

omit hW hl in
theorem grave_iff {threshold : Severity} {id : Nat} (h : ∃ row ∈ noticeRows, row.id = id) :
    Grave threshold id ↔ AtLeast threshold (severityOf id) := by
  obtain ⟨row, hr, rfl⟩ := h
  have hfind : noticeRows.find? (fun r => r.id = row.id) = some row := by
    have hn := C92_unique
    generalize noticeRows = rows at hr hn
    induction rows with
    | nil => cases hr
    | cons x rows ih =>
      rw [List.map_cons, List.nodup_cons] at hn
      rw [List.find?_cons]
      rcases List.mem_cons.1 hr with rfl | hr
      · simp
      · have : x.id ≠ row.id := fun heq => hn.1 (heq ▸ List.mem_map.2 ⟨row, hr, rfl⟩)
        simp only [this, decide_false]
        exact ih hr hn.2
  have huniq : ∀ r ∈ noticeRows, r.id = row.id → r = row := by
    have hn := C92_unique
    generalize noticeRows = rows at hr hn
    clear hfind
    induction rows with
    | nil => cases hr
    | cons x rows ih =>
      rw [List.map_cons, List.nodup_cons] at hn
      intro r hr' heq
      rcases List.mem_cons.1 hr with h1 | h1 <;> rcases List.mem_cons.1 hr' with h2 | h2
      · rw [h1, h2]
      · exact absurd (List.mem_map.2 ⟨r, h2, by rw [heq, h1]⟩) hn.1
      · exact absurd (List.mem_map.2 ⟨row, h1, by rw [← heq, h2]⟩) hn.1
      · exact ih h1 hn.2 r h2 heq
  unfold severityOf
  rw [hfind]
  have hsev : ∀ u : Severity, (u = .error ∨ (u = .comment ∧ threshold ≠ .error) ∨ threshold = .debug) ↔ AtLeast threshold u := by
    intro u
    cases threshold <;> cases u <;> simp [AtLeast]
  constructor
  · rintro ⟨r, hr', heq, h⟩
    rw [huniq r hr' heq] at h
    exact (hsev _).1 h
  · intro h
    exact ⟨row, hr, rfl, (hsev _).2 h⟩

omit hW hl in
theorem p2_mem {α β : Type} {R : α → β → Prop} {as : List α} {bs : List β} (h : Pairwise2 R as bs) :
    (∀ a ∈ as, ∃ b ∈ bs, R a b) ∧ ∀ b ∈ bs, ∃ a ∈ as, R a b := by
  induction h with
  | nil => exact ⟨nofun, nofun⟩
  | @cons a b as bs h _ ih =>
    refine ⟨fun x hx => ?_, fun x hx => ?_⟩
    · rcases List.mem_cons.1 hx with rfl | hx
      · exact ⟨b, List.mem_cons_self, h⟩
      · obtain ⟨y, hy, h⟩ := ih.1 x hx
        exact ⟨y, List.mem_cons_of_mem _ hy, h⟩
    · rcases List.mem_cons.1 hx with rfl | hx
      · exact ⟨a, List.mem_cons_self, h⟩
      · obtain ⟨y, hy, h⟩ := ih.2 x hx
        exact ⟨y, List.mem_cons_of_mem _ hy, h⟩

/-- The catalogue has every notice that is shown, so that looking up its severity is never a
`KeyError`. -/
theorem C98_catalogue {files : List (Str × Option Str)} {xs : List (Option Str × List Yield)} (h : Worked S files xs)
    {x : Option Str × Yield} (hx : x ∈ inTurn xs) {t : Target} {c : Complaint Ctx} (hc : ToShow S x.1 x.2 t c) :
    ∃ row ∈ noticeRows, row.id = c.id := by
  simp only [inTurn, List.mem_flatMap, List.mem_map] at hx
  obtain ⟨f, hf, y, hy, rfl⟩ := hx
  obtain ⟨file, _, hcap, _⟩ := (p2_mem h).2 f hf
  exact toShow_catalogued hW hl hcap hy hc

omit hW hl in
theorem first_break {P : Yield → Prop} : ∀ ys : List Yield, (∀ y ∈ ys, ¬P y) ∨
    ∃ before y after, ys = before ++ y :: after ∧ (∀ z ∈ before, ¬P z) ∧ P y
  | [] => .inl nofun
  | y :: ys => by
    by_cases h : P y
    · exact .inr ⟨[], y, ys, rfl, nofun, h⟩
    · rcases first_break (P := P) ys with h' | ⟨b, z, a, rfl, hb, hz⟩
      · exact .inl fun z hz => by
          rcases List.mem_cons.1 hz with rfl | hz
          · exact h
          · exact h' z hz
      · refine .inr ⟨y :: b, z, a, rfl, fun w hw => ?_, hz⟩
        rcases List.mem_cons.1 hw with rfl | hw
        · exact h
        · exact hb w hw

omit hW hl in
theorem file_cases (file : Str × Option Str) : (∃ x : Option Str × List Yield, Captured S file x.1 x.2 ∧ ∀ y ∈ x.2, ¬Breaks S x.1 y) ∨
    (¬∃ inbound outbound scheme, CombinedParts S.decodeUtf8 file inbound outbound scheme) ∨ Crashes S file := by
  by_cases h : ∃ inbound outbound scheme, CombinedParts S.decodeUtf8 file inbound outbound scheme
  · obtain ⟨inb, outb, scheme, hp⟩ := h
    by_cases hb : ∃ y ∈ (parseStreams (S.world.frame S.base.lower S.libs) (some (SS.new inb)) (some (SS.new outb))).1, Breaks S scheme y
    · exact .inr (.inr ⟨inb, outb, scheme, hp, .inl hb⟩)
    · cases hr : (parseStreams (S.world.frame S.base.lower S.libs) (some (SS.new inb)) (some (SS.new outb))).2 with
      | error e => exact .inr (.inr ⟨inb, outb, scheme, hp, .inr ⟨e, hr⟩⟩)
      | ok final => exact .inl ⟨(scheme, _), ⟨inb, outb, final, hp, Prod.ext rfl hr⟩, fun y hy hy' => hb ⟨y, hy, hy'⟩⟩
  · exact .inr (.inl h)

omit hW hl in
theorem files_cases : ∀ files : List (Str × Option Str), (∃ xs, Worked S files xs) ∨
    ∃ good xs file after, files = good ++ file :: after ∧ Worked S good xs ∧
      ((¬∃ inbound outbound scheme, CombinedParts S.decodeUtf8 file inbound outbound scheme) ∨ Crashes S file)
  | [] => .inl ⟨[], .nil⟩
  | f :: fs => by
    rcases file_cases (S := S) f with ⟨x, hx⟩ | h
    · rcases files_cases fs with ⟨xs, h⟩ | ⟨good, xs, file, after, rfl, h, h'⟩
      · exact .inl ⟨x :: xs, .cons hx h⟩
      · exact .inr ⟨f :: good, x :: xs, file, after, rfl, .cons hx h, h'⟩
    · exact .inr ⟨[], [], f, fs, rfl, .nil, h⟩

theorem crash_end {good after : List (Str × Option Str)} {xs : List (Option Str × List Yield)} {file : Str × Option Str}
    (h : Worked S good xs) (hc : Crashes S file) : (S.runCombined (good ++ file :: after)).2 = .otherError := by
  obtain ⟨inb, outb, scheme, hp, hc⟩ := hc
  rcases first_break (P := Breaks S scheme)
    (parseStreams (S.world.frame S.base.lower S.libs) (some (SS.new inb)) (some (SS.new outb))).1 with hn | ⟨b, y, a, he, hb, hy⟩
  · rcases hc with ⟨y, hy, hy'⟩ | ⟨e, he⟩
    · exact absurd hy' (hn y hy)
    · obtain ⟨bs, h, _⟩ := C98_exception hW hl (after := after) h hp (Prod.ext rfl he) hn
      rw [h]
  · obtain ⟨bs, h, _⟩ := C98_broken hW hl (after := after) h hp he hb hy
    rw [h]

/-- **C98**: the exit status, for any files. -/
theorem C98_exit (files : List (Str × Option Str)) :
    (S.exitCode files = some 0 ↔ ∃ xs, Worked S files xs ∧ ∀ threshold, S.failOn = some threshold →
      ∀ x ∈ inTurn xs, ∀ t c, ToShow S x.1 x.2 t c → ¬Grave threshold c.id) ∧
    (S.exitCode files = some 1 ↔
      (∃ xs threshold, Worked S files xs ∧ S.failOn = some threshold ∧
        ∃ x ∈ inTurn xs, ∃ t c, ToShow S x.1 x.2 t c ∧ Grave threshold c.id) ∨
      ∃ good xs file after, files = good ++ file :: after ∧ Worked S good xs ∧
        ¬∃ inbound outbound scheme, CombinedParts S.decodeUtf8 file inbound outbound scheme) ∧
    (S.exitCode files = none ↔
      ∃ good xs file after, files = good ++ file :: after ∧ Worked S good xs ∧ Crashes S file) := by
  -- how each of the three ways ends
  have grave : ∀ {xs}, Worked S files xs →
      (S.exitCode files = some 1 ↔ ∃ threshold, S.failOn = some threshold ∧
        ∃ x ∈ inTurn xs, ∃ t c, ToShow S x.1 x.2 t c ∧ Grave threshold c.id) ∧
      (S.exitCode files = some 0 ∨ S.exitCode files = some 1) := by
    intro xs h
    obtain ⟨bs, h1, h2⟩ := C98_shown hW hl h
    obtain ⟨k1, k2⟩ := C40_status severityOf [] id S.failOn bs .finished nofun
    have hm : bs.map (processExchange [] id) = bs := by
      rw [show processExchange [] id = (id : ExchBoards Ctx → _) from rfl, List.map_id]
    rw [(generate_eq severityOf [] id bs _).1, hm] at k1
    unfold Setup.exitCode
    rw [h1]
    refine ⟨k1.trans ⟨?_, ?_⟩, k2⟩
    · rintro (h | ⟨T, hT, b, hb, t, obj, c, ho, hc, hg⟩)
      · cases h
      · obtain ⟨x, hx, hsx⟩ := (p2_mem h2).2 b hb
        have hts := (hsx.2 t c).1 ⟨obj, ho, hc⟩
        exact ⟨T, hT, x, hx, t, c, hts, (grave_iff (C98_catalogue hW hl h hx hts)).2 hg⟩
    · rintro ⟨T, hT, x, hx, t, c, hts, hg⟩
      obtain ⟨b, hb, hsx⟩ := (p2_mem h2).1 x hx
      obtain ⟨obj, ho, hc⟩ := (hsx.2 t c).2 hts
      exact .inr ⟨T, hT, b, hb, t, obj, c, ho, hc, (grave_iff (C98_catalogue hW hl h hx hts)).1 hg⟩
  have unread : ∀ {good xs file after}, files = good ++ file :: after → Worked S good xs →
      (¬∃ inbound outbound scheme, CombinedParts S.decodeUtf8 file inbound outbound scheme) → S.exitCode files = some 1 := by
    rintro good xs file after rfl h hf
    obtain ⟨bs, h1, _⟩ := C98_unreadable hW hl (after := after) h hf
    unfold Setup.exitCode
    rw [h1, runCli]
  have crash : ∀ {good xs file after}, files = good ++ file :: after → Worked S good xs → Crashes S file → S.exitCode files = none := by
    rintro good xs file after rfl h hf
    unfold Setup.exitCode
    rw [crash_end hW hl h hf, runCli]
  refine ⟨⟨fun h0 => ?_, ?_⟩, ⟨fun h0 => ?_, ?_⟩, ⟨fun h0 => ?_, ?_⟩⟩
  · rcases files_cases (S := S) files with ⟨xs, h⟩ | ⟨good, xs, file, after, he, h, h' | h'⟩
    · refine ⟨xs, h, fun T hT x hx t c hc hg => ?_⟩
      rw [(grave h).1.2 ⟨T, hT, x, hx, t, c, hc, hg⟩] at h0
      cases h0
    · rw [unread he h h'] at h0; cases h0
    · rw [crash he h h'] at h0; cases h0
  · rintro ⟨xs, h, hn⟩
    rcases (grave h).2 with h' | h'
    · exact h'
    · obtain ⟨T, hT, x, hx, t, c, hc, hg⟩ := (grave h).1.1 h'
      exact absurd hg (hn T hT x hx t c hc)
  · rcases files_cases (S := S) files with ⟨xs, h⟩ | ⟨good, xs, file, after, he, h, h' | h'⟩
    · obtain ⟨T, hT, hx⟩ := (grave h).1.1 h0
      exact .inl ⟨xs, T, h, hT, hx⟩
    · exact .inr ⟨good, xs, file, after, he, h, h'⟩
    · rw [crash he h h'] at h0; cases h0
  · rintro (⟨xs, T, h, hT, hx⟩ | ⟨good, xs, file, after, he, h, h'⟩)
    · exact (grave h).1.2 ⟨T, hT, hx⟩
    · exact unread he h h'
  · rcases files_cases (S := S) files with ⟨xs, h⟩ | ⟨good, xs, file, after, he, h, h' | h'⟩
    · rcases (grave h).2 with h' | h' <;> rw [h'] at h0 <;> cases h0
    · rw [unread he h h'] at h0; cases h0
    · exact ⟨good, xs, file, after, he, h, h'⟩
  · rintro ⟨good, xs, file, after, he, h, h'⟩
    exact crash he h h'

end

/-! ## Examples -/

/-- A file with a request and two responses' worth of bytes. -/
def exFile : Str × Option Str := (str "1.https", some (str ("preamble\r\n======== BEGIN INBOUND STREAM ========\r\nHEAD / HTTP/1.1\r\n\r\n" ++
  "======== BEGIN OUTBOUND STREAM ========\r\nHTTP/1.1 204 OK\r\n\r\nabc")))

/-- A run with a world, and with a threshold. -/
def exSetup (W : World) (silence : List Nat) (failOn : Option Severity) : Setup :=
  ⟨W, Toy.env, tools, fun _ _ => [], some, silence, failOn⟩

theorem exFile_parts (W : World) (silence : List Nat) (failOn : Option Severity) :
    CombinedParts (exSetup W silence failOn).decodeUtf8 exFile (str "HEAD / HTTP/1.1\r\n\r\n") (str "HTTP/1.1 204 OK\r\n\r\nabc")
      (some (str "https")) := by
  refine parts_iff.2 ⟨_, str "preamble\r\n", rfl, ?_⟩
  show parseCombined some _ _ = _
  decide +kernel

theorem exFile_worked (W : World) (silence : List Nat) (failOn : Option Severity) :
    ∃ req r, Worked (exSetup W silence failOn) [exFile] [(some (str "https"), [.exch (some req) [r], .box 1008, .box 1009])] := by
  have hrun : ∃ req r final, runStreams (W.frame Toy.env.lower tools) (some (str "HEAD / HTTP/1.1\r\n\r\n"))
      (some (str "HTTP/1.1 204 OK\r\n\r\nabc")) = ([.exch (some req) [r], .box 1008, .box 1009], .ok final) ∧
      req.msg.entries ++ req.msg.trailers = [] ∧ r.msg.entries = [] ∧ r.msg.trailers = [] ∧ r.status = 204 :=
    ⟨_, _, _, rfl, rfl, rfl, rfl, rfl⟩
  obtain ⟨req, r, final, hrun, hq, hh, ht, hst⟩ := hrun
  refine ⟨req, r, .cons ⟨⟨_, _, final, exFile_parts W silence failOn, hrun⟩, ?_⟩ .nil⟩
  intro y hy
  simp only [List.mem_cons, List.not_mem_nil, or_false] at hy
  rintro (⟨q, hq', e, he, _⟩ | ⟨r', hr', hb⟩)
  · rcases hy with rfl | rfl | rfl
    · cases hq'
      have he : e ∈ req.msg.entries ++ req.msg.trailers := he
      rw [hq] at he
      cases he
    · cases hq'
    · cases hq'
  rcases hy with rfl | rfl | rfl
  · obtain rfl : r' = r.response := by simpa [captured, streamExchange] using hr'
    rcases hb with ⟨e, he, _⟩ | ⟨_, d, n, ⟨x, ⟨a, e, b, h1, _⟩, _⟩, _⟩ | hb
    · have he : e ∈ r.msg.entries ++ r.msg.trailers := he
      rw [hh, ht] at he
      cases he
    · have h1 : r.msg.entries ++ [] = a ++ e :: b := h1
      rw [hh] at h1
      simp at h1
    · have h1 : (r.status : Int) = 451 := hb.1
      rw [hst] at h1
      cases h1
  · cases hr'
  · cases hr'

/-- C98: nothing is shown that is silenced, and the exit status depends on what is shown. -/
example {W : World} (hW : Ready W) : (exSetup W [] (some .error)).exitCode [exFile] = some 1 ∧
    (exSetup W [] none).exitCode [exFile, exFile] = some 0 ∧ (exSetup W [] none).exitCode [exFile, (str "2", none)] = some 1 ∧
    (exSetup W [] none).exitCode [exFile, (str "2", some (str "======== BEGIN INBOUND STREAM ========\r\n"))] = some 1 := by
  obtain ⟨req, r, h⟩ := exFile_worked W [] (some .error)
  obtain ⟨req', r', h'⟩ := exFile_worked W [] none
  refine ⟨?_, ?_, ?_, ?_⟩
  · refine ((C98_exit (S := exSetup W [] (some .error)) hW toy_lower _).2.1).2 (.inl ⟨_, .error, h, rfl, (some (str "https"), .box 1009), ?_, .exch, ⟨1009, []⟩, ?_, ?_⟩)
    · simp [inTurn]
    · refine ⟨.inl ⟨⟨1009, none⟩, rfl, rfl⟩, by simp [exSetup], fun h => h⟩
    · exact ⟨noticeRows.find? (·.id = 1009) |>.get (by decide +kernel), by decide +kernel, by decide +kernel, .inl (by decide +kernel)⟩
  · exact ((C98_exit (S := exSetup W [] none) hW toy_lower _).1).2 ⟨_, p2_append h' h', nofun⟩
  · refine ((C98_exit (S := exSetup W [] none) hW toy_lower _).2.1).2 (.inr ⟨[exFile], _, (str "2", none), [], rfl, h', ?_⟩)
    rintro ⟨_, _, _, _, _, _, _, h, _⟩
    cases h
  · refine ((C98_exit (S := exSetup W [] none) hW toy_lower _).2.1).2 (.inr ⟨[exFile], _, _, [], rfl, h', ?_⟩)
    rintro ⟨_, _, _, hp⟩
    obtain ⟨_, _, hd, hc⟩ := parts_iff.1 hp
    cases hd
    have hc : parseCombined some (str "2") (str "======== BEGIN INBOUND STREAM ========\r\n") = _ := hc
    rw [show parseCombined some (str "2") (str "======== BEGIN INBOUND STREAM ========\r\n") = .error .noOutbound by decide +kernel] at hc
    cases hc

end Httpolice.Props
