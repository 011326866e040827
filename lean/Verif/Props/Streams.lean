import Verif.Lemmas.Minus

/-!
# C11, C12, C13, C18, C19, C20: reading streams
-/

namespace Httpolice.Props

open Httpolice.Model
open Httpolice.Spec
open Httpolice.Lemmas

/-- What `parse_streams` does with new streams on these data, each possibly absent. -/
def runStreams (env : FrameEnv) (inb outb : Option Str) :
    List Yield × Except Exc (Option SS × Option SS) :=
  parseStreams env (inb.map SS.new) (outb.map SS.new)

/-- Interpretation of header values for the examples: `chunked` is chunked, all else is unknown. -/
def toyFrame : FrameEnv :=
  ⟨fun v => some [if v = str "chunked" then .chunked else .other], fun _ => none, fun _ => none⟩

/-! ## C11 -/

/-- **C11**: if the next LF comes after `l` (possibly with a CR before it) and within the limit,
`readline` returns `l` and the stream is right after the LF; `eof` is then set exactly if nothing is
left (or it was set before); 1224 is recorded exactly if the CR is missing. -/
theorem C11_readline (s : SS) (l t : Str) (hl : 10 ∉ l) (cr : Bool)
    (hcr : cr = false → ∀ l', l ≠ l' ++ [13])
    (hs : s.rest = l ++ (if cr then [13, 10] else [10]) ++ t)
    (hlen : l.length + (if cr then 2 else 1) ≤ 16384) :
    s.readline = .ok l
      { rest := t, pos := s.pos + l.length + (if cr then 2 else 1), eof := s.eof || t.isEmpty,
        sane := s.sane,
        complaints := if cr then s.complaints else s.complaints ++ [(1224, s.pos)] } := by
  cases cr with
  | true =>
    have h := readline_found s (l ++ [13]) t (by rw [hs]; simp) (by simp [hl])
      (by simp [maxLineLength] at hlen ⊢; omega)
    rw [h]
    simp [stripCR]; omega
  | false =>
    have hn : l.getLast? ≠ some 13 := by
      intro hg
      have hne : l ≠ [] := by intro h0; rw [h0] at hg; simp at hg
      rw [List.getLast?_eq_some_getLast hne] at hg
      have := List.dropLast_concat_getLast hne
      rw [Option.some.inj hg] at this
      exact hcr rfl _ this.symm
    have h := readline_found s l t (by rw [hs]; simp) hl
      (by simp [maxLineLength] at hlen ⊢; omega)
    rw [h]
    simp [stripCR, hn]

/-- **C11**: if there is no LF among the next 16384 bytes, `readline` fails where it started, and
the stream is not sane. -/
theorem C11_no_line (s : SS) (h : 10 ∉ s.rest.take 16384) :
    ∃ s', s.readline = .exc (.parse s.pos) s' ∧ s'.sane = false ∧ s'.good = false := by
  rw [readline_notfound s h]
  exact ⟨_, rfl, rfl, rfl⟩

/-- **C11**: these are the only two cases. -/
theorem C11_cases (s : SS) : 10 ∉ s.rest.take 16384 ∨
    ∃ l t cr, (s.rest = l ++ (if cr then [13, 10] else [10]) ++ t ∧ 10 ∉ l ∧
      (cr = false → ∀ l', l ≠ l' ++ [13]) ∧ l.length + (if cr then 2 else 1) ≤ 16384) := by
  rcases line_cases maxLineLength s.rest with ⟨a, t, hs, ha, hl⟩ | h
  · right
    simp only [maxLineLength] at hl
    by_cases h13 : ∃ l', a = l' ++ [13]
    · obtain ⟨l', rfl⟩ := h13
      refine ⟨l', t, true, by rw [hs]; simp, fun h => ha (by simp [h]), by simp, ?_⟩
      simp at hl ⊢; omega
    · refine ⟨a, t, false, by rw [hs]; simp, ha, ?_, ?_⟩
      · intro _ l' hl'; exact h13 ⟨l', hl'⟩
      · simp; omega
  · exact Or.inl h

/-- A line with a CR inside and one before the LF. -/
example : (SS.new (str "a\rb\r\nc")).readline =
    .ok (str "a\rb") ⟨str "c", 5, false, true, []⟩ :=
  C11_readline _ (str "a\rb") (str "c") (by decide) true (by simp) rfl (by decide)

/-- A line without a CR, at the end of the stream. -/
example : (SS.new (str "ab\n")).readline = .ok (str "ab") ⟨[], 3, true, true, [(1224, 0)]⟩ :=
  C11_readline _ (str "ab") [] (by decide) false (by intro _ l' h; cases l' with
    | nil => cases h
    | cons _ l' => cases l' with
      | nil => cases h
      | cons _ l' => cases l' <;> cases h) rfl (by decide)

/-! ## C12 -/

/-- **C12**: `parse_streams` terminates, for streams in any state. -/
theorem C12_terminates (env : FrameEnv) (inb outb : Option SS) :
    (parseStreams env inb outb).2 ≠ .error .diverge := by
  intro h
  have := parseStreams_exc (ys := (parseStreams env inb outb).1) (e := .diverge)
    (by rw [← h])
  cases this.1

/-- **C12**: the requests occupy adjacent, non-empty ranges of the inbound data, the responses
adjacent, non-empty ranges of the outbound data, in the order in which they are yielded. -/
theorem C12_ranges (env : FrameEnv) (inb outb : Option Str) (ys : List Yield)
    (inb' outb' : Option SS) (h : runStreams env inb outb = (ys, .ok (inb', outb'))) :
    Tiles 0 ((requests ys).map (·.msg)) (inb.getD []).length ∧
    Tiles 0 ((responses ys).map (·.msg)) (outb.getD []).length := by
  obtain ⟨a, b, b8, hr⟩ := parseStreams_ok h
  have hB : requests b = [] := by
    have : ∀ l : List Yield, (∀ y ∈ l, (∃ rs, y = .exch none rs ∧ rs ≠ [] ∧ ExchOk none rs) ∨
        y = .box 1009) → requests l = [] := by
      intro l
      induction l with
      | nil => intro _; rfl
      | cons y l ih =>
        intro hk
        have hrest := ih fun z hz => hk z (List.mem_cons_of_mem _ hz)
        rcases hk y List.mem_cons_self with ⟨rs, rfl, _⟩ | rfl
        · exact hrest
        · exact hrest
    exact this b hr.kindsB
  have hq : requests ys = requests a := by
    rw [hr.shape]
    simp only [requests_append, requests_boxIf, hB, List.append_nil]
  have hp : responses ys = responses (a ++ b) := by
    rw [hr.shape]
    simp only [responses_append, responses_boxIf, List.append_nil]
  have hmono : ∀ (ms : List FMsg) (x y z : Nat), Tiles x ms y → y ≤ z → Tiles x ms z := by
    intro ms
    induction ms with
    | nil => intro x y z h1 h2; exact Nat.le_trans h1 h2
    | cons m ms ih => intro x y z h1 h2; exact ⟨h1.1, h1.2.1, ih _ _ _ h1.2.2 h2⟩
  constructor
  · rw [hq]
    cases inb with
    | none => rw [(hr.inNone rfl).2]; exact Nat.le_refl _
    | some d =>
      obtain ⟨i', _, hst, _, ht, _⟩ := hr.inSome (SS.new d) rfl
      refine hmono _ _ _ _ ht ?_
      have := hst.len
      simp only [SS.new, Option.getD_some] at this ⊢
      omega
  · rw [hp]
    cases outb with
    | none => rw [(hr.outNone rfl).2.1]; exact Nat.le_refl _
    | some d =>
      obtain ⟨o', _, hos, _⟩ := hr.outSome (SS.new d) rfl
      refine hmono _ _ _ _ hos.tiles ?_
      have := hos.step.len
      simp only [SS.new, Option.getD_some] at this ⊢
      omega

/-- Two requests and one response, with the ranges they occupy. -/
example : ((requests (runStreams toyFrame (some (str "GET / HTTP/1.1\r\n\r\nGET /a HTTP/1.1\r\n\r\n"))
      (some (str "HTTP/1.1 200 OK\r\nContent-Length: 2\r\n\r\nhi"))).1).map
        fun r => (r.msg.start, r.msg.stop)) = [(0, 18), (18, 37)] ∧
    ((responses (runStreams toyFrame (some (str "GET / HTTP/1.1\r\n\r\nGET /a HTTP/1.1\r\n\r\n"))
      (some (str "HTTP/1.1 200 OK\r\nContent-Length: 2\r\n\r\nhi"))).1).map
        fun r => (r.msg.start, r.msg.stop)) = [(0, 40)] := by
  decide +kernel

/-! ## C13 -/

/-- **C13**, in part: the only exception that escapes `parse_streams` is the `ValueError` for a
negative chunk size; it needs a line starting with a minus sign. Missing for the full claim: the
code does crash on such a chunk size, see `C13_false`. -/
theorem C13_no_exception_partial (env : FrameEnv) (inb outb : Option Str)
    (hi : ∀ d, inb = some d → ¬MinusLine d) (ho : ∀ d, outb = some d → ¬MinusLine d) :
    ∃ final, (runStreams env inb outb).2 = .ok final := by
  cases h : (runStreams env inb outb).2 with
  | ok f => exact ⟨f, rfl⟩
  | error e =>
    exfalso
    have h' := parseStreams_exc (ys := (runStreams env inb outb).1) (e := e)
      (show runStreams env inb outb = _ by rw [← h])
    rcases h'.2 with ⟨i, h1, h2⟩ | ⟨o, h1, h2⟩
    · cases inb with
      | none => cases h1
      | some d => cases h1; exact hi d rfl h2.minus
    · cases outb with
      | none => cases h1
      | some d => cases h1; exact ho d rfl h2.minus

/-- **C13**: whatever the data, no `ParseError` and no `BodyTooLongError` escapes. -/
theorem C13_only_value_error (env : FrameEnv) (inb outb : Option SS) (e : Exc)
    (h : (parseStreams env inb outb).2 = .error e) : e = .value :=
  (parseStreams_exc (ys := (parseStreams env inb outb).1) (by rw [← h])).1

/-- **C13** is false as stated: a chunk size of -5 lets a `ValueError` escape. -/
theorem C13_false : ¬∀ (env : FrameEnv) (inb outb : Option Str),
    ∃ final, (runStreams env inb outb).2 = .ok final := by
  intro h
  obtain ⟨f, hf⟩ := h toyFrame
    (some (str "POST / HTTP/1.1\r\nTransfer-Encoding: chunked\r\n\r\n-5\r\n")) none
  have hb : (match (runStreams toyFrame
    (some (str "POST / HTTP/1.1\r\nTransfer-Encoding: chunked\r\n\r\n-5\r\n")) none).2 with
      | .ok _ => true
      | .error _ => false) = false := by decide +kernel
  rw [hf] at hb
  cases hb

/-- Malformed data with a minus sign, but not at the start of a line, is no problem. -/
example : ∃ final, (runStreams toyFrame (some (str "a-b: c\r\nx-y\r\n")) none).2 = .ok final := by
  refine C13_no_exception_partial _ _ _ ?_ (by simp)
  rintro d hd ⟨p, w, l, h, hw⟩
  have hd : d = str "a-b: c\r\nx-y\r\n" := (Option.some.inj hd).symm
  rw [hd] at h
  -- the only positions after an LF are before `x` and at the end
  have h10 : ∀ i, (str "a-b: c\r\nx-y\r\n")[i]? = some 10 → i = 7 ∨ i = 12 := by
    intro i
    by_cases hi : i < 13
    · have : ∀ j < 13, (str "a-b: c\r\nx-y\r\n")[j]? = some 10 → j = 7 ∨ j = 12 := by decide +kernel
      exact this i hi
    · intro hx
      rw [List.getElem?_eq_none (by have : (str "a-b: c\r\nx-y\r\n").length = 13 := by decide
                                    omega)] at hx
      cases hx
  have hp := h10 p.length (by rw [h]; simp)
  have hnext : (str "a-b: c\r\nx-y\r\n")[p.length + 1]? = (w ++ [45] ++ l)[0]? := by
    rw [h, show p ++ [10] ++ w ++ [45] ++ l = (p ++ [10]) ++ (w ++ [45] ++ l) by simp,
      List.getElem?_append_right (by simp)]
    simp
  rcases hp with hp | hp <;> rw [hp] at hnext
  · cases w with
    | nil => revert hnext; simp [str]
    | cons c w =>
      have hc := hw c List.mem_cons_self
      have : c = 120 := by
        have h1 : (str "a-b: c\r\nx-y\r\n")[7 + 1]? = some 120 := by decide +kernel
        rw [h1] at hnext
        simp at hnext
        exact hnext.symm
      rw [this] at hc
      simp at hc
  · have h1 : (str "a-b: c\r\nx-y\r\n")[12 + 1]? = none := by decide +kernel
    rw [h1] at hnext
    cases w <;> simp at hnext

/-! ## C18 -/

theorem exch_mem {inb outb : Option SS} {ys : List Yield} {inb' outb' : Option SS}
    {a b : List Yield} {b8 : Bool} (hr : Run inb outb ys inb' outb' a b b8) {req : Option FReq}
    {rs : List FResp} (hm : .exch req rs ∈ ys) :
    ExchOk req rs ∧ (req = none → rs ≠ []) := by
  rw [hr.shape] at hm
  have hbox : ∀ c id, Yield.exch req rs ∉ boxIf c id := by
    intro c id; cases c <;> simp [boxIf]
  simp only [List.mem_append, hbox, or_false] at hm
  rcases hm with hm | hm
  · rcases hr.kindsA _ hm with ⟨q, rs', h1, h2⟩ | h1 | h1
    · cases h1; exact ⟨h2, by simp⟩
    · cases h1
    · cases h1
  · rcases hr.kindsB _ hm with ⟨rs', h1, h2, h3⟩ | h1
    · cases h1; exact ⟨h3, fun _ => h2⟩
    · cases h1

/-- **C18**: in every exchange, all responses but the last are interim, and an exchange without a
request has some response. -/
theorem C18_shape (env : FrameEnv) (inb outb : Option Str) (ys : List Yield)
    (final : Option SS × Option SS) (h : runStreams env inb outb = (ys, .ok final))
    (req : Option FReq) (rs : List FResp) (hm : .exch req rs ∈ ys) :
    (∀ r ∈ rs.dropLast, 100 ≤ r.status ∧ r.status < 200 ∧ r.status ≠ 101) ∧
    (req = none → rs ≠ []) := by
  obtain ⟨a, b, b8, hr⟩ := parseStreams_ok h
  obtain ⟨h1, h2⟩ := exch_mem hr hm
  exact ⟨h1.1, h2⟩

/-- **C18**: an exchange that does not end with a final (not interim) response is the last one to
have any responses: each request but the last to get responses gets exactly its own. -/
theorem C18_final (env : FrameEnv) (inb outb : Option Str) (ys : List Yield)
    (final : Option SS × Option SS) (h : runStreams env inb outb = (ys, .ok final))
    (pre post : List Yield) (req : Option FReq) (rs : List FResp)
    (hm : ys = pre ++ .exch req rs :: post) (hp : responses post ≠ []) :
    ∃ r, rs.getLast? = some r ∧ ¬Interim r := by
  obtain ⟨a, b, b8, hr⟩ := parseStreams_ok h
  exact finalEnds_at hr.final hm hp

/-- Interim and final responses, for two requests. -/
example : ((runStreams toyFrame
    (some (str "GET / HTTP/1.1\r\n\r\nGET /a HTTP/1.1\r\n\r\n"))
    (some (str ("HTTP/1.1 100 Go\r\n\r\nHTTP/1.1 204 OK\r\n\r\n" ++
      "HTTP/1.1 304 No\r\n\r\nHTTP/1.1 204 OK\r\n\r\n")))).1).map (fun y => match y with
        | .exch req rs => (req.isSome, rs.map (·.status))
        | .box id => (false, [id])) =
    [(true, [100, 204]), (true, [304]), (false, [1008]), (false, [204])] := by
  decide +kernel

/-! ## C19 -/

/-- **C19**: after a 101 response or a 2xx response to CONNECT, no request and no response is
yielded. -/
theorem C19_nothing_after (env : FrameEnv) (inb outb : Option Str) (ys : List Yield)
    (final : Option SS × Option SS) (h : runStreams env inb outb = (ys, .ok final))
    (pre post : List Yield) (req : Option FReq) (rs : List FResp) (r : FResp)
    (hm : ys = pre ++ .exch req rs :: post) (hr : r ∈ rs)
    (hs : r.status = 101 ∨
      ∃ q, req = some q ∧ q.method = str "CONNECT" ∧ 200 ≤ r.status ∧ r.status < 300) :
    rs.getLast? = some r ∧ requests post = [] ∧ responses post = [] := by
  obtain ⟨a, b, b8, hrun⟩ := parseStreams_ok h
  refine ⟨?_, switchEnds_at hrun.switch hm ⟨r, hr, hs⟩⟩
  have hx := (exch_mem hrun (by rw [hm]; simp : Yield.exch req rs ∈ ys)).1.1
  have hni : ¬Interim r := by
    rintro ⟨h1, h2, h3⟩
    rcases hs with hs | ⟨q, _, _, h4, _⟩
    · exact h3 hs
    · omega
  have hne : rs ≠ [] := by intro h; rw [h] at hr; simp at hr
  rw [← List.dropLast_concat_getLast hne] at hr
  rcases List.mem_append.1 hr with hr | hr
  · exact absurd (hx r hr) hni
  · rw [List.mem_singleton] at hr
    rw [hr]
    exact List.getLast?_eq_some_getLast hne

/-- **C19**: such a response has an empty body and carries notice 1011 (101) or 1012 (CONNECT). -/
theorem C19_response (env : FrameEnv) (inb outb : Option Str) (ys : List Yield)
    (final : Option SS × Option SS) (h : runStreams env inb outb = (ys, .ok final))
    (req : Option FReq) (rs : List FResp) (r : FResp)
    (hm : .exch req rs ∈ ys) (hr : r ∈ rs) :
    (r.status = 101 → r.msg.body = .bytes [] ∧ ⟨1011, none⟩ ∈ r.msg.notes) ∧
    (∀ q, req = some q → q.method = str "CONNECT" → 200 ≤ r.status → r.status < 300 →
      r.msg.body = .bytes [] ∧ ⟨1012, none⟩ ∈ r.msg.notes) := by
  obtain ⟨a, b, b8, hrun⟩ := parseStreams_ok h
  have hx := (exch_mem hrun hm).1.2 r hr
  refine ⟨hx.1, ?_⟩
  rintro q rfl hq h1 h2
  refine hx.2 (by omega) (by simp [hq]) ?_
  simp [successful]; omega

/-- CONNECT, with data after the 200 response on either stream. -/
example : ((runStreams toyFrame
    (some (str "CONNECT a:1 HTTP/1.1\r\n\r\nGET /a HTTP/1.1\r\n\r\n"))
    (some (str ("HTTP/1.1 200 OK\r\nContent-Length: 5\r\n\r\n" ++
      "HTTP/1.1 304 No\r\n\r\n")))).1).map (fun y => match y with
        | .exch req rs => (req.isSome, rs.map (·.status))
        | .box id => (false, [id])) =
    [(true, [200]), (false, [1007]), (false, [1010])] := by
  decide +kernel

/-! ## C20 -/

theorem count_boxIf (c : Bool) (id id' : Nat) :
    (boxIf c id).count (.box id') = if c ∧ id = id' then 1 else 0 := by
  cases c
  · simp [boxIf]
  · by_cases h : id = id'
    · simp [boxIf, h]
    · simp [boxIf, h]

theorem run_count {inb outb : Option SS} {ys : List Yield} {inb' outb' : Option SS}
    {a b : List Yield} {b8 : Bool} (hr : Run inb outb ys inb' outb' a b b8) (id : Nat)
    (hid : id = 1007 ∨ id = 1008 ∨ id = 1010) :
    boxes id ys = (if (inb'.any fun s => !s.eof) ∧ 1007 = id then 1 else 0) +
      (if b8 ∧ 1008 = id then 1 else 0) +
      (if (outb'.any fun s => !s.eof) ∧ 1010 = id then 1 else 0) := by
  have ha : a.count (.box id) = 0 := by
    rw [List.count_eq_zero]
    intro hm
    rcases hr.kindsA _ hm with ⟨q, rs, h, _⟩ | h | h
    · cases h
    · cases h; omega
    · cases h; omega
  have hb : b.count (.box id) = 0 := by
    rw [List.count_eq_zero]
    intro hm
    rcases hr.kindsB _ hm with ⟨rs, h, _⟩ | h
    · cases h
    · cases h; omega
  unfold boxes
  rw [hr.shape]
  simp only [List.count_append, count_boxIf, ha, hb, Nat.zero_add, Nat.add_zero]

/-- **C20**: 1007 is reported, once, exactly if an inbound stream was given and something on it was
left unread. -/
theorem C20_1007 (env : FrameEnv) (inb outb : Option Str) (ys : List Yield)
    (inb' outb' : Option SS) (h : runStreams env inb outb = (ys, .ok (inb', outb'))) :
    boxes 1007 ys ≤ 1 ∧ (boxes 1007 ys = 1 ↔ ∃ s, inb' = some s ∧ s.rest ≠ []) ∧
    (inb'.isSome = inb.isSome) := by
  obtain ⟨a, b, b8, hr⟩ := parseStreams_ok h
  have hc := run_count hr 1007 (by omega)
  simp only [and_true, show ¬(1008 : Nat) = 1007 by omega, show ¬(1010 : Nat) = 1007 by omega,
    and_false, if_false, Nat.add_zero] at hc
  rw [hc]
  cases inb with
  | none =>
    rw [(hr.inNone rfl).1]
    simp
  | some d =>
    obtain ⟨i', rfl, _, _, _, _, ht⟩ := hr.inSome (SS.new d) rfl
    have ht := ht rfl (by simp [SS.new])
    refine ⟨by split <;> omega, ?_, rfl⟩
    cases he : i'.eof with
    | true =>
      have := ht.1 he
      simp [this, he]
    | false =>
      have : i'.rest ≠ [] := fun h0 => by rw [ht.2 h0] at he; cases he
      simp [this, he]

/-- **C20**: 1010 is reported, once, exactly if an outbound stream was given and something on it was
left unread. -/
theorem C20_1010 (env : FrameEnv) (inb outb : Option Str) (ys : List Yield)
    (inb' outb' : Option SS) (h : runStreams env inb outb = (ys, .ok (inb', outb'))) :
    boxes 1010 ys ≤ 1 ∧ (boxes 1010 ys = 1 ↔ ∃ s, outb' = some s ∧ s.rest ≠ []) ∧
    (outb'.isSome = outb.isSome) := by
  obtain ⟨a, b, b8, hr⟩ := parseStreams_ok h
  have hc := run_count hr 1010 (by omega)
  simp only [and_true, show ¬(1008 : Nat) = 1010 by omega, show ¬(1007 : Nat) = 1010 by omega,
    and_false, if_false, Nat.zero_add] at hc
  rw [hc]
  cases outb with
  | none =>
    rw [(hr.outNone rfl).1]
    simp
  | some d =>
    obtain ⟨o', rfl, _, _, ht⟩ := hr.outSome (SS.new d) rfl
    have ht := ht rfl (by simp [SS.new])
    refine ⟨by split <;> omega, ?_, rfl⟩
    cases he : o'.eof with
    | true =>
      have := ht.1 he
      simp [this, he]
    | false =>
      have : o'.rest ≠ [] := fun h0 => by rw [ht.2 h0] at he; cases he
      simp [this, he]

/-- What the second loop of `parse_streams` yields: an exchange without a request, or 1009. -/
def Rest (y : Yield) : Prop := (∃ rs, rs ≠ [] ∧ y = .exch none rs) ∨ y = .box 1009

/-- **C20**: what is yielded is, in this order: exchanges with a request (and 1006, 1009), perhaps
1007, perhaps 1008, exchanges without a request (and 1009), perhaps 1010. 1008 is there exactly if
an inbound stream was given and anything was yielded for the remaining responses. -/
theorem C20_order (env : FrameEnv) (inb outb : Option Str) (ys : List Yield)
    (final : Option SS × Option SS) (h : runStreams env inb outb = (ys, .ok final)) :
    ∃ a b7 b8 b b10, ys = a ++ b7 ++ b8 ++ b ++ b10 ∧
      (∀ y ∈ a, (∃ q rs, y = .exch (some q) rs) ∨ y = .box 1006 ∨ y = .box 1009) ∧
      (b7 = [] ∨ b7 = [.box 1007]) ∧ (b10 = [] ∨ b10 = [.box 1010]) ∧ (∀ y ∈ b, Rest y) ∧
      b8 = if inb ≠ none ∧ b ≠ [] then [.box 1008] else [] := by
  obtain ⟨a, b, b8, hr⟩ := parseStreams_ok h
  refine ⟨a, _, _, b, _, hr.shape, ?_, ?_, ?_, ?_, ?_⟩
  · intro y hy
    rcases hr.kindsA y hy with ⟨q, rs, h1, _⟩ | h1
    · exact Or.inl ⟨q, rs, h1⟩
    · exact Or.inr h1
  · cases (final.1.any fun s => !s.eof) <;> simp [boxIf]
  · cases (final.2.any fun s => !s.eof) <;> simp [boxIf]
  · intro y hy
    rcases hr.kindsB y hy with ⟨rs, h1, h2, _⟩ | h1
    · exact Or.inl ⟨rs, h2, h1⟩
    · exact Or.inr h1
  · rw [hr.b8]
    cases inb <;> cases b <;> simp [boxIf]

/-- Nothing inbound, then garbage outbound: 1006 for the missing request, then 1008, 1009, 1010. -/
example : (runStreams toyFrame (some []) (some (str "x\r\ny"))).1 =
    [.box 1006, .box 1008, .box 1009, .box 1010] := by
  decide +kernel

/-! ## C22 -/

/-- **C22**: every 1016 and 1224 notice is on a message that contains the line it is about. As the
messages of a stream do not overlap (`C12_ranges`), no line is reported for two messages. -/
theorem C22_own_lines (env : FrameEnv) (inb outb : Option Str) (ys : List Yield)
    (final : Option SS × Option SS) (h : runStreams env inb outb = (ys, .ok final)) :
    (∀ r ∈ requests ys, ∀ n ∈ r.msg.notes, ∀ l, n.line = some l →
      r.msg.start ≤ l ∧ l < r.msg.stop) ∧
    (∀ r ∈ responses ys, ∀ n ∈ r.msg.notes, ∀ l, n.line = some l →
      r.msg.start ≤ l ∧ l < r.msg.stop) := by
  obtain ⟨a, b, b8, hr⟩ := parseStreams_ok h
  constructor
  · intro r hx
    have hx : r ∈ requests a := by
      rw [hr.shape] at hx
      simp only [requests_append, requests_boxIf, List.append_nil, List.mem_append] at hx
      rcases hx with hx | hx
      · exact hx
      · exfalso
        unfold requests at hx
        rw [List.mem_flatMap] at hx
        obtain ⟨y, hy, hx⟩ := hx
        rcases hr.kindsB y hy with ⟨rs, rfl, _⟩ | rfl <;> simp at hx
    cases inb with
    | none => rw [(hr.inNone rfl).2] at hx; simp [requests] at hx
    | some d =>
      obtain ⟨i', _, _, _, _, ho, _⟩ := hr.inSome (SS.new d) rfl
      exact ho (fun _ => rfl) r hx
  · intro r hx
    have hx : r ∈ responses (a ++ b) := by
      rw [hr.shape] at hx
      simp only [responses_append, responses_boxIf, List.append_nil] at hx ⊢
      exact hx
    cases outb with
    | none => rw [(hr.outNone rfl).2.1] at hx; simp at hx
    | some d =>
      obtain ⟨o', _, ho, _⟩ := hr.outSome (SS.new d) rfl
      exact ho.own (fun _ => rfl) r hx

end Httpolice.Props
