import Verif.Lemmas.Runs
import Verif.Props.Streams

/-!
# C14, C15, C16, C17, C21, C22: framing of messages
-/

namespace Httpolice.Props

open Httpolice.Model
open Httpolice.Spec
open Httpolice.Lemmas

/-! ## C14 -/

/-- **C14**: reading a request as it should be, anywhere on a stream, gives exactly that request
(method, target, version, header entries, body; no notices), and leaves the stream right after it,
in good order. -/
theorem C14_request (env : FrameEnv) (s : SS) (r : FReq) (b t : Str)
    (hr : RequestWire env s.pos r b) (hs : s.rest = b ++ t) (hc : s.complaints = []) :
    ∃ s', parseRequest env s = .ok (some r) s' ∧ s'.rest = t ∧ s'.pos = s.pos + b.length ∧
      s'.sane = s.sane ∧ s'.complaints = [] :=
  ⟨_, request_wire env s r b t hr hs hc, rfl, rfl, rfl, by simp [to, hc]⟩

/-- **C14**: from an inbound stream that starts with requests as they should be, whatever comes after
them, `parse_streams` yields these requests first, exactly; if nothing comes after them, it yields
nothing else. -/
theorem C14_stream (env : FrameEnv) (rs : List FReq) (bs t : Str) (hne : rs ≠ [])
    (hw : RequestsWire env 0 rs bs) :
    (∃ ys, (runStreams env (some (bs ++ t)) none).1 = (rs.map fun r => .exch (some r) []) ++ ys) ∧
    (runStreams env (some bs) none).1 = rs.map fun r => .exch (some r) [] := by
  have hbs := requestsWire_ne hw hne
  have key : ∀ t, ∃ fuel', 0 < fuel' ∧ requestLoop env ((bs ++ t).length + 2) (SS.new (bs ++ t)) none =
      ((rs.map fun r => .exch (some r) []) ++
        (requestLoop env fuel' ⟨t, bs.length, t.isEmpty, true, []⟩ none).1,
        (requestLoop env fuel' ⟨t, bs.length, t.isEmpty, true, []⟩ none).2) := by
    intro t
    have := requestsWire_len hw
    obtain ⟨f', h0, _, h2⟩ := requestLoop_prefix env ((bs ++ t).length + 2) (SS.new (bs ++ t)) rs bs t hw
      rfl rfl rfl (by simp [SS.new, hbs]) (by simp only [List.length_append]; omega)
    exact ⟨f', h0, by simpa [SS.new] using h2⟩
  constructor
  · obtain ⟨f', _, h⟩ := key t
    unfold runStreams parseStreams
    simp only [Option.map_some, Option.map_none]
    rw [show (SS.new (bs ++ t)).rest.length + 2 = (bs ++ t).length + 2 from rfl, h]
    split
    · rename_i h1
      obtain ⟨h2, h3⟩ := Prod.mk.inj h1
      exact ⟨_, h2.symm⟩
    · rename_i h1
      obtain ⟨h2, h3⟩ := Prod.mk.inj h1
      rw [← h2]
      exact ⟨_, List.append_assoc _ _ _⟩
  · obtain ⟨f', h0, h⟩ := key []
    rw [List.append_nil] at h
    unfold runStreams parseStreams
    simp only [Option.map_some, Option.map_none]
    rw [show (SS.new bs).rest.length + 2 = bs.length + 2 from rfl, h]
    cases f' with
    | zero => omega
    | succ f' => simp [requestLoop, SS.good, finishStreams, boxIf]

/-- Interpretation of the examples: header fields on one line with CR LF. -/
def field (name value : String) : WField := ⟨str name, str (" " ++ value), true, []⟩

theorem field_ok (name value : String) (h1 : 58 ∉ str name) (h2 : 13 ∉ str name)
    (h3 : 10 ∉ str name ++ [58] ++ str (" " ++ value))
    (h4 : (str name ++ [58] ++ str (" " ++ value)).length ≤ 16382) : (field name value).Ok :=
  ⟨⟨h3, by simp [field, WField.first], by simp [WLine.bytes, WField.first, field] at h4 ⊢; omega⟩, h1,
    fun s hs => h2 (by rw [show str name = 13 :: s from hs]; simp), by simp [field]⟩

/-- A POST request with a body of five bytes. -/
def exPost : WHeading :=
  ⟨⟨str "POST /a HTTP/1.1", true⟩, [field "Host" "b", field "Content-Length" "5"], true⟩

/-- The heading of the example. -/
theorem exPost_ok : RequestHeading exPost (str "POST") (str "/a") (str "HTTP/1.1")
    [⟨str "Host", str "b"⟩, ⟨str "Content-Length", str "5"⟩] where
  text := by decide
  method := by decide
  target := by decide
  version := ⟨49, 49, by decide, by decide, by decide⟩
  start := ⟨by decide, by simp [exPost], by decide⟩
  fields := ⟨by
      intro f hf
      simp only [exPost, List.mem_cons, List.not_mem_nil, or_false] at hf
      rcases hf with rfl | rfl <;> exact field_ok _ _ (by decide) (by decide) (by decide) (by decide),
    by
      intro f hf c s hn
      simp only [exPost, List.tail_cons, List.mem_cons, List.not_mem_nil, or_false] at hf
      subst hf
      simp only [field, str] at hn
      cases hn
      decide⟩
  entries := by
    refine ⟨⟨rfl, ⟨[32], [], by decide, by decide, by decide, ?_, ?_⟩⟩,
      ⟨rfl, ⟨[32], [], by decide, by decide, by decide, ?_, ?_⟩⟩, trivial⟩
    · intro c s h; cases h; decide
    · intro s c h
      cases s with
      | nil => cases h; decide
      | cons _ s => cases s <;> cases h
    · intro c s h; cases h; decide
    · intro s c h
      cases s with
      | nil => cases h; decide
      | cons _ s => cases s <;> cases h

theorem exPost_clean : exPost.Clean :=
  ⟨rfl, by
    intro f hf
    simp only [exPost, List.mem_cons, List.not_mem_nil, or_false] at hf
    rcases hf with rfl | rfl <;> exact ⟨rfl, rfl⟩, rfl⟩

/-- The request of the example. -/
def exPostReq : FReq := ⟨str "POST", str "/a", str "HTTP/1.1",
  ⟨0, [⟨str "Host", str "b"⟩, ⟨str "Content-Length", str "5"⟩], [], .bytes (str "a\r\n\nb"), [], 53⟩⟩

theorem exPost_wire : RequestWire toyFrame 0 exPostReq
    (str "POST /a HTTP/1.1\r\nHost: b\r\nContent-Length: 5\r\n\r\na\r\n\nb") := by
  have h := RequestWire.mk (env := toyFrame) (off := 0) exPost (str "POST") (str "/a") (str "HTTP/1.1")
    [⟨str "Host", str "b"⟩, ⟨str "Content-Length", str "5"⟩] [] (str "a\r\n\nb") (str "a\r\n\nb")
    exPost_ok exPost_clean (Or.inr (BodyWire.sized _ ⟨str "Content-Length", str "5"⟩
      (by decide +kernel) (by decide +kernel) ⟨by decide, by decide, by decide⟩ (by decide)))
  exact h

/-- The request, followed by garbage. -/
example : ∃ ys, (runStreams toyFrame
    (some (str "POST /a HTTP/1.1\r\nHost: b\r\nContent-Length: 5\r\n\r\na\r\n\nb" ++ str "garbage"))
      none).1 = .exch (some exPostReq) [] :: ys := by
  have hw : RequestsWire toyFrame 0 [exPostReq] _ :=
    RequestsWire.cons 0 _ _ [] [] exPost_wire (.nil _)
  rw [List.append_nil] at hw
  exact (C14_stream toyFrame [exPostReq] _ (str "garbage") (by simp) hw).1

/-! ## C15 -/

/-- **C15**, for requests: whatever the chunks, the body is their data; the trailer entries are
those of the trailer; there are no notices, and the stream is right after the message. -/
theorem C15_request (env : FrameEnv) (s : SS) (h : WHeading) (method target version : Str)
    (es tes : List Entry) (chunks : List WChunk) (last : SizeLine) (trailer : List WField) (t : Str)
    (hh : RequestHeading h method target version es) (hclean : h.Clean)
    (hte : (withName "Transfer-Encoding" es).map (fun e => env.te e.value) = [some [.chunked]])
    (hc : ∀ c ∈ chunks, c.Ok) (hl : last.Ok 0) (ht : BlockOk trailer)
    (htclean : ∀ f ∈ trailer, f.Clean) (hent : AreEntries trailer tes)
    (hmax : (chunks.flatMap (·.data)).length ≤ 2 ^ 30)
    (hs : s.rest = h.bytes ++ (chunks.flatMap WChunk.bytes ++ last.bytes ++ blockBytes trailer ++
      [13, 10]) ++ t) (hcs : s.complaints = []) :
    ∃ r s', parseRequest env s = .ok (some r) s' ∧
      r.msg.body = .bytes (chunks.flatMap (·.data)) ∧ r.msg.trailers = tes ∧ r.msg.notes = [] ∧
      r.method = method ∧ r.target = target ∧ r.version = version ∧ r.msg.entries = es ∧
      s'.rest = t ∧ s'.sane = s.sane ∧ s'.complaints = [] := by
  have hw := RequestWire.mk (env := env) (off := s.pos) h method target version es tes _ _ hh hclean
    (Or.inr (BodyWire.chunked chunks last trailer tes hte hc hl ht htclean hent hmax))
  obtain ⟨s', h1, h2, _, h4, h5⟩ := C14_request env s _ _ t hw hs hcs
  exact ⟨_, s', h1, rfl, rfl, rfl, rfl, rfl, rfl, rfl, h2, h4, h5⟩

/-- **C15**, for responses. -/
theorem C15_response (env : FrameEnv) (m : Option Str) (s : SS) (h : WHeading) (version : Str)
    (a b c : Nat) (reason : Str)
    (es tes : List Entry) (chunks : List WChunk) (last : SizeLine) (trailer : List WField) (t : Str)
    (hh : ResponseHeading h version a b c reason es) (hclean : h.Clean)
    (hb : HasBody m (status a b c))
    (hte : (withName "Transfer-Encoding" es).map (fun e => env.te e.value) = [some [.chunked]])
    (hc : ∀ c ∈ chunks, c.Ok) (hl : last.Ok 0) (ht : BlockOk trailer)
    (htclean : ∀ f ∈ trailer, f.Clean) (hent : AreEntries trailer tes)
    (hmax : (chunks.flatMap (·.data)).length ≤ 2 ^ 30)
    (hs : s.rest = h.bytes ++ (chunks.flatMap WChunk.bytes ++ last.bytes ++ blockBytes trailer ++
      [13, 10]) ++ t) (hcs : s.complaints = []) (hg : s.good = true) :
    ∃ r s', parseResponses env m (s.rest.length + 2) s = .ok ([r], false) s' ∧
      r.msg.body = .bytes (chunks.flatMap (·.data)) ∧ r.msg.trailers = tes ∧ r.msg.notes = [] ∧
      r.status = status a b c ∧ r.reason = reason ∧ r.version = version ∧ r.msg.entries = es ∧
      s'.rest = t ∧ s'.sane = s.sane ∧ s'.complaints = [] := by
  have hw := ResponseWire.mk (env := env) (method := m) (off := s.pos) h version a b c reason es tes
    _ _ hh hclean (by have := hb.interim; omega) (fun h1 h2 => hb.connect ⟨h1, h2⟩)
    (Or.inr ⟨hb.interim, hb.s204, hb.s304, hb.head,
      BodyWire.chunked chunks last trailer tes hte hc hl ht htclean hent hmax⟩)
  have hr := responses_wire env m (s.rest.length + 2) s _ _ t
    (ResponsesWire.final _ _ _ hw hb.interim) hs hcs hg (by simp only [List.length_singleton]; omega)
  exact ⟨_, _, hr, rfl, rfl, rfl, rfl, rfl, rfl, rfl, rfl, rfl, by simp [to, hcs]⟩

/-- **C15**: the same for a whole outbound stream: groups of interim and final responses as they
should be (including chunked ones) are yielded first, exactly, and alone if nothing comes after. -/
theorem C15_stream (env : FrameEnv) (gs : List (List FResp)) (bs t : Str) (hne : gs ≠ [])
    (hw : GroupsWire env 0 gs bs) :
    (∃ ys, (runStreams env none (some (bs ++ t))).1 = (gs.map fun g => .exch none g) ++ ys) ∧
    (runStreams env none (some bs)).1 = gs.map fun g => .exch none g := by
  have hbs : bs ≠ [] := by
    cases hw with
    | nil => exact absurd rfl hne
    | cons _ g b gs bs h hgs => have := responses_ne h; simp [this]
  have hlen := groupsWire_len hw
  have hg : ∀ t, (SS.new (bs ++ t)).good = true := by
    intro t
    rw [good_iff]
    exact ⟨rfl, rfl⟩
  have key : ∀ t, _ := fun t => responseLoop_prefix env ((bs ++ t).length + 2) (SS.new (bs ++ t)) gs bs t
    hw rfl rfl rfl (by simp [SS.new, hbs]) (by simp only [List.length_append]; omega)
  constructor
  · obtain ⟨ys, h1, _⟩ := key t
    unfold runStreams parseStreams finishStreams
    simp only [Option.map_some, Option.map_none]
    rw [if_pos (hg t), show (SS.new (bs ++ t)).rest.length + 2 = (bs ++ t).length + 2 from rfl]
    simp only [Option.any_none, Option.isSome_none, boxIf, if_neg (show ¬false = true by simp),
      List.nil_append]
    split
    · exact ⟨ys, h1⟩
    · simp only [h1, List.append_assoc]
      exact ⟨_, rfl⟩
  · obtain ⟨ys, h1, h2⟩ := key []
    obtain ⟨rfl, h3⟩ := h2 rfl
    rw [List.append_nil] at h1 h3
    have hg0 := hg []
    rw [List.append_nil] at hg0
    unfold runStreams parseStreams finishStreams
    simp only [Option.map_some, Option.map_none]
    rw [if_pos hg0, show (SS.new bs).rest.length + 2 = bs.length + 2 from rfl]
    simp only [Option.any_none, Option.isSome_none, boxIf, if_neg (show ¬false = true by simp),
      List.nil_append]
    rw [h3]
    simp [h1]

/-- A chunked message: `Wiki` in two chunks, with an extension and a trailer field. -/
example : ∃ r s', parseRequest toyFrame (SS.new (str ("POST / HTTP/1.1\r\nTransfer-Encoding: chunked\r\n\r\n"
      ++ "01 ;q=\"x\"\r\nW\r\n3\r\niki\r\n000\r\nA: b\r\n\r\nrest"))) = .ok (some r) s' ∧
      r.msg.body = .bytes (str "Wiki") ∧ r.msg.trailers = [⟨str "A", str "b"⟩] ∧ r.msg.notes = [] ∧
      s'.rest = str "rest" := by
  obtain ⟨r, s', h1, h2, h3, h4, _, _, _, _, h5, _⟩ := C15_request toyFrame
    (SS.new (str ("POST / HTTP/1.1\r\nTransfer-Encoding: chunked\r\n\r\n"
      ++ "01 ;q=\"x\"\r\nW\r\n3\r\niki\r\n000\r\nA: b\r\n\r\nrest")))
    ⟨⟨str "POST / HTTP/1.1", true⟩, [field "Transfer-Encoding" "chunked"], true⟩
    (str "POST") (str "/") (str "HTTP/1.1") [⟨str "Transfer-Encoding", str "chunked"⟩]
    [⟨str "A", str "b"⟩]
    [⟨⟨str "01", str " ", some (str "q=\"x\"")⟩, str "W"⟩, ⟨⟨str "3", [], none⟩, str "iki"⟩]
    ⟨str "000", [], none⟩ [field "A" "b"] (str "rest")
    ⟨by decide, by decide, by decide, ⟨49, 49, by decide, by decide, by decide⟩,
      ⟨by decide, by simp, by decide⟩,
      ⟨by
        intro f hf
        rw [List.mem_singleton] at hf
        subst hf
        exact field_ok _ _ (by decide) (by decide) (by decide) (by decide), by simp⟩,
      ⟨⟨rfl, ⟨[32], [], by decide, by decide, by decide, by intro c s h; cases h; decide, by
        intro s c h
        have : c = 100 := by
          have := congrArg List.getLast? h
          simpa [str] using this.symm
        subst this; decide⟩⟩, trivial⟩⟩
    ⟨rfl, by simp [WField.Clean, field], rfl⟩ (by decide +kernel)
    (by
      intro c hc
      simp only [List.mem_cons, List.not_mem_nil, or_false] at hc
      rcases hc with rfl | rfl
      · exact ⟨⟨⟨by decide, by decide, by decide⟩, by decide,
          by intro x hx; cases hx; decide, by decide⟩, by decide⟩
      · exact ⟨⟨⟨by decide, by decide, by decide⟩, by decide,
          (by intro x hx; cases hx), by decide⟩, by decide⟩)
    ⟨⟨by decide, by decide, by decide⟩, by decide, (by intro x hx; cases hx),
      by decide⟩
    ⟨by
      intro f hf
      rw [List.mem_singleton] at hf
      subst hf
      exact field_ok _ _ (by decide) (by decide) (by decide) (by decide), by simp⟩
    (by simp [WField.Clean, field])
    ⟨⟨rfl, ⟨[32], [], by decide, by decide, by decide, by intro c s h; cases h; decide, by
      intro s c h
      cases s with
      | nil => cases h; decide
      | cons _ s => cases s <;> cases h⟩⟩, trivial⟩
    (by decide) (by decide +kernel) rfl
  exact ⟨r, s', h1, h2, h3, h4, h5⟩

/-! ## C16 -/

/-- **C16**: exactly the given exchanges, in order, and nothing else. -/
theorem C16_pipelining (env : FrameEnv) (xs : List (FReq × List FResp)) (bs cs : Str)
    (hne : xs ≠ []) (hd : Dialogue env 0 0 xs bs cs) :
    (runStreams env (some bs) (some cs)).1 = xs.map fun x => .exch (some x.1) x.2 := by
  have hbs : bs ≠ [] ∧ cs ≠ [] := by
    cases hd with
    | nil => exact absurd rfl hne
    | cons _ _ req b resps c rest bs cs hreq hresps hrest =>
      have h1 := requestWire_ne hreq
      have h2 := responses_ne hresps
      simp [h1, h2]
  have h := requestLoop_wire env (bs.length + 2) (SS.new bs) (SS.new cs) xs bs cs hd rfl rfl rfl rfl
    rfl rfl (by simp [SS.new, hbs.1]) (by simp [SS.new, hbs.2])
    (by have := dialogue_len hd; omega)
  unfold runStreams parseStreams
  simp only [Option.map_some]
  rw [show (SS.new bs).rest.length + 2 = bs.length + 2 from rfl, h]
  simp [finishStreams, SS.good, boxIf]

/-- A 204 response. -/
def ex204 : WHeading := ⟨⟨str "HTTP/1.1 204 OK", true⟩, [], true⟩

theorem ex204_ok : ResponseHeading ex204 (str "HTTP/1.1") 50 48 52 (str "OK") [] where
  text := by decide
  version := ⟨49, 49, by decide, by decide, by decide⟩
  status := by decide
  start := ⟨by decide, by simp [ex204], by decide⟩
  fields := ⟨by simp [ex204], by simp [ex204]⟩
  entries := trivial

/-- A 100 response. -/
def ex100 : WHeading := ⟨⟨str "HTTP/1.1 100 Go", true⟩, [], true⟩

theorem ex100_ok : ResponseHeading ex100 (str "HTTP/1.1") 49 48 48 (str "Go") [] where
  text := by decide
  version := ⟨49, 49, by decide, by decide, by decide⟩
  status := by decide
  start := ⟨by decide, by simp [ex100], by decide⟩
  fields := ⟨by simp [ex100], by simp [ex100]⟩
  entries := trivial

/-- One exchange: the POST above, answered with 100, then 204. -/
example : (runStreams toyFrame
    (some (str "POST /a HTTP/1.1\r\nHost: b\r\nContent-Length: 5\r\n\r\na\r\n\nb"))
    (some (str "HTTP/1.1 100 Go\r\n\r\nHTTP/1.1 204 OK\r\n\r\n"))).1 =
    [.exch (some exPostReq)
      [⟨str "HTTP/1.1", 100, str "Go", ⟨0, [], [], .bytes [], [], 19⟩⟩,
        ⟨str "HTTP/1.1", 204, str "OK", ⟨19, [], [], .bytes [], [], 38⟩⟩]] := by
  have h1 := ResponseWire.mk (env := toyFrame) (method := some (str "POST")) (off := 0) ex100
    (str "HTTP/1.1") 49 48 48 (str "Go") [] [] [] [] ex100_ok ⟨rfl, by simp [ex100], rfl⟩ (by decide)
    (by decide) (Or.inl ⟨by decide, rfl, rfl, rfl⟩)
  have h2 := ResponseWire.mk (env := toyFrame) (method := some (str "POST")) (off := 19) ex204
    (str "HTTP/1.1") 50 48 52 (str "OK") [] [] [] [] ex204_ok ⟨rfl, by simp [ex204], rfl⟩ (by decide)
    (by decide) (Or.inl ⟨by decide, rfl, rfl, rfl⟩)
  have hr := ResponsesWire.interim 0 _ _ _ _ h1 (by decide) (ResponsesWire.final _ _ _ h2 (by decide))
  have hd := Dialogue.cons 0 0 _ _ _ _ [] [] [] exPost_wire hr (.nil _ _)
  have := C16_pipelining toyFrame _ _ _ (by simp) hd
  rw [List.append_nil, List.append_nil] at this
  exact this

/-! ## C17 -/

theorem request_body {env : FrameEnv} {d : Str} {req : FReq} {s s' : SS}
    (h : ReqFrom env d req s s') : ∃ s1 hs ns,
      s1.complaints = [] ∧ RequestHeading hs req.method req.target req.version req.msg.entries ∧
      s.rest = hs.bytes ++ s1.rest ∧ s1.pos = s.pos + hs.bytes.length ∧
      req.msg.start = s.pos ∧
      req.msg.stop = s'.pos ∧
      req.msg.notes = lineNotes (hs.faults s.pos) ++ ns ∧
      BodyFacts env req.msg.entries s1 s' ⟨req.msg.body, req.msg.trailers, ns⟩ := by
  have hp := h.parsed
  unfold parseRequest at hp
  cases hh : parseRequestHeading s with
  | exc e s1 => rw [hh] at hp; cases e <;> cases hp
  | ok r s1 =>
    rw [hh] at hp
    simp only at hp
    cases hb : parseRequestBody env r.entries s1 with
    | exc e s2 => rw [hb] at hp; cases hp
    | ok res s2 =>
      rw [hb] at hp
      simp only [Out.ok.injEq, Option.some.injEq] at hp
      obtain ⟨rfl, rfl⟩ := hp
      obtain ⟨hs, h1, h2, h3, h4, h5, h6⟩ := requestHeading_inv hh
      refine ⟨s1, hs, res.notes, h5, h1, h2, h3, h4, rfl, ?_, ?_⟩
      · simp only [h6, h.complaints, List.nil_append]
      · exact requestBody_facts hb h5

theorem response_body {env : FrameEnv} {m : Option Str} {s s' : SS} {r : FResp}
    (h : OneResp env m s r s') (hc : s.complaints = []) : ∃ s1 hs a b c ns,
      s1.complaints = [] ∧ ResponseHeading hs r.version a b c r.reason r.msg.entries ∧
      r.status = status a b c ∧
      s.rest = hs.bytes ++ s1.rest ∧ s1.pos = s.pos + hs.bytes.length ∧
      r.msg.start = s.pos ∧
      r.msg.stop = s'.pos ∧
      r.msg.notes = lineNotes (hs.faults s.pos) ++ ns ∧
      (HasBody m r.status → BodyFacts env r.msg.entries s1 s' ⟨r.msg.body, r.msg.trailers, ns⟩) ∧
      (¬HasBody m r.status → r.msg.body = .bytes [] ∧ r.msg.trailers = [] ∧ s'.rest = s1.rest ∧
        s'.pos = s1.pos ∧ lineFaultsOf ns = [] ∧ ∀ n ∈ ns, n.id = 1011 ∨ n.id = 1012) := by
  obtain ⟨hd, s1, res, h1, h2, rfl⟩ := h
  obtain ⟨hs, a, b, c, g1, g2, g3, g4, g5, g6, g7⟩ := responseHeading_inv h1
  refine ⟨s1, hs, a, b, c, res.notes, g6, g1, g2, g3, g4, g5, rfl, ?_, ?_, ?_⟩
  · simp only [g7, hc, List.nil_append]
  · exact responseBody_facts h2 g6
  · exact nobody_facts h2

/-- What should hold of a body with a declared length. -/
def LengthOk (m : FMsg) (n : Nat) : Prop :=
  (n ≤ 2 ^ 30 ∧ ∃ b, m.body = .bytes b ∧ b.length = n) ∨
  (n ≤ 2 ^ 30 ∧ m.body = .unavailable none ∧ ⟨1004, none⟩ ∈ m.notes) ∨
  (2 ^ 30 < n ∧ m.body = .unavailable none ∧ ⟨1298, none⟩ ∈ m.notes)

theorem lengthOk_of {env : FrameEnv} {m : FMsg} {s s' : SS} {ns l : List FNote}
    (hf : BodyFacts env m.entries s s' ⟨m.body, m.trailers, ns⟩) (hn : m.notes = l ++ ns)
    (hte : withName "Transfer-Encoding" m.entries = []) {e : Entry} {n : Nat}
    (hcl : (withName "Content-Length" m.entries).getLast? = some e) (hd : Decimal e.value n) :
    LengthOk m n := by
  rcases hf.sized hte e n hcl hd with ⟨h1, h2⟩ | ⟨h1, h2, h3, _⟩ | ⟨h1, h2, h3⟩
  · obtain ⟨b, h3, h4, _⟩ := h2
    exact Or.inl ⟨h1, b, h3, h4⟩
  · exact Or.inr (Or.inl ⟨h1, h2, by rw [hn]; exact List.mem_append_right _ (by simp only at h3; simp [h3])⟩)
  · exact Or.inr (Or.inr ⟨h1, h2, by rw [hn]; exact List.mem_append_right _ (by simp only at h3; simp [h3])⟩)

/-- **C17**: a request with Content-Length (and no Transfer-Encoding) has a body of exactly that
length, or its body is unavailable with 1004 or, if the length is over 1 GiB, with 1298. -/
theorem C17_request_length (env : FrameEnv) (inb outb : Option Str) (ys : List Yield)
    (final : Option SS × Option SS) (h : runStreams env inb outb = (ys, .ok final))
    (req : FReq) (rs : List FResp) (hm : .exch (some req) rs ∈ ys)
    (hte : withName "Transfer-Encoding" req.msg.entries = []) (e : Entry) (n : Nat)
    (hcl : (withName "Content-Length" req.msg.entries).getLast? = some e) (hd : Decimal e.value n) :
    LengthOk req.msg n := by
  obtain ⟨pre, post, hy⟩ := List.append_of_mem hm
  obtain ⟨s, s', hr, _⟩ := reqTrace_at (parseStreams_origin h).1 hy
  obtain ⟨s1, hs, ns, _, _, _, _, _, _, hn, hf⟩ := request_body hr
  exact lengthOk_of hf hn hte hcl hd

theorem resp_from {env : FrameEnv} {inb outb : Option Str} {ys : List Yield}
    {final : Option SS × Option SS} (h : runStreams env inb outb = (ys, .ok final))
    {req : Option FReq} {rs : List FResp} (hm : .exch req rs ∈ ys) {r : FResp} (hr : r ∈ rs) :
    ∃ s s', RespFrom env (outb.getD []) (req.map (·.method)) r s s' := by
  obtain ⟨pre, post, hy⟩ := List.append_of_mem hm
  have ht := respTrace_at (parseStreams_origin h).2 hy
  obtain ⟨rs1, rs2, hrs⟩ := List.append_of_mem hr
  obtain ⟨s, s', h1, _⟩ := ht rs1 r rs2 hrs
  exact ⟨s, s', h1⟩

/-- **C17**: the same for a response that is expected to have a body. -/
theorem C17_response_length (env : FrameEnv) (inb outb : Option Str) (ys : List Yield)
    (final : Option SS × Option SS) (h : runStreams env inb outb = (ys, .ok final))
    (req : Option FReq) (rs : List FResp) (hm : .exch req rs ∈ ys) (r : FResp) (hr : r ∈ rs)
    (hb : HasBody (req.map (·.method)) r.status)
    (hte : withName "Transfer-Encoding" r.msg.entries = []) (e : Entry) (n : Nat)
    (hcl : (withName "Content-Length" r.msg.entries).getLast? = some e) (hd : Decimal e.value n) :
    LengthOk r.msg n := by
  obtain ⟨s, s', hf⟩ := resp_from h hm hr
  obtain ⟨s1, hs, a, b, c, ns, _, _, _, _, _, _, _, hn, hx, _⟩ := response_body hf.parsed hf.complaints
  exact lengthOk_of (hx hb) hn hte hcl hd

/-- **C17**: a response that is not expected to have a body has none, whatever its fields. -/
theorem C17_response_none (env : FrameEnv) (inb outb : Option Str) (ys : List Yield)
    (final : Option SS × Option SS) (h : runStreams env inb outb = (ys, .ok final))
    (req : Option FReq) (rs : List FResp) (hm : .exch req rs ∈ ys) (r : FResp) (hr : r ∈ rs)
    (hb : ¬HasBody (req.map (·.method)) r.status) : r.msg.body = .bytes [] ∧ r.msg.trailers = [] := by
  obtain ⟨s, s', hf⟩ := resp_from h hm hr
  obtain ⟨s1, hs, a, b, c, ns, _, _, _, _, _, _, _, _, _, hx⟩ := response_body hf.parsed hf.complaints
  exact ⟨(hx hb).1, (hx hb).2.1⟩

/-- **C17**: a body sent with chunked coding (alone) is not longer than 1 GiB. -/
theorem C17_chunked (env : FrameEnv) (inb outb : Option Str) (ys : List Yield)
    (final : Option SS × Option SS) (h : runStreams env inb outb = (ys, .ok final))
    (req : Option FReq) (rs : List FResp) (hm : .exch req rs ∈ ys) :
    (∀ q, req = some q →
      (withName "Transfer-Encoding" q.msg.entries).map (fun e => env.te e.value) = [some [.chunked]] →
      ∀ b, q.msg.body = .bytes b → b.length ≤ 2 ^ 30) ∧
    (∀ r ∈ rs,
      (withName "Transfer-Encoding" r.msg.entries).map (fun e => env.te e.value) = [some [.chunked]] →
      ∀ b, r.msg.body = .bytes b → b.length ≤ 2 ^ 30) := by
  constructor
  · rintro q rfl hte b hb
    obtain ⟨pre, post, hy⟩ := List.append_of_mem hm
    obtain ⟨s, s', hr, _⟩ := reqTrace_at (parseStreams_origin h).1 hy
    obtain ⟨s1, hs, ns, _, _, _, _, _, _, hn, hf⟩ := request_body hr
    exact hf.chunked hte b hb
  · intro r hr hte b hb
    obtain ⟨s, s', hf⟩ := resp_from h hm hr
    obtain ⟨s1, hs, x, y, z, ns, _, _, _, _, _, _, _, hn, h1, h2⟩ :=
      response_body hf.parsed hf.complaints
    by_cases hbody : HasBody (req.map (·.method)) r.status
    · exact (h1 hbody).chunked hte b hb
    · rw [(h2 hbody).1] at hb
      cases hb
      simp

theorem not_heading {hs : WHeading} {off : Nat} {n : FNote} (hid : n.id = 1298)
    (hl : n ∈ lineNotes (hs.faults off)) : False := by
  have h1 : ∀ off l, ∀ c ∈ lineFaults off l, c.1 ≠ 1298 := by
    intro off l c hc
    unfold lineFaults at hc
    split at hc
    · simp at hc
    · rw [List.mem_singleton] at hc; subst hc; simp
  have h2 : ∀ fs off, ∀ c ∈ foldFaults off fs, c.1 ≠ 1298 := by
    intro fs
    induction fs with
    | nil => simp [foldFaults]
    | cons f fs ih =>
      intro off c hc
      simp only [foldFaults, List.mem_append, List.mem_singleton] at hc
      rcases hc with (hc | hc) | hc
      · subst hc; simp
      · exact h1 _ _ c hc
      · exact ih _ c hc
  have h3 : ∀ fs off, ∀ c ∈ blockFaults off fs, c.1 ≠ 1298 := by
    intro fs
    induction fs with
    | nil => simp [blockFaults]
    | cons f fs ih =>
      intro off c hc
      simp only [blockFaults, List.mem_append] at hc
      rcases hc with (hc | hc) | hc
      · exact h1 _ _ c hc
      · exact h2 _ _ c hc
      · exact ih _ c hc
  rw [lineNotes, List.mem_map] at hl
  obtain ⟨c, hc, rfl⟩ := hl
  simp only [WHeading.faults, List.mem_append] at hc
  rcases hc with (hc | hc) | hc
  · exact h1 _ _ c hc hid
  · exact h3 _ _ c hc hid
  · exact h1 _ _ c hc hid

/-- **C17**: if 1298 is reported on a request, its body is unavailable and no request comes after
it. -/
theorem C17_request_stop (env : FrameEnv) (inb outb : Option Str) (ys : List Yield)
    (final : Option SS × Option SS) (h : runStreams env inb outb = (ys, .ok final))
    (pre post : List Yield) (req : FReq) (rs : List FResp)
    (hy : ys = pre ++ .exch (some req) rs :: post) (n : FNote) (hn : n ∈ req.msg.notes)
    (hid : n.id = 1298) : (∃ i, req.msg.body = .unavailable i) ∧ requests post = [] := by
  obtain ⟨s, s', hr, hend⟩ := reqTrace_at (parseStreams_origin h).1 hy
  obtain ⟨s1, hs, ns, _, _, _, _, _, _, hnotes, hf⟩ := request_body hr
  rw [hnotes, List.mem_append] at hn
  rcases hn with hn | hn
  · exact (not_heading hid hn).elim
  · obtain ⟨h1, h2⟩ := hf.long n hn hid
    refine ⟨h1, ?_⟩
    rcases hend with hend | hend
    · rw [h2] at hend; cases hend
    · exact hend

/-- **C17**: if 1298 is reported on a response, its body is unavailable and no response comes after
it, in the same exchange or later. -/
theorem C17_response_stop (env : FrameEnv) (inb outb : Option Str) (ys : List Yield)
    (final : Option SS × Option SS) (h : runStreams env inb outb = (ys, .ok final))
    (pre post : List Yield) (req : Option FReq) (rs1 rs2 : List FResp) (r : FResp)
    (hy : ys = pre ++ .exch req (rs1 ++ r :: rs2) :: post) (n : FNote) (hn : n ∈ r.msg.notes)
    (hid : n.id = 1298) : (∃ i, r.msg.body = .unavailable i) ∧ rs2 = [] ∧ responses post = [] := by
  obtain ⟨s, s', hr, hend⟩ := respTrace_at (parseStreams_origin h).2 hy rs1 r rs2 rfl
  obtain ⟨s1, hs, x, y, z, ns, _, _, _, _, _, _, _, hnotes, h1, h2⟩ :=
    response_body hr.parsed hr.complaints
  rw [hnotes, List.mem_append] at hn
  rcases hn with hn | hn
  · exact (not_heading hid hn).elim
  · by_cases hbody : HasBody (req.map (·.method)) r.status
    · obtain ⟨h3, h4⟩ := (h1 hbody).long n hn hid
      refine ⟨h3, ?_⟩
      rcases hend with hend | hend
      · rw [h4] at hend; cases hend
      · exact hend
    · have := (h2 hbody).2.2.2.2.2 n hn
      omega

/-- **C17**: chunks that add up to more than 1 GiB are reported: 1298, the body is unavailable, the
stream is not used as HTTP any more. -/
theorem C17_oversized (env : FrameEnv) (s : SS) (h : WHeading) (method target version : Str)
    (es : List Entry) (chunks : List WChunk) (size : SizeLine) (n : Nat) (t : Str)
    (hh : RequestHeading h method target version es)
    (hte : (withName "Transfer-Encoding" es).map (fun e => env.te e.value) = [some [.chunked]])
    (hc : ∀ c ∈ chunks, c.Ok) (hl : size.Ok n)
    (hd : (chunks.flatMap (·.data)).length ≤ 2 ^ 30)
    (hn : 2 ^ 30 < (chunks.flatMap (·.data)).length + n)
    (hs : s.rest = h.bytes ++ (chunks.flatMap WChunk.bytes ++ size.bytes ++ t)) :
    ∃ r s', parseRequest env s = .ok (some r) s' ∧ r.msg.body = .unavailable none ∧
      ⟨1298, none⟩ ∈ r.msg.notes ∧ s'.sane = false ∧ s'.good = false := by
  have h1 := requestHeading_wire s h method target version es _ hh hs
  obtain ⟨s', h2, h3⟩ := parseChunked_big _ chunks size n t hc hl
    (show ({ to s h.bytes.length (chunks.flatMap WChunk.bytes ++ size.bytes ++ t) [] with
      complaints := [] } : SS).rest = _ from rfl) hd hn
  unfold parseRequest parseRequestBody
  rw [h1]
  simp only [te_single hte, List.reverse_cons, List.reverse_nil, List.nil_append, if_true]
  rw [h2]
  simp only [decodeCodings]
  exact ⟨_, s', rfl, rfl, by simp, h3, by simp [SS.good, h3]⟩

/-- A request with a declared length of 2 GiB, and one that is shorter than declared. -/
example : ((requests (runStreams toyFrame
      (some (str "PUT / HTTP/1.1\r\ncontent-length: 2147483648\r\n\r\nGET / HTTP/1.1\r\n\r\n")) none).1).map
        fun r => (r.msg.body, r.msg.notes)) = [(.unavailable none, [⟨1298, none⟩])] ∧
    ((requests (runStreams toyFrame
      (some (str "PUT / HTTP/1.1\r\nContent-Length: 7\r\n\r\nabc")) none).1).map
        fun r => (r.msg.body, r.msg.notes)) = [(.unavailable none, [⟨1004, none⟩])] := by
  decide +kernel

/-- A chunk of 1 GiB after a chunk of one byte. -/
example : ((requests (runStreams toyFrame
      (some (str "PUT / HTTP/1.1\r\nTransfer-Encoding: chunked\r\n\r\n1\r\na\r\n40000000\r\n")) none).1).map
        fun r => (r.msg.body, r.msg.notes)) = [(.unavailable none, [⟨1298, none⟩])] := by
  decide +kernel

/-! ## C21 -/

/-- **C21**: a header block is parsed into the entries of its fields, in order, and what is wrong
with its lines (1016 for each continuation line, 1224) is recorded; the stream is after the block. -/
theorem C21_block (s : SS) (fs : List WField) (es : List Entry) (t : Str) (hf : BlockOk fs)
    (he : AreEntries fs es) (hs : s.rest = blockBytes fs ++ t)
    (ht : t.head? = some 13 ∨ t.head? = some 10) :
    ∃ s', parseHeaderFields s = .ok es s' ∧ s'.rest = t ∧
      s'.complaints = s.complaints ++ blockFaults s.pos fs :=
  ⟨_, parseHeaderFields_block s fs es t hf he hs ht, rfl, rfl⟩

/-- **C21**: nothing else is a header block. -/
theorem C21_block_only (s s' : SS) (es : List Entry) (h : parseHeaderFields s = .ok es s') :
    ∃ fs, BlockOk fs ∧ AreEntries fs es ∧ s.rest = blockBytes fs ++ s'.rest ∧
      s'.complaints = s.complaints ++ blockFaults s.pos fs := by
  obtain ⟨fs, h1, h2, h3, _, h5, _⟩ := block_of_headerLoop _ h
  exact ⟨fs, h1, h2, h3, h5⟩

/-- **C21**: the heading of a request is accepted exactly if it is a request line, a header block
and an empty line; the method, target, version and entries are then as they should be. -/
theorem C21_request_heading (s : SS) (method target version : Str) (es : List Entry) :
    (∃ r s', parseRequestHeading s = .ok r s' ∧ r.method = method ∧ r.target = target ∧
      r.version = version ∧ r.entries = es) ↔
    ∃ h t, RequestHeading h method target version es ∧ s.rest = h.bytes ++ t := by
  constructor
  · rintro ⟨r, s', h, rfl, rfl, rfl, rfl⟩
    obtain ⟨hd, h1, h2, _⟩ := requestHeading_inv h
    exact ⟨hd, _, h1, h2⟩
  · rintro ⟨h, t, hh, hs⟩
    exact ⟨_, _, requestHeading_wire s h method target version es t hh hs, rfl, rfl, rfl, rfl⟩

/-- **C21**: the same for a response. -/
theorem C21_response_heading (s : SS) (version : Str) (st : Nat) (reason : Str) (es : List Entry) :
    (∃ r s', parseResponseHeading s = .ok r s' ∧ r.version = version ∧ r.status = st ∧
      r.reason = reason ∧ r.entries = es) ↔
    ∃ h a b c t, ResponseHeading h version a b c reason es ∧ st = status a b c ∧
      s.rest = h.bytes ++ t := by
  constructor
  · rintro ⟨r, s', h, rfl, rfl, rfl, rfl⟩
    obtain ⟨hd, a, b, c, h1, h2, h3, _⟩ := responseHeading_inv h
    exact ⟨hd, a, b, c, _, h1, h2, h3⟩
  · rintro ⟨h, a, b, c, t, hh, rfl, hs⟩
    exact ⟨_, _, responseHeading_wire s h version a b c reason es t hh hs, rfl, rfl, rfl, rfl⟩

/-- **C21**: a line without a colon makes the heading malformed: a parse error there, and the stream
is not sane any more. -/
theorem C21_no_colon (s : SS) (fs : List WField) (l : WLine) (t : Str) (hf : BlockOk fs) (hl : l.Ok)
    (hcol : 58 ∉ l.text) (hne : l.text ≠ []) (h13 : ∀ u, l.text ≠ 13 :: u)
    (hbl : fs ≠ [] → ∀ c u, l.text = c :: u → ¬Blank c)
    (hs : s.rest = blockBytes fs ++ l.bytes ++ t) :
    ∃ s', parseHeaderFields s = .exc (.parse (s.pos + (blockBytes fs).length)) s' ∧
      s'.sane = false :=
  headerLoop_bad _ s fs l t hf hl hcol hne h13 hbl hs
    (by rw [hs]; simp only [List.length_append]; omega)

/-- Two fields, the second one with two continuation lines, one of them without CR. -/
example : parseHeaderFields (SS.new (str "A:b\r\n C : d \r\n\t e\n  \r\n\r\n")) =
    .ok [⟨str "A", str "b C : d  e"⟩] ⟨str "\r\n", 22, false, true,
      [(1016, 5), (1016, 14), (1224, 14), (1016, 18)]⟩ := by
  rfl

/-- A line without a colon. -/
example : ∃ s', parseHeaderFields (SS.new (str "A:b\r\nC\r\n\r\n")) = .exc (.parse 5) s' ∧
    s'.sane = false :=
  C21_no_colon _ [⟨str "A", str "b", true, []⟩] ⟨str "C", true⟩ (str "\r\n")
    ⟨by
      intro f hf
      rw [List.mem_singleton] at hf
      subst hf
      exact ⟨⟨by decide, by simp [WField.first], by decide⟩, by decide,
        (by intro s h; cases h), by simp⟩, by simp⟩
    ⟨by decide, by simp, by decide⟩ (by decide) (by decide) (by intro u h; cases h)
    (by intro _ c u h; cases h; decide) rfl

/-! ## C22 -/

/-- What the 1016 and 1224 notices of a message on the data `d` should be: exactly those for the
lines of its heading, followed, if `chunked` (it is sent with chunked framing), by those for the
lines of that framing, up to the end of the message; unless the framing is malformed or too large,
and then there are only those for the heading. -/
def LinesOk (d : Str) (m : FMsg) (chunked : Prop) (heading : WHeading → Prop) : Prop :=
  ∃ h, heading h ∧
    ((¬chunked ∧ (∃ t, d.drop m.start = h.bytes ++ t) ∧
        lineFaultsOf m.notes = h.faults m.start) ∨
      (chunked ∧ m.body = .unavailable none ∧ (⟨1005, none⟩ ∈ m.notes ∨ ⟨1298, none⟩ ∈ m.notes) ∧
        (∃ t, d.drop m.start = h.bytes ++ t) ∧ lineFaultsOf m.notes = h.faults m.start) ∨
      (chunked ∧ ∃ (g : WChunked) (data : Str), g.Holds data m.trailers ∧
        d.drop m.start = h.bytes ++ g.bytes ++ d.drop m.stop ∧
        m.stop = m.start + (h.bytes ++ g.bytes).length ∧
        lineFaultsOf m.notes = h.faults m.start ++ g.faults (m.start + h.bytes.length)))

theorem linesOk_of {env : FrameEnv} {d : Str} {m : FMsg} {s s1 s' : SS} {hs : WHeading}
    {ns : List FNote} {heading : WHeading → Prop} (hon : On d s) (hon' : On d s') (hh : heading hs)
    (h1 : s.rest = hs.bytes ++ s1.rest) (h2 : s1.pos = s.pos + hs.bytes.length)
    (h3 : m.start = s.pos) (h4 : m.stop = s'.pos) (h5 : m.notes = lineNotes (hs.faults s.pos) ++ ns)
    (hf : BodyFacts env m.entries s1 s' ⟨m.body, m.trailers, ns⟩) :
    LinesOk d m ((codings env m.entries).getLast? = some .chunked) heading := by
  have hd : d.drop m.start = hs.bytes ++ s1.rest := by rw [h3, ← h1]; exact hon.symm
  have hn : lineFaultsOf m.notes = hs.faults m.start ++ lineFaultsOf ns := by
    rw [h5, lineFaultsOf_append, lineFaultsOf_lineNotes, h3]
  refine ⟨hs, hh, ?_⟩
  by_cases hc : (codings env m.entries).getLast? = some .chunked
  · right
    rcases hf.lines (by rw [codings_eq]; exact hc) with ⟨a1, a2, a3⟩ | ⟨g, data, a1, a2, a3, a4⟩
    · left
      refine ⟨hc, a1, ?_, ⟨_, hd⟩, by rw [hn]; simp only at a2; rw [a2, List.append_nil]⟩
      rw [h5]
      rcases a3 with a3 | a3
      · exact Or.inl (List.mem_append_right _ a3)
      · exact Or.inr (List.mem_append_right _ a3)
    · right
      refine ⟨hc, g, data, a1, ?_, ?_, ?_⟩
      · rw [hd, a2, h4, List.append_assoc, ← hon']
      · rw [h4, a3, h2, h3, List.length_append]; omega
      · rw [hn, h3, ← h2, ← a4]
  · left
    refine ⟨hc, ⟨_, hd⟩, ?_⟩
    have := hf.plainLines (by rw [codings_eq]; exact hc)
    simp only at this
    rw [hn, this, List.append_nil]

/-- A chunk-size line that says 16, though not as it should. -/
example : SaysSize (str "+0x1_0\t;a=b") 16 :=
  ⟨[], str "+", str "0x", str "1_0", [9], str ";a=b", by decide +kernel, by simp, by simp [Pad], by decide +kernel,
    by decide +kernel, ⟨by unfold Hexadecimal; decide +kernel, by decide +kernel, by decide +kernel, by
      intro a b h
      match a, h with
      | [_], h => simp [str] at h
      | [_, _], h => simp [str] at h
      | _ :: _ :: _ :: a, h => simp [str] at h⟩, Or.inr ⟨str "a=b", rfl⟩⟩

/-- **C22**: the line notices of a request are exactly those for the lines of its own heading and
chunked framing. -/
theorem C22_request (env : FrameEnv) (inb outb : Option Str) (ys : List Yield)
    (final : Option SS × Option SS) (h : runStreams env inb outb = (ys, .ok final))
    (req : FReq) (rs : List FResp) (hm : .exch (some req) rs ∈ ys) :
    LinesOk (inb.getD []) req.msg ((codings env req.msg.entries).getLast? = some .chunked)
      (RequestHeading · req.method req.target req.version req.msg.entries) := by
  obtain ⟨pre, post, hy⟩ := List.append_of_mem hm
  obtain ⟨s, s', hr, _⟩ := reqTrace_at (parseStreams_origin h).1 hy
  obtain ⟨s1, hs, ns, _, h1, h2, h3, h4, h5, hn, hf⟩ := request_body hr
  have hst : Step s s' := by
    have hp := hr.parsed
    unfold parseRequest at hp
    have q1 := reqHeading_step s
    cases hh : parseRequestHeading s with
    | exc e s1 => rw [hh] at hp; cases e <;> cases hp
    | ok r s1 =>
      rw [hh] at hp q1
      simp only at hp
      cases hb : parseRequestBody env r.entries s1 with
      | exc e s2 => rw [hb] at hp; cases hp
      | ok res s2 =>
        rw [hb] at hp
        simp only [Out.ok.injEq, Option.some.injEq] at hp
        obtain ⟨_, rfl⟩ := hp
        exact Step.trans q1 (reqBody_ok hb).step
  exact linesOk_of hr.on (hr.on.step hst) h1 h2 h3 h4 h5 hn hf

/-- **C22**: the line notices of a response are exactly those for the lines of its own heading and,
if it is expected to have a body, chunked framing. -/
theorem C22_response (env : FrameEnv) (inb outb : Option Str) (ys : List Yield)
    (final : Option SS × Option SS) (h : runStreams env inb outb = (ys, .ok final))
    (req : Option FReq) (rs : List FResp) (hm : .exch req rs ∈ ys) (r : FResp) (hr : r ∈ rs) :
    LinesOk (outb.getD []) r.msg (HasBody (req.map (·.method)) r.status ∧
        (codings env r.msg.entries).getLast? = some .chunked)
      (fun h => ∃ a b c, ResponseHeading h r.version a b c r.reason r.msg.entries ∧
        r.status = status a b c) := by
  obtain ⟨s, s', hfrom⟩ := resp_from h hm hr
  obtain ⟨s1, hs, a, b, c, ns, _, h1, h2, h3, h4, h5, h6, hn, hb, hnb⟩ :=
    response_body hfrom.parsed hfrom.complaints
  have hst : Step s s' := by
    obtain ⟨hd, t1, res, g1, g2, _⟩ := hfrom.parsed
    have q1 := respHeading_step s
    rw [g1] at q1
    exact Step.trans q1 (respBody_ok g2).step
  by_cases hbody : HasBody (req.map (·.method)) r.status
  · have := linesOk_of (heading := fun h => ∃ a b c,
      ResponseHeading h r.version a b c r.reason r.msg.entries ∧ r.status = status a b c) hfrom.on
      (hfrom.on.step hst) ⟨a, b, c, h1, h2⟩ h3 h4 h5 h6 hn (hb hbody)
    simpa only [hbody, true_and] using this
  · obtain ⟨_, _, _, _, g, _⟩ := hnb hbody
    refine ⟨hs, ⟨a, b, c, h1, h2⟩, Or.inl ⟨fun h => hbody h.1, ⟨s1.rest, ?_⟩, ?_⟩⟩
    · rw [h5, ← h3]; exact hfrom.on.symm
    · rw [hn, lineFaultsOf_append, lineFaultsOf_lineNotes, g, List.append_nil, h5]

/-- A request with bad lines in the heading and in the chunked framing, but not in the data, and
another one. -/
example : ((requests (runStreams toyFrame
      (some (str ("PUT / HTTP/1.1\nA: b\r\n c\r\nTransfer-Encoding: chunked\r\n\r\n3\n" ++
        "a\nb\r\n0\r\n\nGET / HTTP/1.1\r\n\n"))) none).1).map fun r => lineFaultsOf r.msg.notes) =
    [[(1224, 0), (1016, 21), (1224, 55), (1224, 65)], [(1224, 82)]] := by
  decide +kernel

end Httpolice.Props
