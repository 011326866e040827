import Verif.Lemmas.Analysis
import Verif.Props.Catalogue
import Verif.Props.Framing
import Verif.Props.Notices

/-!
# C93: what is said about captured streams
-/

namespace Httpolice.Props

open Httpolice.Model Httpolice.Spec Httpolice.Lemmas Httpolice.Lemmas.Check

/-! ## Transfer codings -/

theorem tchar_ascii {c : Nat} (h : IsTchar c) : c < 128 := by
  unfold IsTchar at h
  rw [tchars] at h
  simp only [List.mem_cons, List.not_mem_nil, or_false] at h
  omega

theorem token_ascii {w : Str} (h : IsToken w) : ∀ c ∈ w, c < 128 := fun c hc => tchar_ascii (h.2 c hc)

theorem codingOf_iff {lower : Str → Str} (hl : LowersAscii lower) {w : Str} (hw : IsToken w) (k : Coding) :
    CodingIs w k ↔ k = codingOf lower w := by
  have hlit : ∀ s : String, (str s).all (fun c => decide (c < 128)) = true → (lower w = lower (str s) ↔ SameWord w (str s)) := by
    intro s hs
    rw [hl w (token_ascii hw), hl (str s) (by simpa using hs)]
    exact lower_iff
  have h1 := hlit "chunked" (by decide +kernel)
  have h2 := hlit "gzip" (by decide +kernel)
  have h3 := hlit "x-gzip" (by decide +kernel)
  have h4 := hlit "deflate" (by decide +kernel)
  have apart : ∀ a b : String, asciiLower (str a) ≠ asciiLower (str b) → SameWord w (str a) → ¬SameWord w (str b) := by
    intro a b hab ha hb
    exact hab ((lower_iff.2 ha).symm.trans (lower_iff.2 hb))
  have a12 := apart "chunked" "gzip" (by decide +kernel)
  have a13 := apart "chunked" "x-gzip" (by decide +kernel)
  have a14 := apart "chunked" "deflate" (by decide +kernel)
  have a24 := apart "gzip" "deflate" (by decide +kernel)
  have a34 := apart "x-gzip" "deflate" (by decide +kernel)
  unfold codingOf
  simp only [h1, h2, h3, h4]
  by_cases b1 : SameWord w (str "chunked")
  · rw [if_pos b1]
    cases k <;> simp [CodingIs, b1, a12 b1, a13 b1, a14 b1]
  · rw [if_neg b1]
    by_cases b2 : SameWord w (str "gzip") ∨ SameWord w (str "x-gzip")
    · rw [if_pos b2]
      have b4 : ¬SameWord w (str "deflate") := fun h => b2.elim (fun h' => a24 h' h) fun h' => a34 h' h
      cases k <;> simp [CodingIs, b1, b2, b4]
    · rw [if_neg b2]
      have b2' := not_or.1 b2
      by_cases b4 : SameWord w (str "deflate")
      · rw [if_pos b4]
        cases k <;> simp [CodingIs, b1, b2'.1, b2'.2, b4]
      · rw [if_neg b4]
        cases k <;> simp [CodingIs, b1, b2'.1, b2'.2, b4]

theorem list1_elems {α : Type} {P : α → Prop} {l : List1Syn α} (h : l.Ok P) : ∀ x ∈ l.elems, P x := by
  intro x hx
  simp only [List1Syn.elems, List.mem_cons, List.mem_filterMap] at hx
  rcases hx with rfl | ⟨y, hy, hx⟩
  · exact h.2.1
  · obtain ⟨p, hp, rfl⟩ := Option.map_eq_some_iff.1 hx
    have := (h.2.2 y hy).2
    rw [hp] at this
    exact this.2

theorem pairwise2_codings {lower : Str → Str} (hl : LowersAscii lower) {xs : List CodingSyn} (hx : ∀ x ∈ xs, IsToken x.name)
    (cs : List Coding) : Pairwise2 (fun c k => CodingIs (CodingSyn.name c) k) xs cs ↔ cs = (xs.map CodingSyn.name).map (codingOf lower) := by
  induction xs generalizing cs with
  | nil =>
    constructor
    · intro h; cases h; rfl
    · rintro rfl; exact .nil
  | cons x xs ih =>
    have ih := ih fun y hy => hx y (List.mem_cons_of_mem _ hy)
    constructor
    · intro h
      cases h with
      | cons h1 h2 => rw [List.map_cons, List.map_cons, ← (codingOf_iff hl (hx x (by simp)) _).1 h1, ← (ih _).1 h2]
    · rintro rfl
      exact .cons ((codingOf_iff hl (hx x (by simp)) _).2 rfl) ((ih _).2 rfl)

section
variable {W : World} (hW : Ready W) {lower : Str → Str} (hl : LowersAscii lower) {L : Libs}
include hW hl

omit hl in
/-- What framing reads in a value of Transfer-Encoding. -/
theorem frame_te (v : Str) :
    (∀ x, CodingList v x → (W.frame lower L).te v = some ((x.elems.map CodingSyn.name).map (codingOf lower))) ∧
    ((¬∃ x, CodingList v x) → (W.frame lower L).te v = none) := by
  obtain ⟨h1, h2, _⟩ := transferEncoding_is hW ⟨str "Transfer-Encoding", v⟩
  constructor
  · rintro x ⟨hx, hv⟩
    have := (h1 (x.elems.map CodingSyn.name)).2 ⟨x, hx, hv, pairwise2_being.2 rfl⟩
    dsimp only at this
    simp only [World.frame]
    rw [this]
  · intro hn
    have := h2 hn
    dsimp only at this
    simp only [World.frame]
    rw [this]

/-- **C93**: the transfer codings that framing goes by are exactly those listed in the Transfer-Encoding headers, in whatever case, in
their order; a header that cannot be read stands for one that is not known. -/
theorem C93_codings (es : List Entry) (cs : List Coding) : codings (W.frame lower L) es = cs ↔ CodedWith es cs := by
  unfold codings CodedWith
  have one : ∀ (e : Entry) (ks : List Coding), HeaderCodings e ks ↔ ks = ((W.frame lower L).te e.value).getD [.unavailable] := by
    intro e ks
    obtain ⟨h1, h2⟩ := frame_te hW (lower := lower) (L := L) e.value
    by_cases hx : ∃ x, CodingList e.value x
    · obtain ⟨x, hx'⟩ := hx
      rw [h1 x hx']
      constructor
      · rintro (⟨y, hy, hp⟩ | ⟨hn, _⟩)
        · rw [(pairwise2_codings hl (fun c hc => (list1_elems hy.1 c hc).1) ks).1 hp]
          have := (h1 x hx').symm.trans (h1 y hy)
          rw [Option.some.inj this]; rfl
        · exact absurd ⟨x, hx'⟩ hn
      · intro h
        exact .inl ⟨x, hx', (pairwise2_codings hl (fun c hc => (list1_elems hx'.1 c hc).1) ks).2 h⟩
    · rw [h2 hx]
      constructor
      · rintro (⟨y, hy, _⟩ | ⟨_, h⟩)
        · exact absurd ⟨y, hy⟩ hx
        · exact h
      · intro h
        exact .inr ⟨hx, h⟩
  generalize withName "Transfer-Encoding" es = l
  constructor
  · rintro rfl
    refine ⟨l.map fun e => ((W.frame lower L).te e.value).getD [.unavailable], ?_, by rw [List.flatMap_def]⟩
    induction l with
    | nil => exact .nil
    | cons e l ih => exact .cons ((one e _).2 rfl) ih
  · rintro ⟨parts, hp, rfl⟩
    induction hp with
    | nil => rfl
    | cons h _ ih => rw [List.flatMap_cons, ih, (one _ _).1 h]; rfl

/-- **C93**: a header that lists `chunked` alone is what C14, C15 and C16 suppose of a message in chunks. -/
theorem C93_chunked {es : List Entry} {e : Entry} {x : List1Syn CodingSyn} {c : CodingSyn}
    (he : withName "Transfer-Encoding" es = [e]) (hx : CodingList e.value x) (hc : x.elems = [c])
    (hn : SameWord c.name (str "chunked")) :
    (withName "Transfer-Encoding" es).map (fun e => (W.frame lower L).te e.value) = [some [.chunked]] := by
  have ht : IsToken c.name := (list1_elems hx.1 c (by rw [hc]; simp)).1
  rw [he, List.map_singleton, (frame_te hW e.value).1 x hx, hc]
  have := (codingOf_iff hl ht .chunked).1 hn
  simp [← this]

omit hW hl in
theorem frame_decodes : Decodes (W.frame lower L) L.codecs := ⟨rfl, rfl⟩

variable {inb outb : Option Str} {ys : List Yield} {final : Option SS × Option SS}
  (hrun : runStreams (W.frame lower L) inb outb = (ys, .ok final))
include hrun

/-- **C93**, for requests: whatever comes on the streams, the body of a request with transfer codings is what its chunks hold
with the other codings taken off; 1001 is reported instead if the last one is not `chunked`. -/
theorem C93_request {req : FReq} {rs : List FResp} (hm : .exch (some req) rs ∈ ys) {cs : List Coding} {c : Coding}
    (hc : CodedWith req.msg.entries (cs ++ [c])) :
    ∃ (h : WHeading) (sent : Str), RequestHeading h req.method req.target req.version req.msg.entries ∧
      (inb.getD []).drop req.msg.start = h.bytes ++ sent ∧
      ((c = .chunked ∧ InChunks L.codecs cs sent req.msg ∧ ⟨1001, none⟩ ∉ req.msg.notes) ∨
       (c ≠ .chunked ∧ req.msg.body = .unavailable none ∧ req.msg.trailers = [] ∧ ⟨1001, none⟩ ∈ req.msg.notes)) := by
  obtain ⟨pre, post, hy⟩ := List.append_of_mem hm
  obtain ⟨s, s', hr, _⟩ := reqTrace_at (parseStreams_origin hrun).1 hy
  have hte := (C93_codings hW hl (L := L) _ _).2 hc
  have hp := hr.parsed
  unfold parseRequest at hp
  cases hh : parseRequestHeading s with
  | exc e s1 => rw [hh] at hp; cases e <;> cases hp
  | ok r s1 =>
    rw [hh] at hp
    simp only at hp
    cases hb : parseRequestBody (W.frame lower L) r.entries s1 with
    | exc e s2 => rw [hb] at hp; cases hp
    | ok res s2 =>
      rw [hb] at hp
      simp only [Out.ok.injEq, Option.some.injEq] at hp
      obtain ⟨rfl, rfl⟩ := hp
      obtain ⟨hs, h1, h2, h3, h4, h5, h6⟩ := requestHeading_inv hh
      refine ⟨hs, s1.rest, h1, ?_, ?_⟩
      · simp only [h4]
        rw [← h2]
        exact hr.on.symm
      · have hn : r.notes = lineNotes (hs.faults s.pos) := by rw [h6, hr.complaints, List.nil_append]
        have hno : ∀ k, (⟨k, none⟩ : FNote) ∉ r.notes := by
          intro k hk
          rw [hn] at hk
          simp [lineNotes] at hk
        have hrep : codingReports (r.notes ++ res.notes) = codingReports res.notes := by
          rw [reports_append, hn, reports_lines, List.nil_append]
        have hmem : ∀ k, (⟨k, none⟩ : FNote) ∈ r.notes ++ res.notes ↔ ⟨k, none⟩ ∈ res.notes := by
          intro k
          simp [hno k]
        rcases request_coded (frame_decodes (W := W) (lower := lower) (L := L)) hb h5 hte with ⟨rfl, hcb, h1001⟩ | ⟨hcc, b1, b2, b3, _⟩
        · refine .inl ⟨rfl, ?_, by simpa only [hmem] using h1001⟩
          unfold InChunks
          simp only [hmem, hrep]
          exact hcb
        · exact .inr ⟨hcc, b1, b2, by simp [b3]⟩

/-- **C93**: 1001 is reported on exactly those requests the last transfer coding of which is not `chunked`. -/
theorem C93_notice_1001 {req : FReq} {rs : List FResp} (hm : .exch (some req) rs ∈ ys) :
    ⟨1001, none⟩ ∈ req.msg.notes ↔ ∃ cs c, CodedWith req.msg.entries (cs ++ [c]) ∧ c ≠ .chunked := by
  constructor
  · intro hn
    rcases List.eq_nil_or_concat (codings (W.frame lower L) req.msg.entries) with h0 | ⟨cs, c, h0⟩
    · exfalso
      obtain ⟨pre, post, hy⟩ := List.append_of_mem hm
      obtain ⟨s, s', hr, _⟩ := reqTrace_at (parseStreams_origin hrun).1 hy
      have hp := hr.parsed
      unfold parseRequest at hp
      cases hh : parseRequestHeading s with
      | exc e s1 => rw [hh] at hp; cases e <;> cases hp
      | ok r s1 =>
        rw [hh] at hp
        simp only at hp
        cases hb : parseRequestBody (W.frame lower L) r.entries s1 with
        | exc e s2 => rw [hb] at hp; cases hp
        | ok res s2 =>
          rw [hb] at hp
          simp only [Out.ok.injEq, Option.some.injEq] at hp
          obtain ⟨rfl, rfl⟩ := hp
          obtain ⟨hs, _, _, _, _, h5, h6⟩ := requestHeading_inv hh
          rcases List.mem_append.1 hn with hn | hn
          · rw [h6] at hn
            simp [lineNotes] at hn
          · exact (request_plain hb h0).2 hn
    · rw [List.concat_eq_append] at h0
      have hc := (C93_codings hW hl (L := L) _ _).1 h0
      refine ⟨cs, c, hc, ?_⟩
      rintro rfl
      obtain ⟨_, _, _, _, ⟨_, _, h⟩ | ⟨h, _⟩⟩ := C93_request hW hl hrun hm hc
      · exact h hn
      · exact h rfl
  · rintro ⟨cs, c, hc, hcc⟩
    obtain ⟨_, _, _, _, ⟨h, _⟩ | ⟨_, _, _, h⟩⟩ := C93_request hW hl hrun hm hc
    · exact absurd h hcc
    · exact h

/-- **C93**, for responses: if the last coding is not `chunked`, all codings are taken off all that is left on the stream. -/
theorem C93_response {req : Option FReq} {rs : List FResp} (hm : .exch req rs ∈ ys) {r : FResp} (hr : r ∈ rs)
    (hbody : HasBody (req.map (·.method)) r.status) {cs : List Coding} {c : Coding}
    (hc : CodedWith r.msg.entries (cs ++ [c])) :
    ∃ (h : WHeading) (x y z : Nat) (sent : Str), ResponseHeading h r.version x y z r.reason r.msg.entries ∧
      r.status = status x y z ∧ (outb.getD []).drop r.msg.start = h.bytes ++ sent ∧
      ((c = .chunked ∧ InChunks L.codecs cs sent r.msg) ∨
       (c ≠ .chunked ∧ Taken L.codecs (c :: cs.reverse) sent r.msg.body (codingReports r.msg.notes))) := by
  obtain ⟨s, s', hf⟩ := resp_from hrun hm hr
  have hte := (C93_codings hW hl (L := L) _ _).2 hc
  obtain ⟨hd, s1, res, h1, h2, rfl⟩ := hf.parsed
  obtain ⟨hs, x, y, z, g1, g2, g3, g4, g5, g6, g7⟩ := responseHeading_inv h1
  refine ⟨hs, x, y, z, s1.rest, g1, g2, ?_, ?_⟩
  · simp only [g5]
    rw [← g3]
    exact hf.on.symm
  · have hn : hd.notes = lineNotes (hs.faults s.pos) := by rw [g7, hf.complaints, List.nil_append]
    have hno : ∀ k, (⟨k, none⟩ : FNote) ∉ hd.notes := by
      intro k hk
      rw [hn] at hk
      simp [lineNotes] at hk
    have hrep : codingReports (hd.notes ++ res.notes) = codingReports res.notes := by
      rw [reports_append, hn, reports_lines, List.nil_append]
    have hmem : ∀ k, (⟨k, none⟩ : FNote) ∈ hd.notes ++ res.notes ↔ ⟨k, none⟩ ∈ res.notes := by
      intro k
      simp [hno k]
    rcases response_coded (frame_decodes (W := W) (lower := lower) (L := L)) h2 g6 hbody hte with ⟨rfl, hcb⟩ | ⟨hcc, b1, _⟩
    · refine .inl ⟨rfl, ?_⟩
      unfold InChunks
      simp only [hmem, hrep]
      exact hcb
    · refine .inr ⟨hcc, ?_⟩
      simp only [hrep]
      exact b1

end

/-! ## Checks of what was captured -/

section
variable {W : World} (hW : Ready W) {base : Env} (hl : LowersAscii base.lower) {L : Libs} {scheme : Option Str}
include hW hl

omit hW hl in
/-- **C93**: for a dialogue on the streams as it should be (C16), the exchanges that are checked are those of the dialogue: with these
methods, targets, versions, statuses, headers and bodies. -/
theorem C93_dialogue {xs : List (FReq × List FResp)} {bs cs : Str} (hne : xs ≠ [])
    (hd : Dialogue (W.frame base.lower L) 0 0 xs bs cs) :
    (runStreams (W.frame base.lower L) (some bs) (some cs)).1.map (fun y => match y with
      | .exch req resps => some (W.heard base L scheme req resps)
      | .box _ => none) = xs.map fun x => some (W.heard base L scheme (some x.1) x.2) := by
  rw [C16_pipelining _ xs bs cs hne hd, List.map_map]
  rfl

variable {inb outb : Option Str} {ys : List Yield} {final : Option SS × Option SS}
  (hrun : runStreams (W.frame base.lower L) inb outb = (ys, .ok final))
  {req : Option FReq} {rs : List FResp} (hm : .exch req rs ∈ ys)
  (hok : exchangeRaises (W.all base) (W.heard base L scheme req rs) = false)
include hrun hm hok

/-- **C93**: whatever comes on the streams, no response from them is said to have a body where there must be none: such bytes are
taken for the next response. -/
theorem C93_never_1240 (i : Nat) : ¬ReportedId (W.all base) (W.heard base L scheme req rs) (.resp i) 1240 := by
  intro h
  obtain ⟨r, hr, hst, hcont⟩ := (C60_notice_1240 (W.all base) (C91_sensible hW hl) _ hok
    (C91_own hW hl (by decide +kernel)) i).1 h
  unfold World.heard loadPayloads streamExchange at hr
  simp only [List.getElem?_mapIdx, List.getElem?_map, Option.map_map, Option.map_eq_some_iff] at hr
  obtain ⟨f, hf, rfl⟩ := hr
  have hst : (f.status : Int) = 204 := hst
  have hno : ¬HasBody (req.map (·.method)) f.status := fun hb => hb.s204 (by omega)
  have := (C17_response_none _ inb outb ys final hrun req rs hm f (List.mem_of_getElem? hf) hno).1
  revert hcont
  show HasContent (bodyValue f.msg.body) → False
  rw [this]
  exact fun h => h rfl

/-- **C93**: likewise for responses to HEAD. -/
theorem C93_never_1239 (i : Nat) : ¬ReportedId (W.all base) (W.heard base L scheme req rs) (.resp i) 1239 := by
  intro h
  obtain ⟨r, q, hr, hq, hmeth, hcont⟩ := (C60_notice_1239 (W.all base) (C91_sensible hW hl) _ hok
    (C91_own hW hl (by decide +kernel)) i).1 h
  unfold World.heard loadPayloads streamExchange at hr hq
  simp only [List.getElem?_mapIdx, List.getElem?_map, Option.map_map, Option.map_eq_some_iff] at hr hq
  obtain ⟨f, hf, rfl⟩ := hr
  obtain ⟨fq, rfl, rfl⟩ := hq
  have hno : ¬HasBody ((some fq).map (·.method)) f.status := fun hb => hb.head (by
    show some fq.method = _
    exact congrArg some hmeth)
  have := (C17_response_none _ inb outb ys final hrun _ rs hm f (List.mem_of_getElem? hf) hno).1
  revert hcont
  show HasContent (bodyValue f.msg.body) → False
  rw [this]
  exact fun h => h rfl

end

/-! ## Everything that framing reports can be shown -/

/-- The decision of `FramingShown`. -/
def framingShown (hasRequest : Bool) (self : String × Thing) (id : Nat) : Bool :=
  noticeRows.any fun row => row.id == id && framingArguments.any fun args => args.1 == id && args.2 != [] && args.2.all fun ctx =>
    row.references.all (fun path => (resolveThing hasRequest self ctx path).isSome) &&
    (!row.details || ctx.any fun p => p.1 == "error")

theorem framingShown_sound {b : Bool} {self : String × Thing} {id : Nat} (h : framingShown b self id = true) :
    FramingShown b self id := by
  unfold framingShown at h
  obtain ⟨row, hr, h⟩ := List.any_eq_true.1 h
  simp only [Bool.and_eq_true, beq_iff_eq] at h
  obtain ⟨hid, h⟩ := h
  obtain ⟨args, ha, h⟩ := List.any_eq_true.1 h
  simp only [Bool.and_eq_true, beq_iff_eq, bne_iff_ne, ne_eq] at h
  obtain ⟨⟨h1, h2⟩, h3⟩ := h
  refine ⟨row, hr, hid, args, ha, h1, h2, fun ctx hctx => ?_⟩
  have := List.all_eq_true.1 h3 ctx hctx
  simp only [Bool.and_eq_true, Bool.or_eq_true, Bool.not_eq_true'] at this
  refine ⟨fun path hp => Option.isSome_iff_exists.1 (List.all_eq_true.1 this.1 path hp), fun hd => ?_⟩
  rcases this.2 with h | h
  · rw [hd] at h; cases h
  · obtain ⟨p, hp, hk⟩ := List.any_eq_true.1 h
    rw [beq_iff_eq] at hk
    exact ⟨p.2, hk ▸ hp⟩

theorem body_shown {b : Bool} {id : Nat} (h : id ∈ bodyIds) : FramingShown b ("msg", .request) id := by
  have hx : ∀ b : Bool, ∀ n ∈ bodyIds, framingShown b ("msg", .request) n = true := by decide +kernel
  exact framingShown_sound (hx b id h)

theorem answer_shown {b : Bool} {id : Nat} (h : id ∈ 1011 :: 1012 :: bodyIds) : FramingShown b ("msg", .response) id := by
  have hx : ∀ b : Bool, ∀ n ∈ 1011 :: 1012 :: bodyIds, framingShown b ("msg", .response) n = true := by decide +kernel
  exact framingShown_sound (hx b id h)

theorem box_shown {id : Nat} (h : id ∈ boxIds) : FramingShown false ("exch", .exchange) id := by
  have hx : ∀ n ∈ boxIds, framingShown false ("exch", .exchange) n = true := by decide +kernel
  exact framingShown_sound (hx id h)

section
variable {env : FrameEnv} {inb outb : Option Str}

/-- **C93**: what `parse_streams` reports apart from messages can be shown, also if it ends with an exception. -/
theorem C93_shown_box {id : Nat} (h : .box id ∈ (runStreams env inb outb).1) : FramingShown false ("exch", .exchange) id :=
  box_shown (streams_boxes env _ _ id h)

variable {ys : List Yield} {final : Option SS × Option SS} (hrun : runStreams env inb outb = (ys, .ok final))
include hrun

/-- **C93**: what it reports about requests can be shown. -/
theorem C93_shown_request {req : FReq} {rs : List FResp} (hm : .exch (some req) rs ∈ ys) :
    ∀ n ∈ req.msg.notes, FramingShown true ("msg", .request) n.id := by
  obtain ⟨pre, post, hy⟩ := List.append_of_mem hm
  obtain ⟨s, s', hr, _⟩ := reqTrace_at (parseStreams_origin hrun).1 hy
  have hp := hr.parsed
  unfold parseRequest at hp
  cases hh : parseRequestHeading s with
  | exc e s1 => rw [hh] at hp; cases e <;> cases hp
  | ok r s1 =>
    rw [hh] at hp
    simp only at hp
    cases hb : parseRequestBody env r.entries s1 with
    | exc e s2 => rw [hb] at hp; cases hp
    | ok res s2 =>
      rw [hb] at hp
      simp only [Out.ok.injEq, Option.some.injEq] at hp
      obtain ⟨rfl, rfl⟩ := hp
      obtain ⟨hs, _, _, _, _, h5, h6⟩ := requestHeading_inv hh
      rw [hr.complaints, List.nil_append] at h6
      intro n hn
      rcases List.mem_append.1 hn with hn | hn
      · rw [h6] at hn
        rcases heading_ids n hn with h | h <;> rw [h] <;> exact body_shown (by decide)
      · exact body_shown (requestBody_ids hb h5 n hn)

/-- **C93**: what it reports about responses can be shown. -/
theorem C93_shown_response {req : Option FReq} {rs : List FResp} (hm : .exch req rs ∈ ys) {r : FResp} (hr : r ∈ rs) :
    ∀ n ∈ r.msg.notes, FramingShown req.isSome ("msg", .response) n.id := by
  obtain ⟨s, s', hf⟩ := resp_from hrun hm hr
  obtain ⟨hd, s1, res, h1, h2, rfl⟩ := hf.parsed
  obtain ⟨hs, x, y, z, _, _, _, _, _, g6, g7⟩ := responseHeading_inv h1
  rw [hf.complaints, List.nil_append] at g7
  intro n hn
  rcases List.mem_append.1 hn with hn | hn
  · rw [g7] at hn
    rcases heading_ids n hn with h | h <;> rw [h] <;> exact answer_shown (by decide)
  · exact answer_shown (responseBody_ids h2 g6 n hn)

end

/-! ## Examples -/

section
open Httpolice.Spec.Toy

/-- `gzip`, alone in its header. -/
theorem gzip_listed : CodingList (str "gzip") ⟨[], ⟨str "gzip", []⟩, []⟩ :=
  ⟨⟨by simp, ⟨by unfold IsToken IsTchar; decide +kernel, by simp [SemiSyn.Ok], fun _ => rfl⟩, by simp⟩, by decide +kernel⟩

/-- `GZip ,chunkeD`. -/
theorem zipped_listed : CodingList (str "GZip ,chunkeD") ⟨[], ⟨str "GZip", []⟩, [(str " ", some ([], ⟨str "chunkeD", []⟩))]⟩ := by
  refine ⟨⟨by simp, ⟨by unfold IsToken IsTchar; decide +kernel, by simp [SemiSyn.Ok], fun _ => rfl⟩, ?_⟩, by decide +kernel⟩
  intro x hx
  rw [List.mem_singleton] at hx
  subst hx
  exact ⟨by unfold IsOws; decide +kernel, by unfold IsOws; decide +kernel,
    by unfold IsToken IsTchar; decide +kernel, by simp [SemiSyn.Ok], fun _ => rfl⟩

/-- C93: codings in whatever case, and one that is not known. -/
example {W : World} (hW : Ready W) :
    codings (W.frame Toy.env.lower tools) [h "transfer-encoding" "GZip ,chunkeD", h "Transfer-Encoding" "gzip"] =
      [.gzip, .chunked, .gzip] := by
  refine (C93_codings hW toy_lower _ _).2 ⟨[[.gzip, .chunked], [.gzip]], .cons (.inl ⟨_, zipped_listed, ?_⟩)
    (.cons (.inl ⟨_, gzip_listed, ?_⟩) .nil), rfl⟩
  · exact .cons (.inl (lower_iff.1 (by decide +kernel))) (.cons (lower_iff.1 (by decide +kernel)) .nil)
  · exact .cons (.inl (lower_iff.1 (by decide +kernel))) .nil

set_option maxRecDepth 100000

/-- The parameters of framing with one value of the header known. -/
theorem frame_with {F : FrameEnv} {v : Str} {o : Option (List Coding)} (h : F.te v = o) :
    F = ⟨fun u => if u = v then o else F.te u, F.gunzip, F.inflate⟩ := by
  obtain ⟨te, g, i⟩ := F
  have : te = fun u => if u = v then o else te u := by
    funext u
    split
    · next hu => rw [hu]; exact h
    · rfl
  exact congrArg (fun t => FrameEnv.mk t g i) this

/-- What is read from a stream with a request in gzip, without chunks. -/
def exGzip : FReq := ⟨str "POST", str "/", str "HTTP/1.1",
  ⟨0, [⟨str "Transfer-Encoding", str "gzip"⟩], [], .unavailable none, [⟨1001, none⟩], 44⟩⟩

/-- C93: 1001. -/
example {W : World} (hW : Ready W) : ∃ final,
    runStreams (W.frame Toy.env.lower tools) (some (str "POST / HTTP/1.1\r\nTransfer-Encoding: gzip\r\n\r\nzip")) none =
      ([.exch (some exGzip) [], .box 1007], .ok final) ∧
    ∃ cs c, CodedWith exGzip.msg.entries (cs ++ [c]) ∧ c ≠ .chunked := by
  have hte : (W.frame Toy.env.lower tools).te (str "gzip") = some [.gzip] :=
    ((frame_te hW (lower := Toy.env.lower) (L := tools) (str "gzip")).1 _ gzip_listed).trans (by decide +kernel)
  have hrun : ∃ final, runStreams (W.frame Toy.env.lower tools)
      (some (str "POST / HTTP/1.1\r\nTransfer-Encoding: gzip\r\n\r\nzip")) none =
      ([.exch (some exGzip) [], .box 1007], .ok final) := by
    rw [frame_with hte]
    exact ⟨_, rfl⟩
  obtain ⟨final, hrun⟩ := hrun
  exact ⟨final, hrun, (C93_notice_1001 hW toy_lower hrun (rs := []) (by simp)).1 (by simp [exGzip])⟩

/-- A response in gzip, in one chunk; the decoder gives `{` for it. -/
def exZipped : FResp := ⟨str "HTTP/1.1", 200, str "OK",
  ⟨0, [⟨str "Transfer-Encoding", str "GZip ,chunkeD"⟩], [], .bytes (str "{"), [], 66⟩⟩

theorem zipped_run {W : World} (hW : Ready W) : ∃ final, runStreams (W.frame Toy.env.lower tools) none
    (some (str "HTTP/1.1 200 OK\r\nTransfer-Encoding: GZip ,chunkeD\r\n\r\n3\r\nzip\r\n0\r\n\r\n")) =
    ([.exch none [exZipped]], .ok final) := by
  have hte : (W.frame Toy.env.lower tools).te (str "GZip ,chunkeD") = some [.gzip, .chunked] :=
    ((frame_te hW (lower := Toy.env.lower) (L := tools) (str "GZip ,chunkeD")).1 _ zipped_listed).trans (by decide +kernel)
  rw [frame_with hte]
  exact ⟨_, rfl⟩

/-- C93: a response in gzip and chunks. -/
example {W : World} (hW : Ready W) : ∃ sent, InChunks tools.codecs [.gzip] sent exZipped.msg := by
  obtain ⟨final, hrun⟩ := zipped_run hW
  obtain ⟨_, _, _, _, sent, _, _, _, ⟨_, h⟩ | ⟨h, _⟩⟩ := C93_response hW toy_lower hrun (req := none) (rs := [exZipped]) (r := exZipped) (by simp) (by simp)
    ⟨by decide, by decide, by decide, by simp, by simp⟩ (cs := [.gzip]) (c := .chunked)
    ⟨[[.gzip, .chunked]], .cons (.inl ⟨_, zipped_listed, .cons (.inl (lower_iff.1 (by decide +kernel)))
      (.cons (lower_iff.1 (by decide +kernel)) .nil)⟩) .nil, rfl⟩
  · exact ⟨sent, h⟩
  · exact absurd rfl h

/-- C93: a response to `HEAD`, with bytes after its heading. -/
example {W : World} (hW : Ready W) : ∃ req r ys final,
    runStreams (W.frame Toy.env.lower tools) (some (str "HEAD / HTTP/1.1\r\n\r\n")) (some (str "HTTP/1.1 204 OK\r\n\r\nabc")) =
      (.exch (some req) [r] :: ys, .ok final) ∧ ys = [.box 1008, .box 1009] ∧ r.status = 204 ∧ req.method = str "HEAD" ∧
    ¬ReportedId (W.all Toy.env) (W.heard Toy.env tools (some (str "http")) (some req) [r]) (.resp 0) 1240 ∧
    ¬ReportedId (W.all Toy.env) (W.heard Toy.env tools (some (str "http")) (some req) [r]) (.resp 0) 1239 := by
  have hrun : ∃ req r final, runStreams (W.frame Toy.env.lower tools) (some (str "HEAD / HTTP/1.1\r\n\r\n"))
      (some (str "HTTP/1.1 204 OK\r\n\r\nabc")) = (.exch (some req) [r] :: [.box 1008, .box 1009], .ok final) ∧
      r.status = 204 ∧ r.msg.entries = [] ∧ r.msg.trailers = [] ∧ req.method = str "HEAD" :=
    ⟨⟨str "HEAD", _, _, _⟩, ⟨_, 204, _, ⟨_, [], [], _, _, _⟩⟩, _, rfl, rfl, rfl, rfl, rfl⟩
  obtain ⟨req, r, final, hrun, h1, h2, h3, h4⟩ := hrun
  have hok : exchangeRaises (W.all Toy.env) (W.heard Toy.env tools (some (str "http")) (some req) [r]) = false := by
    cases h : exchangeRaises (W.all Toy.env) (W.heard Toy.env tools (some (str "http")) (some req) [r]) with
    | false => rfl
    | true =>
      obtain ⟨x, hx, h⟩ := (C91_raises hW toy_lower).1 h
      have hx : x = FResp.response r := by simpa [streamExchange] using hx
      subst hx
      rcases h with ⟨_, d, _, hd, _⟩ | ⟨hs, _⟩
      · obtain ⟨a, e, b, he, _⟩ := hd
        have he : r.msg.entries = a ++ e :: b := he
        rw [h2] at he
        simp at he
      · have hs : (r.status : Int) = 451 := hs
        omega
  exact ⟨req, r, _, final, hrun, rfl, h1, h4, C93_never_1240 hW toy_lower hrun (by simp) hok 0,
    C93_never_1239 hW toy_lower hrun (by simp) hok 0⟩

/-- C93: 1012, about the length of a response, could not be shown for a request. -/
example : ¬FramingShown true ("msg", .request) 1012 := by
  rintro ⟨row, hrow, hid, args, hargs, hid', hne, h⟩
  have : ∀ row ∈ noticeRows, row.id = 1012 → ∀ args ∈ framingArguments, args.1 = 1012 →
      ∃ ctx ∈ args.2, ∃ path ∈ row.references, resolveThing true ("msg", .request) ctx path = none := by decide +kernel
  obtain ⟨ctx, hc, path, hp, hn⟩ := this row hrow hid args hargs hid'
  obtain ⟨x, hx⟩ := (h ctx hc).1 path hp
  rw [hn] at hx
  cases hx

end

end Httpolice.Props
