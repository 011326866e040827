import Verif.Lemmas.Headings

/-!
# Lemmas: bodies and whole messages on the wire
-/

namespace Httpolice.Lemmas

open Httpolice.Model
open Httpolice.Spec
open Httpolice.Props (C26_single C27_lists IsSingular entryElems)

/-! ## Numbers -/

theorem foldl_number (base : Nat) (val : Nat → Nat) (s : Str) (acc : Nat) :
    s.foldl (fun n c => n * base + val c) acc = acc * base ^ s.length + number base val s := by
  induction s generalizing acc with
  | nil => simp [number]
  | cons c s ih =>
    rw [List.foldl_cons, ih, number, List.length_cons, Nat.pow_succ, Nat.add_mul]
    rw [Nat.mul_assoc, Nat.mul_comm base, Nat.add_assoc]

theorem parseContentLength_eq {s : Str} {n : Nat} (h : Decimal s n) :
    parseContentLength s = some n := by
  obtain ⟨h1, h2, h3⟩ := h
  unfold parseContentLength
  rw [if_pos ⟨h1, by rw [List.all_eq_true]; intro c hc; exact (isDigit_iff c).2 (h2 c hc)⟩]
  have := foldl_number 10 (fun c => c - 48) s 0
  rw [decimal, this, h3]; simp

theorem parseContentLength_inv {s : Str} {n : Nat} (h : parseContentLength s = some n) :
    Decimal s n := by
  unfold parseContentLength at h
  split at h
  · rename_i hs
    refine ⟨hs.1, fun c hc => (isDigit_iff c).1 (List.all_eq_true.1 hs.2 c hc), ?_⟩
    have := foldl_number 10 (fun c => c - 48) s 0
    rw [← Option.some.inj h, decimal, this]; simp
  · cases h

theorem hexDigitVal_eq {c : Nat} (h : HexDigit c) : hexDigitVal c = some (hexVal c) := by
  unfold HexDigit Digit at h
  unfold hexDigitVal hexVal
  rcases h with h | h | h
  · rw [if_pos h, if_pos h.2]
  · rw [if_neg (by omega), if_neg (by omega), if_pos h, if_neg (by omega), if_pos h.2]
  · rw [if_neg (by omega), if_pos h, if_neg (by omega), if_neg (by omega)]

theorem hexGo_eq (s : Str) (acc : Nat) (b : Bool) (h : ∀ c ∈ s, HexDigit c)
    (hb : b = true ∨ s ≠ []) :
    hexGo acc b s = some (acc * 16 ^ s.length + number 16 hexVal s) := by
  induction s generalizing acc b with
  | nil =>
    have : b = true := by simpa using hb
    simp [hexGo, this, number]
  | cons c s ih =>
    have hc := h c List.mem_cons_self
    have h95 : c ≠ 95 := by unfold HexDigit Digit at hc; omega
    rw [hexGo, if_neg h95, hexDigitVal_eq hc]
    simp only
    rw [ih _ true (fun x hx => h x (List.mem_cons_of_mem _ hx)) (Or.inl rfl), number,
      List.length_cons, Nat.pow_succ, Nat.add_mul]
    rw [Nat.mul_assoc, Nat.mul_comm 16, Nat.add_assoc]

theorem dropWhile_id (p : Nat → Bool) (s : Str) (h : ∀ c ∈ s, p c = false) : s.dropWhile p = s := by
  cases s with
  | nil => rfl
  | cons c s => rw [List.dropWhile_cons, h c List.mem_cons_self]; simp

theorem pyIntHex_eq {s : Str} {n : Nat} (h : Hexadecimal s n) : pyIntHex s = some (n : Int) := by
  obtain ⟨h1, h2, h3⟩ := h
  have hstrip : intStrip s = s := by
    have hsp : ∀ c, HexDigit c → isIntSpace c = false := by
      intro c hc
      unfold HexDigit Digit at hc
      simp only [isIntSpace, Bool.or_eq_false_iff, Bool.and_eq_false_imp, decide_eq_true_eq,
        decide_eq_false_iff_not, beq_eq_false_iff_ne, ne_eq]
      omega
    unfold intStrip
    rw [dropWhile_id _ s fun c hc => hsp c (h2 c hc),
      dropWhile_id _ s.reverse fun c hc => hsp c (h2 c (by simpa using hc)), List.reverse_reverse]
  have hsign : intSign s = (false, s) := by
    unfold intSign
    split
    · have := h2 45 List.mem_cons_self; unfold HexDigit Digit at this; omega
    · have := h2 43 List.mem_cons_self; unfold HexDigit Digit at this; omega
    · rfl
  have hpre : hexPrefix s = s := by
    unfold hexPrefix
    split
    · have := h2 120 (by simp); unfold HexDigit Digit at this; omega
    · have := h2 88 (by simp); unfold HexDigit Digit at this; omega
    · have := h2 120 (by simp); unfold HexDigit Digit at this; omega
    · have := h2 88 (by simp); unfold HexDigit Digit at this; omega
    · rfl
  unfold pyIntHex
  simp only [hstrip, hsign, hpre, hexGo_eq s 0 false h2 (Or.inr h1), h3]
  simp

/-! ## Chunks -/

theorem partition_none (c : Nat) (a : Str) (h : c ∉ a) : partitionOn c a = none := by
  induction a with
  | nil => rfl
  | cons x a ih =>
    have hx : x ≠ c := fun e => h (by simp [e])
    rw [partitionOn, if_neg hx, ih fun e => h (List.mem_cons_of_mem _ e)]; rfl

theorem partition_eq (c : Nat) (a b : Str) (h : c ∉ a) :
    partitionOn c (a ++ c :: b) = some (a, b) := by
  induction a with
  | nil => simp [partitionOn]
  | cons x a ih =>
    have hx : x ≠ c := fun e => h (by simp [e])
    rw [List.cons_append, partitionOn, if_neg hx, ih fun e => h (List.mem_cons_of_mem _ e)]; rfl

/-- The text of a chunk-size line. -/
def sizeText (l : SizeLine) : Str :=
  l.digits ++ l.blanks ++ (match l.ext with
    | none => []
    | some x => 59 :: x)

theorem size_mem {l : SizeLine} {n : Nat} (h : l.Ok n) : ∀ c ∈ l.digits ++ l.blanks,
    HexDigit c ∨ Blank c := by
  intro c hc
  rcases List.mem_append.1 hc with hc | hc
  · exact Or.inl (h.digits.2.1 c hc)
  · exact Or.inr (h.blanks c hc)

theorem chunkSize_eq {l : SizeLine} {n : Nat} (h : l.Ok n) :
    chunkSize (sizeText l) = some (n : Int) := by
  have h59 : 59 ∉ l.digits ++ l.blanks := by
    intro hm
    have := size_mem h 59 hm
    unfold HexDigit Digit Blank at this; omega
  have hr : rstripBlank (l.digits ++ l.blanks) = l.digits := by
    refine rstrip_blanks _ _ h.blanks ?_
    intro s c hs hb
    have := h.digits.2.1 c (by rw [hs]; simp)
    unfold HexDigit Digit at this; unfold Blank at hb; omega
  unfold chunkSize sizeText
  cases hx : l.ext with
  | none =>
    simp only [List.append_nil]
    rw [partition_none _ _ h59]
    simp only
    rw [hr]; exact pyIntHex_eq h.digits
  | some x =>
    simp only
    rw [partition_eq _ _ _ h59]
    simp only
    rw [hr]; exact pyIntHex_eq h.digits

theorem sizeLine_bytes (l : SizeLine) : l.bytes = (⟨sizeText l, true⟩ : WLine).bytes := by
  simp [SizeLine.bytes, WLine.bytes, sizeText]; rfl

theorem sizeLine_ok {l : SizeLine} {n : Nat} (h : l.Ok n) : (⟨sizeText l, true⟩ : WLine).Ok := by
  refine ⟨?_, by simp, by rw [← sizeLine_bytes]; exact h.len⟩
  simp only [sizeText]
  intro hm
  rcases List.mem_append.1 hm with hm | hm
  · have := size_mem h 10 hm
    unfold HexDigit Digit Blank at this; omega
  · cases hx : l.ext with
    | none => rw [hx] at hm; simp at hm
    | some x =>
      rw [hx] at hm
      simp only [List.mem_cons] at hm
      rcases hm with hm | hm
      · omega
      · exact h.ext x hx hm

theorem crlf_bytes : (⟨[], true⟩ : WLine).bytes = [13, 10] := rfl

theorem parseChunk_last (s : SS) (l : SizeLine) (k : Nat) (t : Str) (h : l.Ok 0)
    (hs : s.rest = l.bytes ++ t) : parseChunk s k = .ok none (to s l.bytes.length t []) := by
  rw [sizeLine_bytes] at hs ⊢
  unfold parseChunk
  rw [readline_line s ⟨sizeText l, true⟩ t (sizeLine_ok h) hs]
  simp only [chunkSize_eq h]
  simp [lineFaults]

theorem read_wire (s : SS) (a t : Str) (hs : s.rest = a ++ t) :
    s.read (a.length : Nat) = .ok a (to s a.length t []) := by
  rw [read_found s a t hs]
  simp [to]

theorem parseChunk_data (s : SS) (c : WChunk) (k : Nat) (t : Str) (h : c.Ok)
    (hs : s.rest = c.bytes ++ t) (hk : k + c.data.length ≤ maxBodySize) :
    parseChunk s k = .ok (some c.data) (to s c.bytes.length t []) := by
  have hrest : s.rest = (⟨sizeText c.size, true⟩ : WLine).bytes ++
      (c.data ++ ((⟨[], true⟩ : WLine).bytes ++ t)) := by
    rw [hs, WChunk.bytes, sizeLine_bytes, crlf_bytes]; simp
  have hne : c.data.length ≠ 0 := fun h0 => h.ne (List.length_eq_zero_iff.1 h0)
  unfold parseChunk
  rw [readline_line s ⟨sizeText c.size, true⟩ _ (sizeLine_ok h.size) hrest]
  simp only [chunkSize_eq h.size]
  rw [if_neg (by omega), if_neg (by omega), read_wire _ _ _ rfl]
  simp only
  rw [readlineend_line _ true t rfl]
  simp only [Out.ok.injEq, true_and]
  rw [to_to _ _ _ _ _ _ _ (by simp [line_bytes_ne]), to_to _ _ _ _ _ _ _ (by simp [line_bytes_ne])]
  simp only [lineFaults, if_true, List.append_nil]
  congr 1
  rw [WChunk.bytes, sizeLine_bytes]
  simp only [List.length_append, crlf_bytes]
  omega

theorem chunk_bytes_pos (c : WChunk) : 1 ≤ c.bytes.length := by
  simp [WChunk.bytes]; omega

theorem sizeLine_ne (l : SizeLine) (t : Str) : l.bytes ++ t ≠ [] := by
  simp [SizeLine.bytes]

theorem chunkLoop_wire (fuel : Nat) (s : SS) (cs : List WChunk) (last : SizeLine) (data t : Str)
    (hc : ∀ c ∈ cs, c.Ok) (hl : last.Ok 0)
    (hs : s.rest = cs.flatMap WChunk.bytes ++ last.bytes ++ t)
    (hk : data.length + (cs.flatMap (·.data)).length ≤ maxBodySize) (hfuel : cs.length < fuel) :
    chunkLoop fuel s data = .ok (data ++ cs.flatMap (·.data))
      (to s (cs.flatMap WChunk.bytes ++ last.bytes).length t []) := by
  induction cs generalizing fuel s data with
  | nil =>
    cases fuel with
    | zero => simp at hfuel
    | succ fuel =>
      unfold chunkLoop
      rw [parseChunk_last s last _ t hl (by simpa using hs)]
      simp
  | cons c cs ih =>
    cases fuel with
    | zero => simp at hfuel
    | succ fuel =>
      simp only [List.flatMap_cons, List.length_append] at hk
      unfold chunkLoop
      rw [parseChunk_data s c _ (cs.flatMap WChunk.bytes ++ last.bytes ++ t) (hc c List.mem_cons_self)
        (by rw [hs]; simp) (by omega)]
      simp only
      rw [ih fuel _ (data ++ c.data) (fun x hx => hc x (List.mem_cons_of_mem _ hx)) rfl
        (by simp only [List.length_append]; omega) (by simpa using hfuel)]
      simp only [List.flatMap_cons, List.append_assoc, Out.ok.injEq, true_and]
      rw [to_to _ _ _ _ _ _ _ (by simp [SizeLine.bytes])]
      simp [Nat.add_assoc]

theorem chunks_len (cs : List WChunk) : cs.length ≤ (cs.flatMap WChunk.bytes).length := by
  induction cs with
  | nil => simp
  | cons c cs ih =>
    have := chunk_bytes_pos c
    simp only [List.flatMap_cons, List.length_append, List.length_cons]; omega

theorem parseChunked_wire (s : SS) (cs : List WChunk) (last : SizeLine) (trailer : List WField)
    (tes : List Entry) (t : Str) (hc : ∀ c ∈ cs, c.Ok) (hl : last.Ok 0) (hb : BlockOk trailer)
    (hclean : ∀ f ∈ trailer, f.Clean) (hent : AreEntries trailer tes)
    (hmax : (cs.flatMap (·.data)).length ≤ gib)
    (hs : s.rest = cs.flatMap WChunk.bytes ++ last.bytes ++ blockBytes trailer ++ [13, 10] ++ t) :
    parseChunked s = .ok ⟨.bytes (cs.flatMap (·.data)), tes, lineNotes s.complaints⟩
      { to s (cs.flatMap WChunk.bytes ++ last.bytes ++ blockBytes trailer ++ [13, 10]).length t []
        with complaints := [] } := by
  have hfuel := chunks_len cs
  have h1 := chunkLoop_wire (s.rest.length + 1) s cs last []
    (blockBytes trailer ++ ((⟨[], true⟩ : WLine).bytes ++ t)) hc hl
    (by rw [hs, crlf_bytes]; simp) (by simpa [gib, maxBodySize] using hmax)
    (by rw [hs]; simp only [List.length_append]; omega)
  obtain ⟨s2, h2, h3⟩ := section_wire (to s (cs.flatMap WChunk.bytes ++ last.bytes).length
    (blockBytes trailer ++ ((⟨[], true⟩ : WLine).bytes ++ t)) []) trailer tes true t hb hent rfl
  unfold parseChunked parseChunkedRaw
  rw [h1]
  simp only
  rw [h2]
  simp only
  rw [h3]
  simp only [SS.dumpComplaints, Out.ok.injEq, BodyRes.mk.injEq, List.nil_append, true_and]
  rw [to_to _ _ _ _ _ _ _ (by simp [line_bytes_ne]), blockFaults_clean _ _ hclean]
  refine ⟨by simp [to, lineFaults], ?_⟩
  simp [to, crlf_bytes, Nat.add_assoc]

/-! ## Bodies -/

theorem withName_eq (name : String) (es : List Entry) :
    withName name es = named asciiLower (str name) es := rfl

theorem teCodings_eq (env : FrameEnv) (es : List Entry) : teCodings env es =
    (withName "Transfer-Encoding" es).flatMap fun e => match env.te e.value with
      | some cs => cs
      | none => [.unavailable] := by
  have h := C27_lists asciiLower (teKind env) ⟨es, []⟩ (str "Transfer-Encoding")
    (by
      intro e _
      simp only [teKind]
      cases env.te e.value <;> simp [IsSingular])
  unfold teCodings
  rw [h.1]
  simp only [usable, teKind, if_true, List.append_nil, ← withName_eq, List.map_flatMap]
  congr 1
  funext e
  cases env.te e.value with
  | none => simp [entryElems]
  | some cs => simp [entryElems, Function.comp_def]

theorem contentLength_eq (es : List Entry) : contentLength es =
    match (withName "Content-Length" es).getLast? with
    | none => .none
    | some e => match parseContentLength e.value with
      | none => .unavailable
      | some n => .val n := by
  have h := C26_single asciiLower clKind ⟨es, []⟩ (str "Content-Length")
  unfold contentLength
  rw [h.1]
  simp only [usable, clKind, if_true, List.append_nil, ← withName_eq]
  cases (withName "Content-Length" es).getLast? with
  | none => rfl
  | some e =>
    simp only [Option.map_some]
    cases parseContentLength e.value <;> rfl

theorem processContentLength_wire (s : SS) (body t : Str) (hmax : body.length ≤ gib)
    (hs : s.rest = body ++ t) :
    processContentLength (.val body.length) s = .ok ⟨.bytes body, [], []⟩ (to s body.length t []) := by
  unfold processContentLength
  simp only
  rw [if_neg (by simp only [gib, maxBodySize] at *; omega), read_wire s body t hs]

/-- Reading nothing. -/
theorem to_nothing (s : SS) (t : Str) (hs : s.rest = t) (he : s.eof = true ∨ t ≠ []) (cs) :
    to s 0 t cs = { s with complaints := s.complaints ++ cs } := by
  subst hs
  unfold to
  have : (s.eof || s.rest.isEmpty) = s.eof := by
    rcases he with he | he
    · simp [he]
    · cases h : s.rest with
      | nil => exact absurd h he
      | cons => cases s.eof <;> simp
  rw [this]; rfl

theorem requestBody_wire (env : FrameEnv) (es tes : List Entry) (body bodyBytes t : Str) (s : SS)
    (hs : s.rest = bodyBytes ++ t) (hcs : s.complaints = []) (he : s.eof = true ∨ s.rest ≠ [])
    (hb : (withName "Transfer-Encoding" es = [] ∧ withName "Content-Length" es = [] ∧ body = [] ∧
        tes = [] ∧ bodyBytes = []) ∨ BodyWire env es body tes bodyBytes) :
    parseRequestBody env es s = .ok ⟨.bytes body, tes, []⟩ (to s bodyBytes.length t []) := by
  rcases hb with ⟨h1, h2, rfl, rfl, rfl⟩ | hb
  · unfold parseRequestBody
    rw [teCodings_eq, h1, contentLength_eq, h2]
    simp only [List.flatMap_nil, List.reverse_nil, List.getLast?_nil, clTruthy, List.length_nil]
    have : s.rest = t := hs
    rw [to_nothing s t this (by rw [this] at he; exact he)]
    simp
  · cases hb with
    | sized body e hte hlast hn hmax =>
      unfold parseRequestBody
      rw [teCodings_eq, hte, contentLength_eq, hlast]
      simp only [List.flatMap_nil, List.reverse_nil, parseContentLength_eq hn, clTruthy]
      split
      · exact processContentLength_wire s body t hmax hs
      · rename_i h0
        have h0 : body.length = 0 := by simpa using h0
        have h0 := List.length_eq_zero_iff.1 h0
        subst h0
        have : s.rest = t := hs
        rw [List.length_nil, to_nothing s t this (by rw [this] at he; exact he)]
        simp
    | chunked chunks last trailer _ hte hc hl ht hclean hent hmax =>
      have hcod : teCodings env es = [.chunked] := by
        rw [teCodings_eq]
        have := congrArg (fun l => l.flatMap fun (o : Option (List Coding)) => match o with
          | some cs => cs
          | none => [.unavailable]) hte
        simpa [List.flatMap_map] using this
      unfold parseRequestBody
      rw [hcod]
      simp only [List.reverse_cons, List.reverse_nil, List.nil_append, if_true]
      rw [parseChunked_wire s chunks last trailer tes t hc hl ht hclean hent hmax hs]
      simp [decodeCodings, hcs, lineNotes, to]

theorem responseBody_wire (env : FrameEnv) (method : Option Str) (st : Nat) (es tes : List Entry)
    (body bodyBytes t : Str) (s : SS)
    (hs : s.rest = bodyBytes ++ t) (hcs : s.complaints = []) (he : s.eof = true ∨ s.rest ≠ [])
    (h101 : st ≠ 101) (hcon : method = some (str "CONNECT") → ¬(200 ≤ st ∧ st ≤ 299))
    (hb : (((100 ≤ st ∧ st ≤ 199) ∨ st = 204 ∨ st = 304 ∨ method = some (str "HEAD")) ∧
          body = [] ∧ tes = [] ∧ bodyBytes = []) ∨
        (¬(100 ≤ st ∧ st ≤ 199) ∧ st ≠ 204 ∧ st ≠ 304 ∧
          method ≠ some (str "HEAD") ∧ BodyWire env es body tes bodyBytes)) :
    parseResponseBody env method st es s = .ok ⟨.bytes body, tes, []⟩ (to s bodyBytes.length t []) := by
  have hc : ¬(method = some (str "CONNECT") ∧ successful st = true) := by
    rintro ⟨h1, h2⟩
    apply hcon h1
    simpa [successful] using h2
  unfold parseResponseBody
  rw [if_neg h101, if_neg hc]
  rcases hb with ⟨h1, rfl, rfl, rfl⟩ | ⟨h1, h2, h3, h4, hb⟩
  · rw [if_pos (by simpa [informational] using h1)]
    have : s.rest = t := hs
    rw [List.length_nil, to_nothing s t this (by rw [this] at he; exact he)]
    simp
  · rw [if_neg (by
      simp only [informational, Bool.and_eq_true, decide_eq_true_eq]
      rintro (h | h | h | h)
      · exact h1 h
      · exact h2 h
      · exact h3 h
      · exact h4 h)]
    cases hb with
    | sized body e hte hlast hn hmax =>
      rw [teCodings_eq, hte, contentLength_eq, hlast]
      simp only [List.flatMap_nil, List.reverse_nil, parseContentLength_eq hn]
      exact processContentLength_wire s body t hmax hs
    | chunked chunks last trailer _ hte hc hl ht hclean hent hmax =>
      have hcod : teCodings env es = [.chunked] := by
        rw [teCodings_eq]
        have := congrArg (fun l => l.flatMap fun (o : Option (List Coding)) => match o with
          | some cs => cs
          | none => [.unavailable]) hte
        simpa [List.flatMap_map] using this
      rw [hcod]
      simp only [List.reverse_cons, List.reverse_nil, List.nil_append, if_true]
      rw [parseChunked_wire s chunks last trailer tes t hc hl ht hclean hent hmax hs]
      simp [decodeCodings, hcs, lineNotes, to]

/-! ## Messages -/

theorem to_eof (s : SS) (n : Nat) (t : Str) (cs) :
    (to s n t cs).eof = true ∨ (to s n t cs).rest ≠ [] := by
  cases t with
  | nil => left; simp [to]
  | cons c t => right; simp [to]

theorem to_clear (s : SS) (n : Nat) (t : Str) (hc : s.complaints = []) :
    { to s n t [] with complaints := [] } = to s n t [] := by
  simp [to, hc]

theorem request_wire (env : FrameEnv) (s : SS) (r : FReq) (b t : Str)
    (hr : RequestWire env s.pos r b) (hs : s.rest = b ++ t) (hc : s.complaints = []) :
    parseRequest env s = .ok (some r) (to s b.length t []) := by
  cases hr with
  | mk h method target version es tes body bodyBytes hh hclean hb =>
    unfold parseRequest
    rw [requestHeading_wire s h method target version es (bodyBytes ++ t) hh (by rw [hs]; simp),
      to_clear _ _ _ hc]
    simp only
    rw [requestBody_wire env es tes body bodyBytes t (to s h.bytes.length (bodyBytes ++ t) [])
      rfl (by simp [to, hc]) (to_eof s _ _ []) hb]
    simp only [Out.ok.injEq, Option.some.injEq]
    rw [hc, faults_clean _ _ hclean]
    refine ⟨?_, ?_⟩
    · simp [lineNotes, to, Nat.add_assoc]
    · rw [to_to _ _ _ _ _ _ _ fun h0 => (List.append_eq_nil_iff.1 h0).2, List.length_append,
        List.append_nil]

theorem heading_ne (h : WHeading) (t : Str) : h.bytes ++ t ≠ [] := by
  simp [WHeading.bytes, line_bytes_ne]

theorem responses_ne {env : FrameEnv} {m : Option Str} {off : Nat} {rs : List FResp} {b : Str}
    (h : ResponsesWire env m off rs b) : b ≠ [] := by
  cases h with
  | final _ r b h =>
    cases h
    exact heading_ne _ _
  | interim _ r b rs bs h =>
    have : b ≠ [] := by cases h; exact heading_ne _ _
    simp [this]

theorem responses_len {env : FrameEnv} {m : Option Str} {off : Nat} {rs : List FResp} {b : Str}
    (h : ResponsesWire env m off rs b) : rs.length ≤ b.length := by
  induction h with
  | final _ r b h =>
    have : b ≠ [] := by cases h; exact heading_ne _ _
    have := List.length_pos_iff.2 this
    simp only [List.length_cons, List.length_nil]; omega
  | interim _ r b rs bs h _ _ ih =>
    have : b ≠ [] := by cases h; exact heading_ne _ _
    have := List.length_pos_iff.2 this
    simp only [List.length_cons, List.length_append]; omega

theorem good_iff (s : SS) : s.good = true ↔ s.sane = true ∧ s.eof = false := by
  simp [SS.good]

theorem responses_wire (env : FrameEnv) (method : Option Str) (fuel : Nat) (s : SS)
    (rs : List FResp) (b t : Str) (hr : ResponsesWire env method s.pos rs b)
    (hs : s.rest = b ++ t) (hc : s.complaints = []) (hg : s.good = true)
    (hfuel : rs.length ≤ fuel) :
    parseResponses env method fuel s = .ok (rs, false) (to s b.length t []) := by
  have hbody : ∀ (s : SS) (r : FResp) (b t : Str), ResponseWire env method s.pos r b →
      s.rest = b ++ t → s.complaints = [] → ∃ h s1 rr,
        parseResponseHeading s = .ok h s1 ∧ h.status = r.status ∧ r.status ≠ 101 ∧
        parseResponseBody env method h.status h.entries s1 = .ok rr (to s b.length t []) ∧
        (⟨h.version, h.status, h.reason, ⟨h.start, h.entries, rr.trailers, rr.body,
          h.notes ++ rr.notes, (to s b.length t []).pos⟩⟩ : FResp) = r := by
    intro s r b t hr hs hc
    cases hr with
    | mk h version a b c reason es tes body bodyBytes hh hclean h101 hcon hb =>
      refine ⟨_, _, ⟨.bytes body, tes, []⟩, responseHeading_wire s h version a b c reason es
        (bodyBytes ++ t) hh (by rw [hs]; simp), rfl, h101, ?_, ?_⟩
      · rw [to_clear _ _ _ hc]
        simp only
        rw [responseBody_wire env method _ es tes body bodyBytes t
          (to s h.bytes.length (bodyBytes ++ t) []) rfl (by simp [to, hc]) (to_eof s _ _ []) h101
          hcon hb, to_to _ _ _ _ _ _ _ fun h0 => (List.append_eq_nil_iff.1 h0).2,
          List.length_append, List.append_nil]
      · rw [hc, faults_clean _ _ hclean]
        simp [lineNotes, to]
  induction fuel generalizing s rs b with
  | zero =>
    cases hr <;> simp at hfuel
  | succ fuel ih =>
    cases hr with
    | final _ r b h hf =>
      obtain ⟨hd, s1, rr, h1, h2, h3, h4, h5⟩ := hbody s r b t h hs hc
      unfold parseResponses
      rw [if_pos hg, h1]
      simp only
      rw [h4]
      simp only
      rw [if_pos (by left; rw [h2]; simp [informational]; omega), h5]
    | interim _ r b rs bs h hi hrs =>
      obtain ⟨hd, s1, rr, h1, h2, h3, h4, h5⟩ := hbody s r b (bs ++ t) h (by rw [hs]; simp) hc
      have hne := responses_ne hrs
      unfold parseResponses
      rw [if_pos hg, h1]
      simp only
      rw [h4]
      simp only
      rw [if_neg (by rw [h2]; simp [informational, hi, h3]), h5]
      rw [ih (to s b.length (bs ++ t) []) rs bs hrs rfl (by simp [to, hc])
        (by
          rw [good_iff] at hg ⊢
          simp [to, hg, hne])
        (by simpa using hfuel)]
      simp only [Out.ok.injEq, true_and]
      rw [to_to _ _ _ _ _ _ _ fun h0 => (List.append_eq_nil_iff.1 h0).2, List.length_append,
        List.append_nil]

theorem responses_not_switch {env : FrameEnv} {req : FReq} {off : Nat} {rs : List FResp} {b : Str}
    (h : ResponsesWire env (some req.method) off rs b) : switches req rs = false := by
  have key : ∀ r, rs.getLast? = some r → ∃ off b, ResponseWire env (some req.method) off r b := by
    induction h with
    | final off r b h hf => intro x hx; cases hx; exact ⟨_, _, h⟩
    | interim off r b rs bs h hi hrs ih =>
      intro x hx
      cases rs with
      | nil => cases hrs
      | cons y ys => exact ih x (by simpa using hx)
  unfold switches
  cases hl : rs.getLast? with
  | none => rfl
  | some r =>
    obtain ⟨off, b, hr⟩ := key r hl
    cases hr with
    | mk h version a b c reason es tes body bodyBytes hh hclean h101 hcon hb =>
      simp only [Bool.or_eq_false_iff, beq_eq_false_iff_ne, ne_eq, Bool.and_eq_false_imp, beq_iff_eq]
      refine ⟨h101, fun hm => ?_⟩
      have := hcon (by rw [hm])
      rw [Bool.eq_false_iff]
      simpa [successful] using this

theorem requestWire_ne {env : FrameEnv} {off : Nat} {r : FReq} {b : Str}
    (h : RequestWire env off r b) : b ≠ [] := by
  cases h; exact heading_ne _ _

theorem requestLoop_wire (env : FrameEnv) (fuel : Nat) (i o : SS) (xs : List (FReq × List FResp))
    (bs cs : Str) (hd : Dialogue env i.pos o.pos xs bs cs) (hi : i.rest = bs) (ho : o.rest = cs)
    (hic : i.complaints = []) (hoc : o.complaints = []) (his : i.sane = true)
    (hos : o.sane = true) (hie : i.eof = bs.isEmpty) (hoe : o.eof = cs.isEmpty)
    (hfuel : xs.length < fuel) :
    requestLoop env fuel i (some o) = (xs.map fun x => .exch (some x.1) x.2,
      .ok (⟨[], i.pos + bs.length, true, true, []⟩, some ⟨[], o.pos + cs.length, true, true, []⟩)) := by
  induction fuel generalizing i o xs bs cs with
  | zero => simp at hfuel
  | succ fuel ih =>
    cases hd with
    | nil =>
      have hg : ¬i.good = true := by rw [good_iff]; simp [hie]
      unfold requestLoop
      rw [if_neg hg]
      obtain ⟨_, _, _, _, _⟩ := i
      obtain ⟨_, _, _, _, _⟩ := o
      simp_all
    | cons _ _ req b resps c rest bs cs hreq hresps hrest =>
      have hb := requestWire_ne hreq
      have hc := responses_ne hresps
      have hg : i.good = true := by rw [good_iff]; simp [hie, his, hb]
      have hgo : o.good = true := by rw [good_iff]; simp [hoe, hos, hc]
      unfold requestLoop
      rw [if_pos hg, request_wire env i req b bs hreq hi hic]
      simp only
      rw [if_pos hgo]
      have hlen := responses_len hresps
      rw [responses_wire env (some req.method) (o.rest.length + 2) o resps c cs hresps ho hoc hgo
        (by rw [ho, List.length_append]; omega)]
      simp only
      rw [responses_not_switch hresps]
      rw [ih ((to i b.length bs []).spoil false) (to o c.length cs []) rest bs cs hrest rfl rfl
        (by simp [SS.spoil, to, hic]) (by simp [to, hoc]) (by simp [SS.spoil, to, his])
        (by simp [to, hos]) (by simp [SS.spoil, to, hie, hb]) (by simp [to, hoe, hc])
        (by simpa using hfuel)]
      simp [boxIf, SS.spoil, to, Nat.add_assoc]

theorem dialogue_len {env : FrameEnv} {i o : Nat} {xs : List (FReq × List FResp)} {bs cs : Str}
    (h : Dialogue env i o xs bs cs) : xs.length ≤ bs.length := by
  induction h with
  | nil => simp
  | cons _ _ req b resps c rest bs cs hreq hresps hrest ih =>
    have := List.length_pos_iff.2 (requestWire_ne hreq)
    simp only [List.length_cons, List.length_append]; omega

end Httpolice.Lemmas
