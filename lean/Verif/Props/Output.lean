import Verif.Spec.Output
import Verif.Props.Run
import Verif.Props.StreamRun
import Verif.Props.Report

/-!
# C102: what a whole run of the command prints
-/

namespace Httpolice.Props

open Httpolice.Model Httpolice.Spec Httpolice.Lemmas Httpolice.Lemmas.Check

/-! ## Lines of notices -/

theorem severityOf_row : ∀ row ∈ noticeRows, severityOf row.id = row.severity := by decide +kernel

/-- A line for a notice that is in the catalogue. -/
theorem lineFor_iff {V : Wording} {y : Yield} {t : Target} {c : Complaint Ctx} {line : Str} (h : ∃ row ∈ noticeRows, row.id = c.id) :
    LineFor V y t c line ↔ line = noticeLine ⟨severityOf c.id, c.id, V.title y t c⟩ := by
  have key : ∀ s : Severity, noticeLine ⟨s, c.id, V.title y t c⟩ = [letter s] ++ [32] ++ decimalText c.id ++ [32] ++
      detypographize (stripText (pieceText (V.title y t c))) := by
    intro s
    cases s <;> rfl
  unfold LineFor
  rw [key]
  constructor
  · rintro ⟨row, hr, hid, rfl⟩
    rw [← hid, severityOf_row row hr]
  · rintro rfl
    obtain ⟨row, hr, hid⟩ := h
    exact ⟨row, hr, hid, by rw [← hid, severityOf_row row hr]⟩

/-- The texts of lines. -/
theorem complaintLines (cs : List TComplaint) : cs.flatMap complaintLine = (cs.map noticeLine).flatMap (· ++ [10]) := by
  induction cs with
  | nil => rfl
  | cons c cs ih => rw [List.flatMap_cons, ih, List.map_cons, List.flatMap_cons, complaintLine_eq]

theorem flatMap_nl_nil {ls : List Str} : ls.flatMap (· ++ [10]) = [] ↔ ls = [] := by
  cases ls with
  | nil => simp
  | cons l ls => simp

theorem writeIfAny_under (top : Str) (ls : List Str) :
    ∃ group, Under top ls group ∧ writeIfAny (top ++ [10]) (ls.flatMap (· ++ [10])) = group.flatMap (· ++ [10]) := by
  unfold writeIfAny
  by_cases h : ls = []
  · subst h
    exact ⟨[], .inl ⟨rfl, rfl⟩, rfl⟩
  · refine ⟨top :: ls, .inr ⟨h, rfl⟩, ?_⟩
    rw [if_neg, List.flatMap_cons]
    rw [List.isEmpty_iff]
    exact mt flatMap_nl_nil.1 h

/-! ## Blocks of exchanges -/

section
variable {S : Setup} {V : Wording} {x : Option Str × Yield} {b : ExchBoards Ctx} (hb : ShownAs S x b)
  (hcat : ∀ t c, ToShow S x.1 x.2 t c → ∃ row ∈ noticeRows, row.id = c.id)
include hb hcat

theorem lists_lines (t : Target) : TellsOf S V x t ((V.lines x.2 t (b.get t)).map noticeLine) := by
  intro line
  constructor
  · intro h
    cases ho : b.get t with
    | none => rw [ho] at h; cases h
    | some obj =>
      rw [ho] at h
      simp only [Wording.lines, List.mem_map] at h
      obtain ⟨_, ⟨c, hc, rfl⟩, rfl⟩ := h
      have hs := (hb.2 t c).1 ⟨obj, ho, hc⟩
      exact ⟨c, hs, (lineFor_iff (hcat t c hs)).2 rfl⟩
  · rintro ⟨c, hs, hline⟩
    obtain ⟨obj, ho, hc⟩ := (hb.2 t c).2 hs
    rw [(lineFor_iff (hcat t c hs)).1 hline, ho]
    exact List.mem_map_of_mem (List.mem_map_of_mem (f := fun c => (⟨severityOf c.id, c.id, V.title x.2 t c⟩ : TComplaint)) hc)

omit hb hcat in
theorem marker_heading (req : Option FReq) (resps : List FResp) (b : ExchBoards Ctx) :
    exchangeMarker (V.exchange (.exch req resps) b) = heading (.exch req resps) ++ [10] := by
  unfold exchangeMarker Wording.exchange
  cases req with
  | some r => rfl
  | none =>
    cases resps with
    | nil => rfl
    | cons r rs => rfl

omit hb hcat in
theorem marker_subheading (r : FResp) (cs : List TComplaint) :
    responseMarker ⟨r.status, findReasonPhrase r.reason (V.status r.status), cs⟩ = subheading V r ++ [10] := by
  unfold responseMarker subheading findReasonPhrase
  cases hr : r.reason with
  | cons => rfl
  | nil =>
    cases hs : V.status r.status with
    | none => rfl
    | some s => cases s <;> rfl

theorem responses_groups (rs : List FResp) (k : Nat) : ∃ groups : List (List Str), groups.length = rs.length ∧
    (∀ (i : Nat) r group, rs[i]? = some r → groups[i]? = some group →
      ∃ lines, TellsOf S V x (.resp (k + i)) lines ∧ Under (subheading V r) lines group) ∧
    (V.responses x.2 b k rs).flatMap responseBlock = groups.flatten.flatMap (· ++ [10]) := by
  induction rs generalizing k with
  | nil => exact ⟨[], rfl, fun i r g h => by simp at h, rfl⟩
  | cons r rs ih =>
    obtain ⟨gs, h1, h2, h3⟩ := ih (k + 1)
    obtain ⟨g, hg1, hg2⟩ := writeIfAny_under (subheading V r) ((V.lines x.2 (.resp k) (b.get (.resp k))).map noticeLine)
    refine ⟨g :: gs, by simp [h1], ?_, ?_⟩
    · intro i r' g' hr hg
      cases i with
      | zero =>
        cases hr; cases hg
        exact ⟨_, lists_lines hb hcat _, hg1⟩
      | succ i =>
        have := h2 i r' g' (by simpa using hr) (by simpa using hg)
        rwa [Nat.add_assoc, Nat.add_comm 1 i] at this
    · rw [Wording.responses, List.flatMap_cons, h3, List.flatten_cons, List.flatMap_append, ← hg2, responseBlock,
        marker_subheading, complaintLines]

theorem exchange_block : Block S V x (exchangeBlock (V.exchange x.2 b)) := by
  have hr : ∀ c, x.2 = .box c → TellsOf S V x .req [] := by
    intro id hid
    have := lists_lines (V := V) hb hcat .req
    have h1 := hb.1.1
    rw [hid] at h1
    have : b.get .req = none := by
      cases hq : b.request with
      | none => exact hq
      | some q => rw [hq] at h1; cases h1
    have h2 := lists_lines (V := V) hb hcat .req
    rw [this] at h2
    exact h2
  obtain ⟨scheme, y⟩ := x
  cases y with
  | box id =>
    obtain ⟨all, h1, h2⟩ := writeIfAny_under (heading (.box id)) ((V.lines (.box id) .exch (b.get .exch)).map noticeLine)
    refine ⟨[], [], _, all, hr id rfl, lists_lines hb hcat .exch, rfl, fun i r g h => by simp [responsesOf] at h, ?_, ?_⟩
    · simpa using h1
    · rw [← h2, exchangeBlock, ← complaintLines]
      rfl
  | exch req resps =>
    obtain ⟨groups, g1, g2, g3⟩ := responses_groups (V := V) hb hcat resps 0
    have hq : ∃ ls : List Str, TellsOf S V (scheme, .exch req resps) .req ls ∧
        requestLines (V.exchange (.exch req resps) b).request = ls.flatMap (· ++ [10]) := by
      refine ⟨_, lists_lines hb hcat .req, ?_⟩
      cases req with
      | some r =>
        unfold Wording.exchange requestLines
        simp only [Option.map_some]
        rw [complaintLines]
      | none =>
        have h1 := hb.1.1
        have : b.get .req = none := by
          cases hq : b.request with
          | none => exact hq
          | some q => rw [hq] at h1; cases h1
        rw [this]
        rfl
    obtain ⟨ls, hq1, hq2⟩ := hq
    obtain ⟨all, h1, h2⟩ := writeIfAny_under (heading (.exch req resps))
      (ls ++ groups.flatten ++ (V.lines (.exch req resps) .exch (b.get .exch)).map noticeLine)
    refine ⟨ls, groups, _, all, hq1, lists_lines hb hcat .exch, g1, fun i r g hi hg => ?_, h1, ?_⟩
    · have := g2 i r g hi hg
      rwa [Nat.zero_add] at this
    · rw [← h2, exchangeBlock, marker_heading, List.flatMap_append, List.flatMap_append, ← g3, ← hq2, ← complaintLines]
      rfl

omit hcat in
/-- Notices of an exchange in the report. -/
theorem noticesOf_iff (c' : TComplaint) : c' ∈ noticesOf (V.exchange x.2 b) ↔
    ∃ t c, ToShow S x.1 x.2 t c ∧ c' = ⟨severityOf c.id, c.id, V.title x.2 t c⟩ := by
  have mem_lines : ∀ t, c' ∈ V.lines x.2 t (b.get t) ↔ ∃ c, ToShow S x.1 x.2 t c ∧ c' = ⟨severityOf c.id, c.id, V.title x.2 t c⟩ := by
    intro t
    constructor
    · intro h
      cases ho : b.get t with
      | none => rw [ho] at h; cases h
      | some obj =>
        rw [ho] at h
        obtain ⟨c, hc, rfl⟩ := List.mem_map.1 h
        exact ⟨c, (hb.2 t c).1 ⟨obj, ho, hc⟩, rfl⟩
    · rintro ⟨c, hs, rfl⟩
      obtain ⟨obj, ho, hc⟩ := (hb.2 t c).2 hs
      rw [ho]
      exact List.mem_map.2 ⟨c, hc, rfl⟩
  have mem_resps : ∀ (rs : List FResp) (k : Nat), (∃ r ∈ V.responses x.2 b k rs, c' ∈ r.complaints) ↔
      ∃ i, i < rs.length ∧ c' ∈ V.lines x.2 (.resp (k + i)) (b.get (.resp (k + i))) := by
    intro rs
    induction rs with
    | nil => intro k; simp [Wording.responses]
    | cons r rs ih =>
      intro k
      simp only [Wording.responses, List.mem_cons, exists_eq_or_imp, ih]
      constructor
      · rintro (h | ⟨i, hi, h⟩)
        · exact ⟨0, by simp, h⟩
        · exact ⟨i + 1, by simp; omega, by rwa [show k + (i + 1) = k + 1 + i by omega]⟩
      · rintro ⟨i, hi, h⟩
        cases i with
        | zero => exact .inl h
        | succ i => exact .inr ⟨i, by simpa using hi, by rwa [show k + 1 + i = k + (i + 1) by omega]⟩
  have absent : b.request = none → ¬c' ∈ V.lines x.2 .req (b.get .req) := by
    intro h hm
    rw [show b.get .req = none from h] at hm
    cases hm
  have big : ∀ i, b.responses.length ≤ i → ¬c' ∈ V.lines x.2 (.resp i) (b.get (.resp i)) := by
    intro i h hm
    rw [show b.get (.resp i) = none from List.getElem?_eq_none h] at hm
    cases hm
  have total : (∃ t c, ToShow S x.1 x.2 t c ∧ c' = ⟨severityOf c.id, c.id, V.title x.2 t c⟩) ↔
      ∃ t, c' ∈ V.lines x.2 t (b.get t) := by simp only [mem_lines]
  rw [total]
  have hs := hb.1
  clear total mem_lines hb
  obtain ⟨scheme, y⟩ := x
  unfold noticesOf
  simp only [List.mem_append, List.mem_flatMap, Option.mem_toList]
  cases y with
  | box id =>
    have hr0 : b.request = none := by
      cases hq : b.request with
      | none => rfl
      | some q => rw [hq] at hs; cases hs.1
    have hl0 : b.responses.length = 0 := hs.2
    simp only [Wording.exchange]
    constructor
    · rintro ((⟨_, h, _⟩ | ⟨_, h, _⟩) | h)
      · cases h
      · cases h
      · exact ⟨.exch, h⟩
    · rintro ⟨t, h⟩
      cases t with
      | exch => exact .inr h
      | req => exact absurd h (absent hr0)
      | resp i => exact absurd h (big i (by omega))
  | exch req resps =>
    have hl0 : b.responses.length = resps.length := by
      rw [hs.2]
      simp [captured, streamExchange]
    simp only [Wording.exchange, mem_resps, Nat.zero_add]
    constructor
    · rintro ((⟨r, h, hc⟩ | ⟨i, _, h⟩) | h)
      · cases req with
        | none => cases h
        | some q => cases h; exact ⟨.req, hc⟩
      · exact ⟨_, h⟩
      · exact ⟨_, h⟩
    · rintro ⟨t, h⟩
      cases t with
      | exch => exact .inr h
      | resp i =>
        refine .inl (.inr ⟨i, ?_, h⟩)
        rcases Nat.lt_or_ge i resps.length with hi | hi
        · exact hi
        · exact absurd h (big i (by omega))
      | req =>
        cases req with
        | some q => exact .inl (.inl ⟨_, rfl, h⟩)
        | none =>
          refine absurd h (absent ?_)
          cases hq : b.request with
          | none => rfl
          | some q => rw [hq] at hs; cases hs.1

end

/-! ## No line feeds in messages -/

/-- What the report shows of messages has no line feeds. -/
def NoFeeds : Yield → Prop
  | .exch req resps => (∀ r, req = some r → 10 ∉ r.method ∧ 10 ∉ r.target) ∧ ∀ r ∈ resps, 10 ∉ r.reason
  | .box _ => True

theorem streams_unbroken {env : FrameEnv} {inb outb : Option Str} {ys : List Yield} {final : Option SS × Option SS}
    (h : runStreams env inb outb = (ys, .ok final)) {y : Yield} (hy : y ∈ ys) : NoFeeds y := by
  cases y with
  | box id => trivial
  | exch req resps =>
    refine ⟨?_, fun r hr => ?_⟩
    · rintro r rfl
      obtain ⟨pre, post, he⟩ := List.append_of_mem hy
      obtain ⟨s, s', hf, _⟩ := reqTrace_at (parseStreams_origin h).1 he
      obtain ⟨_, hs, _, _, hh, _⟩ := request_body hf
      have h1 := hh.start.lf
      rw [hh.text] at h1
      simp only [List.mem_append, not_or] at h1
      exact ⟨h1.1.1.1.1, h1.1.1.2⟩
    · obtain ⟨s, s', hf⟩ := resp_from h hy hr
      obtain ⟨_, hs, a, b, c, _, _, hh, _⟩ := response_body hf.parsed hf.complaints
      have h1 := hh.start.lf
      rw [hh.text] at h1
      simp only [List.mem_append, not_or] at h1
      exact h1.2

theorem oneLiners {V : Wording} (hV : OneLine V) {y : Yield} (hy : NoFeeds y) (b : ExchBoards Ctx) : OneLiners (V.exchange y b) := by
  have lines : ∀ t o, ∀ c ∈ V.lines y t o, ∀ p ∈ c.title, 10 ∉ p := by
    intro t o c hc
    cases o with
    | none => cases hc
    | some obj =>
      obtain ⟨c, _, rfl⟩ := List.mem_map.1 hc
      exact hV.1 y t c
  have resps : ∀ (rs : List FResp) (k : Nat), (∀ r ∈ rs, 10 ∉ r.reason) → ∀ r ∈ V.responses y b k rs,
      10 ∉ r.phrase ∧ ∀ c ∈ r.complaints, ∀ p ∈ c.title, 10 ∉ p := by
    intro rs
    induction rs with
    | nil => intro k _ r hr; cases hr
    | cons r rs ih =>
      intro k h r' hr'
      rcases List.mem_cons.1 hr' with rfl | hr'
      · refine ⟨?_, lines _ _⟩
        show 10 ∉ findReasonPhrase r.reason (V.status r.status)
        unfold findReasonPhrase
        split
        · split
          · decide
          · rename_i t ht
            split
            · decide
            · exact hV.2 _ _ ht
        · exact h r List.mem_cons_self
      · exact ih (k + 1) (fun z hz => h z (List.mem_cons_of_mem _ hz)) r' hr'
  cases y with
  | box id =>
    refine ⟨nofun, nofun, fun c hc => ?_⟩
    simp only [noticesOf, Wording.exchange, Option.toList_none, List.flatMap_nil, List.nil_append] at hc
    exact lines _ _ c hc
  | exch req rs =>
    refine ⟨?_, fun r hr => (resps rs 0 hy.2 r hr).1, fun c hc => ?_⟩
    · intro r hr
      cases req with
      | none => cases hr
      | some q => cases hr; exact hy.1 q rfl
    · simp only [noticesOf, List.mem_append, List.mem_flatMap, Option.mem_toList] at hc
      rcases hc with (⟨r, hr, hc⟩ | ⟨r, hr, hc⟩) | hc
      · cases req with
        | none => cases hr
        | some q => cases hr; exact lines _ _ c hc
      · exact (resps rs 0 hy.2 r hr).2 c hc
      · exact lines .exch (b.get .exch) c hc

/-! ## Reports -/

section
variable {S : Setup} (hW : Ready S.world) (hl : LowersAscii S.base.lower) {V : Wording}
include hW hl

/-- The report on exchanges none of which make checks raise. -/
theorem report_blocks {zs : List (Option Str × Yield)} (hz : ∀ x ∈ zs, ¬Breaks S x.1 x.2)
    (hcat : ∀ x ∈ zs, ∀ t c, ToShow S x.1 x.2 t c → ∃ row ∈ noticeRows, row.id = c.id) :
    ∃ blocks, textReport (zs.map fun x => V.exchange x.2 (S.report x.1 x.2)) = blocks.flatten ∧ Pairwise2 (Block S V) zs blocks := by
  induction zs with
  | nil => exact ⟨[], rfl, .nil⟩
  | cons x zs ih =>
    obtain ⟨bs, h1, h2⟩ := ih (fun z h => hz z (List.mem_cons_of_mem _ h)) fun z h => hcat z (List.mem_cons_of_mem _ h)
    refine ⟨_ :: bs, ?_, .cons (exchange_block (report_shown hW hl (hz x List.mem_cons_self)) (hcat x List.mem_cons_self)) h2⟩
    rw [List.map_cons, textReport, List.flatMap_cons, List.flatten_cons]
    congr 1

theorem report_lines (hV : OneLine V) {zs : List (Option Str × Yield)} (hz : ∀ x ∈ zs, ¬Breaks S x.1 x.2)
    (hcat : ∀ x ∈ zs, ∀ t c, ToShow S x.1 x.2 t c → ∃ row ∈ noticeRows, row.id = c.id) (hu : ∀ x ∈ zs, NoFeeds x.2) (line : Str) :
    (line ∈ linesOf (textReport (zs.map fun x => V.exchange x.2 (S.report x.1 x.2))) ∧ line.head? ≠ some 45) ↔
      ∃ x ∈ zs, ∃ t c, ToShow S x.1 x.2 t c ∧ LineFor V x.2 t c line := by
  have h := C41_notices (zs.map fun x => V.exchange x.2 (S.report x.1 x.2)) (by
    intro e he
    obtain ⟨x, hx, rfl⟩ := List.mem_map.1 he
    exact oneLiners hV (hu x hx) _)
  have : (line ∈ linesOf (textReport (zs.map fun x => V.exchange x.2 (S.report x.1 x.2))) ∧ line.head? ≠ some 45) ↔
      line ∈ (linesOf (textReport (zs.map fun x => V.exchange x.2 (S.report x.1 x.2)))).filter (fun l => l.head? != some 45) := by
    rw [List.mem_filter]
    simp
  rw [this, h]
  simp only [List.mem_map, List.mem_flatMap]
  constructor
  · rintro ⟨c', ⟨_, ⟨x, hx, rfl⟩, hc⟩, rfl⟩
    obtain ⟨t, c, hs, rfl⟩ := (noticesOf_iff (report_shown hW hl (hz x hx)) c').1 hc
    exact ⟨x, hx, t, c, hs, (lineFor_iff (hcat x hx t c hs)).2 rfl⟩
  · rintro ⟨x, hx, t, c, hs, hline⟩
    exact ⟨_, ⟨_, ⟨x, hx, rfl⟩, (noticesOf_iff (report_shown hW hl (hz x hx)) _).2 ⟨t, c, hs, rfl⟩⟩,
      ((lineFor_iff (hcat x hx t c hs)).1 hline).symm⟩

omit hW hl in
theorem head_grave {y : Yield} {t : Target} {c : Complaint Ctx} {line : Str} (h : LineFor V y t c line) (T : Severity) :
    (∃ a ∈ lettersFrom T, line.head? = some a) ↔ Grave T c.id := by
  obtain ⟨row, hr, hid, rfl⟩ := h
  have hc : ∃ row ∈ noticeRows, row.id = c.id := ⟨row, hr, hid⟩
  rw [grave_iff hc, ← hid, severityOf_row row hr]
  simp only [List.cons_append, List.head?_cons, Option.some.injEq]
  cases T <;> cases row.severity <;> simp [lettersFrom, letter, AtLeast]

omit hW hl in
theorem letter_not_dash {T : Severity} {line : Str} (h : ∃ a ∈ lettersFrom T, line.head? = some a) : line.head? ≠ some 45 := by
  obtain ⟨a, ha, h⟩ := h
  rw [h]
  rintro h
  cases h
  cases T <;> simp [lettersFrom] at ha

/-! ## Combined files -/

theorem reached_worked {good : List (Str × Option Str)} {xs : List (Option Str × List Yield)} (h : Worked S good xs)
    (rest : List (Str × Option Str)) : S.reachedCombined (good ++ rest) = inTurn xs ++ S.reachedCombined rest := by
  unfold Worked at h
  induction h with
  | nil => rfl
  | @cons f x good xs hx _ ih =>
    obtain ⟨⟨inb, outb, final, hp, hs⟩, hb⟩ := hx
    obtain ⟨data, text, hd, hc⟩ := parts_iff.1 hp
    obtain ⟨cs, k1, _⟩ := reportAll_calm hW hl hb
    obtain ⟨path, d⟩ := f
    subst hd
    rw [List.cons_append, Setup.reachedCombined, hc]
    simp only [hs, k1, ih, reached_calm hW hl hb]
    simp [inTurn]

omit hW hl in
theorem worked_calm {files : List (Str × Option Str)} {xs : List (Option Str × List Yield)} (h : Worked S files xs) :
    ∀ x ∈ inTurn xs, ¬Breaks S x.1 x.2 ∧ NoFeeds x.2 := by
  intro x hx
  simp only [inTurn, List.mem_flatMap, List.mem_map] at hx
  obtain ⟨f, hf, y, hy, rfl⟩ := hx
  obtain ⟨file, _, ⟨inb, outb, final, _, hs⟩, hb⟩ := (p2_mem h).2 f hf
  exact ⟨hb y hy, streams_unbroken (inb := some inb) (outb := some outb) hs hy⟩

theorem print_worked {files : List (Str × Option Str)} {xs : List (Option Str × List Yield)} (h : Worked S files xs) :
    S.printCombined V files = textReport ((inTurn xs).map fun x => V.exchange x.2 (S.report x.1 x.2)) := by
  have := reached_worked hW hl h []
  rw [List.append_nil] at this
  unfold Setup.printCombined
  rw [this]
  simp [Setup.reachedCombined]

/-- **C102**: what is printed is a block for every exchange, in order, with a line for every notice and nothing for an
exchange without notices. -/
theorem C102_blocks {files : List (Str × Option Str)} {xs : List (Option Str × List Yield)} (h : Worked S files xs) :
    ∃ blocks, S.printCombined V files = blocks.flatten ∧ Pairwise2 (Block S V) (inTurn xs) blocks := by
  rw [print_worked hW hl h]
  exact report_blocks hW hl (fun x hx => (worked_calm h x hx).1) fun x hx t c hs => C98_catalogue hW hl h hx hs

/-- **C102**: the same up to a file that cannot be read or has no markers. -/
theorem C102_unreadable {files after : List (Str × Option Str)} {xs : List (Option Str × List Yield)} {file : Str × Option Str}
    (h : Worked S files xs) (hf : ¬∃ inbound outbound scheme, CombinedParts S.decodeUtf8 file inbound outbound scheme) :
    S.printCombined V (files ++ file :: after) = S.printCombined V files := by
  have h0 : S.reachedCombined (file :: after) = [] := by
    obtain ⟨path, d⟩ := file
    cases d with
    | none => rfl
    | some data =>
      rw [Setup.reachedCombined]
      cases hc : parseCombined S.decodeUtf8 path data with
      | error e => rfl
      | ok r =>
        obtain ⟨i, o, s, t⟩ := r
        exact absurd ⟨i, o, s, parts_iff.2 ⟨data, t, rfl, hc⟩⟩ hf
  rw [print_worked hW hl h]
  unfold Setup.printCombined
  rw [reached_worked hW hl h, h0, List.append_nil]

/-- **C102**: lines that do not start with a dash tell of the notices that are to be shown, and of nothing else. -/
theorem C102_lines (hV : OneLine V) {files : List (Str × Option Str)} {xs : List (Option Str × List Yield)} (h : Worked S files xs)
    (line : Str) : (line ∈ linesOf (S.printCombined V files) ∧ line.head? ≠ some 45) ↔
      ∃ x ∈ inTurn xs, ∃ t c, ToShow S x.1 x.2 t c ∧ LineFor V x.2 t c line := by
  rw [print_worked hW hl h]
  exact report_lines hW hl hV (fun x hx => (worked_calm h x hx).1) (fun x hx t c hs => C98_catalogue hW hl h hx hs)
    (fun x hx => (worked_calm h x hx).2) line

/-- **C102**: the exit status can be told from what is printed: it is 1 if and only if some line starts with the letter of a severity
that is the threshold or higher. -/
theorem C102_exit (hV : OneLine V) {files : List (Str × Option Str)} {xs : List (Option Str × List Yield)} (h : Worked S files xs) :
    (S.exitCode files = some 0 ∨ S.exitCode files = some 1) ∧
    (S.exitCode files = some 1 ↔ ∃ T, S.failOn = some T ∧
      ∃ line ∈ linesOf (S.printCombined V files), ∃ a ∈ lettersFrom T, line.head? = some a) := by
  have key : (∃ T, S.failOn = some T ∧ ∃ x ∈ inTurn xs, ∃ t c, ToShow S x.1 x.2 t c ∧ Grave T c.id) ↔ ∃ T, S.failOn = some T ∧
      ∃ line ∈ linesOf (S.printCombined V files), ∃ a ∈ lettersFrom T, line.head? = some a := by
    constructor
    · rintro ⟨T, hT, x, hx, t, c, hs, hg⟩
      obtain ⟨row, hr, hid, _⟩ := id hg
      have hline : LineFor V x.2 t c _ := ⟨row, hr, hid, rfl⟩
      have := (C102_lines hW hl hV h _).2 ⟨x, hx, t, c, hs, hline⟩
      exact ⟨T, hT, _, this.1, (head_grave hline T).2 hg⟩
    · rintro ⟨T, hT, line, hline, ha⟩
      obtain ⟨x, hx, t, c, hs, hf⟩ := (C102_lines hW hl hV h line).1 ⟨hline, letter_not_dash ha⟩
      exact ⟨T, hT, x, hx, t, c, hs, (head_grave hf T).1 ha⟩
  have e1 : (∃ T, S.failOn = some T ∧ ∃ x ∈ inTurn xs, ∃ t c, ToShow S x.1 x.2 t c ∧ Grave T c.id) → S.exitCode files = some 1 := by
    rintro ⟨T, hT, hx⟩
    exact ((C98_exit hW hl files).2.1).2 (.inl ⟨xs, T, h, hT, hx⟩)
  have e0 : ¬(∃ T, S.failOn = some T ∧ ∃ x ∈ inTurn xs, ∃ t c, ToShow S x.1 x.2 t c ∧ Grave T c.id) → S.exitCode files = some 0 :=
    fun hn => ((C98_exit hW hl files).1).2 ⟨xs, h, fun T hT x hx t c hs hg => hn ⟨T, hT, x, hx, t, c, hs, hg⟩⟩
  rw [← key]
  by_cases hk : ∃ T, S.failOn = some T ∧ ∃ x ∈ inTurn xs, ∃ t c, ToShow S x.1 x.2 t c ∧ Grave T c.id
  · exact ⟨.inr (e1 hk), ⟨fun _ => hk, e1⟩⟩
  · refine ⟨.inl (e0 hk), ⟨fun h1 => ?_, e1⟩⟩
    rw [e0 hk] at h1
    cases h1

/-! ## Streams and captures -/

variable {D : Disk} {format : StreamFormat} {paths : List Str} {pairs : List PathPair} {yss : List (List Yield)}

omit hW hl in
theorem conveyed_unbroken {captures : Bool} {pair : PathPair} {ys : List Yield} (hc : Conveyed S D captures pair ys) {y : Yield}
    (hy : y ∈ ys) : NoFeeds y := by
  obtain ⟨a, b, _, _, ⟨_, rest, rfl, hr⟩ | ⟨_, f, hr⟩⟩ := hc
  · rcases List.mem_append.1 hy with hy | hy
    · split at hy
      · rw [List.mem_singleton.1 hy]; trivial
      · cases hy
    · rcases hr with ⟨_, rfl⟩ | ⟨i, o, _, f, hr⟩
      · rw [List.mem_singleton.1 hy]; trivial
      · exact streams_unbroken (inb := i) (outb := o) hr hy
  · exact streams_unbroken (inb := a) (outb := b) hr hy

/-- What is printed, with the exchanges that it is about. -/
theorem print_format (hp : D.pairs format paths = .ok pairs) (hc : Pairwise2 (Conveyed S D format.captures) pairs yss)
    (hst : ∀ ys ∈ yss, ∀ y ∈ ys, Steady S y) : ∃ out, Interleaving yss out ∧
      S.printFormat V D format paths = some (textReport ((out.map (some (str "http"), ·)).map fun x => V.exchange x.2 (S.report x.1 x.2))) ∧
      (∀ time : Yield → Int, Pairwise2 (fun pair ys => Advances S time pair.2.2 ys) pairs yss → (out.map time).Pairwise (· ≤ ·)) := by
  obtain ⟨out, more, boards, e, _, h2, ⟨h3, _⟩, _, h5, h6, _, h7⟩ := run_core hW hl hp hc
  obtain rfl := h6 hst
  rcases h5 with ⟨_, rfl⟩ | h5
  · refine ⟨out, by rwa [List.append_nil] at h2, ?_, h7⟩
    unfold Setup.printFormat
    rw [h3, Option.map_some, List.map_map]
    rfl
  · cases h5

theorem out_facts (hc : Pairwise2 (Conveyed S D format.captures) pairs yss) (hst : ∀ ys ∈ yss, ∀ y ∈ ys, Steady S y) {out : List Yield}
    (ho : Interleaving yss out) : ∀ x ∈ out.map (some (str "http"), ·), ¬Breaks S x.1 x.2 ∧ NoFeeds x.2 ∧
      ∀ t c, ToShow S x.1 x.2 t c → ∃ row ∈ noticeRows, row.id = c.id := by
  intro x hx
  obtain ⟨y, hy, rfl⟩ := List.mem_map.1 hx
  obtain ⟨ys, hys, hy⟩ := List.mem_flatten.1 ((interleaving_perm ho).mem_iff.1 hy)
  obtain ⟨p, _, hcv⟩ := (pairwise2_mem hc).1 ys hys
  exact ⟨(hst ys hys y hy).1, conveyed_unbroken hcv hy, fun t c hs => conveyed_catalogued hW hl hcv hy hs⟩

/-- **C102**: the same for streams and captures. Exchanges of a connection are in order, and all are in the order of time if
time does not go back within the connections. -/
theorem C102_stream_blocks (hp : D.pairs format paths = .ok pairs) (hc : Pairwise2 (Conveyed S D format.captures) pairs yss)
    (hst : ∀ ys ∈ yss, ∀ y ∈ ys, Steady S y) : ∃ out blocks, Interleaving yss out ∧
      S.printFormat V D format paths = some blocks.flatten ∧ Pairwise2 (Block S V) (out.map (some (str "http"), ·)) blocks ∧
      (∀ time : Yield → Int, Pairwise2 (fun pair ys => Advances S time pair.2.2 ys) pairs yss → (out.map time).Pairwise (· ≤ ·)) := by
  obtain ⟨out, h1, h2, h3⟩ := print_format (V := V) hW hl hp hc hst
  have hf := out_facts hW hl hc hst h1
  obtain ⟨blocks, h4, h5⟩ := report_blocks (V := V) hW hl (fun x hx => (hf x hx).1) fun x hx => (hf x hx).2.2
  exact ⟨out, blocks, h1, by rw [h2, h4], h5, h3⟩

/-- **C102**: lines and the exit status in runs on streams and captures. -/
theorem C102_stream_lines (hV : OneLine V) (hp : D.pairs format paths = .ok pairs) (hc : Pairwise2 (Conveyed S D format.captures) pairs yss)
    (hst : ∀ ys ∈ yss, ∀ y ∈ ys, Steady S y) : ∃ text, S.printFormat V D format paths = some text ∧
      (∀ line, (line ∈ linesOf text ∧ line.head? ≠ some 45) ↔
        ∃ ys ∈ yss, ∃ y ∈ ys, ∃ t c, ToShow S (some (str "http")) y t c ∧ LineFor V y t c line) ∧
      (S.exitFormat D format paths = some (some 1) ↔ ∃ T, S.failOn = some T ∧
        ∃ line ∈ linesOf text, ∃ a ∈ lettersFrom T, line.head? = some a) := by
  obtain ⟨out, h1, h2, _⟩ := print_format (V := V) hW hl hp hc hst
  have hf := out_facts hW hl hc hst h1
  have hlines := report_lines hW hl hV (fun x hx => (hf x hx).1) (fun x hx => (hf x hx).2.2) fun x hx => (hf x hx).2.1
  refine ⟨_, h2, ?_⟩
  generalize textReport ((out.map (some (str "http"), ·)).map fun x => V.exchange x.2 (S.report x.1 x.2)) = text at hlines
  have hlines : ∀ line, (line ∈ linesOf text ∧ line.head? ≠ some 45) ↔
        ∃ ys ∈ yss, ∃ y ∈ ys, ∃ t c, ToShow S (some (str "http")) y t c ∧ LineFor V y t c line := by
    intro line
    rw [hlines line]
    constructor
    · rintro ⟨x, hx, t, c, h⟩
      obtain ⟨y, hy, rfl⟩ := List.mem_map.1 hx
      obtain ⟨ys, hys, hy⟩ := List.mem_flatten.1 ((interleaving_perm h1).mem_iff.1 hy)
      exact ⟨ys, hys, y, hy, t, c, h⟩
    · rintro ⟨ys, hys, y, hy, t, c, h⟩
      exact ⟨_, List.mem_map.2 ⟨y, (interleaving_perm h1).mem_iff.2 (List.mem_flatten.2 ⟨ys, hys, hy⟩), rfl⟩, t, c, h⟩
  refine ⟨hlines, ?_⟩
  rw [(C100_exit hW hl hp hc hst).2]
  constructor
  · rintro ⟨T, hT, ys, hys, y, hy, t, c, hs, hg⟩
    obtain ⟨row, hr, hid, _⟩ := id hg
    have hline : LineFor V y t c _ := ⟨row, hr, hid, rfl⟩
    have := (hlines _).2 ⟨ys, hys, y, hy, t, c, hs, hline⟩
    exact ⟨T, hT, _, this.1, (head_grave hline T).2 hg⟩
  · rintro ⟨T, hT, line, hline, ha⟩
    obtain ⟨ys, hys, y, hy, t, c, hs, hf⟩ := (hlines line).1 ⟨hline, letter_not_dash ha⟩
    exact ⟨T, hT, ys, hys, y, hy, t, c, hs, (head_grave hf T).1 ha⟩

end

/-! ## Examples -/

/-- Titles that are the same for all, and one status. -/
def exWording : Wording := ⟨fun _ _ _ => [str "Wrong ", str "thing"], fun n => if n = 204 then some (str "No Content") else none⟩

/-- C102: a line of the report on a file with something that follows the last response. -/
example {W : World} (hW : Ready W) :
    str "E 1009 Wrong thing" ∈ linesOf ((exSetup W [] (some .error)).printCombined exWording [exFile]) := by
  obtain ⟨req, r, h⟩ := exFile_worked W [] (some .error)
  have hV : OneLine exWording := by
    refine ⟨fun y t c text h => ?_, fun n text h => ?_⟩
    · simp only [exWording, List.mem_cons, List.not_mem_nil, or_false] at h
      rcases h with rfl | rfl <;> decide +kernel
    · simp only [exWording] at h
      split at h
      · cases h; decide +kernel
      · cases h
  refine ((C102_lines (V := exWording) (S := exSetup W [] (some .error)) hW toy_lower hV h _).2
    ⟨(some (str "https"), .box 1009), by simp [inTurn], .exch, ⟨1009, []⟩, ?_, ?_⟩).1
  · refine ⟨.inl ⟨⟨1009, none⟩, rfl, rfl⟩, by simp [exSetup], fun h => h⟩
  · exact ⟨noticeRows.find? (·.id = 1009) |>.get (by decide +kernel), by decide +kernel, by decide +kernel, by decide +kernel⟩

end Httpolice.Props
