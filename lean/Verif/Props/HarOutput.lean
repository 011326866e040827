import Verif.Spec.HarOutput
import Verif.Props.HarRun
import Verif.Props.Output

/-!
# C104: what a whole run of the command on HAR files prints
-/

namespace Httpolice.Props

open Httpolice.Model Httpolice.Spec Httpolice.Lemmas Httpolice.Lemmas.Check HarLib

/-! ## Lines of notices -/

theorem harLineFor_iff {V : HarWording} {x : HarRequest × List HarResponse} {t : Target} {c : Complaint Ctx} {line : Str}
    (h : ∃ row ∈ noticeRows, row.id = c.id) :
    HarLineFor V x t c line ↔ line = noticeLine ⟨severityOf c.id, c.id, V.title x t c⟩ := by
  have key : ∀ s : Severity, noticeLine ⟨s, c.id, V.title x t c⟩ = [letter s] ++ [32] ++ decimalText c.id ++ [32] ++
      detypographize (stripText (pieceText (V.title x t c))) := by
    intro s
    cases s <;> rfl
  unfold HarLineFor
  rw [key]
  constructor
  · rintro ⟨row, hr, hid, rfl⟩
    rw [← hid, severityOf_row row hr]
  · rintro rfl
    obtain ⟨row, hr, hid⟩ := h
    exact ⟨row, hr, hid, by rw [← hid, severityOf_row row hr]⟩

theorem intText_signed (n : Int) : intText n = signedText n := by
  unfold signedText intText
  cases n with
  | ofNat k => rfl
  | negSucc k => rw [if_pos (Int.negSucc_lt_zero k)]; rfl

theorem marker_harSubheading (V : HarWording) (r : HarResponse) (cs : List TComplaint) :
    responseMarker ⟨r.status, findReasonPhrase (r.reason.getD []) (V.status r.status), cs⟩ = harSubheading V r ++ [10] := by
  unfold responseMarker harSubheading findReasonPhrase
  dsimp only
  rw [intText_signed]
  cases r.reason with
  | none =>
    cases hs : V.status r.status with
    | none => rfl
    | some s => cases s <;> rfl
  | some s =>
    cases s with
    | cons => rfl
    | nil =>
      cases hs : V.status r.status with
      | none => rfl
      | some s => cases s <;> rfl

/-! ## Blocks of exchanges -/

section
variable {S : Setup} {V : HarWording} {x : HarRequest × List HarResponse} {b : ExchBoards Ctx} (hb : HarShown S x b)
  (hcat : ∀ t c, HarToShow S x t c → ∃ row ∈ noticeRows, row.id = c.id)
include hb hcat

theorem har_lists (t : Target) : HarTellsOf S V x t ((V.lines x t (b.get t)).map noticeLine) := by
  intro line
  constructor
  · intro h
    cases ho : b.get t with
    | none => rw [ho] at h; cases h
    | some obj =>
      rw [ho] at h
      simp only [HarWording.lines, List.mem_map] at h
      obtain ⟨_, ⟨c, hc, rfl⟩, rfl⟩ := h
      have hs := (hb.2 t c).1 ⟨obj, ho, hc⟩
      exact ⟨c, hs, (harLineFor_iff (hcat t c hs)).2 rfl⟩
  · rintro ⟨c, hs, hline⟩
    obtain ⟨obj, ho, hc⟩ := (hb.2 t c).2 hs
    rw [(harLineFor_iff (hcat t c hs)).1 hline, ho]
    exact List.mem_map_of_mem (List.mem_map_of_mem (f := fun c => (⟨severityOf c.id, c.id, V.title x t c⟩ : TComplaint)) hc)

theorem har_groups (rs : List HarResponse) (k : Nat) : ∃ groups : List (List Str), groups.length = rs.length ∧
    (∀ (i : Nat) r group, rs[i]? = some r → groups[i]? = some group →
      ∃ lines, HarTellsOf S V x (.resp (k + i)) lines ∧ Under (harSubheading V r) lines group) ∧
    (V.responses x b k rs).flatMap responseBlock = groups.flatten.flatMap (· ++ [10]) := by
  induction rs generalizing k with
  | nil => exact ⟨[], rfl, fun i r g h => by simp at h, rfl⟩
  | cons r rs ih =>
    obtain ⟨gs, h1, h2, h3⟩ := ih (k + 1)
    obtain ⟨g, hg1, hg2⟩ := writeIfAny_under (harSubheading V r) ((V.lines x (.resp k) (b.get (.resp k))).map noticeLine)
    refine ⟨g :: gs, by simp [h1], ?_, ?_⟩
    · intro i r' g' hr hg
      cases i with
      | zero =>
        cases hr; cases hg
        exact ⟨_, har_lists hb hcat _, hg1⟩
      | succ i =>
        have := h2 i r' g' (by simpa using hr) (by simpa using hg)
        rwa [Nat.add_assoc, Nat.add_comm 1 i] at this
    · rw [HarWording.responses, List.flatMap_cons, h3, List.flatten_cons, List.flatMap_append, ← hg2, responseBlock,
        marker_harSubheading, complaintLines]

theorem har_block : HarBlock S V x (exchangeBlock (V.exchange x b)) := by
  obtain ⟨groups, g1, g2, g3⟩ := har_groups (V := V) hb hcat x.2 0
  obtain ⟨all, h1, h2⟩ := writeIfAny_under (harHeading x)
    ((V.lines x .req (b.get .req)).map noticeLine ++ groups.flatten ++ (V.lines x .exch (b.get .exch)).map noticeLine)
  refine ⟨_, groups, _, all, har_lists hb hcat .req, har_lists hb hcat .exch, g1, fun i r g hi hg => ?_, h1, ?_⟩
  · have := g2 i r g hi hg
    rwa [Nat.zero_add] at this
  · rw [← h2, List.flatMap_append, List.flatMap_append, ← g3, ← complaintLines, ← complaintLines]
    rfl

omit hcat in
/-- Notices of an exchange in the report. -/
theorem har_notices (c' : TComplaint) : c' ∈ noticesOf (V.exchange x b) ↔
    ∃ t c, HarToShow S x t c ∧ c' = ⟨severityOf c.id, c.id, V.title x t c⟩ := by
  have mem_lines : ∀ t, c' ∈ V.lines x t (b.get t) ↔ ∃ c, HarToShow S x t c ∧ c' = ⟨severityOf c.id, c.id, V.title x t c⟩ := by
    intro t
    constructor
    · intro h
      cases ho : b.get t with
      | none => rw [ho] at h; cases h
      | some obj =>
        rw [ho] at h
        obtain ⟨c, hc, rfl⟩ := List.mem_map.1 h
        exact ⟨c, (hb.2 t c).1 ⟨obj, ho, hc⟩, rfl⟩
    · rintro ⟨c, hs, rfl⟩
      obtain ⟨obj, ho, hc⟩ := (hb.2 t c).2 hs
      rw [ho]
      exact List.mem_map.2 ⟨c, hc, rfl⟩
  have mem_resps : ∀ (rs : List HarResponse) (k : Nat), (∃ r ∈ V.responses x b k rs, c' ∈ r.complaints) ↔
      ∃ i, i < rs.length ∧ c' ∈ V.lines x (.resp (k + i)) (b.get (.resp (k + i))) := by
    intro rs
    induction rs with
    | nil => intro k; simp [HarWording.responses]
    | cons r rs ih =>
      intro k
      simp only [HarWording.responses, List.mem_cons, exists_eq_or_imp, ih]
      constructor
      · rintro (h | ⟨i, hi, h⟩)
        · exact ⟨0, by simp, h⟩
        · exact ⟨i + 1, by simp; omega, by rwa [show k + (i + 1) = k + 1 + i by omega]⟩
      · rintro ⟨i, hi, h⟩
        cases i with
        | zero => exact .inl h
        | succ i => exact .inr ⟨i, by simpa using hi, by rwa [show k + 1 + i = k + (i + 1) by omega]⟩
  have big : ∀ i, b.responses.length ≤ i → ¬c' ∈ V.lines x (.resp i) (b.get (.resp i)) := by
    intro i h hm
    rw [show b.get (.resp i) = none from List.getElem?_eq_none h] at hm
    cases hm
  have total : (∃ t c, HarToShow S x t c ∧ c' = ⟨severityOf c.id, c.id, V.title x t c⟩) ↔
      ∃ t, c' ∈ V.lines x t (b.get t) := by simp only [mem_lines]
  have hl0 : b.responses.length = x.2.length := hb.1.2
  rw [total]
  unfold noticesOf
  simp only [List.mem_append, List.mem_flatMap, Option.mem_toList, HarWording.exchange, mem_resps, Nat.zero_add]
  constructor
  · rintro ((⟨r, h, hc⟩ | ⟨i, _, h⟩) | h)
    · cases h; exact ⟨.req, hc⟩
    · exact ⟨_, h⟩
    · exact ⟨_, h⟩
  · rintro ⟨t, h⟩
    cases t with
    | exch => exact .inr h
    | req => exact .inl (.inl ⟨_, rfl, h⟩)
    | resp i =>
      refine .inl (.inr ⟨i, ?_, h⟩)
      rcases Nat.lt_or_ge i x.2.length with hi | hi
      · exact hi
      · exact absurd h (big i (by omega))

end

theorem har_oneLiners {V : HarWording} (hV : HarOneLine V) {x : HarRequest × List HarResponse} (hx : HarNoFeeds x) (b : ExchBoards Ctx) :
    OneLiners (V.exchange x b) := by
  have lines : ∀ t o, ∀ c ∈ V.lines x t o, ∀ p ∈ c.title, 10 ∉ p := by
    intro t o c hc
    cases o with
    | none => cases hc
    | some obj =>
      obtain ⟨c, _, rfl⟩ := List.mem_map.1 hc
      exact hV.1 x t c
  have resps : ∀ (rs : List HarResponse) (k : Nat), (∀ r ∈ rs, ∀ s, r.reason = some s → 10 ∉ s) → ∀ r ∈ V.responses x b k rs,
      10 ∉ r.phrase ∧ ∀ c ∈ r.complaints, ∀ p ∈ c.title, 10 ∉ p := by
    intro rs
    induction rs with
    | nil => intro k _ r hr; cases hr
    | cons r rs ih =>
      intro k h r' hr'
      rcases List.mem_cons.1 hr' with rfl | hr'
      · refine ⟨?_, lines _ _⟩
        show 10 ∉ findReasonPhrase (r.reason.getD []) (V.status r.status)
        unfold findReasonPhrase
        split
        · split
          · decide
          · rename_i t ht
            split
            · decide
            · exact hV.2 _ _ ht
        · have := h r List.mem_cons_self
          cases hr : r.reason with
          | none => simp
          | some s => exact this s hr
      · exact ih (k + 1) (fun z hz => h z (List.mem_cons_of_mem _ hz)) r' hr'
  refine ⟨?_, fun r hr => (resps x.2 0 hx.2.2 r hr).1, fun c hc => ?_⟩
  · intro r hr
    cases hr; exact ⟨hx.1, hx.2.1⟩
  · simp only [noticesOf, List.mem_append, List.mem_flatMap, Option.mem_toList] at hc
    rcases hc with (⟨r, hr, hc⟩ | ⟨r, hr, hc⟩) | hc
    · cases hr; exact lines _ _ c hc
    · exact (resps x.2 0 hx.2.2 r hr).2 c hc
    · exact lines .exch (b.get .exch) c hc

/-! ## Reports -/

section
variable {S : Setup} (hW : Ready S.world) (hl : LowersAscii S.base.lower) {V : HarWording}
include hW hl

/-- What is written for exchanges that do not make the checks raise, and no more if the next one does. -/
theorem writeHar_calm {xs : List (HarRequest × List HarResponse)} (hc : ∀ x ∈ xs, ¬Raising S.base.lower (recorded x))
    (ys : List (HarRequest × List HarResponse)) :
    S.writeHar V (xs ++ ys) = textReport (xs.map fun x => V.exchange x (S.reportOn [] (S.harExchange x))) ++ S.writeHar V ys := by
  induction xs with
  | nil => rfl
  | cons x xs ih =>
    have hx := hc x List.mem_cons_self
    have hn : ¬S.raisesOn (S.harExchange x) = true := mt (raisesOn_iff hW hl (harAssigned x) _).1 hx
    rw [List.cons_append, Setup.writeHar, if_neg hn, ih fun y hy => hc y (List.mem_cons_of_mem _ hy), List.map_cons, textReport, textReport,
      List.flatMap_cons, List.append_assoc]

theorem writeHar_raising {x : HarRequest × List HarResponse} (h : Raising S.base.lower (recorded x)) (rest : List (HarRequest × List HarResponse)) :
    S.writeHar V (x :: rest) = [] := by
  have hn : S.raisesOn (S.harExchange x) = true := (raisesOn_iff hW hl (harAssigned x) _).2 h
  rw [Setup.writeHar, if_pos hn]

theorem har_blocks {xs : List (HarRequest × List HarResponse)} (hp : ∀ x ∈ xs, Plain x)
    (hc : ∀ x ∈ xs, ¬Raising S.base.lower (recorded x)) :
    ∃ blocks, textReport (xs.map fun x => V.exchange x (S.reportOn [] (S.harExchange x))) = blocks.flatten ∧
      Pairwise2 (HarBlock S V) xs blocks := by
  induction xs with
  | nil => exact ⟨[], rfl, .nil⟩
  | cons x xs ih =>
    obtain ⟨bs, h1, h2⟩ := ih (fun z h => hp z (List.mem_cons_of_mem _ h)) fun z h => hc z (List.mem_cons_of_mem _ h)
    refine ⟨_ :: bs, ?_, .cons (har_block (har_shown hW hl (hp x List.mem_cons_self) (hc x List.mem_cons_self))
      fun t c => har_catalogued hW hl) h2⟩
    rw [List.map_cons, textReport, List.flatMap_cons, List.flatten_cons]
    congr 1

theorem har_lines (hV : HarOneLine V) {xs : List (HarRequest × List HarResponse)} (hp : ∀ x ∈ xs, Plain x)
    (hc : ∀ x ∈ xs, ¬Raising S.base.lower (recorded x)) (hu : ∀ x ∈ xs, HarNoFeeds x) (line : Str) :
    (line ∈ linesOf (textReport (xs.map fun x => V.exchange x (S.reportOn [] (S.harExchange x)))) ∧ line.head? ≠ some 45) ↔
      ∃ x ∈ xs, ∃ t c, HarToShow S x t c ∧ HarLineFor V x t c line := by
  have h := C41_notices (xs.map fun x => V.exchange x (S.reportOn [] (S.harExchange x))) (by
    intro e he
    obtain ⟨x, hx, rfl⟩ := List.mem_map.1 he
    exact har_oneLiners hV (hu x hx) _)
  have : (line ∈ linesOf (textReport (xs.map fun x => V.exchange x (S.reportOn [] (S.harExchange x)))) ∧ line.head? ≠ some 45) ↔
      line ∈ (linesOf (textReport (xs.map fun x => V.exchange x (S.reportOn [] (S.harExchange x))))).filter
        (fun l => l.head? != some 45) := by
    rw [List.mem_filter]
    simp
  rw [this, h]
  simp only [List.mem_map, List.mem_flatMap]
  constructor
  · rintro ⟨c', ⟨_, ⟨x, hx, rfl⟩, hc'⟩, rfl⟩
    obtain ⟨t, c, hs, rfl⟩ := (har_notices (har_shown hW hl (hp x hx) (hc x hx)) c').1 hc'
    exact ⟨x, hx, t, c, hs, (harLineFor_iff (har_catalogued hW hl hs)).2 rfl⟩
  · rintro ⟨x, hx, t, c, hs, hline⟩
    exact ⟨_, ⟨_, ⟨x, hx, rfl⟩, (har_notices (har_shown hW hl (hp x hx) (hc x hx)) _).2 ⟨t, c, hs, rfl⟩⟩,
      ((harLineFor_iff (har_catalogued hW hl hs)).1 hline).symm⟩

omit hW hl in
theorem har_head_grave {x : HarRequest × List HarResponse} {t : Target} {c : Complaint Ctx} {line : Str} (h : HarLineFor V x t c line)
    (T : Severity) : (∃ a ∈ lettersFrom T, line.head? = some a) ↔ Grave T c.id := by
  obtain ⟨row, hr, hid, rfl⟩ := h
  have hc : ∃ row ∈ noticeRows, row.id = c.id := ⟨row, hr, hid⟩
  rw [grave_iff hc, ← hid, severityOf_row row hr]
  simp only [List.cons_append, List.head?_cons, Option.some.injEq]
  cases T <;> cases row.severity <;> simp [lettersFrom, letter, AtLeast]

variable {L : HarLib}

/-- What is printed for valid files. -/
theorem printHar_valid {files : List Json} (h : ∀ f ∈ files, ValidFile L f) (hc : ∀ f ∈ files, Calm S L f) :
    ∃ xss, Pairwise2 (ExchangesOf L) files xss ∧ L.harInput (files.map some) = (xss.flatten, .done) ∧
      S.printHar V L (files.map some) =
        some (textReport (xss.flatten.map fun x => V.exchange x (S.reportOn [] (S.harExchange x)))) := by
  obtain ⟨xss, hp, he⟩ := harInput_append files h []
  refine ⟨xss, hp, by simpa [HarLib.harInput] using he, ?_⟩
  have hw := writeHar_calm (V := V) hW hl (exchanges_calm hp hc) []
  simp only [HarLib.harInput, List.append_nil, Setup.writeHar] at he hw
  unfold Setup.printHar
  simp only [he, all_plain (exchanges_plain hp), if_true, hw]

theorem exit_valid {files : List (Option Json)} {xs : List (HarRequest × List HarResponse)} (he : L.harInput files = (xs, .done))
    (hp : ∀ x ∈ xs, Plain x) (hc : ∀ x ∈ xs, ¬Raising S.base.lower (recorded x)) :
    (S.exitHar L files = some (some 1) ↔ ∃ T, S.failOn = some T ∧ ∃ x ∈ xs, ∃ t c, HarToShow S x t c ∧ Grave T c.id) ∧
    (S.exitHar L files = some (some 0) ∨ S.exitHar L files = some (some 1)) := by
  obtain ⟨bs, h2, h1⟩ := reportHar_calm hW hl hp hc
  have h1 := h1 []
  simp only [List.append_nil, Setup.reportHar] at h1
  have hr : S.runHar L files = some (bs, .finished) := by
    unfold Setup.runHar
    simp only [he, all_plain hp, if_true, h1, Bool.false_eq_true, if_false]
  obtain ⟨k1, k2⟩ := C40_status severityOf [] id S.failOn bs .finished nofun
  have hm : bs.map (processExchange [] id) = bs := by
    rw [show processExchange [] id = (id : ExchBoards Ctx → _) from rfl, List.map_id]
  rw [(generate_eq severityOf [] id bs _).1, hm] at k1
  have hx : S.exitHar L files = some (runCli severityOf [] id S.failOn bs .finished) := by
    unfold Setup.exitHar
    rw [hr]
    rfl
  rw [hx]
  refine ⟨?_, k2.imp (congrArg some) (congrArg some)⟩
  rw [Option.some.injEq]
  refine k1.trans ⟨?_, ?_⟩
  · rintro (h | ⟨T, hT, b, hb, t, obj, c, ho, hc, hg⟩)
    · cases h
    · obtain ⟨x, hx, hsx⟩ := (p2_mem h2).2 b hb
      have hts := (hsx.2 t c).1 ⟨obj, ho, hc⟩
      exact ⟨T, hT, x, hx, t, c, hts, (grave_iff (har_catalogued hW hl hts)).2 hg⟩
  · rintro ⟨T, hT, x, hx, t, c, hts, hg⟩
    obtain ⟨b, hb, hsx⟩ := (p2_mem h2).1 x hx
    obtain ⟨obj, ho, hc⟩ := (hsx.2 t c).2 hts
    exact .inr ⟨T, hT, b, hb, t, obj, c, ho, hc, (grave_iff (har_catalogued hW hl hts)).1 hg⟩

/-- **C104**: what is printed for valid files is a block for every entry, in order, with a line for every notice that is to be
shown, and nothing for an entry without notices. -/
theorem C104_blocks {files : List Json} (h : ∀ f ∈ files, ValidFile L f) (hc : ∀ f ∈ files, Calm S L f) :
    ∃ xss blocks, Pairwise2 (ExchangesOf L) files xss ∧ S.printHar V L (files.map some) = some blocks.flatten ∧
      Pairwise2 (HarBlock S V) xss.flatten blocks := by
  obtain ⟨xss, hp, he, h1⟩ := printHar_valid (V := V) hW hl h hc
  obtain ⟨blocks, h2, h3⟩ := har_blocks (V := V) hW hl (exchanges_plain hp) (exchanges_calm hp hc)
  exact ⟨xss, blocks, hp, by rw [h1, h2], h3⟩

omit hW hl in
/-- **C104**: the same up to a file that cannot be opened or is not JSON. -/
theorem C104_unreadable (files after : List (Option Json)) :
    S.printHar V L (files ++ none :: after) = S.printHar V L files := by
  have hi : ∀ fs : List (Option Json), (L.harInput (fs ++ none :: after)).1 = (L.harInput fs).1 := by
    intro fs
    induction fs with
    | nil => rfl
    | cons f fs ih =>
      rw [List.cons_append, HarLib.harInput, HarLib.harInput]
      rcases L.harFile f with ⟨ys, e⟩
      cases e with
      | done => simp only [ih]
      | inputError => rfl
      | crash e => rfl
  unfold Setup.printHar
  simp only [hi files]

/-- **C104**: when the checks of an exchange raise an exception, what is printed is what was to be printed for the exchanges
before it. -/
theorem C104_raising {files : List (Option Json)} {xs rest : List (HarRequest × List HarResponse)} {x : HarRequest × List HarResponse}
    (hi : (L.harInput files).1 = xs ++ x :: rest) (hp : ∀ y ∈ xs ++ x :: rest, ∃ given, Payloads y given)
    (hc : ∀ y ∈ xs, ¬Raising S.base.lower (recorded y)) (hx : Raising S.base.lower (recorded x)) :
    ∃ blocks, S.printHar V L files = some blocks.flatten ∧ Pairwise2 (HarBlock S V) xs blocks := by
  have hall : ∀ y ∈ xs ++ x :: rest, Plain y := by
    intro y hy
    obtain ⟨g, hg⟩ := hp y hy
    unfold Plain
    rw [Bool.and_eq_true, List.all_eq_true]
    refine ⟨plain_of_text hg.request.2, fun r hr => ?_⟩
    obtain ⟨i, hi⟩ := List.getElem?_of_mem hr
    exact plain_of_text (hg.responses i r hi).2
  obtain ⟨blocks, h2, h3⟩ := har_blocks (V := V) hW hl (fun y hy => hall y (List.mem_append_left _ hy)) hc
  refine ⟨blocks, ?_, h3⟩
  unfold Setup.printHar
  simp only [hi, all_plain hall, if_true]
  rw [writeHar_calm hW hl hc, writeHar_raising hW hl hx, List.append_nil, h2]

/-- **C104**: if methods, targets, reason phrases and titles have no line feeds, lines that do not start with a dash tell of the
notices that are to be shown and of nothing else, and the exit status is 1 if and only if some line starts with the
letter of a severity that is the threshold or higher. -/
theorem C104_lines (hV : HarOneLine V) {files : List Json} (h : ∀ f ∈ files, ValidFile L f) (hc : ∀ f ∈ files, Calm S L f)
    (hu : ∀ f ∈ files, ∀ xs, ExchangesOf L f xs → ∀ x ∈ xs, HarNoFeeds x) :
    ∃ xss text, Pairwise2 (ExchangesOf L) files xss ∧ S.printHar V L (files.map some) = some text ∧
      (∀ line, (line ∈ linesOf text ∧ line.head? ≠ some 45) ↔
        ∃ x ∈ xss.flatten, ∃ t c, HarToShow S x t c ∧ HarLineFor V x t c line) ∧
      (S.exitHar L (files.map some) = some (some 0) ∨ S.exitHar L (files.map some) = some (some 1)) ∧
      (S.exitHar L (files.map some) = some (some 1) ↔ ∃ T, S.failOn = some T ∧
        ∃ line ∈ linesOf text, ∃ a ∈ lettersFrom T, line.head? = some a) := by
  obtain ⟨xss, hp, he, h1⟩ := printHar_valid (V := V) hW hl h hc
  obtain ⟨hcalm, hplain⟩ := And.intro (exchanges_calm hp hc) (exchanges_plain hp)
  have hfeeds : ∀ x ∈ xss.flatten, HarNoFeeds x := by
    intro x hx
    obtain ⟨xs, hxs, hx⟩ := List.mem_flatten.1 hx
    obtain ⟨f, hf, hfx⟩ := (p2_mem hp).2 xs hxs
    exact hu f hf xs hfx x hx
  have hlines := har_lines hW hl hV hplain hcalm hfeeds
  obtain ⟨k1, k3⟩ := exit_valid hW hl he hplain hcalm
  refine ⟨xss, _, hp, h1, hlines, ?_, ?_⟩
  · exact k3
  · rw [k1]
    constructor
    · rintro ⟨T, hT, x, hx, t, c, hs, hg⟩
      obtain ⟨row, hr, hid, _⟩ := id hg
      have hline : HarLineFor V x t c _ := ⟨row, hr, hid, rfl⟩
      have := (hlines _).2 ⟨x, hx, t, c, hs, hline⟩
      exact ⟨T, hT, _, this.1, (har_head_grave hline T).2 hg⟩
    · rintro ⟨T, hT, line, hline, ha⟩
      obtain ⟨x, hx, t, c, hs, hf⟩ := (hlines line).1 ⟨hline, letter_not_dash ha⟩
      exact ⟨T, hT, x, hx, t, c, hs, (har_head_grave hf T).1 ha⟩

end

/-! ## Examples -/

/-- Titles that are the same for all, and one status. -/
def exHarWording : HarWording := ⟨fun _ _ _ => [str "Wrong ", str "thing"], fun n => if n = 200 then some (str "OK") else none⟩

theorem exHarWording_ok : HarOneLine exHarWording := by
  refine ⟨fun y t c text h => ?_, fun n text h => ?_⟩
  · simp only [exHarWording, List.mem_cons, List.not_mem_nil, or_false] at h
    rcases h with rfl | rfl <;> decide +kernel
  · simp only [exHarWording] at h
    split at h
    · cases h; decide +kernel
    · cases h

theorem harEntry_noFeeds {v : Json} {x : HarRequest × List HarResponse} (h : ExchangeOf harLib (str "Fiddler") (harEntry v) x) :
    HarNoFeeds x := by
  obtain ⟨⟨rq, h1, h2⟩, rs, h3, h4⟩ := h
  obtain rfl := has_inj h1 (item_ok.mp rfl : Member (harEntry v) "request" (harRequest v))
  obtain rfl := has_inj h3 (item_ok.mp rfl : Member (harEntry v) "response" harResponse)
  have hm := has_inj h2.method (item_ok.mp rfl : Member (harRequest v) "method" (.text (str "POST")))
  rw [Json.text.injEq] at hm
  obtain ⟨url, u, k1, k2, _, k3⟩ := h2.url
  have hu := has_inj k1 (item_ok.mp rfl : Member (harRequest v) "url" (.text (str "http://a/b?c")))
  rw [Json.text.injEq] at hu
  subst hu
  have hp : (⟨str "http", str "a", str "/b", str "c"⟩ : UrlParts) = u := Option.some.inj (Eq.trans (by rfl) k2)
  subst hp
  refine ⟨by rw [hm]; decide +kernel, ?_, fun r hr reason hreason => ?_⟩
  · unfold TargetOf at k3
    rw [hm] at k3
    split at k3
    · rw [k3]; decide +kernel
    · split at k3 <;> rw [k3] <;> decide +kernel
  · rcases h4 with ⟨_, h4⟩ | ⟨r', h4, _, hr'⟩
    · rw [h4] at hr; cases hr
    · rw [h4] at hr
      obtain rfl := List.mem_singleton.1 hr
      obtain ⟨s, k4, k5⟩ := hr'.reason
      have hs := has_inj k4 (item_ok.mp rfl : Member harResponse "statusText" (.text (str "OK")))
      rw [Json.text.injEq] at hs
      rw [k5] at hreason
      cases hreason
      rw [hs]
      decide +kernel

/-- C104: the hypotheses on files can be met. The file after the first one cannot be read, and adds nothing. -/
example {W : World} (hW : Ready W) : ∃ text, (exSetup W [] (some .error)).printHar exHarWording harLib
      [some (harFile [harEntry (.text (str "HTTP/1.1"))]), none] = some text ∧
    ((exSetup W [] (some .error)).exitHar harLib [some (harFile [harEntry (.text (str "HTTP/1.1"))])] = some (some 1) ↔
      ∃ line ∈ linesOf text, line.head? = some 69) := by
  have hv : ValidFile harLib (harFile [harEntry (.text (str "HTTP/1.1"))]) := ⟨_, _, harFile_of _, by simpa using harEntry_valid⟩
  obtain ⟨_, text, _, h2, _, _, h3⟩ := C104_lines (S := exSetup W [] (some .error)) (L := harLib) hW toy_lower exHarWording_ok
    (files := [harFile [harEntry (.text (str "HTTP/1.1"))]]) (by simpa using hv)
    (by
      intro f hf creator es he e hm x hx
      obtain rfl := List.mem_singleton.1 hf
      obtain ⟨rfl, rfl⟩ := fileOf_inj he (harFile_of _)
      obtain rfl := List.mem_singleton.1 hm
      exact harEntry_calm _ hx)
    (by
      rintro f hf xs ⟨creator, es, he, hp⟩ x hx
      obtain rfl := List.mem_singleton.1 hf
      obtain ⟨rfl, rfl⟩ := fileOf_inj he (harFile_of _)
      obtain ⟨e, hm, hx⟩ := (p2_mem hp).2 x hx
      obtain rfl := List.mem_singleton.1 hm
      exact harEntry_noFeeds hx)
  refine ⟨text, (C104_unreadable _ []).trans h2, h3.trans ⟨?_, ?_⟩⟩
  · rintro ⟨T, hT, line, hline, a, ha, hh⟩
    cases hT
    exact ⟨line, hline, by rw [hh, List.mem_singleton.1 ha]⟩
  · rintro ⟨line, hline, hh⟩
    exact ⟨.error, rfl, line, hline, 69, List.mem_singleton_self _, hh⟩

/-- A request with a link that lacks a value. -/
def linkEntry : Json := .obj
  [(str "request", .obj
    [(str "method", .text (str "GET")), (str "url", .text (str "http://a/b?c")), (str "httpVersion", .text (str "HTTP/1.1")),
     (str "bodySize", .int 0),
     (str "headers", .arr [.obj [(str "name", .text (str "link")), (str "value", .text (str "</a>; title"))]])]),
   (str "response", harResponse)]

/-- What is read from a file with two entries, of which the second one makes a check raise an exception. -/
theorem linkEntry_read : ∃ x y, (harLib.harInput [some (harFile [harEntry (.text (str "HTTP/1.1")), linkEntry])]).1 = [x, y] ∧
    (∀ q ∈ [x, y], Plain q) ∧ ¬Raising Toy.env.lower (recorded x) ∧ Raising Toy.env.lower (recorded y) := by
  have hk : ((harLib.harInput [some (harFile [harEntry (.text (str "HTTP/1.1")), linkEntry])]).1.map fun x =>
      (x.1.headers, isPlainText x.1.unicodeBody, x.2.map fun r => (r.headers, r.status, isPlainText r.unicodeBody))) =
      [([⟨str "host", str "a"⟩], true, [([], 200, true)]), ([⟨str "link", str "</a>; title"⟩], true, [([], 200, true)])] := by decide +kernel
  rcases hi : (harLib.harInput [some (harFile [harEntry (.text (str "HTTP/1.1")), linkEntry])]).1 with _ | ⟨x, _ | ⟨y, _ | ⟨z, rest⟩⟩⟩ <;>
    rw [hi] at hk <;> try simp at hk
  obtain ⟨⟨x1, x2, a, a1, a2, a3, a4⟩, y1, y2, b, b1, b2, b3, b4⟩ := hk
  have x3 : x.2.map (fun r => (r.headers, r.status, isPlainText r.unicodeBody)) = [([], 200, true)] := by simp [a1, a2, a3, a4]
  have y3 : y.2.map (fun r => (r.headers, r.status, isPlainText r.unicodeBody)) = [([], 200, true)] := by simp [b1, b2, b3, b4]
  have hplain : ∀ q ∈ [x, y], Plain q := by
    intro q hq
    unfold Plain
    rw [Bool.and_eq_true, List.all_eq_true]
    have hq : q.2.map (fun r => (r.headers, r.status, isPlainText r.unicodeBody)) = [([], 200, true)] ∧ isPlainText q.1.unicodeBody = true := by
      rcases List.mem_cons.1 hq with rfl | hq
      · exact ⟨x3, x2⟩
      · obtain rfl := List.mem_singleton.1 hq
        exact ⟨y3, y2⟩
    refine ⟨hq.2, fun r hr => ?_⟩
    have := List.mem_map_of_mem (f := fun r : HarResponse => (r.headers, r.status, isPlainText r.unicodeBody)) hr
    rw [hq.1, List.mem_singleton] at this
    exact (Prod.mk.inj (Prod.mk.inj this).2).2
  have hcalm : ¬Raising Toy.env.lower (recorded x) := by
    rintro (⟨q, hq, e, he, hn, _⟩ | ⟨r, hr, hb⟩)
    · cases hq
      have he : e ∈ x.1.headers ++ [] := he
      rw [x1, List.append_nil, List.mem_singleton] at he
      subst he
      exact absurd hn (by unfold Called; decide +kernel)
    · have hr : r ∈ x.2.map _ := hr
      obtain ⟨r', hr', rfl⟩ := List.mem_map.1 hr
      have := List.mem_map_of_mem (f := fun r : HarResponse => (r.headers, r.status, isPlainText r.unicodeBody)) hr'
      rw [x3, List.mem_singleton] at this
      obtain ⟨h0, h1⟩ := Prod.mk.inj this
      have hst := (Prod.mk.inj h1).1
      rcases hb with ⟨e, he, _⟩ | ⟨_, d, n, ⟨_, ⟨a, e, b, he, _⟩, _⟩, _⟩ | hb
      · have he : e ∈ r'.headers ++ [] := he
        rw [h0] at he
        cases he
      · have he : r'.headers ++ [] = a ++ e :: b := he
        rw [h0] at he
        simp at he
      · have : r'.status = 451 := hb.1
        rw [hst] at this
        cases this
  have hraise : Raising Toy.env.lower (recorded y) := by
    refine .inl ⟨_, rfl, ⟨str "link", str "</a>; title"⟩, ?_, (by show asciiLower _ = asciiLower _; decide +kernel), _,
      ⟨oneParam "title" none, oneParam_ok (isToken_bits (by decide +kernel)) nofun, by decide +kernel, rfl⟩, _, List.mem_singleton_self _, ?_⟩
    · show _ ∈ y.1.headers ++ []
      rw [y1]
      exact List.mem_singleton_self _
    · obtain ⟨x, h1, h2⟩ := (C79_params noParser [(str "title", none)]).2.2.mp ⟨.unbound, rfl⟩
      exact fun hs => hs x h1 h2
  exact ⟨x, y, rfl, hplain, hcalm, hraise⟩

/-- C104: an entry with a link that lacks a value; what was printed before it stays, and what follows is not printed. -/
example {W : World} (hW : Ready W) : ∃ x block, x ∈ (harLib.harInput [some (harFile [harEntry (.text (str "HTTP/1.1")), linkEntry])]).1 ∧
    (exSetup W [] none).printHar exHarWording harLib [some (harFile [harEntry (.text (str "HTTP/1.1")), linkEntry]), none] = some block ∧
    HarBlock (exSetup W [] none) exHarWording x block := by
  obtain ⟨x, y, hi, hplain, hcalm, hraise⟩ := linkEntry_read
  rw [hi]
  obtain ⟨blocks, k1, k2⟩ := C104_raising (S := exSetup W [] none) (L := harLib) (V := exHarWording) hW toy_lower (xs := [x]) (rest := []) hi
    (fun q hq => ⟨_, assigned_payloads (hplain q hq)⟩) (fun q hq => by rw [List.mem_singleton.1 hq]; exact hcalm) hraise
  cases k2 with
  | cons hb hnil =>
    cases hnil
    refine ⟨x, _, List.mem_cons_self, (C104_unreadable [some (harFile [harEntry (.text (str "HTTP/1.1")), linkEntry])] []).trans k1, ?_⟩
    simpa using hb

end Httpolice.Props
