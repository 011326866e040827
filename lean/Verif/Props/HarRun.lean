import Verif.Spec.HarRun
import Verif.Props.Run
import Verif.Props.Har

/-!
# C101: a whole run of the command on HAR files
-/

namespace Httpolice.Props

open Httpolice.Model Httpolice.Spec Httpolice.Lemmas Httpolice.Lemmas.Check HarLib

/-! ## One exchange -/

/-- Bodies whose texts are strings. -/
def Plain (x : HarRequest × List HarResponse) : Prop :=
  (isPlainText x.1.unicodeBody && x.2.all fun r => isPlainText r.unicodeBody) = true

theorem textIs_plain {j : Option Json} (h : isPlainText j = true) : TextIs j (harText j) := by
  cases j with
  | none => rfl
  | some j => cases j <;> first | rfl | cases h

theorem plain_of_text {j : Option Json} {t : Option Str} (h : j = t.map Json.text) : isPlainText j = true := by
  subst h; cases t <;> rfl

theorem harText_of {j : Option Json} {t : Option Str} (h : TextIs j t) : harText j = t := by
  cases h; cases t <;> rfl

theorem plain_of_valid {L : HarLib} {creator : Str} {e : Json} {x : HarRequest × List HarResponse} (h : ExchangeOf L creator e x) :
    Plain x := by
  obtain ⟨⟨rq, _, hrq⟩, rs, _, hrs⟩ := h
  have h1 : isPlainText x.1.unicodeBody = true := by
    obtain ⟨n, o, t, _, _, _, (⟨_, _, h⟩ | ⟨_, _, h⟩)⟩ := hrq.body
    · rw [h]; rfl
    · exact plain_of_text h
  unfold Plain
  rw [Bool.and_eq_true, List.all_eq_true]
  refine ⟨h1, fun r hr => ?_⟩
  rcases hrs with ⟨_, h⟩ | ⟨r', h, _, hr'⟩
  · rw [h] at hr; cases hr
  · rw [h, List.mem_singleton] at hr
    subst hr
    obtain ⟨c, n, o, n', o', d, t, b, _, _, _, _, _, _, hc, (⟨_, _, _, h⟩ | ⟨_, _, _, h⟩)⟩ := hr'.content
    · rw [h]; rfl
    · rw [h]
      cases hc <;> rfl

theorem assigned_payloads {x : HarRequest × List HarResponse} (h : Plain x) : Payloads x (harAssigned x) := by
  unfold Plain at h
  rw [Bool.and_eq_true, List.all_eq_true] at h
  refine ⟨⟨rfl, textIs_plain h.1⟩, fun i r hr => ?_⟩
  unfold harAssigned
  simp only [hr]
  exact ⟨trivial, textIs_plain (h.2 r (List.mem_of_getElem? hr))⟩

theorem assigned_eq {a b : Assigned} (h1 : a.decoded = b.decoded) (h2 : a.unicode = b.unicode) : a = b := by
  cases a; cases b; cases h1; cases h2; rfl

/-- What was recorded decides what is checked. -/
theorem payloads_unique {L : Libs} {E : Env} {codings : Entry → Parsed Str} {x : HarRequest × List HarResponse}
    {g g' : Target → Assigned} (h : Payloads x g) (h' : Payloads x g') :
    loadPayloads L E codings g (recorded x) = loadPayloads L E codings g' (recorded x) := by
  have hq : g .req = g' .req := assigned_eq (h.request.1.trans h'.request.1.symm)
    ((harText_of h.request.2).symm.trans (harText_of h'.request.2))
  have hr : ∀ i r, x.2[i]? = some r → g (.resp i) = g' (.resp i) := fun i r hi =>
    assigned_eq ((h.responses i r hi).1.trans (h'.responses i r hi).1.symm)
      ((harText_of (h.responses i r hi).2).symm.trans (harText_of (h'.responses i r hi).2))
  unfold loadPayloads
  rw [hq]
  congr 1
  apply List.ext_getElem?
  intro i
  rw [List.getElem?_mapIdx, List.getElem?_mapIdx]
  unfold recorded
  simp only [List.getElem?_map]
  cases hi : x.2[i]? with
  | none => rfl
  | some r => rw [hr i r hi]

section
variable {S : Setup} (hW : Ready S.world) (hl : LowersAscii S.base.lower)
include hW hl

omit hW hl in
theorem harExchange_eq (x : HarRequest × List HarResponse) :
    S.harExchange x = loadPayloads S.libs (S.world.all S.base) S.world.codings (harAssigned x) (recorded x) := rfl

theorem har_shown {x : HarRequest × List HarResponse} (hx : Plain x) (hok : ¬Raising S.base.lower (recorded x)) :
    HarShown S x (S.reportOn [] (S.harExchange x)) := by
  obtain ⟨h1, h2⟩ := reportOn_shown hW hl (ops := []) (harExchange_eq x) nofun nofun hok
  refine ⟨⟨h1.1, h1.2.trans (by simp [recorded])⟩, fun t c => (h2 t c).trans ?_⟩
  unfold HarToShow
  refine and_congr ⟨?_, ?_⟩ .rfl
  · rintro (h | h)
    · cases h
    · exact ⟨_, assigned_payloads hx, h⟩
  · rintro ⟨g, hg, h⟩
    refine .inr ?_
    rw [harExchange_eq, payloads_unique (assigned_payloads hx) hg]
    exact h

theorem reportHar_calm {xs : List (HarRequest × List HarResponse)} (hp : ∀ x ∈ xs, Plain x)
    (hc : ∀ x ∈ xs, ¬Raising S.base.lower (recorded x)) :
    ∃ bs, Pairwise2 (HarShown S) xs bs ∧
      ∀ ys, S.reportHar (xs ++ ys) = (bs ++ (S.reportHar ys).1, (S.reportHar ys).2) := by
  induction xs with
  | nil => exact ⟨[], .nil, fun _ => rfl⟩
  | cons x xs ih =>
    obtain ⟨bs, h1, h2⟩ := ih (fun y hy => hp y (List.mem_cons_of_mem _ hy)) fun y hy => hc y (List.mem_cons_of_mem _ hy)
    have hx := hc x List.mem_cons_self
    refine ⟨_ :: bs, .cons (har_shown hW hl (hp x List.mem_cons_self) hx) h1, fun ys => ?_⟩
    have hn : ¬S.raisesOn (S.harExchange x) = true := mt (raisesOn_iff hW hl (harAssigned x) _).1 hx
    rw [List.cons_append, Setup.reportHar, if_neg hn, h2]
    rfl

/-! ## Files -/

variable {L : HarLib}

omit hW hl in
theorem harInput_append (files : List Json) (h : ∀ f ∈ files, ValidFile L f) (rest : List (Option Json)) :
    ∃ xss, Pairwise2 (ExchangesOf L) files xss ∧
      L.harInput (files.map some ++ rest) = (xss.flatten ++ (L.harInput rest).1, (L.harInput rest).2) := by
  induction files with
  | nil => exact ⟨[], .nil, rfl⟩
  | cons f fs ih =>
    obtain ⟨xss, hp, he⟩ := ih fun f h' => h f (List.mem_cons_of_mem _ h')
    obtain ⟨creator, es, hf, hv⟩ := h f List.mem_cons_self
    obtain ⟨ys, zs, hpy, _, hd⟩ := C85_exchanges L f creator es [] (by simpa using hf) hv
    refine ⟨ys :: xss, .cons ⟨creator, es, hf, hpy⟩ hp, ?_⟩
    rw [List.map_cons, List.cons_append, HarLib.harInput, hd rfl]
    simp [he]

omit hW hl in
theorem exchanges_plain {files : List Json} {xss : List (List (HarRequest × List HarResponse))}
    (h : Pairwise2 (ExchangesOf L) files xss) : ∀ x ∈ xss.flatten, Plain x := by
  intro x hx
  obtain ⟨xs, hxs, hx⟩ := List.mem_flatten.1 hx
  obtain ⟨f, _, creator, es, _, hp⟩ := (p2_mem h).2 xs hxs
  obtain ⟨e, _, he⟩ := (p2_mem hp).2 x hx
  exact plain_of_valid he

omit hW hl in
theorem exchanges_calm {files : List Json} {xss : List (List (HarRequest × List HarResponse))}
    (h : Pairwise2 (ExchangesOf L) files xss) (hc : ∀ f ∈ files, Calm S L f) :
    ∀ x ∈ xss.flatten, ¬Raising S.base.lower (recorded x) := by
  intro x hx
  obtain ⟨xs, hxs, hx⟩ := List.mem_flatten.1 hx
  obtain ⟨f, hf, creator, es, hfe, hp⟩ := (p2_mem h).2 xs hxs
  obtain ⟨e, he, hxe⟩ := (p2_mem hp).2 x hx
  exact hc f hf creator es hfe e he x hxe

omit hW hl in
theorem all_plain {xs : List (HarRequest × List HarResponse)} (h : ∀ x ∈ xs, Plain x) :
    (xs.all fun x => isPlainText x.1.unicodeBody && x.2.all fun r => isPlainText r.unicodeBody) = true :=
  List.all_eq_true.2 h

/-- **C101**: for valid files, whose exchanges do not make the checks raise an exception, every entry is reported as an
exchange, in order, each with just the notices that the checks report and nothing silences. -/
theorem C101_shown {files : List Json} (h : ∀ f ∈ files, ValidFile L f) (hc : ∀ f ∈ files, Calm S L f) :
    ∃ xss bs, Pairwise2 (ExchangesOf L) files xss ∧ S.runHar L (files.map some) = some (bs, .finished) ∧
      Pairwise2 (HarShown S) xss.flatten bs := by
  obtain ⟨xss, hp, he⟩ := harInput_append files h []
  obtain ⟨bs, h1, h2⟩ := reportHar_calm hW hl (exchanges_plain hp) (exchanges_calm hp hc)
  refine ⟨xss, bs, hp, ?_, h1⟩
  rw [List.append_nil] at he
  have h2 := h2 []
  simp only [HarLib.harInput, List.append_nil, Setup.reportHar] at he h2
  unfold Setup.runHar
  simp only [he, all_plain (exchanges_plain hp), if_true, h2, Bool.false_eq_true, if_false]

/-- **C101**: a file that cannot be opened or is not JSON ends the run with exit status 1, with everything before it reported. -/
theorem C101_unreadable {files : List Json} (h : ∀ f ∈ files, ValidFile L f) (hc : ∀ f ∈ files, Calm S L f)
    (after : List (Option Json)) :
    ∃ xss bs, Pairwise2 (ExchangesOf L) files xss ∧ S.runHar L (files.map some ++ none :: after) = some (bs, .inputError) ∧
      Pairwise2 (HarShown S) xss.flatten bs ∧ S.exitHar L (files.map some ++ none :: after) = some (some 1) := by
  obtain ⟨xss, hp, he⟩ := harInput_append files h (none :: after)
  obtain ⟨bs, h1, h2⟩ := reportHar_calm hW hl (exchanges_plain hp) (exchanges_calm hp hc)
  have h2 := h2 []
  simp only [HarLib.harInput, HarLib.harFile, List.append_nil, Setup.reportHar] at he h2
  have hr : S.runHar L (files.map some ++ none :: after) = some (bs, .inputError) := by
    unfold Setup.runHar
    simp only [he, all_plain (exchanges_plain hp), if_true, h2, Bool.false_eq_true, if_false]
  refine ⟨xss, bs, hp, hr, h1, ?_⟩
  unfold Setup.exitHar
  rw [hr]
  rfl

/-- **C101**: whatever is wrong with a file, the entries before the problem are reported as if there were no problem. -/
theorem C101_before {files : List Json} (h : ∀ f ∈ files, ValidFile L f) (hc : ∀ f ∈ files, Calm S L f)
    {f : Json} {creator : Str} {good rest : List Json} (hf : FileOf f creator (good ++ rest)) (hv : ∀ e ∈ good, ValidEntry L e)
    (hg : ∀ e ∈ good, ∀ x, ExchangeOf L creator e x → ¬Raising S.base.lower (recorded x)) {after : List (Option Json)}
    {bs : List (ExchBoards Ctx)} {e : InputEnd} (hr : S.runHar L (files.map some ++ some f :: after) = some (bs, e)) :
    ∃ xss ys bs1 bs2, Pairwise2 (ExchangesOf L) files xss ∧ Pairwise2 (ExchangeOf L creator) good ys ∧
      bs = bs1 ++ bs2 ∧ Pairwise2 (HarShown S) (xss.flatten ++ ys) bs1 := by
  obtain ⟨xss, hp, he⟩ := harInput_append files h (some f :: after)
  obtain ⟨ys, zs, hpy, hz, _⟩ := C85_exchanges L f creator good rest hf hv
  have hread : ∃ more, (L.harInput (files.map some ++ some f :: after)).1 = (xss.flatten ++ ys) ++ more := by
    rw [he, HarLib.harInput]
    rcases hh : L.harFile (some f) with ⟨ws, en⟩
    rw [hh] at hz
    have hz : ws = ys ++ zs := hz
    subst hz
    cases en
    · exact ⟨zs ++ (L.harInput after).1, by simp only [List.append_assoc]⟩
    · exact ⟨zs, by simp only [List.append_assoc]⟩
    · exact ⟨zs, by simp only [List.append_assoc]⟩
  obtain ⟨more, hread⟩ := hread
  have hplain : ∀ x ∈ xss.flatten ++ ys, Plain x := by
    intro x hx
    rcases List.mem_append.1 hx with hx | hx
    · exact exchanges_plain hp x hx
    · obtain ⟨e, _, he⟩ := (p2_mem hpy).2 x hx
      exact plain_of_valid he
  have hcalm : ∀ x ∈ xss.flatten ++ ys, ¬Raising S.base.lower (recorded x) := by
    intro x hx
    rcases List.mem_append.1 hx with hx | hx
    · exact exchanges_calm hp hc x hx
    · obtain ⟨e, he, hxe⟩ := (p2_mem hpy).2 x hx
      exact hg e he x hxe
  obtain ⟨bs1, h1, h2⟩ := reportHar_calm hW hl hplain hcalm
  refine ⟨xss, ys, bs1, (S.reportHar more).1, hp, hpy, ?_, h1⟩
  unfold Setup.runHar at hr
  simp only [hread] at hr
  split at hr
  · simp only [h2, Option.some.injEq, Prod.mk.injEq] at hr
    exact hr.1.symm
  · cases hr

/-! ## The exit status -/

theorem har_catalogued {x : HarRequest × List HarResponse} {t : Target} {c : Complaint Ctx} (h : HarToShow S x t c) :
    ∃ row ∈ noticeRows, row.id = c.id := by
  obtain ⟨⟨g, _, h⟩, _⟩ := h
  exact C92_catalogued hW hl h

/-- **C101**: the exit status for such files: 1 if some notice that is shown is at least as severe as `--fail-on` says, otherwise 0. -/
theorem C101_exit {files : List Json} (h : ∀ f ∈ files, ValidFile L f) (hc : ∀ f ∈ files, Calm S L f) :
    ∃ xss, Pairwise2 (ExchangesOf L) files xss ∧
      (S.exitHar L (files.map some) = some (some 1) ↔ ∃ threshold, S.failOn = some threshold ∧
        ∃ x ∈ xss.flatten, ∃ t c, HarToShow S x t c ∧ Grave threshold c.id) ∧
      (S.exitHar L (files.map some) = some (some 0) ↔ ∀ threshold, S.failOn = some threshold →
        ∀ x ∈ xss.flatten, ∀ t c, HarToShow S x t c → ¬Grave threshold c.id) := by
  obtain ⟨xss, bs, hp, h1, h2⟩ := C101_shown hW hl h hc
  obtain ⟨k1, k2⟩ := C40_status severityOf [] id S.failOn bs .finished nofun
  have hm : bs.map (processExchange [] id) = bs := by
    rw [show processExchange [] id = (id : ExchBoards Ctx → _) from rfl, List.map_id]
  rw [(generate_eq severityOf [] id bs _).1, hm] at k1
  have hx : S.exitHar L (files.map some) = some (runCli severityOf [] id S.failOn bs .finished) := by
    unfold Setup.exitHar
    rw [h1]
    rfl
  have key : S.exitHar L (files.map some) = some (some 1) ↔ ∃ threshold, S.failOn = some threshold ∧
      ∃ x ∈ xss.flatten, ∃ t c, HarToShow S x t c ∧ Grave threshold c.id := by
    rw [hx, Option.some.injEq]
    refine k1.trans ⟨?_, ?_⟩
    · rintro (h | ⟨T, hT, b, hb, t, obj, c, ho, hc, hg⟩)
      · cases h
      · obtain ⟨x, hx, hsx⟩ := (p2_mem h2).2 b hb
        have hts := (hsx.2 t c).1 ⟨obj, ho, hc⟩
        exact ⟨T, hT, x, hx, t, c, hts, (grave_iff (har_catalogued hW hl hts)).2 hg⟩
    · rintro ⟨T, hT, x, hx, t, c, hts, hg⟩
      obtain ⟨b, hb, hsx⟩ := (p2_mem h2).1 x hx
      obtain ⟨obj, ho, hc⟩ := (hsx.2 t c).2 hts
      exact .inr ⟨T, hT, b, hb, t, obj, c, ho, hc, (grave_iff (har_catalogued hW hl hts)).1 hg⟩
  refine ⟨xss, hp, key, ⟨fun h0 T hT x hx t c hts hg => ?_, fun hn => ?_⟩⟩
  · rw [key.2 ⟨T, hT, x, hx, t, c, hts, hg⟩] at h0
    cases h0
  · rcases k2 with k | k
    · rw [hx, k]
    · obtain ⟨T, hT, x, hx, t, c, hts, hg⟩ := key.1 (by rw [hx, k])
      exact absurd hg (hn T hT x hx t c hts)

omit hW hl in
theorem input_done {files : List (Option Json)} {xs : List (HarRequest × List HarResponse)} (h : L.harInput files = (xs, .done)) :
    ∃ xss, Pairwise2 (fun f ys => L.harFile f = (ys, .done)) files xss ∧ xs = xss.flatten := by
  induction files generalizing xs with
  | nil => cases h; exact ⟨[], .nil, rfl⟩
  | cons f fs ih =>
    rw [HarLib.harInput] at h
    rcases hr : L.harFile f with ⟨ys, en⟩
    rw [hr] at h
    cases en with
    | done =>
      rcases hr' : L.harInput fs with ⟨zs, en⟩
      rw [hr'] at h
      simp only [Prod.mk.injEq] at h
      obtain ⟨xss, h1, h2⟩ := ih (xs := zs) (by rw [hr', h.2])
      exact ⟨ys :: xss, .cons hr h1, by rw [← h.1, h2]; rfl⟩
    | inputError => cases h
    | crash e => cases h

omit hW hl in
theorem reportHar_length {xs : List (HarRequest × List HarResponse)} (h : (S.reportHar xs).2 = false) :
    (S.reportHar xs).1.length = xs.length := by
  induction xs with
  | nil => rfl
  | cons x xs ih =>
    rw [Setup.reportHar] at h ⊢
    split
    · rename_i hx
      rw [if_pos hx] at h
      cases h
    · rename_i hx
      rw [if_neg hx] at h
      simp only [List.length_cons]
      rw [ih h]

omit hW hl in
theorem crash_status {bs : List (ExchBoards Ctx)} {e : InputEnd} :
    (runCli severityOf [] id S.failOn bs e = some 0 → e = .finished) ∧
      (runCli severityOf [] id S.failOn bs e = none ↔ e = .otherError) := by
  cases e with
  | finished =>
    refine ⟨fun _ => rfl, ⟨fun h => ?_, (fun h => nomatch h)⟩⟩
    rcases (C40_status severityOf [] id S.failOn bs .finished nofun).2 with k | k <;> rw [k] at h <;> cases h
  | inputError => exact ⟨(fun h => by cases h), ⟨(fun h => by cases h), (fun h => nomatch h)⟩⟩
  | otherError => exact ⟨(fun h => by cases h), ⟨fun _ => rfl, fun _ => rfl⟩⟩

omit hW hl in
/-- **C101**: for any files, exit status 0 means that every file was read to the end, and that there is an exchange in the report for
each of its entries, none of which lacks anything. -/
theorem C101_zero {files : List (Option Json)} (h : S.exitHar L files = some (some 0)) :
    ∃ bs ns, S.runHar L files = some (bs, .finished) ∧ bs.length = ns.sum ∧
      Pairwise2 (fun f n => ∃ data, f = some data ∧ ∀ log es, Member data "log" log → Member log "entries" (.arr es) →
        n = es.length ∧ ∀ e ∈ es, Complete e) files ns := by
  unfold Setup.exitHar at h
  cases hr : S.runHar L files with
  | none => rw [hr] at h; cases h
  | some r =>
    obtain ⟨bs, e⟩ := r
    rw [hr] at h
    simp only [Option.map_some, Option.some.injEq] at h
    obtain rfl := crash_status.1 h
    unfold Setup.runHar at hr
    simp only at hr
    split at hr
    · simp only [Option.some.injEq, Prod.mk.injEq] at hr
      obtain ⟨hb, he⟩ := hr
      split at he
      · cases he
      · rename_i hn
        rcases hi : L.harInput files with ⟨xs, en⟩
        rw [hi] at he hb hn
        cases en with
        | done =>
          obtain ⟨xss, h1, rfl⟩ := input_done hi
          refine ⟨bs, xss.map List.length, rfl, ?_, ?_⟩
          · rw [← hb, reportHar_length (by simpa using hn), List.length_flatten]
          · clear hi hb hn h he
            rename_i hpl
            clear hpl
            induction h1 with
            | nil => exact .nil
            | @cons f ys fs xss hf _ ih =>
              refine .cons ?_ ih
              cases f with
              | none => cases hf
              | some data => exact ⟨data, rfl, fun log es hlog hes => C85_no_loss L data log es ys hlog hes hf⟩
        | inputError => cases he
        | crash e => cases he
    · cases hr

theorem reportHar_raised (xs : List (HarRequest × List HarResponse)) :
    (S.reportHar xs).2 = true ↔ ∃ x ∈ xs, Raising S.base.lower (recorded x) := by
  induction xs with
  | nil => simp [Setup.reportHar]
  | cons x xs ih =>
    have hx := raisesOn_iff hW hl (harAssigned x) (recorded x)
    rw [← harExchange_eq] at hx
    rw [Setup.reportHar]
    split
    · rename_i h
      exact ⟨fun _ => ⟨x, List.mem_cons_self, hx.1 h⟩, fun _ => rfl⟩
    · rename_i h
      rw [ih]
      constructor
      · rintro ⟨z, hz, hr⟩
        exact ⟨z, List.mem_cons_of_mem _ hz, hr⟩
      · rintro ⟨z, hz, hr⟩
        rcases List.mem_cons.1 hz with rfl | hz
        · exact absurd (hx.2 hr) h
        · exact ⟨z, hz, hr⟩

/-- **C101**: for any files, an exception escapes if and only if some exchange that is read makes a check raise one, or reading ends
with one that is not handled (see C85). -/
theorem C101_escapes {files : List (Option Json)} (hp : ∀ x ∈ (L.harInput files).1, ∃ given, Payloads x given) :
    S.exitHar L files = some none ↔
      (∃ x ∈ (L.harInput files).1, Raising S.base.lower (recorded x)) ∨ ∃ e, (L.harInput files).2 = .crash e := by
  have hall : ∀ x ∈ (L.harInput files).1, Plain x := by
    intro x hx
    obtain ⟨g, hg⟩ := hp x hx
    unfold Plain
    rw [Bool.and_eq_true, List.all_eq_true]
    refine ⟨plain_of_text hg.request.2, fun r hr => ?_⟩
    obtain ⟨i, hi⟩ := List.mem_iff_getElem?.1 hr
    exact plain_of_text (hg.responses i r hi).2
  rw [← reportHar_raised hW hl]
  unfold Setup.exitHar Setup.runHar
  simp only [all_plain hall, if_true, Option.map_some, Option.some.injEq]
  rw [crash_status.2]
  cases (S.reportHar (L.harInput files).1).2 <;> cases (L.harInput files).2 <;> simp

/-- **C101**: an exception escapes only if an entry has a defect of certain kinds, or an exchange that was read makes the checks raise. -/
theorem C101_crash {files : List (Option Json)} (h : S.exitHar L files = some none) :
    (∃ data log es d, some data ∈ files ∧ Member data "log" log ∧ Member log "entries" (.arr es) ∧ d ∈ es ∧ EntryDefect L d) ∨
    ∃ x ∈ (L.harInput files).1, Raising S.base.lower (recorded x) := by
  unfold Setup.exitHar at h
  cases hr : S.runHar L files with
  | none => rw [hr] at h; cases h
  | some r =>
    obtain ⟨bs, e⟩ := r
    rw [hr] at h
    simp only [Option.map_some, Option.some.injEq] at h
    obtain rfl := crash_status.2.1 h
    unfold Setup.runHar at hr
    simp only at hr
    split at hr
    · rename_i hpl
      simp only [Option.some.injEq, Prod.mk.injEq] at hr
      by_cases hx : ∃ x ∈ (L.harInput files).1, Raising S.base.lower (recorded x)
      · exact .inr hx
      · obtain ⟨bs', _, h2⟩ := reportHar_calm hW hl (List.all_eq_true.1 hpl) (fun x hm hx' => hx ⟨x, hm, hx'⟩)
        have h2 := h2 []
        simp only [List.append_nil, Setup.reportHar] at h2
        rw [h2] at hr
        simp only [Bool.false_eq_true, if_false] at hr
        cases he : (L.harInput files).2 with
        | done => rw [he] at hr; cases hr.2
        | inputError => rw [he] at hr; cases hr.2
        | crash e => exact .inl (C85_crash L files e he)
    · cases hr

end

/-! ## Examples -/

theorem fileOf_inj {f : Json} {c c' : Str} {es es' : List Json} (h : FileOf f c es) (h' : FileOf f c' es') : c = c' ∧ es = es' := by
  obtain ⟨log, cr, h1, h2, h3, h4⟩ := h
  obtain ⟨log', cr', k1, k2, k3, k4⟩ := h'
  obtain rfl := has_inj h1 k1
  obtain rfl := has_inj h2 k2
  have e1 := has_inj h3 k3
  have e2 := has_inj h4 k4
  cases e1
  cases e2
  exact ⟨rfl, rfl⟩

theorem headers_inj {m : Json} {hs hs' : List (Str × Str)} (h : Headers m hs) (h' : Headers m hs') : hs = hs' := by
  obtain ⟨items, h1, h2⟩ := h
  obtain ⟨items', k1, k2⟩ := h'
  have e := has_inj h1 k1
  cases e
  clear h1 k1
  induction h2 generalizing hs' with
  | nil => cases k2; rfl
  | @cons i a is as hx _ ih =>
    cases k2 with
    | cons hy hr =>
      have e1 := has_inj hx.1 hy.1
      have e2 := has_inj hx.2 hy.2
      rename_i b bs
      obtain ⟨b1, b2⟩ := b
      obtain ⟨a1, a2⟩ := a
      simp only [Json.text.injEq] at e1 e2
      rw [e1, e2, ih hr]

/-- The exchange of the example for C85 does not make the checks raise. -/
theorem harEntry_calm {L : HarLib} (v : Json) {x : HarRequest × List HarResponse} (h : ExchangeOf L (str "Fiddler") (harEntry v) x) :
    ¬Raising Toy.env.lower (recorded x) := by
  obtain ⟨⟨rq, h1, h2⟩, rs, h3, h4⟩ := h
  obtain rfl := has_inj h1 (item_ok.mp rfl : Member (harEntry v) "request" (harRequest v))
  obtain rfl := has_inj h3 (item_ok.mp rfl : Member (harEntry v) "response" harResponse)
  have hreq : x.1.headers = [⟨str "host", str "a"⟩] := by
    obtain ⟨hs, h5, h6⟩ := h2.headers
    rw [headers_inj h5 (⟨_, item_ok.mp rfl, .cons ⟨item_ok.mp rfl, item_ok.mp rfl⟩ (.cons ⟨item_ok.mp rfl, item_ok.mp rfl⟩ .nil)⟩ :
      Headers (harRequest v) [(str ":method", str "POST"), (str "host", str "a")])] at h6
    rw [h6]
    decide +kernel
  have hresp : ∀ r ∈ x.2, r.headers = [] ∧ r.status = 200 := by
    rcases h4 with ⟨_, h4⟩ | ⟨r, h4, _, hr⟩
    · rw [h4]; exact nofun
    · rw [h4]
      intro r' hr'
      obtain rfl := List.mem_singleton.1 hr'
      obtain ⟨hs, hs', h5, h6, h7⟩ := hr.headers
      have := headers_inj h5 (⟨_, item_ok.mp rfl, .nil⟩ : Headers harResponse [])
      subst this
      have hs0 : hs' = [] := by
        rcases h7 with ⟨_, h7⟩ | ⟨_, h7⟩ <;> rw [h7] <;> rfl
      subst hs0
      refine ⟨h6, ?_⟩
      have := has_inj hr.status (item_ok.mp rfl : Member harResponse "status" (.int 200))
      simpa using this
  rintro (⟨q, hq, e, he, hn, _⟩ | ⟨r, hr, hb⟩)
  · cases hq
    have he : e ∈ x.1.headers ++ [] := he
    rw [hreq, List.append_nil, List.mem_singleton] at he
    subst he
    exact absurd hn (by unfold Called; decide +kernel)
  · have hr : r ∈ x.2.map _ := hr
    obtain ⟨r', hr', rfl⟩ := List.mem_map.1 hr
    obtain ⟨h0, hst⟩ := hresp r' hr'
    rcases hb with ⟨e, he, _⟩ | ⟨_, d, n, ⟨_, ⟨a, e, b, he, _⟩, _⟩, _⟩ | hb
    · have he : e ∈ r'.headers ++ [] := he
      rw [h0] at he
      cases he
    · have he : r'.headers ++ [] = a ++ e :: b := he
      rw [h0] at he
      simp at he
    · have : r'.status = 451 := hb.1
      rw [hst] at this
      cases this

/-- The hypotheses can be met: two valid files with an exchange each, one file that is not JSON, and one with something
else among its entries. -/
example {W : World} (hW : Ready W) :
    let f := harFile [harEntry (.text (str "HTTP/1.1"))]
    (∃ bs, (exSetup W [] none).runHar harLib [some f, some f] = some (bs, .finished) ∧ bs.length = 2) ∧
    (exSetup W [] none).exitHar harLib [some f, none] = some (some 1) ∧
    (∀ bs e, (exSetup W [] none).runHar harLib [some f, some (harFile [harEntry (.text (str "HTTP/1.1")), .null])] = some (bs, e) →
      2 ≤ bs.length) := by
  have hv1 : ValidFile harLib (harFile [harEntry (.text (str "HTTP/1.1"))]) :=
    ⟨_, _, harFile_of _, by simpa using harEntry_valid⟩
  have hc1 : Calm (exSetup W [] none) harLib (harFile [harEntry (.text (str "HTTP/1.1"))]) := by
    intro creator es hf e he x hx
    obtain ⟨rfl, rfl⟩ := fileOf_inj hf (harFile_of _)
    obtain rfl := List.mem_singleton.1 he
    exact harEntry_calm _ hx
  have len : ∀ {f xs}, ExchangesOf harLib (harFile [f]) xs → xs.length = 1 := by
    rintro f xs ⟨c, es, hf, hp⟩
    obtain ⟨rfl, rfl⟩ := fileOf_inj hf (harFile_of _)
    cases hp with
    | cons _ h => cases h; rfl
  have p2len : ∀ {α β : Type} {R : α → β → Prop} {as : List α} {bs : List β}, Pairwise2 R as bs → as.length = bs.length := by
    intro α β R as bs h
    induction h with
    | nil => rfl
    | cons _ _ ih => simp [ih]
  refine ⟨?_, ?_, ?_⟩
  · obtain ⟨xss, bs, h1, h2, h3⟩ := C101_shown (S := exSetup W [] none) (L := harLib) hW toy_lower
      (files := [harFile [harEntry (.text (str "HTTP/1.1"))], harFile [harEntry (.text (str "HTTP/1.1"))]])
      (by simpa using hv1) (by simpa using hc1)
    refine ⟨bs, h2, ?_⟩
    rw [← p2len h3]
    cases h1 with
    | cons a h1 => cases h1 with
      | cons b h1 =>
        cases h1
        simp [len a, len b]
  · obtain ⟨_, _, _, _, _, h⟩ := C101_unreadable (S := exSetup W [] none) (L := harLib) hW toy_lower
      (files := [harFile [harEntry (.text (str "HTTP/1.1"))]]) (by simpa using hv1) (by simpa using hc1) []
    exact h
  · intro bs e h
    obtain ⟨xss, ys, bs1, bs2, h1, h2, rfl, h3⟩ := C101_before (S := exSetup W [] none) (L := harLib) hW toy_lower
      (files := [harFile [harEntry (.text (str "HTTP/1.1"))]]) (by simpa using hv1) (by simpa using hc1)
      (good := [harEntry (.text (str "HTTP/1.1"))]) (rest := [.null]) (harFile_of _) (by simpa using harEntry_valid)
      (by intro e he x hx; obtain rfl := List.mem_singleton.1 he; exact harEntry_calm _ hx) h
    have := p2len h3
    rw [List.length_append, ← this]
    cases h1 with
    | cons a h1 =>
      cases h1
      have hy := p2len h2
      simp only [List.flatten_cons, List.flatten_nil, List.append_nil, List.length_append, len a, ← hy, List.length_singleton]
      omega


end Httpolice.Props
