import Verif.Spec.HarHtml
import Verif.Props.HtmlRun
import Verif.Props.HarOutput

/-!
# C107: the HTML that a whole run on HAR files writes
-/

namespace Httpolice.Props

open Httpolice.Model HarLib Httpolice.Spec Httpolice.Lemmas Httpolice.Lemmas.Check

/-! ## Notices -/

section
variable {S : Setup} {V : HarStaging} {x : HarRequest × List HarResponse} {b : ExchBoards Ctx} (hb : HarShown S x b)
  (hcat : ∀ t c, HarToShow S x t c → ∃ row ∈ noticeRows, row.id = c.id)
include hb

theorem mem_harComplaints (t : Target) (h : HComplaint) : h ∈ V.complaints t (b.get t) ↔
    ∃ c, HarToShow S x t c ∧ h = ⟨severityOf c.id, c.id, V.title t c, V.explanation t c, V.ctx t c⟩ := by
  constructor
  · intro hm
    cases ho : b.get t with
    | none => rw [ho] at hm; cases hm
    | some obj =>
      rw [ho] at hm
      obtain ⟨c, hc, rfl⟩ := List.mem_map.1 hm
      exact ⟨c, (hb.2 t c).1 ⟨obj, ho, hc⟩, rfl⟩
  · rintro ⟨c, hs, rfl⟩
    obtain ⟨obj, ho, hc⟩ := (hb.2 t c).2 hs
    rw [ho]
    exact List.mem_map.2 ⟨c, hc, rfl⟩

theorem harComplaints_none (t : Target) : V.complaints t (b.get t) = [] ↔ ¬∃ c, HarToShow S x t c := by
  rw [List.eq_nil_iff_forall_not_mem]
  constructor
  · rintro h ⟨c, hc⟩
    exact h _ ((mem_harComplaints hb t _).2 ⟨c, hc, rfl⟩)
  · rintro h k hk
    obtain ⟨c, hc, _⟩ := (mem_harComplaints hb t k).1 hk
    exact h ⟨c, hc⟩

include hcat

omit hb in
theorem har_notice_element {f : Nat → Nat} {t : Target} {c : Complaint Ctx} (hc : HarToShow S x t c) {d : Doc}
    (h : ShowsNotice f ⟨severityOf c.id, c.id, V.title t c, V.explanation t c, V.ctx t c⟩ d) :
    HarNoticeElement V t c d := by
  obtain ⟨row, hr, hid⟩ := hcat t c hc
  have hs : severityOf c.id = row.severity := by rw [← hid, severityOf_row row hr]
  obtain ⟨h1, ⟨hd, rest, h2, h3, h4, h5⟩, _⟩ := h
  simp only [hs] at h1 h4
  refine ⟨row, hr, hid, ?_, hd, rest, h2, h3, ?_, h5⟩
  · rw [h1]
    cases row.severity <;> rfl
  · rw [h4]
    cases row.severity <;> rfl

theorem har_box_for {f : Nat → Nat} {t : Target} {ds : List Doc} (h : ShowsNotices f (V.complaints t (b.get t)) ds) :
    HarBoxFor S V x t ds := by
  unfold ShowsNotices at h
  by_cases he : V.complaints t (b.get t) = []
  · rw [if_pos he] at h
    exact .inl ⟨(harComplaints_none hb t).1 he, h⟩
  · rw [if_neg he] at h
    obtain ⟨box, h1, h2, h3⟩ := h
    refine .inr ⟨box, h1, h2, ?_, ?_, ?_⟩
    · exact Classical.not_not.1 (mt (harComplaints_none hb t).2 he)
    · intro d hd
      obtain ⟨k, hk, hkd⟩ := (p2_mem h3).2 d hd
      obtain ⟨c, hc, rfl⟩ := (mem_harComplaints hb t k).1 hk
      exact ⟨c, hc, har_notice_element hcat hc hkd⟩
    · intro c hc
      obtain ⟨d, hd, hkd⟩ := (p2_mem h3).1 _ ((mem_harComplaints hb t _).2 ⟨c, hc, rfl⟩)
      exact ⟨d, hd, har_notice_element hcat hc hkd⟩

/-! ## Messages -/

variable (hV : ∀ t s (e : Entry), ((V.annotated t s e).flatMap fun | .bytes s => s | .known k => k.text) = e.value)

omit hb hcat in
include hV in
theorem har_entry_texts (f : Nat → Nat) (t : Target) (es : List Entry) :
    (entryLines f (V.entries t es)).map (·.2) = entryTexts es := by
  unfold entryLines HarStaging.entries entryTexts
  rw [List.map_map, List.map_map]
  have : ∀ k, (es.zipIdx k).map (((fun x => x.2) ∘ fun e => (some (decimalText (f e.oid)), entryText e)) ∘ fun (z : Entry × Nat) =>
      (⟨V.oid t (.entry z.2), ⟨V.oid t (.entry z.2), z.1.name, V.fieldInfo z.1.name⟩, V.annotated t (.entry z.2) z.1⟩ : HEntry)) =
      es.map fun e => legible (e.name ++ [58, 32] ++ e.value) := by
    induction es with
    | nil => intro k; rfl
    | cons e es ih =>
      intro k
      rw [List.zipIdx_cons, List.map_cons, List.map_cons, ih]
      congr 1
      exact congrArg (fun v => legible (e.name ++ [58, 32] ++ v)) (hV t _ e)
  exact this 0

include hV in
theorem har_section_for {f : Nat → Nat} {t : Target} {es : List Entry} {parts : List (Option Str × Str)} {line : List Str} {d : Doc}
    (hl : parts.map (·.2) = line.map legible) (h : ShowsMessage f parts (V.message b t es) d) :
    HarSectionFor S V x ⟨t, line, es⟩ d := by
  obtain ⟨h1, disp, rest, h2, h3, h4, h5, h6, h7, h8, _⟩ := h
  have pick : ∀ (l : List Doc), l.map textIn = (l.map fun e => (attrOf "data-ref-id" e, textIn e)).map (·.2) := by
    intro l
    rw [List.map_map]
    rfl
  refine ⟨h1, disp, rest, h2, har_box_for hb hcat h3, h4, ?_, ?_, ?_, ?_⟩
  · rw [h5]
    show remarkLines (some (str "from " ++ V.path)) = _
    generalize hr : str "from " ++ V.path = r
    cases r with
    | nil =>
      have := congrArg List.length hr
      simp [str] at this
    | cons => rfl
  · have := congrArg (List.map (List.map (·.2))) h6
    rw [List.map_map, List.map_cons, hl] at this
    rw [List.map_nil] at this
    rw [← this]
    refine List.map_congr_left fun z _ => ?_
    show _ = List.map _ (List.map _ _)
    rw [List.map_map]
    rfl
  · rw [pick, h7, List.map_append]
    show (entryLines f (V.entries t es)).map (·.2) ++ (entryLines f []).map (·.2) = _
    rw [har_entry_texts hV]
    exact List.append_nil _
  · have h8 : _ = (if ([] : List HEntry) = [] then [] else _) := h8
    rw [if_pos rfl] at h8
    exact List.map_eq_nil_iff.1 h8

omit hb hcat in
theorem har_version_texts (f : Nat → Nat) (o : Nat) (v : Option Str) :
    (versionPart f (v.map fun v => ⟨o, v⟩)).map (·.2) = (versionTexts (v.getD [])).map legible := by
  cases v with
  | none => rfl
  | some v => exact version_texts f o v

omit hb hcat in
theorem har_reason_text (reason : Option Str) (title : Option Str) : findReasonPhrase (reason.getD []) title =
    match reason, title with
      | some (c :: s), _ => c :: s
      | _, some (c :: s) => c :: s
      | _, _ => str "(unknown)" := by
  rcases reason with _ | _ | ⟨c, s⟩ <;> rcases title with _ | _ | ⟨c', s'⟩ <;> rfl

include hV in
/-- A block of the report. -/
theorem har_block_for (f : Nat → Nat) {d : Doc} (h : ShowsExchange f (V.exchange x b) d) : HarBlockFor S V x d := by
  obtain ⟨h1, h2, ss, cs, h3, h4, h5⟩ := h
  have hm : Pairwise2 (HarSectionFor S V x) (harSheets V x) ss := by
    let L : List (HarRequest ⊕ (HarResponse × Nat)) := .inl x.1 :: x.2.zipIdx.map .inr
    let g : HarRequest ⊕ (HarResponse × Nat) → List (Option Str × Str) × HMessage
      | .inl r => (requestLine f (V.request b r), (V.request b r).msg)
      | .inr (r, i) => (statusLine f (V.response b r i), (V.response b r i).msg)
    let g' : HarRequest ⊕ (HarResponse × Nat) → HarSheet
      | .inl r => ⟨.req, [r.method, r.target] ++ versionTexts (r.version.getD []), r.headers⟩
      | .inr (r, i) => ⟨.resp i, versionTexts (r.version.getD []) ++ [signedText r.status ++ [32] ++
        (match r.reason, shownIf (knownTitle (V.statusInfo r.status) false) with
          | some (c :: s), _ => c :: s
          | _, some (c :: s) => c :: s
          | _, _ => str "(unknown)")], r.headers⟩
    have e1 : messagesOf f (V.exchange x b) = L.map g := by
      simp only [L, List.map_cons, List.map_map, messagesOf, HarStaging.exchange]
      rfl
    have e2 : harSheets V x = L.map g' := by
      simp only [L, List.map_cons, List.map_map, harSheets]
      rfl
    rw [e1] at h4
    rw [e2]
    refine p2_map_left h4 fun a _ d hd => ?_
    cases a with
    | inl r =>
      refine har_section_for hb hcat hV ?_ hd
      show (requestLine f (V.request b r)).map (·.2) = _
      unfold requestLine
      rw [List.map_append, List.map_append]
      congr 1
      exact har_version_texts f _ _
    | inr r =>
      obtain ⟨r, i⟩ := r
      refine har_section_for hb hcat hV ?_ hd
      show (statusLine f (V.response b r i)).map (·.2) = _
      unfold statusLine
      rw [List.map_append, List.map_append]
      congr 1
      · exact har_version_texts f _ _
      · rw [← har_reason_text, ← intText_signed]
        rfl
  refine ⟨h1, h2, ss, ?_⟩
  have hn : (V.exchange x b).complaints = V.complaints .exch (b.get .exch) := rfl
  rw [hn] at h5
  rcases h5 with ⟨h6, rfl⟩ | ⟨ds, rfl, h6, h7⟩
  · exact ⟨[], .inl ⟨(harComplaints_none hb .exch).1 h6, rfl⟩, hm, by rw [h3, List.append_nil, List.append_nil]⟩
  · refine ⟨ds, har_box_for hb hcat h7, hm, ?_⟩
    unfold ShowsNotices at h7
    rw [if_neg h6] at h7
    obtain ⟨box, rfl, _⟩ := h7
    rw [h3, List.flatMap_append]
    rfl

omit hcat in
/-- Complaints in the report on an exchange. -/
theorem mem_harComplaintsIn {h : HComplaint} (hm : h ∈ complaintsIn (V.exchange x b)) : ∃ t c, HarToShow S x t c ∧
    h = ⟨severityOf c.id, c.id, V.title t c, V.explanation t c, V.ctx t c⟩ := by
  have key : ∀ t, h ∈ V.complaints t (b.get t) → ∃ t c, HarToShow S x t c ∧
      h = ⟨severityOf c.id, c.id, V.title t c, V.explanation t c, V.ctx t c⟩ :=
    fun t ht => ⟨t, (mem_harComplaints hb t h).1 ht⟩
  unfold complaintsIn at hm
  rcases List.mem_append.1 hm with hm | hm
  · rcases List.mem_append.1 hm with hm | hm
    · refine key .req ?_
      simp only [HarStaging.exchange, Option.toList_some, List.flatMap_cons, List.flatMap_nil, List.append_nil] at hm
      exact hm
    · obtain ⟨r, hr, hm⟩ := List.mem_flatMap.1 hm
      obtain ⟨⟨r', i⟩, _, rfl⟩ := List.mem_map.1 hr
      exact key (.resp i) hm
  · exact key .exch hm

omit hcat in
/-- The object that a notice is on is one of those that are shown. -/
theorem har_sheet_of {t : Target} {c : Complaint Ctx} (hc : HarToShow S x t c) :
    t = .exch ∨ ∃ m ∈ harSheets V x, m.target = t := by
  obtain ⟨obj, ho, _⟩ := (hb.2 t c).2 hc
  have hs := hb.1
  cases t with
  | exch => exact .inl rfl
  | req => exact .inr ⟨_, List.mem_cons_self, rfl⟩
  | resp i =>
    right
    have ho : b.responses[i]? = some obj := ho
    obtain ⟨hi, _⟩ := List.getElem?_eq_some_iff.1 ho
    rw [hs.2] at hi
    refine ⟨_, List.mem_cons_of_mem _ (List.mem_map.2 ⟨(x.2[i], i), ?_, rfl⟩), rfl⟩
    rw [List.mem_zipIdx_iff_getElem?]
    simp [hi]

omit hb hcat in
theorem har_box_notice {t : Target} {c : Complaint Ctx} {ds : List Doc} (h : HarBoxFor S V x t ds)
    (hc : HarToShow S x t c) : ∃ box ∈ ds, ∃ n ∈ nodesOf box, HarNoticeElement V t c n := by
  rcases h with ⟨h, _⟩ | ⟨box, rfl, _, _, _, h⟩
  · exact absurd ⟨c, hc⟩ h
  · obtain ⟨d, hd, hn⟩ := h c hc
    exact ⟨box, List.mem_singleton.2 rfl, d, nodes_inside hd (node_self d), hn⟩

omit hb hcat in
/-- The class of an element for a notice tells its severity. -/
theorem har_class_grave {t : Target} {c : Complaint Ctx} {n : Doc} (h : HarNoticeElement V t c n) (T : Severity) :
    (∃ k ∈ classesFrom T, attrOf "class" n = some k) ↔ Grave T c.id := by
  obtain ⟨row, hr, hid, hk, _⟩ := h
  have hc : ∃ row ∈ noticeRows, row.id = c.id := ⟨row, hr, hid⟩
  have hd : noticeClass .error ≠ noticeClass .comment ∧ noticeClass .error ≠ noticeClass .debug ∧
      noticeClass .comment ≠ noticeClass .debug := by decide
  rw [grave_iff hc, ← hid, severityOf_row row hr, hk]
  have e : ∀ T, classesFrom T = (match T with
    | .error => [noticeClass .error]
    | .comment => [noticeClass .error, noticeClass .comment]
    | .debug => [noticeClass .error, noticeClass .comment, noticeClass .debug]) := by
    intro T
    cases T <;> rfl
  rw [e]
  generalize hn : noticeClass = k at hd
  clear e hk hc hid hr
  cases T <;> cases row.severity <;> simp [AtLeast, hd.1, hd.2.1, hd.2.2, hd.1.symm, hd.2.1.symm, hd.2.2.symm]

omit hcat in
/-- Every notice that is to be shown is in the block of its exchange. -/
theorem har_block_notice {t : Target} {c : Complaint Ctx} (hc : HarToShow S x t c) {d : Doc} (h : HarBlockFor S V x d) :
    ∃ n ∈ nodesOf d, HarNoticeElement V t c n := by
  have ht := har_sheet_of (V := V) hb hc
  obtain ⟨_, _, ss, box, h1, h2, h3⟩ := h
  have up : ∀ e ∈ ss ++ box, ∀ n ∈ nodesOf e, n ∈ nodesOf d := by
    intro e he n hn
    refine nodes_inside (e := e) ?_ hn
    rw [h3]
    exact List.mem_flatMap.2 ⟨e, he, List.mem_cons_self⟩
  rcases ht with rfl | ⟨m, hm, rfl⟩
  · obtain ⟨e, he, n, hn, h⟩ := har_box_notice h1 hc
    exact ⟨n, up e (List.mem_append_right _ he) n hn, h⟩
  · obtain ⟨s, hs, _, disp, rest, hr, hbox, _⟩ := (p2_mem h2).1 m hm
    obtain ⟨e, he, n, hn, h⟩ := har_box_notice hbox hc
    exact ⟨n, up s (List.mem_append_left _ hs) n (nodes_inside (by rw [hr]; exact List.mem_cons_of_mem _ he) hn), h⟩

end

/-! ## Reports -/

section
variable {S : Setup} {V : Nat → HarStaging} {L : HarLib}

theorem har_divs (seen : List Nat) (zs : List ((HarRequest × List HarResponse) × Nat)) : ∃ f : Nat → Nat,
    (htmlReport seen (zs.map fun z => (V z.2).exchange z.1 (S.reportOn [] (S.harExchange z.1)))).1 =
      zs.map fun z => docWith f (blockOf ((V z.2).exchange z.1 (S.reportOn [] (S.harExchange z.1)))) := by
  obtain ⟨f, hf⟩ := report_docs seen (zs.map fun z => (V z.2).exchange z.1 (S.reportOn [] (S.harExchange z.1)))
  refine ⟨f, ?_⟩
  rw [hf, divs_eq, List.filter_eq_self.2, docsWith_map, List.map_map, List.map_map]
  · rfl
  · intro e he
    obtain ⟨z, _, rfl⟩ := List.mem_map.1 he
    rfl

theorem reachedHar_length (xs : List (HarRequest × List HarResponse)) : (S.reachedHar xs).length = (S.reportHar xs).1.length := by
  induction xs with
  | nil => rfl
  | cons x xs ih =>
    unfold Setup.reachedHar at ih ⊢
    rw [Setup.reportHar, List.takeWhile_cons]
    by_cases h : S.raisesOn (S.harExchange x) = true
    · rw [if_pos h, h]
      rfl
    · rw [if_neg h, Bool.not_eq_true _ |>.mp h]
      simp [ih]

/-- What reaches the report does not depend on `--fail-on`. -/
theorem reportHar_failOn (xs : List (HarRequest × List HarResponse)) :
    ({ S with failOn := none } : Setup).reportHar xs = S.reportHar xs := by
  induction xs with
  | nil => rfl
  | cons x xs ih =>
    rw [Setup.reportHar, Setup.reportHar, ih]
    rfl

variable (hW : Ready S.world) (hl : LowersAscii S.base.lower)
include hW hl

/-- What is written about exchanges none of which make checks raise. -/
theorem har_html_report (hV : HarSpelled V) (seen : List Nat) {zs : List ((HarRequest × List HarResponse) × Nat)}
    (hp : ∀ z ∈ zs, Plain z.1) (hc : ∀ z ∈ zs, ¬Raising S.base.lower (recorded z.1)) :
    ∃ blocks, (htmlReport seen (zs.map fun z => (V z.2).exchange z.1 (S.reportOn [] (S.harExchange z.1)))).1 = blocks ∧
      Pairwise2 (fun z d => HarBlockFor S (V z.2) z.1 d) zs blocks ∧
      (∀ n ∈ nodesIn blocks, ∀ s, attrOf "class" n = some (noticeClass s) →
        ∃ z ∈ zs, ∃ t c, HarToShow S z.1 t c ∧ HarNoticeElement (V z.2) t c n) ∧
      ∀ z ∈ zs, ∀ t c, HarToShow S z.1 t c → ∃ n ∈ nodesIn blocks, HarNoticeElement (V z.2) t c n := by
  obtain ⟨f, hf⟩ := har_divs (S := S) (V := V) seen zs
  have hb : ∀ z ∈ zs, HarShown S z.1 (S.reportOn [] (S.harExchange z.1)) := fun z hz => har_shown hW hl (hp z hz) (hc z hz)
  have hcat : ∀ x t c, HarToShow S x t c → ∃ row ∈ noticeRows, row.id = c.id := fun x t c h => har_catalogued hW hl h
  have h2 : ∀ l : List ((HarRequest × List HarResponse) × Nat), (∀ z ∈ l, z ∈ zs) →
      Pairwise2 (fun z d => HarBlockFor S (V z.2) z.1 d) l
        (l.map fun z => docWith f (blockOf ((V z.2).exchange z.1 (S.reportOn [] (S.harExchange z.1))))) := by
    intro l hz
    induction l with
    | nil => exact .nil
    | cons z l ih =>
      exact .cons (har_block_for (hb z (hz z List.mem_cons_self)) (hcat z.1) (hV z.2) f (exchange_shown f _))
        (ih fun y hy => hz y (List.mem_cons_of_mem _ hy))
  have h2 := h2 zs fun _ h => h
  refine ⟨_, hf, h2, ?_, fun z hz t c hs => ?_⟩
  · have : OnlyNotices (fun n => ∃ z ∈ zs, ∃ t c, HarToShow S z.1 t c ∧ HarNoticeElement (V z.2) t c n)
        (zs.map fun z => docWith f (blockOf ((V z.2).exchange z.1 (S.reportOn [] (S.harExchange z.1))))) := by
      rw [List.map_eq_flatMap]
      refine only_flatMap fun z hz => ?_
      refine only_block (f := f) fun h hm => ?_
      obtain ⟨t, c, hs, rfl⟩ := mem_harComplaintsIn (hb z hz) hm
      exact ⟨z, hz, t, c, hs, har_notice_element (hcat z.1) hs (notice_shown f _)⟩
    exact this
  · obtain ⟨d, hd, h⟩ := (p2_mem h2).1 z hz
    obtain ⟨n, hn, h⟩ := har_block_notice (hb z hz) hs h
    exact ⟨n, nodes_of_mem hd hn, h⟩

theorem reachedHar_calm {xs : List (HarRequest × List HarResponse)} (hc : ∀ x ∈ xs, ¬Raising S.base.lower (recorded x))
    (ys : List (HarRequest × List HarResponse)) : S.reachedHar (xs ++ ys) = xs ++ S.reachedHar ys := by
  unfold Setup.reachedHar
  rw [List.takeWhile_append_of_pos]
  intro x hx
  rw [Bool.not_eq_true', ← Bool.not_eq_true]
  exact mt (raisesOn_iff hW hl (harAssigned x) _).1 (hc x hx)

theorem reachedHar_raising {x : HarRequest × List HarResponse} (h : Raising S.base.lower (recorded x))
    (rest : List (HarRequest × List HarResponse)) : S.reachedHar (x :: rest) = [] := by
  have hn : S.raisesOn (S.harExchange x) = true := (raisesOn_iff hW hl (harAssigned x) _).2 h
  unfold Setup.reachedHar
  rw [List.takeWhile_cons, hn]
  rfl

theorem html_valid (hV : HarSpelled V) (seen : List Nat) {files : List Json} (h : ∀ f ∈ files, ValidFile L f)
    (hc : ∀ f ∈ files, Calm S L f) :
    ∃ xss blocks, Pairwise2 (ExchangesOf L) files xss ∧ L.harInput (files.map some) = (xss.flatten, .done) ∧
      S.htmlHar V L seen (files.map some) = some (blocks, true) ∧
      Pairwise2 (fun z d => HarBlockFor S (V z.2) z.1 d) xss.flatten.zipIdx blocks ∧
      (∀ n ∈ nodesIn blocks, ∀ s, attrOf "class" n = some (noticeClass s) →
        ∃ z ∈ xss.flatten.zipIdx, ∃ t c, HarToShow S z.1 t c ∧ HarNoticeElement (V z.2) t c n) ∧
      ∀ z ∈ xss.flatten.zipIdx, ∀ t c, HarToShow S z.1 t c → ∃ n ∈ nodesIn blocks, HarNoticeElement (V z.2) t c n := by
  obtain ⟨xss, hp, he⟩ := harInput_append files h []
  have he : L.harInput (files.map some) = (xss.flatten, .done) := by simpa [HarLib.harInput] using he
  have hplain := exchanges_plain hp
  have hcalm := exchanges_calm hp hc
  obtain ⟨bs, _, h1⟩ := reportHar_calm hW hl hplain hcalm
  have h1 := h1 []
  simp only [List.append_nil, Setup.reportHar] at h1
  have hr : S.runHar L (files.map some) = some (bs, .finished) := by
    unfold Setup.runHar
    simp only [he, all_plain hplain, if_true, h1, Bool.false_eq_true, if_false]
  have hreach := reachedHar_calm hW hl hcalm []
  rw [List.append_nil, show S.reachedHar [] = [] from rfl, List.append_nil] at hreach
  have hmem : ∀ z ∈ xss.flatten.zipIdx, z.1 ∈ xss.flatten := fun z hz => List.fst_mem_of_mem_zipIdx hz
  obtain ⟨blocks, k1, k2, k3, k4⟩ := har_html_report (V := V) hW hl hV seen (zs := xss.flatten.zipIdx)
    (fun z hz => hplain _ (hmem z hz)) fun z hz => hcalm _ (hmem z hz)
  refine ⟨xss, blocks, hp, he, ?_, k2, k3, k4⟩
  unfold Setup.htmlHar
  rw [hr, he, hreach, ← k1]
  rfl

/-- **C107**: the document for valid files is whole and has a block for every entry, in order, that shows its messages and
just the notices that are to be shown. -/
theorem C107_document (hV : HarSpelled V) (seen : List Nat) {files : List Json} (h : ∀ f ∈ files, ValidFile L f)
    (hc : ∀ f ∈ files, Calm S L f) :
    ∃ xss blocks, Pairwise2 (ExchangesOf L) files xss ∧ S.htmlHar V L seen (files.map some) = some (blocks, true) ∧
      Pairwise2 (fun z d => HarBlockFor S (V z.2) z.1 d) xss.flatten.zipIdx blocks := by
  obtain ⟨xss, blocks, h1, _, h2, h3, _⟩ := html_valid hW hl hV seen h hc
  exact ⟨xss, blocks, h1, h2, h3⟩

omit hW hl in
/-- **C107**: after a file that cannot be opened or is not JSON, the document breaks off. -/
theorem C107_unreadable (seen : List Nat) (files after : List (Option Json)) :
    S.htmlHar V L seen (files ++ none :: after) = (S.htmlHar V L seen files).map fun r => (r.1, false) := by
  have hi : ∀ fs : List (Option Json), (L.harInput (fs ++ none :: after)).1 = (L.harInput fs).1 ∧
      (L.harInput (fs ++ none :: after)).2 ≠ .done := by
    intro fs
    induction fs with
    | nil => exact ⟨rfl, nofun⟩
    | cons f fs ih =>
      rw [List.cons_append, HarLib.harInput, HarLib.harInput]
      rcases L.harFile f with ⟨ys, e⟩
      cases e with
      | done => simp only [ih.1, ne_eq, ih.2, not_false_eq_true, and_self]
      | inputError => exact ⟨rfl, nofun⟩
      | crash e => exact ⟨rfl, nofun⟩
  obtain ⟨h1, h2⟩ := hi files
  unfold Setup.htmlHar Setup.runHar
  simp only [h1]
  split
  · simp only [Option.map_some, Option.some.injEq, Prod.mk.injEq, true_and]
    cases (S.reportHar (L.harInput files).1).2 with
    | true => rfl
    | false =>
      cases he : (L.harInput (files ++ none :: after)).2 with
      | done => exact absurd he h2
      | inputError => rfl
      | crash e => rfl
  · rfl

/-- **C107**: when the checks of an exchange raise an exception, the document breaks off after the blocks of the exchanges
before it. -/
theorem C107_raising (hV : HarSpelled V) (seen : List Nat) {files : List (Option Json)}
    {xs rest : List (HarRequest × List HarResponse)} {x : HarRequest × List HarResponse}
    (hi : (L.harInput files).1 = xs ++ x :: rest) (hp : ∀ y ∈ xs ++ x :: rest, ∃ given, Payloads y given)
    (hc : ∀ y ∈ xs, ¬Raising S.base.lower (recorded y)) (hx : Raising S.base.lower (recorded x)) :
    ∃ blocks, S.htmlHar V L seen files = some (blocks, false) ∧
      Pairwise2 (fun z d => HarBlockFor S (V z.2) z.1 d) xs.zipIdx blocks := by
  have hall : ∀ y ∈ xs ++ x :: rest, Plain y := by
    intro y hy
    obtain ⟨g, hg⟩ := hp y hy
    unfold Plain
    rw [Bool.and_eq_true, List.all_eq_true]
    refine ⟨plain_of_text hg.request.2, fun r hr => ?_⟩
    obtain ⟨i, hi⟩ := List.getElem?_of_mem hr
    exact plain_of_text (hg.responses i r hi).2
  have hxs : ∀ y ∈ xs, Plain y := fun y hy => hall y (List.mem_append_left _ hy)
  obtain ⟨bs, _, h1⟩ := reportHar_calm hW hl hxs hc
  have h1 := h1 (x :: rest)
  have hn : S.raisesOn (S.harExchange x) = true := (raisesOn_iff hW hl (harAssigned x) _).2 hx
  rw [Setup.reportHar, if_pos hn] at h1
  obtain ⟨blocks, k1, k2, _⟩ := har_html_report (V := V) hW hl hV seen (zs := xs.zipIdx)
    (fun z hz => hxs _ (List.fst_mem_of_mem_zipIdx hz)) fun z hz => hc _ (List.fst_mem_of_mem_zipIdx hz)
  refine ⟨blocks, ?_, k2⟩
  unfold Setup.htmlHar Setup.runHar
  simp only [hi, all_plain hall, if_true, h1, Option.map_some]
  rw [reachedHar_calm hW hl hc, reachedHar_raising hW hl hx, List.append_nil, ← k1]
  rfl

omit hW hl in
/-- **C107**: if the document is whole, every file could be read, and there are as many blocks as there are entries in the
files. -/
theorem C107_whole (seen : List Nat) {files : List (Option Json)} {ds : List Doc} (h : S.htmlHar V L seen files = some (ds, true)) :
    ∃ ns, ds.length = ns.sum ∧
      Pairwise2 (fun f n => ∃ data, f = some data ∧ ∀ log es, Member data "log" log → Member log "entries" (.arr es) →
        n = es.length ∧ ∀ e ∈ es, Complete e) files ns := by
  unfold Setup.htmlHar at h
  cases hr : S.runHar L files with
  | none => rw [hr] at h; cases h
  | some r =>
    obtain ⟨bs, e⟩ := r
    rw [hr, Option.map_some, Option.some.injEq, Prod.mk.injEq] at h
    obtain ⟨rfl, he⟩ := h
    have he : e = .finished := by cases e <;> first | rfl | cases he
    subst he
    have h0 : ({S with failOn := none} : Setup).exitHar L files = some (some 0) := by
      unfold Setup.exitHar
      rw [show ({S with failOn := none} : Setup).runHar L files = S.runHar L files from ?_, hr]
      · rfl
      · unfold Setup.runHar
        dsimp only
        rw [reportHar_failOn]
    obtain ⟨bs', ns, k1, k2, k3⟩ := C101_zero h0
    have hb : bs' = (S.reportHar (L.harInput files).1).1 := by
      unfold Setup.runHar at k1
      dsimp only at k1
      split at k1
      · rw [Option.some.injEq, Prod.mk.injEq] at k1
        rw [← k1.1, reportHar_failOn]
      · cases k1
    refine ⟨ns, ?_, k3⟩
    obtain ⟨f, hf⟩ := har_divs (S := S) (V := V) seen (S.reachedHar (L.harInput files).1).zipIdx
    refine (congrArg List.length hf).trans ?_
    rw [List.length_map, List.length_zipIdx, reachedHar_length, ← hb, k2]

omit hW hl in
/-- **C107**: the document is whole if and only if the run went through: without `--fail-on` the exit status is 0 then, and
only then. -/
theorem C107_end (seen : List Nat) {files : List (Option Json)} (hf : S.failOn = none) (ds : List Doc) (whole : Bool)
    (h : S.htmlHar V L seen files = some (ds, whole)) : whole = true ↔ S.exitHar L files = some (some 0) := by
  unfold Setup.htmlHar at h
  unfold Setup.exitHar
  cases hr : S.runHar L files with
  | none => rw [hr] at h; cases h
  | some r =>
    obtain ⟨bs, e⟩ := r
    rw [hr] at h
    cases h
    rw [Option.map_some, Option.some.injEq, hf]
    cases e with
    | finished => exact ⟨fun _ => rfl, fun _ => rfl⟩
    | inputError => exact ⟨nofun, fun h => by cases h⟩
    | otherError => exact ⟨nofun, fun h => by cases h⟩

/-- **C107**: the elements of the classes for notices are those of the notices that are to be shown, and the exit status can
be told from them: it is 1 if some element has the class of a severity that is the threshold or higher, and
0 otherwise. -/
theorem C107_exit (hV : HarSpelled V) (seen : List Nat) {files : List Json} (h : ∀ f ∈ files, ValidFile L f)
    (hc : ∀ f ∈ files, Calm S L f) :
    ∃ xss blocks, Pairwise2 (ExchangesOf L) files xss ∧ S.htmlHar V L seen (files.map some) = some (blocks, true) ∧
      (∀ n ∈ nodesIn blocks, ∀ s, attrOf "class" n = some (noticeClass s) →
        ∃ z ∈ xss.flatten.zipIdx, ∃ t c, HarToShow S z.1 t c ∧ HarNoticeElement (V z.2) t c n) ∧
      (∀ z ∈ xss.flatten.zipIdx, ∀ t c, HarToShow S z.1 t c → ∃ n ∈ nodesIn blocks, HarNoticeElement (V z.2) t c n) ∧
      (S.exitHar L (files.map some) = some (some 0) ∨ S.exitHar L (files.map some) = some (some 1)) ∧
      (S.exitHar L (files.map some) = some (some 1) ↔ ∃ T, S.failOn = some T ∧
        ∃ n ∈ nodesIn blocks, ∃ k ∈ classesFrom T, attrOf "class" n = some k) := by
  obtain ⟨xss, blocks, h1, he, h2, _, h3, h4⟩ := html_valid hW hl hV seen h hc
  obtain ⟨k1, k2⟩ := exit_valid hW hl he (exchanges_plain h1) (exchanges_calm h1 hc)
  refine ⟨xss, blocks, h1, h2, h3, h4, k2, k1.trans ⟨?_, ?_⟩⟩
  · rintro ⟨T, hT, x, hx, t, c, hs, hg⟩
    obtain ⟨k, hk⟩ := List.getElem?_of_mem hx
    obtain ⟨n, hn, hne⟩ := h4 (x, k) (List.mem_zipIdx_iff_getElem?.2 hk) t c hs
    exact ⟨T, hT, n, hn, (har_class_grave hne T).2 hg⟩
  · rintro ⟨T, hT, n, hn, hk⟩
    obtain ⟨s, hs⟩ := class_notice hk
    obtain ⟨z, hz, t, c, hc, hne⟩ := h3 n hn s hs
    exact ⟨T, hT, z.1, List.fst_mem_of_mem_zipIdx hz, t, c, hc, (har_class_grave hne T).1 hk⟩

end

/-! ## Examples -/

/-- Everything is at the same place, nothing is known, and all notices read the same; the paths differ. -/
def exHarStaging (k : Nat) : HarStaging where
  oid _ _ := 0
  path := decimalText k ++ str ".har"
  methodInfo _ := []
  statusInfo _ := []
  fieldInfo _ := []
  annotated _ _ e := [.bytes e.value]
  body _ := ⟨false, false, none, none, none, none, none, false⟩
  title _ _ := [.text (str "Wrong thing")]
  explanation _ _ := [.para [.text (str "See there.")]]
  ctx _ _ := ⟨fun _ => .plain 0 [], none, .other (.plain 0 [])⟩

theorem exHarStaging_spelled : HarSpelled exHarStaging := by
  intro k t s e
  simp [exHarStaging]

/-- C107: two valid files; the document is whole, with two blocks, one for each entry. A
file after them that cannot be read leaves the blocks, and no end. The exit status can be told from the classes. -/
example {W : World} (hW : Ready W) : ∃ xss blocks,
    (exSetup W [] (some .error)).htmlHar exHarStaging harLib []
      [some (harFile [harEntry (.text (str "HTTP/1.1"))]), some (harFile [harEntry (.text (str "HTTP/1.1"))]), none] = some (blocks, false) ∧
    blocks.length = 2 ∧ Pairwise2 (ExchangesOf harLib) [harFile [harEntry (.text (str "HTTP/1.1"))], harFile [harEntry (.text (str "HTTP/1.1"))]] xss ∧
    Pairwise2 (fun z d => HarBlockFor (exSetup W [] (some .error)) (exHarStaging z.2) z.1 d) xss.flatten.zipIdx blocks ∧
    ((exSetup W [] (some .error)).exitHar harLib
        ([harFile [harEntry (.text (str "HTTP/1.1"))], harFile [harEntry (.text (str "HTTP/1.1"))]].map some) = some (some 1) ↔
      ∃ n ∈ nodesIn blocks, attrOf "class" n = some (str "notice error")) := by
  have hv : ValidFile harLib (harFile [harEntry (.text (str "HTTP/1.1"))]) := ⟨_, _, harFile_of _, by simpa using harEntry_valid⟩
  have hc : Calm (exSetup W [] (some .error)) harLib (harFile [harEntry (.text (str "HTTP/1.1"))]) := by
    intro creator es he e hm x hx
    obtain ⟨rfl, rfl⟩ := fileOf_inj he (harFile_of _)
    obtain rfl := List.mem_singleton.1 hm
    exact harEntry_calm _ hx
  have hv2 : ∀ f ∈ [harFile [harEntry (.text (str "HTTP/1.1"))], harFile [harEntry (.text (str "HTTP/1.1"))]], ValidFile harLib f := by
    simpa using hv
  have hc2 : ∀ f ∈ [harFile [harEntry (.text (str "HTTP/1.1"))], harFile [harEntry (.text (str "HTTP/1.1"))]],
      Calm (exSetup W [] (some .error)) harLib f := by
    simpa using hc
  obtain ⟨xss, blocks, h1, h2, h3⟩ := C107_document (S := exSetup W [] (some .error)) hW toy_lower exHarStaging_spelled [] hv2 hc2
  obtain ⟨_, blocks', _, h2', _, _, _, h4⟩ := C107_exit (S := exSetup W [] (some .error)) hW toy_lower exHarStaging_spelled [] hv2 hc2
  rw [h2, Option.some.injEq, Prod.mk.injEq] at h2'
  obtain ⟨rfl, _⟩ := h2'
  obtain ⟨ns, h5, h6⟩ := C107_whole [] h2
  refine ⟨xss, blocks, ?_, ?_, h1, h3, h4.trans ⟨?_, ?_⟩⟩
  · refine (C107_unreadable [] ([harFile [harEntry (.text (str "HTTP/1.1"))], harFile [harEntry (.text (str "HTTP/1.1"))]].map some) []).trans ?_
    rw [h2]
    rfl
  · rw [h5]
    have one : ∀ {n : Nat}, (∃ data, some (harFile [harEntry (.text (str "HTTP/1.1"))]) = some data ∧ ∀ log es, Member data "log" log →
        Member log "entries" (.arr es) → n = es.length ∧ ∀ e ∈ es, Complete e) → n = 1 := by
      rintro n ⟨data, hd, h⟩
      obtain rfl := Option.some.inj hd
      exact (h _ _ (item_ok.mp rfl) (item_ok.mp rfl)).1
    cases h6 with
    | cons a h6 =>
      cases h6 with
      | cons b h6 =>
        cases h6
        rw [one a, one b]
        rfl
  · rintro ⟨T, hT, n, hn, k, hk, h⟩
    cases hT
    exact ⟨n, hn, by rw [h, List.mem_singleton.1 hk]⟩
  · rintro ⟨n, hn, h⟩
    exact ⟨.error, rfl, n, hn, _, List.mem_singleton_self _, h⟩

/-- C107: an entry with a link that lacks a value; the block before it stays, the document has no end, and the exit
status is not 0. -/
example {W : World} (hW : Ready W) : ∃ x d, x ∈ (harLib.harInput [some (harFile [harEntry (.text (str "HTTP/1.1")), linkEntry])]).1 ∧
    (exSetup W [] none).htmlHar exHarStaging harLib [] [some (harFile [harEntry (.text (str "HTTP/1.1")), linkEntry])] = some ([d], false) ∧
    HarBlockFor (exSetup W [] none) (exHarStaging 0) x d ∧
    (exSetup W [] none).exitHar harLib [some (harFile [harEntry (.text (str "HTTP/1.1")), linkEntry])] ≠ some (some 0) := by
  obtain ⟨x, y, hi, hplain, hcalm, hraise⟩ := linkEntry_read
  obtain ⟨blocks, k1, k2⟩ := C107_raising (S := exSetup W [] none) (L := harLib) hW toy_lower exHarStaging_spelled [] (xs := [x]) (rest := []) hi
    (fun q hq => ⟨_, assigned_payloads (hplain q hq)⟩) (fun q hq => by rw [List.mem_singleton.1 hq]; exact hcalm) hraise
  cases k2 with
  | cons hb hnil =>
    cases hnil
    exact ⟨x, _, by rw [hi]; exact List.mem_cons_self, k1, hb, fun he => by cases (C107_end [] rfl _ _ k1).2 he⟩

end Httpolice.Props
