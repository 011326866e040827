import Verif.Spec.HtmlRun
import Verif.Props.Html
import Verif.Props.Output
import Verif.Lemmas.HtmlNotices

/-!
# C106: the HTML that a whole run of the command writes
-/

namespace Httpolice.Props

open Httpolice.Model Httpolice.Spec Httpolice.Lemmas Httpolice.Lemmas.Check

/-! ## Lists -/

theorem p2_map_left {α β γ δ : Type} {R : β → δ → Prop} {R' : γ → δ → Prop} {g : α → β} {g' : α → γ} :
    ∀ {l : List α} {ds : List δ}, Pairwise2 R (l.map g) ds → (∀ a ∈ l, ∀ d, R (g a) d → R' (g' a) d) →
      Pairwise2 R' (l.map g') ds
  | [], _, h, _ => by cases h; exact .nil
  | a :: l, _, h, k => by
    rw [List.map_cons] at h
    cases h with
    | cons h1 h2 => exact .cons (k a List.mem_cons_self _ h1) (p2_map_left h2 fun b hb => k b (List.mem_cons_of_mem _ hb))

/-! ## Notices -/

section
variable {S : Setup} {V : Staging} {x : Option Str × Yield} {b : ExchBoards Ctx} (hb : ShownAs S x b)
  (hcat : ∀ t c, ToShow S x.1 x.2 t c → ∃ row ∈ noticeRows, row.id = c.id)
include hb

theorem mem_complaints (t : Target) (h : HComplaint) : h ∈ V.complaints x.2 t (b.get t) ↔
    ∃ c, ToShow S x.1 x.2 t c ∧ h = ⟨severityOf c.id, c.id, V.title x.2 t c, V.explanation x.2 t c, V.ctx x.2 t c⟩ := by
  constructor
  · intro hm
    cases ho : b.get t with
    | none => rw [ho] at hm; cases hm
    | some obj =>
      rw [ho] at hm
      obtain ⟨c, hc, rfl⟩ := List.mem_map.1 hm
      exact ⟨c, (hb.2 t c).1 ⟨obj, ho, hc⟩, rfl⟩
  · rintro ⟨c, hs, rfl⟩
    obtain ⟨obj, ho, hc⟩ := (hb.2 t c).2 hs
    rw [ho]
    exact List.mem_map.2 ⟨c, hc, rfl⟩

theorem complaints_none (t : Target) : V.complaints x.2 t (b.get t) = [] ↔ ¬∃ c, ToShow S x.1 x.2 t c := by
  rw [List.eq_nil_iff_forall_not_mem]
  constructor
  · rintro h ⟨c, hc⟩
    exact h _ ((mem_complaints hb t _).2 ⟨c, hc, rfl⟩)
  · rintro h k hk
    obtain ⟨c, hc, _⟩ := (mem_complaints hb t k).1 hk
    exact h ⟨c, hc⟩

include hcat

omit hb in
theorem notice_element {f : Nat → Nat} {t : Target} {c : Complaint Ctx} (hc : ToShow S x.1 x.2 t c) {d : Doc}
    (h : ShowsNotice f ⟨severityOf c.id, c.id, V.title x.2 t c, V.explanation x.2 t c, V.ctx x.2 t c⟩ d) :
    NoticeElement V x.2 t c d := by
  obtain ⟨row, hr, hid⟩ := hcat t c hc
  have hs : severityOf c.id = row.severity := by rw [← hid, severityOf_row row hr]
  obtain ⟨h1, ⟨hd, rest, h2, h3, h4, h5⟩, _⟩ := h
  simp only [hs] at h1 h4
  refine ⟨row, hr, hid, ?_, hd, rest, h2, h3, ?_, h5⟩
  · rw [h1]
    cases row.severity <;> rfl
  · rw [h4]
    cases row.severity <;> rfl

theorem box_for {f : Nat → Nat} {t : Target} {ds : List Doc} (h : ShowsNotices f (V.complaints x.2 t (b.get t)) ds) :
    BoxFor S V x t ds := by
  unfold ShowsNotices at h
  by_cases he : V.complaints x.2 t (b.get t) = []
  · rw [if_pos he] at h
    exact .inl ⟨(complaints_none hb t).1 he, h⟩
  · rw [if_neg he] at h
    obtain ⟨box, h1, h2, h3⟩ := h
    refine .inr ⟨box, h1, h2, ?_, ?_, ?_⟩
    · exact Classical.not_not.1 (mt (complaints_none hb t).2 he)
    · intro d hd
      obtain ⟨k, hk, hkd⟩ := (p2_mem h3).2 d hd
      obtain ⟨c, hc, rfl⟩ := (mem_complaints hb t k).1 hk
      exact ⟨c, hc, notice_element hcat hc hkd⟩
    · intro c hc
      obtain ⟨d, hd, hkd⟩ := (p2_mem h3).1 _ ((mem_complaints hb t _).2 ⟨c, hc, rfl⟩)
      exact ⟨d, hd, notice_element hcat hc hkd⟩

/-! ## Messages -/

omit hb hcat in
theorem entry_texts (hV : Spelled V) (f : Nat → Nat) (t : Target) (part : Nat → HSpot) (es : List Entry) :
    (entryLines f (V.entries x.2 t part es)).map (·.2) = entryTexts es := by
  unfold entryLines Staging.entries entryTexts
  rw [List.map_map, List.map_map]
  have : ∀ k, (es.zipIdx k).map (((fun x => x.2) ∘ fun e => (some (decimalText (f e.oid)), entryText e)) ∘ fun (z : Entry × Nat) =>
      (⟨V.oid x.2 t (part z.2), ⟨V.oid x.2 t (part z.2), z.1.name, V.fieldInfo z.1.name⟩, V.annotated x.2 t (part z.2) z.1⟩ : HEntry)) =
      es.map fun e => legible (e.name ++ [58, 32] ++ e.value) := by
    induction es with
    | nil => intro k; rfl
    | cons e es ih =>
      intro k
      rw [List.zipIdx_cons, List.map_cons, List.map_cons, ih]
      congr 1
      exact congrArg (fun v => legible (e.name ++ [58, 32] ++ v)) (hV x.2 t _ e)
  exact this 0

theorem section_for (hV : Spelled V) {f : Nat → Nat} {t : Target} {m : FMsg} {parts : List (Option Str × Str)} {line : List Str} {d : Doc}
    (hl : parts.map (·.2) = line.map legible) (h : ShowsMessage f parts (V.message x.2 b t m) d) :
    SectionFor S V x ⟨t, m.start, line, m.entries, m.trailers⟩ d := by
  obtain ⟨h1, disp, rest, h2, h3, h4, h5, h6, h7, h8, _⟩ := h
  have pick : ∀ (l : List Doc), l.map textIn = (l.map fun e => (attrOf "data-ref-id" e, textIn e)).map (·.2) := by
    intro l
    rw [List.map_map]
    rfl
  refine ⟨h1, disp, rest, h2, box_for hb hcat h3, h4, ?_, ?_, ?_, ?_⟩
  · rw [h5]
    show remarkLines (some (str "from " ++ V.source x.2 t ++ str ", offset " ++ decimalText m.start)) = _
    generalize hr : str "from " ++ V.source x.2 t ++ str ", offset " ++ decimalText m.start = r
    cases r with
    | nil =>
      have := congrArg List.length hr
      simp [str] at this
    | cons => rfl
  · have := congrArg (List.map (List.map (·.2))) h6
    rw [List.map_map, List.map_cons, hl] at this
    rw [List.map_nil] at this
    rw [← this]
    refine List.map_congr_left fun z _ => ?_
    show _ = List.map _ (List.map _ _)
    rw [List.map_map]
    rfl
  · rw [pick, h7, List.map_append]
    show (entryLines f (V.entries x.2 t .entry m.entries)).map (·.2) ++ (entryLines f (V.entries x.2 t .trailer m.trailers)).map (·.2) = _
    rw [entry_texts hV, entry_texts hV]
  · have := congrArg (List.flatMap (List.map (·.2))) h8
    rw [List.flatMap_map] at this
    have e : ((classed "trailer" [disp]).flatMap fun t => (classed "header-entry" [t]).map textIn) =
        ((classed "trailer" [disp]).flatMap fun a => List.map (·.2)
          ((classed "header-entry" [a]).map fun e => (attrOf "data-ref-id" e, textIn e))) := by
      congr 1
      funext z
      exact pick _
    rw [e, this]
    show (if V.entries x.2 t .trailer m.trailers = [] then [] else _).flatMap _ = _
    by_cases hn : V.entries x.2 t .trailer m.trailers = []
    · rw [if_pos hn]
      have := entry_texts (x := x) hV f t .trailer m.trailers
      rw [hn] at this
      exact this
    · rw [if_neg hn, List.flatMap_cons, List.flatMap_nil, List.append_nil]
      exact entry_texts hV f t .trailer m.trailers

omit hb hcat in
theorem version_texts (f : Nat → Nat) (o : Nat) (v : Str) :
    (versionPart f (some ⟨o, v⟩)).map (·.2) = (versionTexts v).map legible := by
  unfold versionPart versionTexts
  by_cases h : v = [] <;> simp [h]

omit hb hcat in
theorem reason_text (reason : Str) (title : Option Str) : findReasonPhrase reason title =
    if reason ≠ [] then reason else match title with
      | some (c :: s) => c :: s
      | _ => str "(unknown)" := by
  unfold findReasonPhrase
  cases reason with
  | cons => rfl
  | nil =>
    cases title with
    | none => rfl
    | some s => cases s <;> rfl

/-- A block of the report. -/
theorem block_for (hV : Spelled V) (f : Nat → Nat) {d : Doc} (h : ShowsExchange f (V.exchange x.2 b) d) : BlockFor S V x d := by
  obtain ⟨h1, h2, ss, cs, h3, h4, h5⟩ := h
  have hm : Pairwise2 (SectionFor S V x) (sheets V x.2) ss ∧ (V.exchange x.2 b).complaints = V.complaints x.2 .exch (b.get .exch) := by
    have hsec : ∀ {t m parts line d}, parts.map (·.2) = line.map legible → ShowsMessage f parts (V.message x.2 b t m) d →
        SectionFor S V x ⟨t, m.start, line, m.entries, m.trailers⟩ d := section_for hb hcat hV
    clear hb hcat h5 h3
    obtain ⟨scheme, y⟩ := x
    cases y with
    | box id =>
      cases h4
      exact ⟨.nil, rfl⟩
    | exch req resps =>
      refine ⟨?_, rfl⟩
      let L : List (FReq ⊕ (FResp × Nat)) := req.toList.map .inl ++ resps.zipIdx.map .inr
      let g : FReq ⊕ (FResp × Nat) → List (Option Str × Str) × HMessage
        | .inl r => (requestLine f (V.request (.exch req resps) b r), (V.request (.exch req resps) b r).msg)
        | .inr (r, i) => (statusLine f (V.response (.exch req resps) b r i), (V.response (.exch req resps) b r i).msg)
      let g' : FReq ⊕ (FResp × Nat) → Sheet
        | .inl r => ⟨.req, r.msg.start, [r.method, r.target] ++ versionTexts r.version, r.msg.entries, r.msg.trailers⟩
        | .inr (r, i) => ⟨.resp i, r.msg.start, versionTexts r.version ++ [decimalText r.status ++ [32] ++
          (if r.reason ≠ [] then r.reason else
            match shownIf (knownTitle (V.statusInfo r.status) false) with
            | some (c :: s) => c :: s
            | _ => str "(unknown)")], r.msg.entries, r.msg.trailers⟩
      have e1 : messagesOf f (V.exchange (.exch req resps) b) = L.map g := by
        simp only [L, List.map_append, List.map_map, messagesOf, Staging.exchange]
        cases req <;> rfl
      have e2 : sheets V (.exch req resps) = L.map g' := by
        simp only [L, List.map_append, List.map_map, sheets]
        cases req <;> rfl
      rw [e1] at h4
      show Pairwise2 _ (sheets V (.exch req resps)) ss
      rw [e2]
      refine p2_map_left h4 fun a _ d hd => ?_
      cases a with
      | inl r =>
        refine hsec ?_ hd
        show (requestLine f (V.request (.exch req resps) b r)).map (·.2) = _
        unfold requestLine
        rw [List.map_append, List.map_append]
        congr 1
        exact version_texts f _ _
      | inr r =>
        obtain ⟨r, i⟩ := r
        refine hsec ?_ hd
        show (statusLine f (V.response (.exch req resps) b r i)).map (·.2) = _
        unfold statusLine
        rw [List.map_append, List.map_append]
        congr 1
        · exact version_texts f _ _
        · rw [reason_text]
          rfl
  refine ⟨h1, h2, ss, ?_⟩
  rw [hm.2] at h5
  rcases h5 with ⟨h6, rfl⟩ | ⟨ds, rfl, h6, h7⟩
  · exact ⟨[], .inl ⟨(complaints_none hb .exch).1 h6, rfl⟩, hm.1, by rw [h3, List.append_nil, List.append_nil]⟩
  · refine ⟨ds, box_for hb hcat h7, hm.1, ?_⟩
    unfold ShowsNotices at h7
    rw [if_neg h6] at h7
    obtain ⟨box, rfl, _⟩ := h7
    rw [h3, List.flatMap_append]
    rfl

omit hcat in
theorem has_parts : HasParts (V.exchange x.2 b) = true ↔ Substantial S V x := by
  have hc := complaints_none (V := V) hb .exch
  have hn : (V.exchange x.2 b).complaints = V.complaints x.2 .exch (b.get .exch) := by
    cases x.2 <;> rfl
  unfold HasParts Substantial
  simp only [Bool.or_eq_true, Bool.not_eq_true', List.isEmpty_eq_false_iff]
  rw [hn]
  have hs : ((V.exchange x.2 b).request.isSome = true ∨ (V.exchange x.2 b).responses ≠ []) ↔ sheets V x.2 ≠ [] := by
    cases x.2 with
    | box id => simp [Staging.exchange, sheets]
    | exch req resps =>
      cases req <;> simp [Staging.exchange, sheets]
  rw [hs]
  constructor
  · rintro (h | h)
    · exact .inl h
    · exact .inr (Classical.not_not.1 (mt hc.2 h))
  · rintro (h | h)
    · exact .inl h
    · exact .inr fun he => hc.1 he h

end

/-! ## Reports -/

section
variable {S : Setup} (hW : Ready S.world) (hl : LowersAscii S.base.lower) {V : Nat → Staging}
include hW hl

/-- The blocks of exchanges none of which make checks raise. -/
theorem docs_written (hV : ∀ k, Spelled (V k)) (f : Nat → Nat) {zs : List ((Option Str × Yield) × Nat)}
    (hz : ∀ z ∈ zs, ¬Breaks S z.1.1 z.1.2)
    (hcat : ∀ z ∈ zs, ∀ t c, ToShow S z.1.1 z.1.2 t c → ∃ row ∈ noticeRows, row.id = c.id) :
    ∃ blocks, docsWith f (exchangeDivs (zs.map fun z => (V z.2).exchange z.1.2 (S.report z.1.1 z.1.2))) = blocks.flatten ∧
      Pairwise2 (fun z => Written S (V z.2) z.1) zs blocks := by
  rw [divs_eq]
  induction zs with
  | nil => exact ⟨[], rfl, .nil⟩
  | cons x zs ih =>
    obtain ⟨bs, h1, h2⟩ := ih (fun z h => hz z (List.mem_cons_of_mem _ h)) fun z h => hcat z (List.mem_cons_of_mem _ h)
    have hb := report_shown hW hl (hz x List.mem_cons_self)
    have hp := has_parts (V := V x.2) hb
    rw [List.map_cons, List.filter_cons]
    by_cases hs : HasParts ((V x.2).exchange x.1.2 (S.report x.1.1 x.1.2)) = true
    · refine ⟨[docWith f (blockOf ((V x.2).exchange x.1.2 (S.report x.1.1 x.1.2)))] :: bs, ?_,
        .cons (.inl ⟨hp.1 hs, _, rfl, block_for hb (hcat x List.mem_cons_self) (hV x.2) f (exchange_shown f _)⟩) h2⟩
      rw [if_pos hs, List.map_cons, docsWith, h1]
      rfl
    · refine ⟨[] :: bs, ?_, .cons (.inr ⟨fun h => hs (hp.2 h), rfl⟩) h2⟩
      rw [if_neg hs, h1]
      rfl

omit hW hl in
/-- A report, with numbers for the objects. -/
theorem report_docs (seen : List Nat) (es : List HExch) : ∃ f : Nat → Nat, (htmlReport seen es).1 = docsWith f (exchangeDivs es) :=
  ⟨numberedBy (htmlReport seen es).2, numbers_with _ _ (numberedBy_agrees _)⟩

/-- Complaints in the report on an exchange. -/
theorem mem_complaintsIn {V : Staging} {x : Option Str × Yield} {b : ExchBoards Ctx} (hb : ShownAs S x b) {h : HComplaint}
    (hm : h ∈ complaintsIn (V.exchange x.2 b)) : ∃ t c, ToShow S x.1 x.2 t c ∧
      h = ⟨severityOf c.id, c.id, V.title x.2 t c, V.explanation x.2 t c, V.ctx x.2 t c⟩ := by
  have key : ∀ t, h ∈ V.complaints x.2 t (b.get t) → ∃ t c, ToShow S x.1 x.2 t c ∧
      h = ⟨severityOf c.id, c.id, V.title x.2 t c, V.explanation x.2 t c, V.ctx x.2 t c⟩ :=
    fun t ht => ⟨t, (mem_complaints hb t h).1 ht⟩
  clear hb
  obtain ⟨scheme, y⟩ := x
  unfold complaintsIn at hm
  cases y with
  | box id => exact key .exch (by simpa [Staging.exchange] using hm)
  | exch req resps =>
    rcases List.mem_append.1 hm with hm | hm
    · rcases List.mem_append.1 hm with hm | hm
      · cases req with
        | none => simp [Staging.exchange] at hm
        | some r =>
          refine key .req ?_
          simp only [Staging.exchange, Option.map_some, Option.toList_some, List.flatMap_cons, List.flatMap_nil, List.append_nil] at hm
          exact hm
      · obtain ⟨r, hr, hm⟩ := List.mem_flatMap.1 hm
        obtain ⟨⟨r', i⟩, _, rfl⟩ := List.mem_map.1 hr
        exact key (.resp i) hm
    · exact key .exch hm

/-- The elements of the classes for notices. -/
theorem docs_notices (f : Nat → Nat) {zs : List ((Option Str × Yield) × Nat)} (hz : ∀ z ∈ zs, ¬Breaks S z.1.1 z.1.2)
    (hcat : ∀ z ∈ zs, ∀ t c, ToShow S z.1.1 z.1.2 t c → ∃ row ∈ noticeRows, row.id = c.id) :
    OnlyNotices (fun n => ∃ z ∈ zs, ∃ t c, ToShow S z.1.1 z.1.2 t c ∧ NoticeElement (V z.2) z.1.2 t c n)
      (docsWith f (exchangeDivs (zs.map fun z => (V z.2).exchange z.1.2 (S.report z.1.1 z.1.2)))) := by
  rw [divs_eq, docsWith_map, List.map_map, List.map_eq_flatMap]
  refine only_flatMap fun e he => ?_
  obtain ⟨x, hx, rfl⟩ := List.mem_map.1 (List.mem_filter.1 he).1
  refine only_block (f := f) fun h hm => ?_
  obtain ⟨t, c, hc, rfl⟩ := mem_complaintsIn hW hl (report_shown hW hl (hz x hx)) hm
  exact ⟨x, hx, t, c, hc, notice_element (hcat x hx) hc (notice_shown f _)⟩

omit hW hl in
theorem node_self (d : Doc) : d ∈ nodesOf d := by
  cases d with
  | text s => exact List.mem_singleton.2 rfl
  | elem t as cs => exact List.mem_cons_self

omit hW hl in
theorem nodes_of_mem {d n : Doc} {ds : List Doc} (hd : d ∈ ds) (h : n ∈ nodesOf d) : n ∈ nodesIn ds := by
  induction ds with
  | nil => cases hd
  | cons e ds ih =>
    rw [nodesIn, List.mem_append]
    rcases List.mem_cons.1 hd with rfl | hd
    · exact .inl h
    · exact .inr (ih hd)

omit hW hl in
theorem nodesIn_mem {n : Doc} {ds : List Doc} (h : n ∈ nodesIn ds) : ∃ d ∈ ds, n ∈ nodesOf d := by
  induction ds with
  | nil => cases h
  | cons e ds ih =>
    rw [nodesIn, List.mem_append] at h
    rcases h with h | h
    · exact ⟨e, List.mem_cons_self, h⟩
    · obtain ⟨d, hd, h⟩ := ih h
      exact ⟨d, List.mem_cons_of_mem _ hd, h⟩

omit hW hl in
theorem nodes_inside {d e n : Doc} (h : e ∈ inside d) (hn : n ∈ nodesOf e) : n ∈ nodesOf d := by
  cases d with
  | text s => cases h
  | elem t as cs => exact List.mem_cons_of_mem _ (nodes_of_mem (ds := cs) h hn)

omit hW hl in
/-- The object that a notice is on is one of those that are shown. -/
theorem sheet_of {V : Staging} {x : Option Str × Yield} {b : ExchBoards Ctx} (hb : ShownAs S x b) {t : Target} {c : Complaint Ctx}
    (hc : ToShow S x.1 x.2 t c) : t = .exch ∨ ∃ m ∈ sheets V x.2, m.target = t := by
  obtain ⟨obj, ho, _⟩ := (hb.2 t c).2 hc
  have hs := hb.1
  clear hb hc
  obtain ⟨scheme, y⟩ := x
  cases t with
  | exch => exact .inl rfl
  | req =>
    right
    have ho : b.request = some obj := ho
    rw [ho] at hs
    cases y with
    | box id => cases hs.1
    | exch req resps =>
      cases req with
      | none => cases hs.1
      | some r => exact ⟨_, List.mem_append_left _ (List.mem_singleton.2 rfl), rfl⟩
  | resp i =>
    right
    have ho : b.responses[i]? = some obj := ho
    obtain ⟨hi, _⟩ := List.getElem?_eq_some_iff.1 ho
    rw [hs.2] at hi
    cases y with
    | box id => cases hi
    | exch req resps =>
      have hi : i < resps.length := by simpa [captured, streamExchange] using hi
      refine ⟨_, List.mem_append_right _ (List.mem_map.2 ⟨(resps[i], i), ?_, rfl⟩), rfl⟩
      rw [List.mem_zipIdx_iff_getElem?]
      simp [hi]

omit hW hl in
theorem box_notice {V : Staging} {x : Option Str × Yield} {t : Target} {c : Complaint Ctx} {ds : List Doc} (h : BoxFor S V x t ds)
    (hc : ToShow S x.1 x.2 t c) : ∃ box ∈ ds, ∃ n ∈ nodesOf box, NoticeElement V x.2 t c n := by
  rcases h with ⟨h, _⟩ | ⟨box, rfl, _, _, _, h⟩
  · exact absurd ⟨c, hc⟩ h
  · obtain ⟨d, hd, hn⟩ := h c hc
    exact ⟨box, List.mem_singleton.2 rfl, d, nodes_inside hd (node_self d), hn⟩

omit hW hl in
/-- Every notice that is to be shown is in what is written for its exchange. -/
theorem written_notice {V : Staging} {x : Option Str × Yield} {b : ExchBoards Ctx} (hb : ShownAs S x b) {t : Target} {c : Complaint Ctx}
    (hc : ToShow S x.1 x.2 t c) {ds : List Doc} (h : Written S V x ds) : ∃ n ∈ nodesIn ds, NoticeElement V x.2 t c n := by
  have ht := sheet_of (V := V) hb hc
  rcases h with ⟨_, d, rfl, _, _, ss, box, h1, h2, h3⟩ | ⟨h, _⟩
  · have up : ∀ e ∈ ss ++ box, ∀ n ∈ nodesOf e, n ∈ nodesIn [d] := by
      intro e he n hn
      refine nodes_of_mem (List.mem_singleton.2 rfl) (nodes_inside (e := e) ?_ hn)
      rw [h3]
      exact List.mem_flatMap.2 ⟨e, he, List.mem_cons_self⟩
    rcases ht with rfl | ⟨m, hm, rfl⟩
    · obtain ⟨e, he, n, hn, h⟩ := box_notice h1 hc
      exact ⟨n, up e (List.mem_append_right _ he) n hn, h⟩
    · obtain ⟨s, hs, _, disp, rest, hr, hbox, _⟩ := (p2_mem h2).1 m hm
      obtain ⟨e, he, n, hn, h⟩ := box_notice hbox hc
      exact ⟨n, up s (List.mem_append_left _ hs) n (nodes_inside (by rw [hr]; exact List.mem_cons_of_mem _ he) hn), h⟩
  · refine absurd ?_ h
    rcases ht with rfl | ⟨m, hm, rfl⟩
    · exact .inr ⟨c, hc⟩
    · exact .inl fun h => by rw [h] at hm; cases hm

/-- What is written about exchanges none of which make checks raise. -/
theorem html_report (hV : ∀ k, Spelled (V k)) (seen : List Nat) {zs : List (Option Str × Yield)} (hz : ∀ x ∈ zs, ¬Breaks S x.1 x.2)
    (hcat : ∀ x ∈ zs, ∀ t c, ToShow S x.1 x.2 t c → ∃ row ∈ noticeRows, row.id = c.id) :
    ∃ blocks, (htmlReport seen (zs.zipIdx.map fun z => (V z.2).exchange z.1.2 (S.report z.1.1 z.1.2))).1 = blocks.flatten ∧
      Pairwise2 (fun z => Written S (V z.2) z.1) zs.zipIdx blocks ∧
      (∀ n ∈ nodesIn blocks.flatten, ∀ s, attrOf "class" n = some (noticeClass s) →
        ∃ z ∈ zs.zipIdx, ∃ t c, ToShow S z.1.1 z.1.2 t c ∧ NoticeElement (V z.2) z.1.2 t c n) ∧
      ∀ z ∈ zs.zipIdx, ∀ t c, ToShow S z.1.1 z.1.2 t c → ∃ n ∈ nodesIn blocks.flatten, NoticeElement (V z.2) z.1.2 t c n := by
  have hz : ∀ z ∈ zs.zipIdx, ¬Breaks S z.1.1 z.1.2 := fun z h => hz _ (List.fst_mem_of_mem_zipIdx h)
  have hcat : ∀ z ∈ zs.zipIdx, ∀ t c, ToShow S z.1.1 z.1.2 t c → ∃ row ∈ noticeRows, row.id = c.id :=
    fun z h => hcat _ (List.fst_mem_of_mem_zipIdx h)
  obtain ⟨f, hf⟩ := report_docs seen (zs.zipIdx.map fun z => (V z.2).exchange z.1.2 (S.report z.1.1 z.1.2))
  obtain ⟨blocks, h1, h2⟩ := docs_written hW hl hV f hz hcat
  have h3 := docs_notices (V := V) hW hl f hz hcat
  rw [h1] at h3
  refine ⟨blocks, by rw [hf, h1], h2, h3, fun z hzm t c hc => ?_⟩
  obtain ⟨ds, hds, hw⟩ := (p2_mem h2).1 z hzm
  obtain ⟨n, hn, h⟩ := written_notice (report_shown hW hl (hz z hzm)) hc hw
  refine ⟨n, ?_, h⟩
  obtain ⟨d, hd, hnd⟩ := nodesIn_mem hn
  exact nodes_of_mem (List.mem_flatten.2 ⟨ds, hds, hd⟩) hnd

/-! ## Combined files -/

/-- **C106**: the document is whole if and only if every file can be read and worked through. -/
theorem C106_complete (seen : List Nat) (files : List (Str × Option Str)) :
    (S.htmlCombined V seen files).2 = true ↔ ∃ xs, Worked S files xs := by
  show ((S.runCombined files).2 == .finished) = true ↔ _
  constructor
  · intro h
    rcases files_cases (S := S) files with h' | ⟨good, xs, file, after, rfl, hg, hf | hf⟩
    · exact h'
    · obtain ⟨bs, hr, _⟩ := C98_unreadable hW hl (after := after) hg hf
      rw [hr] at h
      cases h
    · rw [crash_end hW hl hg hf] at h
      cases h
  · rintro ⟨xs, h⟩
    obtain ⟨bs, hr, _⟩ := C98_shown hW hl h
    rw [hr]
    rfl

theorem html_worked (hV : ∀ k, Spelled (V k)) (seen : List Nat) {files : List (Str × Option Str)} {xs : List (Option Str × List Yield)}
    (h : Worked S files xs) : ∃ blocks, S.htmlCombined V seen files = (blocks.flatten, true) ∧
      Pairwise2 (fun z => Written S (V z.2) z.1) (inTurn xs).zipIdx blocks ∧
      (∀ n ∈ nodesIn blocks.flatten, ∀ s, attrOf "class" n = some (noticeClass s) →
        ∃ z ∈ (inTurn xs).zipIdx, ∃ t c, ToShow S z.1.1 z.1.2 t c ∧ NoticeElement (V z.2) z.1.2 t c n) ∧
      ∀ z ∈ (inTurn xs).zipIdx, ∀ t c, ToShow S z.1.1 z.1.2 t c → ∃ n ∈ nodesIn blocks.flatten, NoticeElement (V z.2) z.1.2 t c n := by
  obtain ⟨blocks, h1, h2⟩ := html_report hW hl hV seen (fun x hx => (worked_calm h x hx).1)
    fun x hx t c hs => C98_catalogue hW hl h hx hs
  refine ⟨blocks, Prod.ext ?_ ((C106_complete hW hl seen files).2 ⟨xs, h⟩), h2⟩
  have := reached_worked hW hl h []
  rw [List.append_nil] at this
  show (htmlReport seen ((S.reachedCombined files).zipIdx.map _)).1 = _
  rw [this, show S.reachedCombined [] = [] from rfl, List.append_nil, h1]

/-- **C106**: the document has a block for every exchange, in order, that shows its messages and just the notices that are
to be shown, and nothing for an exchange without messages and notices. -/
theorem C106_document (hV : ∀ k, Spelled (V k)) (seen : List Nat) {files : List (Str × Option Str)} {xs : List (Option Str × List Yield)}
    (h : Worked S files xs) : ∃ blocks, S.htmlCombined V seen files = (blocks.flatten, true) ∧
      Pairwise2 (fun z => Written S (V z.2) z.1) (inTurn xs).zipIdx blocks := by
  obtain ⟨blocks, h1, h2, _⟩ := html_worked hW hl hV seen h
  exact ⟨blocks, h1, h2⟩

/-- **C106**: after a file that cannot be read or has no markers, the document breaks off. -/
theorem C106_unreadable (seen : List Nat) {files after : List (Str × Option Str)} {xs : List (Option Str × List Yield)}
    {file : Str × Option Str} (h : Worked S files xs)
    (hf : ¬∃ inbound outbound scheme, CombinedParts S.decodeUtf8 file inbound outbound scheme) :
    S.htmlCombined V seen (files ++ file :: after) = ((S.htmlCombined V seen files).1, false) := by
  have h0 : S.reachedCombined (file :: after) = [] := by
    obtain ⟨path, d⟩ := file
    cases d with
    | none => rfl
    | some data =>
      rw [Setup.reachedCombined]
      cases hc : parseCombined S.decodeUtf8 path data with
      | error e => rfl
      | ok r =>
        obtain ⟨i, o, s, t⟩ := r
        exact absurd ⟨i, o, s, parts_iff.2 ⟨data, t, rfl, hc⟩⟩ hf
  have h1 := reached_worked hW hl h (file :: after)
  have h2 := reached_worked hW hl h []
  rw [h0] at h1
  rw [List.append_nil files, show S.reachedCombined [] = [] from rfl] at h2
  obtain ⟨bs, hr, _⟩ := C98_unreadable hW hl (after := after) h hf
  unfold Setup.htmlCombined
  rw [h1, h2, hr]
  rfl

/-- **C106**: when a check raises an exception, the document breaks off after the exchanges before it. -/
theorem C106_raising (hV : ∀ k, Spelled (V k)) (seen : List Nat) {files after : List (Str × Option Str)} {xs : List (Option Str × List Yield)}
    {file : Str × Option Str} (h : Worked S files xs) {scheme : Option Str} {ys zs : List Yield} {y : Yield}
    (hf : Captured S file scheme (ys ++ y :: zs)) (hys : ∀ z ∈ ys, ¬Breaks S scheme z) (hy : Breaks S scheme y) :
    ∃ blocks, S.htmlCombined V seen (files ++ file :: after) = (blocks.flatten, false) ∧
      Pairwise2 (fun z => Written S (V z.2) z.1) (inTurn xs ++ ys.map (scheme, ·)).zipIdx blocks := by
  obtain ⟨inb, outb, final, hp, hs⟩ := id hf
  obtain ⟨bs, hr, _⟩ := C98_broken hW hl (after := after) h hp (by rw [hs]) hys hy
  obtain ⟨cs, k1, _⟩ := reportAll_breaks hW hl (after := zs) hys hy
  obtain ⟨data, text, hd, hc⟩ := parts_iff.1 hp
  have h0 : S.reachedCombined (file :: after) = ys.map (scheme, ·) := by
    obtain ⟨path, d⟩ := file
    subst hd
    rw [Setup.reachedCombined, hc]
    simp only [hs, k1, if_true]
    have : S.reached scheme (ys ++ y :: zs) = ys := by
      unfold Setup.reached
      rw [List.takeWhile_append_of_pos, List.takeWhile_cons, if_neg, List.append_nil]
      · rw [Bool.not_eq_true', Bool.not_eq_false]
        exact (raises_iff hW hl scheme y).2 hy
      · intro z hz
        rw [Bool.not_eq_true', ← Bool.not_eq_true]
        exact fun hr => hys z hz ((raises_iff hW hl scheme z).1 hr)
    rw [this]
  have h1 := reached_worked hW hl h (file :: after)
  rw [h0] at h1
  obtain ⟨blocks, h2, h3, _⟩ := html_report (V := V) hW hl hV seen (zs := inTurn xs ++ ys.map (scheme, ·))
    (fun x hx => by
      rcases List.mem_append.1 hx with hx | hx
      · exact (worked_calm h x hx).1
      · obtain ⟨z, hz, rfl⟩ := List.mem_map.1 hx
        exact hys z hz)
    (fun x hx t c hc => by
      rcases List.mem_append.1 hx with hx | hx
      · exact C98_catalogue hW hl h hx hc
      · obtain ⟨z, hz, rfl⟩ := List.mem_map.1 hx
        exact toShow_catalogued hW hl hf (List.mem_append_left _ hz) hc)
  refine ⟨blocks, ?_, h3⟩
  unfold Setup.htmlCombined
  rw [h1, hr, h2]
  rfl

omit hW hl in
/-- The class of an element for a notice tells its severity. -/
theorem class_grave {V : Staging} {y : Yield} {t : Target} {c : Complaint Ctx} {n : Doc} (h : NoticeElement V y t c n) (T : Severity) :
    (∃ k ∈ classesFrom T, attrOf "class" n = some k) ↔ Grave T c.id := by
  obtain ⟨row, hr, hid, hk, _⟩ := h
  have hc : ∃ row ∈ noticeRows, row.id = c.id := ⟨row, hr, hid⟩
  have hd : noticeClass .error ≠ noticeClass .comment ∧ noticeClass .error ≠ noticeClass .debug ∧
      noticeClass .comment ≠ noticeClass .debug := by decide
  rw [grave_iff hc, ← hid, severityOf_row row hr, hk]
  have e : ∀ T, classesFrom T = (match T with
    | .error => [noticeClass .error]
    | .comment => [noticeClass .error, noticeClass .comment]
    | .debug => [noticeClass .error, noticeClass .comment, noticeClass .debug]) := by
    intro T
    cases T <;> rfl
  rw [e]
  generalize hn : noticeClass = k at hd
  clear e hk hc hid hr
  cases T <;> cases row.severity <;> simp [AtLeast, hd.1, hd.2.1, hd.2.2, hd.1.symm, hd.2.1.symm, hd.2.2.symm]

omit hW hl in
theorem class_notice {T : Severity} {n : Doc} (h : ∃ k ∈ classesFrom T, attrOf "class" n = some k) :
    ∃ s, attrOf "class" n = some (noticeClass s) := by
  obtain ⟨k, hk, h⟩ := h
  rw [h]
  have e : ∀ k ∈ classesFrom T, k = noticeClass .error ∨ k = noticeClass .comment ∨ k = noticeClass .debug := by
    cases T
    · intro k hk; exact .inl (List.mem_singleton.1 hk)
    all_goals
      intro k hk
      simp only [classesFrom, List.mem_cons, List.not_mem_nil, or_false] at hk
      first
        | exact hk
        | exact hk.elim .inl fun h => .inr (.inl h)
  rcases e k hk with rfl | rfl | rfl <;> exact ⟨_, rfl⟩

/-- **C106**: the elements of the classes for notices are those of the notices that are to be shown, and the exit status can
be told from them: it is 1 if and only if some element has the class of a severity that is the threshold or higher. -/
theorem C106_exit (hV : ∀ k, Spelled (V k)) (seen : List Nat) {files : List (Str × Option Str)} {xs : List (Option Str × List Yield)}
    (h : Worked S files xs) :
    (∀ n ∈ nodesIn (S.htmlCombined V seen files).1, ∀ s, attrOf "class" n = some (noticeClass s) →
      ∃ z ∈ (inTurn xs).zipIdx, ∃ t c, ToShow S z.1.1 z.1.2 t c ∧ NoticeElement (V z.2) z.1.2 t c n) ∧
    (∀ z ∈ (inTurn xs).zipIdx, ∀ t c, ToShow S z.1.1 z.1.2 t c →
      ∃ n ∈ nodesIn (S.htmlCombined V seen files).1, NoticeElement (V z.2) z.1.2 t c n) ∧
    (S.exitCode files = some 1 ↔ ∃ T, S.failOn = some T ∧
      ∃ n ∈ nodesIn (S.htmlCombined V seen files).1, ∃ k ∈ classesFrom T, attrOf "class" n = some k) := by
  obtain ⟨blocks, h1, _, h3, h4⟩ := html_worked hW hl hV seen h
  rw [h1]
  refine ⟨h3, h4, ?_⟩
  have hx : S.exitCode files = some 1 ↔ ∃ T, S.failOn = some T ∧ ∃ x ∈ inTurn xs, ∃ t c, ToShow S x.1 x.2 t c ∧ Grave T c.id := by
    refine ⟨fun he => Classical.byContradiction fun hn => ?_, fun ⟨T, hT, hx⟩ => ((C98_exit hW hl files).2.1).2 (.inl ⟨xs, T, h, hT, hx⟩)⟩
    rw [((C98_exit hW hl files).1).2 ⟨xs, h, fun T hT x hx t c hs hg => hn ⟨T, hT, x, hx, t, c, hs, hg⟩⟩] at he
    cases he
  rw [hx]
  constructor
  · rintro ⟨T, hT, x, hx, t, c, hs, hg⟩
    obtain ⟨k, hk⟩ := List.getElem?_of_mem hx
    obtain ⟨n, hn, hne⟩ := h4 (x, k) (List.mem_zipIdx_iff_getElem?.2 hk) t c hs
    exact ⟨T, hT, n, hn, (class_grave hne T).2 hg⟩
  · rintro ⟨T, hT, n, hn, hk⟩
    obtain ⟨s, hs⟩ := class_notice hk
    obtain ⟨z, hz, t, c, hc, hne⟩ := h3 n hn s hs
    exact ⟨T, hT, z.1, List.fst_mem_of_mem_zipIdx hz, t, c, hc, (class_grave hne T).1 hk⟩

/-! ## Streams and captures -/

variable {D : Disk} {format : StreamFormat} {paths : List Str} {pairs : List PathPair} {yss : List (List Yield)}

/-- **C106**: the same for streams and captures. -/
theorem C106_streams (hV : ∀ k, Spelled (V k)) (seen : List Nat) (hp : D.pairs format paths = .ok pairs)
    (hc : Pairwise2 (Conveyed S D format.captures) pairs yss) (hst : ∀ ys ∈ yss, ∀ y ∈ ys, Steady S y) :
    ∃ out blocks, Interleaving yss out ∧ S.htmlFormat V seen D format paths = some (blocks.flatten, true) ∧
      Pairwise2 (fun z => Written S (V z.2) z.1) (out.map (some (str "http"), ·)).zipIdx blocks ∧
      (∀ time : Yield → Int, Pairwise2 (fun pair ys => Advances S time pair.2.2 ys) pairs yss → (out.map time).Pairwise (· ≤ ·)) ∧
      (S.exitFormat D format paths = some (some 1) ↔ ∃ T, S.failOn = some T ∧
        ∃ n ∈ nodesIn blocks.flatten, ∃ k ∈ classesFrom T, attrOf "class" n = some k) := by
  obtain ⟨out, more, boards, e, hr, h2, ⟨h3, _⟩, _, h5, h6, _, h7⟩ := run_core hW hl hp hc
  obtain rfl := h6 hst
  obtain rfl : more = [] := by
    rcases h5 with ⟨_, h⟩ | h
    · exact h
    · cases h
  rw [List.append_nil] at h2
  have hf := out_facts hW hl hc hst h2
  obtain ⟨blocks, k1, k2, k3, k4⟩ := html_report (V := V) hW hl hV seen (fun x hx => (hf x hx).1) fun x hx => (hf x hx).2.2
  refine ⟨out, blocks, h2, ?_, k2, h7, ?_⟩
  · unfold Setup.htmlFormat
    rw [h3, hr, ← k1, List.zipIdx_map, List.map_map]
    rfl
  · rw [(C100_exit hW hl hp hc hst).2]
    have hm : ∀ y, (some (str "http"), y) ∈ out.map (some (str "http"), ·) ↔ ∃ ys ∈ yss, y ∈ ys := by
      intro y
      rw [List.mem_map, ← List.mem_flatten, ← (interleaving_perm h2).mem_iff]
      constructor
      · rintro ⟨z, hz, he⟩
        cases he
        exact hz
      · exact fun h => ⟨y, h, rfl⟩
    constructor
    · rintro ⟨T, hT, ys, hys, y, hy, t, c, hs, hg⟩
      obtain ⟨k, hk⟩ := List.getElem?_of_mem ((hm y).2 ⟨ys, hys, hy⟩)
      obtain ⟨n, hn, hne⟩ := k4 ((some (str "http"), y), k) (List.mem_zipIdx_iff_getElem?.2 hk) t c hs
      exact ⟨T, hT, n, hn, (class_grave hne T).2 hg⟩
    · rintro ⟨T, hT, n, hn, hk⟩
      obtain ⟨s, hs⟩ := class_notice hk
      obtain ⟨⟨x, k⟩, hx, t, c, hc, hne⟩ := k3 n hn s hs
      have hx := List.fst_mem_of_mem_zipIdx hx
      obtain ⟨y, _, rfl⟩ := List.mem_map.1 hx
      obtain ⟨ys, hys, hy⟩ := (hm y).1 hx
      exact ⟨T, hT, ys, hys, y, hy, t, c, hc, (class_grave hne T).1 hk⟩

omit hW hl in
/-- **C106**: with streams and captures, too, the document is whole if and only if the run went through: without `--fail-on`
the exit status is 0 then, and only then. -/
theorem C106_streams_end (seen : List Nat) (hf : S.failOn = none) (ds : List Doc) (whole : Bool)
    (h : S.htmlFormat V seen D format paths = some (ds, whole)) :
    whole = true ↔ S.exitFormat D format paths = some (some 0) := by
  unfold Setup.htmlFormat at h
  unfold Setup.exitFormat
  cases hr : S.runFormat D format paths with
  | none =>
    rw [hr] at h
    split at h
    · rename_i h'; cases h'
    · cases h
  | some r =>
    rw [hr] at h
    split at h
    · rename_i ys r' _ h'
      cases h'
      cases h
      obtain ⟨bs, e⟩ := r
      rw [Option.map_some, Option.some.injEq, hf]
      cases e with
      | finished => exact ⟨fun _ => rfl, fun _ => rfl⟩
      | inputError => exact ⟨nofun, fun h => by cases h⟩
      | otherError => exact ⟨nofun, fun h => by cases h⟩
    · cases h

end

/-! ## Examples -/

/-- Everything is at the same place, nothing is known, and all notices read the same; the sources differ. -/
def exStaging (k : Nat) : Staging where
  oid _ _ _ := 0
  source _ _ := str "file" ++ decimalText k
  methodInfo _ := []
  statusInfo _ := []
  fieldInfo _ := []
  annotated _ _ _ e := [.bytes e.value]
  body _ _ := ⟨false, false, none, none, none, none, none, false⟩
  title _ _ _ := [.text (str "Wrong thing")]
  explanation _ _ _ := [.para [.text (str "See there.")]]
  ctx _ _ _ := ⟨fun _ => .plain 0 [], none, .other (.plain 0 [])⟩

theorem exStaging_spelled (k : Nat) : Spelled (exStaging k) := by
  intro y t s e
  simp [exStaging]

/-- C106: the report on a file with something that follows the last response has an element of class `notice error` and is
whole; with another file that cannot be read, it breaks off. -/
example {W : World} (hW : Ready W) :
    (∃ n ∈ nodesIn ((exSetup W [] (some .error)).htmlCombined exStaging [] [exFile]).1,
      attrOf "class" n = some (str "notice error")) ∧
    ((exSetup W [] (some .error)).htmlCombined exStaging [] [exFile]).2 = true ∧
    ((exSetup W [] (some .error)).htmlCombined exStaging [] [exFile, (str "2", none)]).2 = false := by
  obtain ⟨req, r, h⟩ := exFile_worked W [] (some .error)
  have hx := C106_exit (V := exStaging) (S := exSetup W [] (some .error)) hW toy_lower exStaging_spelled [] h
  refine ⟨?_, (C106_complete (V := exStaging) (S := exSetup W [] (some .error)) hW toy_lower [] _).2 ⟨_, h⟩, ?_⟩
  · obtain ⟨n, hn, hne⟩ := hx.2.1 ((some (str "https"), .box 1009), 2) (by simp [inTurn]) .exch ⟨1009, []⟩
      ⟨.inl ⟨⟨1009, none⟩, rfl, rfl⟩, by simp [exSetup], fun h => h⟩
    refine ⟨n, hn, ?_⟩
    obtain ⟨k, hk, hc⟩ := (class_grave hne .error).2
      ⟨noticeRows.find? (·.id = 1009) |>.get (by decide +kernel), by decide +kernel, by decide +kernel, .inl (by decide +kernel)⟩
    rw [hc, List.mem_singleton.1 hk]
  · refine congrArg Prod.snd (C106_unreadable (V := exStaging) (S := exSetup W [] (some .error)) (after := [])
      (file := (str "2", none)) hW toy_lower [] h ?_)
    rintro ⟨_, _, _, _, _, _, _, h, _⟩
    cases h

/-- C106: there is one block for each of the three, and nothing for a complaint box that is silenced. -/
example {W : World} (hW : Ready W) :
    ((exSetup W [] none).htmlCombined exStaging [] [exFile]).1.length = 3 ∧
    ∃ ds : List (List Doc), ((exSetup W [1009] none).htmlCombined exStaging [] [exFile]).1 = ds.flatten ∧ ds.getLast? = some [] := by
  constructor
  · obtain ⟨req, r, h⟩ := exFile_worked W [] none
    obtain ⟨blocks, h1, h2⟩ := C106_document (V := exStaging) (S := exSetup W [] none) hW toy_lower exStaging_spelled [] h
    rw [h1]
    have one : ∀ {k x ds}, Substantial (exSetup W [] none) (exStaging k) x → Written (exSetup W [] none) (exStaging k) x ds → ds.length = 1 := by
      rintro k x ds hs (⟨_, d, rfl, _⟩ | ⟨h, _⟩)
      · rfl
      · exact absurd hs h
    have box : ∀ k n, Substantial (exSetup W [] none) (exStaging k) (some (str "https"), .box n) := fun k n =>
      .inr ⟨⟨n, []⟩, .inl ⟨⟨n, none⟩, rfl, rfl⟩, by simp [exSetup], fun h => h⟩
    cases h2 with
    | cons a h2 =>
      cases h2 with
      | cons b h2 =>
        cases h2 with
        | cons c h2 =>
          cases h2
          simp [one (.inl (by simp [sheets])) a, one (box _ _) b, one (box _ _) c]
  · obtain ⟨req, r, h⟩ := exFile_worked W [1009] none
    obtain ⟨blocks, h1, h2⟩ := C106_document (V := exStaging) (S := exSetup W [1009] none) hW toy_lower exStaging_spelled [] h
    refine ⟨blocks, by rw [h1], ?_⟩
    cases h2 with
    | cons a h2 =>
      cases h2 with
      | cons b h2 =>
        cases h2 with
        | cons c h2 =>
          cases h2
          rcases c with ⟨hs, _⟩ | ⟨_, rfl⟩
          · exfalso
            rcases hs with hs | ⟨k, hk, hs, _⟩
            · exact hs rfl
            · rcases hk with ⟨n, rfl, rfl⟩ | hk
              · exact hs (by simp [exSetup])
              · obtain ⟨b, hb, hk⟩ := hk
                have hb : some (⟨[], []⟩ : Board Ctx) = some b := hb
                cases hb
                cases hk
          · rfl

/-- C106: the document on a pair of streams is whole, and the exit status is 0; with one stream too few it is not. -/
example {W : World} (hW : Ready W) :
    (∃ ds, (exSetup W [] none).htmlFormat exStaging [] exDisk .streams [str "i", str "o"] = some (ds, true)) ∧
    (exSetup W [] none).exitFormat exDisk .streams [str "i", str "o"] = some (some 0) ∧
    (exSetup W [] none).htmlFormat exStaging [] exDisk .streams [str "i"] = some ([], false) ∧
    (exSetup W [] none).exitFormat exDisk .streams [str "i"] ≠ some (some 0) := by
  obtain ⟨req, r, h, hs⟩ := exDisk_streams W [] none
  obtain ⟨out, blocks, _, h1, _⟩ := C106_streams (S := exSetup W [] none) hW toy_lower exStaging_spelled []
    ((C100_given (S := exSetup W [] none) (D := exDisk)).1.2 ⟨[(str "i", str "o")], rfl, rfl⟩) (Pairwise2.cons h .nil)
    (by
      intro ys hys
      obtain rfl := List.mem_singleton.1 hys
      exact hs)
  have h2 : (exSetup W [] none).htmlFormat exStaging [] exDisk .streams [str "i"] = some ([], false) := rfl
  refine ⟨⟨_, h1⟩, (C106_streams_end [] rfl _ _ h1).1 rfl, h2, fun he => ?_⟩
  cases (C106_streams_end [] rfl _ _ h2).2 he

end Httpolice.Props
