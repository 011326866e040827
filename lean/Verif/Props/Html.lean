import Verif.Lemmas.HtmlMarkup
import Verif.Lemmas.Knowledge
import Verif.Lemmas.Headings
import Verif.Spec.Report

/-!
# C88: the HTML report (`httpolice/reports/html.py`)
-/

namespace Httpolice.Props
open Httpolice.Model Httpolice.Spec Httpolice.Lemmas

/-! ## An exchange for the examples -/

/-- `Host`, with a document. -/
def hostKnown (o : Nat) : HKnown where
  oid := o
  text := str "Host"
  info := [(str "key", .plain (.key (.word (str "Host")))),
    (str "citation", .cite (.rfc 7230 (some (str "5.4")) none none))]

/-- A request with a header twice, and a complaint about it. -/
def sampleExchange : HExch where
  request := some {
    method := ⟨140, str "GET", []⟩
    target := ⟨150, str "/<x>"⟩
    version := some ⟨160, str "HTTP/1.1"⟩
    msg := {
      remark := none
      entries := [⟨11, hostKnown 12, [.bytes (str "a"), .known ⟨13, [0], []⟩]⟩,
        ⟨21, hostKnown 22, [.bytes (str "b")]⟩]
      bodyOid := 30
      body := ⟨false, false, none, none, some [], none, none, false⟩
      trailers := []
      complaints := [{
        severity := .error
        id := 1031
        title := [.text (str "Wrong "), .known false .field (hostKnown 40)]
        explanation := [.para [.text (str "See "), .var [str "entry"]]]
        ctx := {
          lookup := fun _ => .header [21] (hostKnown 41)
          msg := some ⟨fun n => if n = str "Host" then [11, 21] else [], none, none, none⟩
          error := .other (.plain 50 []) } }] } }
  responses := []
  complaints := []

/-- A box that is left over: nothing to show. -/
def emptyExchange : HExch := ⟨none, [], []⟩

/-! ## C88 -/

/-- **C88**: whatever reports have been made before, each report consists of one block for each
exchange that has anything in it, in order. A block shows the messages with their first lines,
headers, bodies and complaints, and the complaints of the exchange. Everything that can be
highlighted has a number, and what refers to it has the same number; in all reports, the same object
has the same number, and different objects have different numbers. -/
theorem C88_shown (seen : List Nat) (runs : List (List HExch)) :
    ∃ f : Nat → Nat, Distinct f ∧
      Pairwise2 (fun es ds => Pairwise2 (ShowsExchange f) (es.filter HasParts) ds) runs
        (reportsFrom seen runs) := by
  refine ⟨numberedBy (seenAfter seen runs), numberedBy_distinct _, ?_⟩
  rw [reportsFrom_with runs seen (numberedBy_agrees _)]
  refine map_pairwise2 _ fun es _ => ?_
  rw [divs_eq, docsWith_map, List.map_map]
  exact map_pairwise2 _ fun e _ => exchange_shown _ e

example : (reportsFrom [7] [[sampleExchange, emptyExchange], [sampleExchange]]).map List.length =
    [1, 1] := by decide +kernel

example : (reportsFrom [7] [[sampleExchange, emptyExchange], [sampleExchange]]).map
      (fun ds => (classed "header-entry" ds).map fun d => (attrOf "data-ref-id" d, textIn d)) =
    [[(some (str "4"), str "Host: a�"), (some (str "5"), str "Host: b")],
      [(some (str "4"), str "Host: a�"), (some (str "5"), str "Host: b")]] := by decide +kernel

example : (htmlReport [7] [sampleExchange]).1.map (fun d => pointers [d]) =
    [[(str "4 5", str "Host"), (str "5", str "Host")]] := by decide +kernel

example : [sampleExchange, emptyExchange].map HasParts = [true, false] := by decide

/-- **C88**: among the numbers in a reference is that of an object exactly if this is one of the
objects referred to. -/
theorem C88_points {f : Nat → Nat} (hf : Distinct f) (o : Nat) (os : List Nat) (t : Str) :
    decimalText (f o) ∈ splitOn 32 (written f (os, t)).1 ↔ o ∈ os := by
  have hinj : ∀ a b, decimalText a = decimalText b → a = b := by
    intro a b h
    have ha := (toDigits_numeral a).2.2
    have hb := (toDigits_numeral b).2.2
    rw [ha, hb, h]
  have hsp : ∀ n, (32 : Nat) ∉ decimalText n := fun n h => by have := decimal_digits h; omega
  have hne : ∀ n, decimalText n ≠ [] := fun n => (toDigits_numeral n).1
  have hsplit : ∀ o' os', splitOn 32 (joinWith (str " ") ((o' :: os').map fun o => decimalText (f o))) =
      (o' :: os').map fun o => decimalText (f o) := by
    intro o' os'
    induction os' generalizing o' with
    | nil => exact splitOn_none 32 _ (hsp _)
    | cons p os' ih =>
      have e : str " " = [32] := by decide
      have := ih p
      rw [e] at this ⊢
      rw [List.map_cons, List.map_cons, joinWith, splitOn_cons 32 _ _ (hsp _)]
      rw [List.map_cons] at this
      rw [this]
  unfold written
  cases os with
  | nil => simp [joinWith, splitOn, hne]
  | cons p os =>
    simp only
    rw [hsplit, List.mem_map]
    constructor
    · rintro ⟨x, hx, he⟩
      rwa [← hf _ _ (hinj _ _ he)]
    · exact fun h => ⟨o, h, rfl⟩

example : decimalText 12 ∈ splitOn 32 (written (· + 1) ([3, 11], str "x")).1 := by decide

/-- **C88**: the numbers say nothing about the identities of objects in memory: with any others the
document is the same. -/
theorem C88_anonymous {σ : Nat → Nat} (hσ : Distinct σ) (hs : List Html) :
    (numbers [] (movedAll σ hs)).1 = (numbers [] hs).1 := by
  have := numbers_moved hσ hs []
  rw [List.map_nil] at this
  rw [this]

example : (numbers [] (movedAll (· + 100) (exchangeDivs [sampleExchange]))).1.map (fun d => pointers [d]) =
    [[(str "3 4", str "Host"), (str "4", str "Host")]] := by decide +kernel

/-- **C88**: whatever is in the messages, the report has only elements, attributes and classes from a
fixed list, text that can be displayed, and links to the documents that are cited. -/
theorem C88_markup (seen : List Nat) (es : List HExch) (h : ∀ e ∈ es, Displayable e) :
    ∀ d ∈ nodesIn (htmlReport seen es).1, NodeFine (es.flatMap citesOf) d := by
  have hw := numbers_with (f := numberedBy (htmlReport seen es).2) (exchangeDivs es) seen
    (numberedBy_agrees _)
  show FineNodes _ (numbers seen (exchangeDivs es)).1
  rw [hw, divs_eq]
  generalize numberedBy (htmlReport seen es).2 = f
  have hC : ∀ c ∈ es.flatMap citesOf, Shown (citeTitle c.1) := by
    intro c hc
    obtain ⟨e, he, hc⟩ := List.mem_flatMap.1 hc
    exact (h e he).1 c hc
  rw [docsWith_map, List.map_map]
  have : ∀ l : List HExch, (∀ e ∈ l, e ∈ es) →
      FineNodes (es.flatMap citesOf) (l.map (docWith f ∘ blockOf)) := by
    intro l hl
    induction l with
    | nil => exact fine_nil
    | cons e l ih =>
      rw [List.map_cons]
      refine fine_append (a := [_]) (fine_block (f := f) hC (fun x hx => ?_) ?_)
        (ih fun x hx => hl x (List.mem_cons_of_mem _ hx))
      · exact List.mem_flatMap.2 ⟨e, hl e List.mem_cons_self, hx⟩
      · exact (h e (hl e List.mem_cons_self)).2
  exact this _ fun e he => (List.mem_filter.1 he).1

example : Displayable sampleExchange := by
  constructor
  · have : (citesOf sampleExchange).all fun c => (citeTitle c.1).all fun x => !decide (Forbidden x) := by
      decide +kernel
    intro c hc x hx
    have := List.all_eq_true.1 (List.all_eq_true.1 this c hc) x hx
    simpa using this
  · intro m hm cs hcs
    simp only [sampleExchange, Option.toList, List.map_cons, List.map_nil, List.append_nil,
      List.mem_singleton] at hm
    subst hm
    cases hcs

example : (nodesIn (htmlReport [] [sampleExchange]).1).filterMap (attrOf "href") =
    List.replicate 4 (str "https://tools.ietf.org/html/rfc7230#section-5.4") := by decide +kernel

/-- **C88**: what is shown of a body is the first thousand characters of its best form, with
characters replaced that cannot be displayed; it is said exactly what was done. -/
theorem C88_body (b : BodySource) :
    displayableBody b =
      match bestForm b with
      | some t => .shown (legible (t.take 1000)) (transformations b t)
      | none => if b.unavailable then .unavailable else .unknown := by
  have key : ∀ (t : Str) (ts : List Str), bodyForm b = some (t, ts) →
      displayableBody b = .shown (legible (t.take 1000)) (ts ++
        (if 1000 < t.length then [str "taking the first 1000 characters"] else []) ++
        (if (t.take 1000).any (fun c => Forbidden c) then
          [str "replacing non-printable characters with the � sign"] else [])) := by
    intro t ts h
    unfold displayableBody
    rw [h]
    simp only
    have hiff : t.take 1000 ≠ printable (t.take 1000) ↔
        (t.take 1000).any (fun c => Forbidden c) = true := by
      rw [printable_legible]
      constructor
      · intro hne
        refine Classical.byContradiction fun hno => hne (legible_id fun c hc hF => hno ?_).symm
        exact List.any_eq_true.2 ⟨c, hc, by simpa using hF⟩
      · intro ha he
        obtain ⟨c, hc, hF⟩ := List.any_eq_true.1 ha
        exact legible_clean _ c (he ▸ hc) (by simpa using hF)
    by_cases h1 : t.length > 1000
    · by_cases h2 : t.take 1000 ≠ printable (t.take 1000)
      · rw [if_pos h2, if_pos (hiff.1 h2), if_pos h1, if_pos h1, printable_legible]
      · rw [if_neg h2, if_neg (fun h => h2 (hiff.2 h)), if_pos h1, if_pos h1, ← printable_legible,
          ← Classical.not_not.1 h2, List.append_nil]
    · by_cases h2 : t.take 1000 ≠ printable (t.take 1000)
      · rw [if_pos h2, if_pos (hiff.1 h2), if_neg h1, if_neg h1, printable_legible, List.append_nil]
      · rw [if_neg h2, if_neg (fun h => h2 (hiff.2 h)), if_neg h1, if_neg h1, ← printable_legible,
          ← Classical.not_not.1 h2, List.append_nil, List.append_nil]
  have hfin : ∀ (t : Str) (l : List (Bool × Str)),
      ((l ++ [(decide (1000 < t.length), str "taking the first 1000 characters"),
        ((t.take 1000).any fun c => Forbidden c,
          str "replacing non-printable characters with the � sign")]).filter (·.1)).map (·.2) =
      (l.filter (·.1)).map (·.2) ++
        (if 1000 < t.length then [str "taking the first 1000 characters"] else []) ++
        (if (t.take 1000).any (fun c => Forbidden c) then
          [str "replacing non-printable characters with the � sign"] else []) := by
    intro t l
    rw [List.filter_append, List.map_append, List.append_assoc]
    congr 1
    by_cases h1 : 1000 < t.length <;> cases h2 : (t.take 1000).any (fun c => Forbidden c) <;>
      simp [h1]
  have htrans : ∀ (t : Str) (ts : List Str), bodyForm b = some (t, ts) → bestForm b = some t ∧
      transformations b t = ts ++
        (if 1000 < t.length then [str "taking the first 1000 characters"] else []) ++
        (if (t.take 1000).any (fun c => Forbidden c) then
          [str "replacing non-printable characters with the � sign"] else []) := by
    intro t ts h
    have ht : transformations b t = _ := hfin t
      [(b.hasTransferEncoding, str "removing Transfer-Encoding"),
        (b.hasContentEncoding && (b.json.isSome || b.unicode.isSome || b.decoded.isSome),
          str "removing Content-Encoding"),
        ((b.json.isSome || b.unicode.isSome) && b.charset.getD [] ≠ [] && b.charset ≠ some (str "utf-8"),
          str "decoding from " ++ b.charset.getD []),
        (b.json.isSome, str "pretty-printing")]
    rw [ht]
    obtain ⟨te, ce, cs, j, u, d, r, un⟩ := b
    unfold bodyForm at h
    unfold bestForm
    simp only at h ⊢
    rcases j with _ | j
    · rcases u with _ | u
      · rcases d with _ | d
        · rcases r with _ | r
          · cases h
          · simp only [Option.some.injEq, Prod.mk.injEq] at h
            obtain ⟨rfl, rfl⟩ := h
            refine ⟨rfl, ?_⟩
            congr 2
            cases te <;> cases ce <;> rfl
        · simp only [Option.some.injEq, Prod.mk.injEq] at h
          obtain ⟨rfl, rfl⟩ := h
          refine ⟨rfl, ?_⟩
          congr 2
          cases te <;> cases ce <;> rfl
      · simp only [Option.some.injEq, Prod.mk.injEq] at h
        obtain ⟨rfl, rfl⟩ := h
        refine ⟨rfl, ?_⟩
        congr 2
        rcases cs with _ | c
        · cases te <;> cases ce <;> rfl
        · by_cases h1 : c = []
          · subst h1
            cases te <;> cases ce <;> simp
          · by_cases h2 : c = str "utf-8"
            · cases te <;> cases ce <;> simp [h2]
            · cases te <;> cases ce <;> simp [h1, h2]
    · simp only [Option.some.injEq, Prod.mk.injEq] at h
      obtain ⟨rfl, rfl⟩ := h
      refine ⟨rfl, ?_⟩
      congr 2
      rcases cs with _ | c
      · cases te <;> cases ce <;> rfl
      · by_cases h1 : c = []
        · subst h1
          cases te <;> cases ce <;> simp
        · by_cases h2 : c = str "utf-8"
          · cases te <;> cases ce <;> simp [h2]
          · cases te <;> cases ce <;> simp [h1, h2]
  cases hf : bodyForm b with
  | some r =>
    obtain ⟨t, ts⟩ := r
    obtain ⟨h1, h2⟩ := htrans t ts hf
    rw [key t ts hf, h1]
    simp only
    rw [h2]
  | none =>
    have : bestForm b = none := by
      unfold bodyForm at hf
      unfold bestForm
      obtain ⟨te, ce, cs, j, u, d, r, un⟩ := b
      rcases j with _ | j <;> rcases u with _ | u <;> rcases d with _ | d <;> rcases r with _ | r <;>
        simp_all
    rw [this]
    unfold displayableBody
    rw [hf]

example : displayableBody ⟨false, true, some (str "cp1251"), none, some (str "a" ++ [0]), some (str "b"),
    some (str "c"), false⟩ = .shown (str "a�") [str "removing Content-Encoding", str "decoding from cp1251",
      str "replacing non-printable characters with the � sign"] := by decide +kernel

/-- **C88**: the title of a complaint is the same as in the text report, except that this one strips
spaces and replaces typographic characters. -/
theorem C88_same_title (c : HComplaint) (h : IsTitle c.ctx c.title) :
    noticeLine c.asText = (match c.severity with
      | .error => str "E "
      | .comment => str "C "
      | .debug => str "D ") ++ decimalText c.id ++ str " " ++
      detypographize (stripText (saidAll c.ctx c.title)) := by
  have hval : (v : PVal) → (∀ c ∈ valueCites v, c.2 = none →
      optTrue c.1.title = true ∧ ∀ x ∈ citeTitle c.1, ¬ Forbidden x) →
      pieceText v.texts = valueText v := title_value
  have hall : ∀ ps, IsTitle c.ctx ps → pieceText (ps.flatMap (titleTexts c.ctx)) = saidAll c.ctx ps := by
    intro ps hps
    induction ps with
    | nil => simp [pieceText, saidAll]
    | cons p ps ih =>
      rw [List.flatMap_cons, pieceText_append, ih fun q hq => hps q (List.mem_cons_of_mem _ hq), saidAll]
      congr 1
      rcases hps p List.mem_cons_self with ⟨s, rfl⟩ | ⟨n, kind, k, rfl⟩ | ⟨path, rfl, hc⟩
      · simp [titleTexts, said, pieceText, printable_legible]
      · simp [titleTexts, said, pieceText, printable_legible]
      · rw [titleTexts, said, hval _ hc]
  unfold noticeLine HComplaint.asText
  simp only
  rw [hall _ h]
  cases c.severity <;> rfl

/-- The complaint of the example. -/
def sampleComplaint : HComplaint where
  severity := .comment
  id := 1010
  title := [.text (str "No “"), .var [str "sym"], .text (str "” in "), .known true .field (hostKnown 1)]
  explanation := []
  ctx := {
    lookup := fun _ => .list [.symbol 1 (str "quoted-string") (some (.rfc 7230 (some (str "3.2.6")) none none))]
    msg := none
    error := .other (.plain 50 []) }

example : IsTitle sampleComplaint.ctx sampleComplaint.title ∧
    complaintLine sampleComplaint.asText =
      str "C 1010 No \"quoted-string (RFC 7230 § 3.2.6)\" in Host\n" := by
  refine ⟨?_, by decide +kernel⟩
  intro p hp
  simp only [sampleComplaint, List.mem_cons, List.not_mem_nil, or_false] at hp
  rcases hp with rfl | rfl | rfl | rfl
  · exact .inl ⟨_, rfl⟩
  · refine .inr (.inr ⟨_, rfl, ?_⟩)
    intro c hc _
    simp only [sampleComplaint, valueCites, valuesCites, Option.toList, List.map_cons, List.map_nil,
      List.append_nil, List.mem_singleton] at hc
    subst hc
    constructor <;> decide +kernel
  · exact .inl ⟨_, rfl⟩
  · exact .inr (.inl ⟨_, _, _, rfl⟩)

end Httpolice.Props
