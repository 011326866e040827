import Verif.Lemmas.RawConditional
import Verif.Lemmas.ToyMore

/-!
# When notices about cache directives, conditional requests and ranges are reported
-/

set_option linter.unusedSectionVars false

namespace Httpolice.Props

open Httpolice.Model Httpolice.Spec Httpolice.Lemmas.Check

section

variable (E : Env) (hE : Sensible E) (ex : Exchange) (hok : exchangeRaises E ex = false)
include hE hok

/-! ## C68. Cache directives, conditional requests and ranges -/

/-- 1152: a directive in a request that is not for requests. -/
theorem C68_notice_1152 (ha : Apart E ex 1152) : ReportedId E ex .req 1152 ↔
    OnRequest ex fun req => HasDirective E req.fields notForRequests := by
  at_caching hok ha
  raw hE
  simp only [forRequests_iff hE]
  rfl

/-- 1153: a directive in a response that is not for responses. -/
theorem C68_notice_1153 (ha : Apart E ex 1153) (i : Nat) : ReportedId E ex (.resp i) 1153 ↔
    OnResponse ex i fun r => HasDirective E r.fields notForResponses := by
  at_headers hok ha
  raw hE
  simp only [forResponses_iff hE]
  rfl

/-- 1159: `no-cache` with an argument in a request. -/
theorem C68_notice_1159 (ha : Apart E ex 1159) : ReportedId E ex .req 1159 ↔
    OnRequest ex fun req => ∃ d, Listed E req.fields "Cache-Control" E.grammars.cacheControl d ∧
      IsWord E d.1 "no-cache" ∧ d.2 ≠ .none := by
  at_caching hok ha
  raw hE

/-- 1165: a warning about freshness in a request. -/
theorem C68_notice_1165 (ha : Apart E ex 1165) : ReportedId E ex .req 1165 ↔
    OnRequest ex fun req => ∃ w, Listed E req.fields "Warning" E.grammars.warning w ∧
      100 ≤ w.code ∧ w.code ≤ 199 := by
  at_caching hok ha
  raw hE

/-- 1171: a directive in a request with a method for which there is no caching. -/
theorem C68_notice_1171 (ha : Apart E ex 1171) : ReportedId E ex .req 1171 ↔
    OnRequest ex fun req => IsMethod req uncacheableMethods ∧ HasDirective E req.fields
      ["max-age", "max-stale", "min-fresh", "no-cache", "no-store", "only-if-cached"] := by
  at_caching hok ha
  raw hE
  refine and_congr_right fun _ => exists_congr fun d => and_congr_right fun _ => ?_
  exact oneOf_any hE (by decide)

/-- 1193: directives in a request that contradict each other. -/
theorem C68_notice_1193_request (ha : Apart E ex 1193) : ReportedId E ex .req 1193 ↔
    OnRequest ex fun req => ∃ p ∈ contradictInRequests,
      Directs E req.fields p.1 ∧ Directs E req.fields p.2 := by
  at_caching hok ha
  raw hE
  have hx : ∀ x ∈ requestConflicts, (str x.1).all (· < 128) = true ∧ (str x.2).all (· < 128) = true := by
    decide
  refine exists_congr fun x => and_congr_right fun hm => ?_
  rw [truthy_iff hE _ (hx x hm).1, truthy_iff hE _ (hx x hm).2]

/-- 1193: directives in a response that contradict each other. -/
theorem C68_notice_1193 (ha : Apart E ex 1193) (i : Nat) : ReportedId E ex (.resp i) 1193 ↔
    OnResponse ex i fun r => ∃ p ∈ contradictInResponses,
      Directs E r.fields p.1 ∧ Directs E r.fields p.2 := by
  at_headers hok ha
  raw hE
  have hx : ∀ x ∈ responseConflicts, (str x.1).all (· < 128) = true ∧ (str x.2).all (· < 128) = true := by
    decide
  refine exists_congr fun x => and_congr_right fun hm => ?_
  rw [truthy_iff hE _ (hx x hm).1, truthy_iff hE _ (hx x hm).2]

/-- 1238: a directive in a response that has no effect because of another one. -/
theorem C68_notice_1238 (ha : Apart E ex 1238) (i : Nat) : ReportedId E ex (.resp i) 1238 ↔
    OnResponse ex i fun r => ∃ p ∈ uselessInResponses,
      Directs E r.fields p.1 ∧ DirectsFully E r.fields p.2 := by
  at_headers hok ha
  raw hE
  have hx : ∀ x ∈ responseUseless, (str x.1).all (· < 128) = true ∧ (str x.2).all (· < 128) = true := by
    decide
  refine exists_congr fun x => and_congr_right fun hm => ?_
  rw [truthy_iff hE _ (hx x hm).1, unqualified_iff hE _ (hx x hm).2]

/-- 1117: 406 (Not Acceptable) in response to a request that prefers languages and nothing else. -/
theorem C68_notice_1117 (ha : Apart E ex 1117) (i : Nat) : ReportedId E ex (.resp i) 1117 ↔
    OnAnswer ex i fun r req => r.status = 406 ∧ Carries E req.fields ["Accept-Language"] ∧
      ¬Carries E req.fields ["Accept", "Accept-Charset", "Accept-Encoding"] := by
  at_negotiation hok ha
  raw hE
  rw [clearly_nil (conneg_iff hE), clearly_all (conneg_iff hE) (among := ["Accept-Language"])
    (rest := ["Accept", "Accept-Charset", "Accept-Encoding"])
    (fun n => by simp (disch := decide) only [same_word' hE]; simp [OneOf, IsWord])
    (by decide) (by decide +kernel),
    carries_or (names := negotiation) (a := ["Accept-Language"])
      (b := ["Accept", "Accept-Charset", "Accept-Encoding"]) (by simp [negotiation]; grind)]
  grind

/-- 1120: a weak entity tag in `If-Match`. -/
theorem C68_notice_1120 (ha : Apart E ex 1120) : ReportedId E ex .req 1120 ↔
    OnRequest ex fun req => Unmixed E req.fields "If-Match" E.grammars.ifMatch ∧
      ∃ x, Listed E req.fields "If-Match" E.grammars.ifMatch x ∧ x.weak = true := by
  at_caching hok ha
  raw hE
  simp only [List.any_eq_true, items_unmixed hE (show "If-Match" ∈ checkedNames by decide), and_assoc]
  grind

/-- 1121: a successful response with an entity tag that the request rules out. -/
theorem C68_notice_1121 (ha : Apart E ex 1121) (i : Nat) : ReportedId E ex (.resp i) 1121 ↔
    OnAnswer ex i fun r req => IsMethod req ["GET", "HEAD"] ∧ StatusClass r 2 ∧
      ∃ tag, LastOf E r.fields "ETag" E.grammars.etag tag ∧
        ((∃ v, SoleValue E req.fields "If-None-Match" E.grammars.ifMatch v) ∨
         Unmixed E req.fields "If-None-Match" E.grammars.ifMatch ∧
          ∃ x, Listed E req.fields "If-None-Match" E.grammars.ifMatch x ∧
            x.opaqueTag = tag.opaqueTag) := by
  at_negotiation hok ha
  rename_i r req hr hreq
  rw [isMethod_or]
  raw hE
  refine and_congr_right fun _ => and_congr_right fun _ => via_single hE (by decide) (fun a h1 => ?_)
    fun h1 => ?_
  · rw [h1]
    dsimp only
    simp only [← multi_single hE (show "If-None-Match" ∈ checkedNames by decide)]
    have hi : ∀ x, x ∈ E.items req.fields "If-None-Match" E.grammars.ifMatch ↔ _ := fun x =>
      items_unmixed hE (by decide) _ _ x
    cases hm : E.multi req.fields "If-None-Match" E.grammars.ifMatch with
    | single v => simp [says_say]
    | elems xs =>
      simp only [says_whenever, says_say, List.any_eq_true, hi, EntityTag.weakEquiv, beq_iff_eq,
        and_assoc, reduceCtorEq, exists_false, false_or, and_true, exists_and_left]
  · cases h2 : E.single r.fields "ETag" E.grammars.etag with
    | val a => exact absurd h2 (h1 a)
    | none => dsimp only; raw hE
    | unavailable => dsimp only; raw hE

/-- 1123: a successful response without a well-formed entity tag, though it was not modified since the
date in the request. -/
theorem C68_notice_1123 (ha : Apart E ex 1123) (i : Nat) : ReportedId E ex (.resp i) 1123 ↔
    OnAnswer ex i fun r req => IsMethod req ["GET", "HEAD"] ∧ StatusClass r 2 ∧
      (¬∃ tag, LastOf E r.fields "ETag" E.grammars.etag tag) ∧
      ∃ a b, LastOf E req.fields "If-Modified-Since" E.grammars.date a ∧
        LastOf E r.fields "Last-Modified" E.grammars.date b ∧ b ≤ a := by
  at_negotiation hok ha
  rename_i r req hr hreq
  rw [isMethod_or]
  raw hE
  refine and_congr_right fun _ => and_congr_right fun _ => ?_
  cases h2 : E.single r.fields "ETag" E.grammars.etag with
  | val tag =>
    have ht : LastOf E r.fields "ETag" E.grammars.etag tag := (single_last hE.lower (by decide) _ _ _).1 h2
    have hc : ¬¬∃ tag, LastOf E r.fields "ETag" E.grammars.etag tag := fun hc => hc ⟨_, ht⟩
    simp only [hc, false_and, iff_false]
    cases E.multi req.fields "If-None-Match" E.grammars.ifMatch <;> dsimp only <;> raw hE
  | none =>
    have hc : ¬∃ tag, LastOf E r.fields "ETag" E.grammars.etag tag := by
      rintro ⟨tag, ht⟩
      rw [← single_last hE.lower (by decide), h2] at ht
      cases ht
    dsimp only
    raw hE
    simp only [hc, not_false_eq_true, true_and]
  | unavailable =>
    have hc : ¬∃ tag, LastOf E r.fields "ETag" E.grammars.etag tag := by
      rintro ⟨tag, ht⟩
      rw [← single_last hE.lower (by decide), h2] at ht
      cases ht
    dsimp only
    raw hE
    simp only [hc, not_false_eq_true, true_and]

/-- 1128: 412 (Precondition Failed) because of `If-Modified-Since`, which applies only to GET and
HEAD. -/
theorem C68_notice_1128 (ha : Apart E ex 1128) (i : Nat) : ReportedId E ex (.resp i) 1128 ↔
    OnAnswer ex i fun r req => r.status = 412 ∧ ¬IsMethod req ["GET", "HEAD"] ∧
      Carries E req.fields ["If-Modified-Since"] ∧
      ¬Carries E req.fields ["If", "If-Match", "If-None-Match", "If-Schedule-Tag-Match",
        "If-Unmodified-Since", "Overwrite"] := by
  at_negotiation hok ha
  rw [isMethod_or]
  raw hE
  rw [clearly_nil (precondition_iff hE), clearly_all (precondition_iff hE)
    (among := ["If-Modified-Since"]) (rest := ["If", "If-Match", "If-None-Match",
      "If-Schedule-Tag-Match", "If-Unmodified-Since", "Overwrite"])
    (fun n => by simp (disch := decide) only [same_word' hE]; simp [OneOf, IsWord])
    (by decide) (by decide +kernel),
    carries_or (names := preconditions) (a := ["If-Modified-Since"]) (b := ["If", "If-Match",
      "If-None-Match", "If-Schedule-Tag-Match", "If-Unmodified-Since", "Overwrite"])
      (by simp [preconditions]; grind)]
  grind

/-- 1129: 412 (Precondition Failed) in response to a method for which preconditions of RFC 7232 make no
sense. -/
theorem C68_notice_1129 (ha : Apart E ex 1129) (i : Nat) : ReportedId E ex (.resp i) 1129 ↔
    OnAnswer ex i fun r req => r.status = 412 ∧ IsMethod req ["CONNECT", "OPTIONS", "TRACE"] ∧
      Carries E req.fields ["If-Match", "If-None-Match", "If-Unmodified-Since"] ∧
      ¬Carries E req.fields ["If", "If-Schedule-Tag-Match", "Overwrite"] := by
  at_negotiation hok ha
  rw [isMethod_three]
  raw hE
  rw [clearly_nil (precondition_iff hE), clearly_all (precondition_iff hE)
    (among := ["If-Modified-Since"]) (rest := ["If", "If-Match", "If-None-Match",
      "If-Schedule-Tag-Match", "If-Unmodified-Since", "Overwrite"])
    (fun n => by simp (disch := decide) only [same_word' hE]; simp [OneOf, IsWord])
    (by decide) (by decide +kernel), clearly_all (precondition_iff hE)
    (rest := ["If", "If-Schedule-Tag-Match", "Overwrite"]) (fun n => oneOf_any hE (by decide))
    (by decide) (by decide +kernel),
    carries_or (names := preconditions) (a := ["If-Modified-Since"]) (b := ["If", "If-Match",
      "If-None-Match", "If-Schedule-Tag-Match", "If-Unmodified-Since", "Overwrite"])
      (by simp [preconditions]; grind),
    carries_or (names := ["If", "If-Match", "If-None-Match", "If-Schedule-Tag-Match",
      "If-Unmodified-Since", "Overwrite"]) (a := ["If-Match", "If-None-Match", "If-Unmodified-Since"])
      (b := ["If", "If-Schedule-Tag-Match", "Overwrite"]) (by simp; grind)]
  have h1 : str "CONNECT" ≠ str "GET" ∧ str "OPTIONS" ≠ str "GET" ∧ str "TRACE" ≠ str "GET" := by decide
  have h2 : str "CONNECT" ≠ str "HEAD" ∧ str "OPTIONS" ≠ str "HEAD" ∧ str "TRACE" ≠ str "HEAD" := by
    decide
  grind

/-- 1135: a weak entity tag in `If-Range`. -/
theorem C68_notice_1135 (ha : Apart E ex 1135) : ReportedId E ex .req 1135 ↔
    OnRequest ex fun req => ∃ x, LastOf E req.fields "If-Range" E.grammars.ifRange (.tag x) ∧
      x.weak = true := by
  at_caching hok ha
  raw hE
  constructor
  · rintro ⟨v, hv, hw⟩
    cases v with
    | tag x => exact ⟨x, hv, hw⟩
    | date d => cases hw
  · rintro ⟨x, hv, hw⟩
    exact ⟨_, hv, hw⟩

/-- 1144: several ranges in response to a request for a single one. -/
theorem C68_notice_1144 (ha : Apart E ex 1144) (i : Nat) : ReportedId E ex (.resp i) 1144 ↔
    OnAnswer ex i fun r req => r.status = 206 ∧ HasMediaType E r.fields "multipart/byteranges" ∧
      ∃ x, LastOf E req.fields "Range" E.grammars.range x ∧ IsWord E x.1 "bytes" ∧ x.2 = 1 := by
  at_negotiation hok ha
  raw hE

/-- 1145: 206 (Partial Content) with an entity tag other than the one the request insists on. -/
theorem C68_notice_1145 (ha : Apart E ex 1145) (i : Nat) : ReportedId E ex (.resp i) 1145 ↔
    OnAnswer ex i fun r req => r.status = 206 ∧
      ∃ x y, LastOf E req.fields "If-Range" E.grammars.ifRange (.tag x) ∧
        LastOf E r.fields "ETag" E.grammars.etag y ∧
        (x.weak = true ∨ y.weak = true ∨ x.opaqueTag ≠ y.opaqueTag) := by
  at_negotiation hok ha
  raw hE
  have key : ∀ x y : EntityTag, (!y.strongEquiv x) = true ↔
      x.weak = true ∨ y.weak = true ∨ x.opaqueTag ≠ y.opaqueTag := by
    intro x y
    unfold EntityTag.strongEquiv
    rw [ne_comm (a := x.opaqueTag)]
    cases x.weak <;> cases y.weak <;> simp
  refine and_congr_right fun _ => ?_
  constructor
  · rintro ⟨v, hv, hw⟩
    cases v with
    | tag x =>
      dsimp only at hw
      rw [okay_last hE.lower (by decide)] at hw
      obtain ⟨y, hy, hn⟩ := hw
      exact ⟨x, y, hv, hy, (key x y).1 hn⟩
    | date d => cases hw
  · rintro ⟨x, y, hv, hy, hn⟩
    refine ⟨_, hv, ?_⟩
    dsimp only
    rw [okay_last hE.lower (by decide)]
    exact ⟨y, hy, (key x y).2 hn⟩

/-- 1146: 206 (Partial Content) with headers that the request must already have, going by
`If-Range`. -/
theorem C68_notice_1146 (ha : Apart E ex 1146) (i : Nat) : ReportedId E ex (.resp i) 1146 ↔
    OnAnswer ex i fun r req => r.status = 206 ∧ Has E req.fields "If-Range" ∧
      Carries E r.fields ["Content-Disposition", "Content-Encoding", "Content-Language",
        "Content-Type", "Last-Modified"] := by
  at_negotiation hok ha
  raw hE
  refine and_congr_right fun _ => and_congr_right fun _ => names_carries fun n => ?_
  rw [and_comm, oneOf_two]
  exact oneOf_diff (by decide +kernel) (by decide +kernel)

end

section Examples

open Httpolice.Spec.Toy

/-- A request with directives and conditions that make no sense. -/
private def asks : Exchange := ⟨some (req "PUT" [h "Host" "a",
    h "Cache-Control" "public,no-cache=5,max-stale", h "Warning" "110,299", h "If-Match" "Wx,y",
    h "If-Range" "Wx"]), [
  resp 200 [h "Cache-Control" "public,no-store"],
  resp 200 [h "Cache-Control" "Max-Stale"],
  resp 200 [h "Cache-Control" "max-age=5,no-cache"],
  resp 200 [h "Cache-Control" "max-age=5,no-cache=7"]]⟩

private theorem asks_quiet : exchangeRaises env asks = false := quiet _ (by decide +kernel)

private theorem asks_apart (id : Nat) : Apart env asks id :=
  apart _ _ (by decide +kernel) (by decide +kernel) id

/-- The same without any of that. -/
private def asksNot : Exchange := ⟨some (req "PUT" [h "Host" "a", h "Warning" "299",
    h "If-Match" "x", h "If-Range" "x"]), []⟩

private theorem asksNot_quiet : exchangeRaises env asksNot = false := quiet _ (by decide +kernel)

private theorem asksNot_apart (id : Nat) : Apart env asksNot id :=
  apart _ _ (by decide +kernel) (by decide +kernel) id

/-- A condition that does not go with the method. -/
private def odd : Exchange := ⟨some (req "OPTIONS" [h "Host" "a", h "If-Match" "x"]),
  [resp 412 [], resp 200 []]⟩

private theorem odd_quiet : exchangeRaises env odd = false := quiet _ (by decide +kernel)

private theorem odd_apart (id : Nat) : Apart env odd id :=
  apart _ _ (by decide +kernel) (by decide +kernel) id

/-- A condition that has no effect on the method. -/
private def since : Exchange := ⟨some (req "PUT" [h "Host" "a",
    h "If-Modified-Since" "500"]), [resp 412 [], resp 200 []]⟩

private theorem since_quiet : exchangeRaises env since = false := quiet _ (by decide +kernel)

private theorem since_apart (id : Nat) : Apart env since id :=
  apart _ _ (by decide +kernel) (by decide +kernel) id

/-- A request for a range, under conditions. -/
private def parts : Exchange := ⟨some (req "GET" [h "Host" "a", h "If-None-Match" "x",
    h "If-Modified-Since" "500", h "If-Range" "x", h "Range" "bytes", h "Accept-Language" "en"]), [
  resp 200 [h "ETag" "Wx"],
  resp 200 [h "ETag" "y", h "Last-Modified" "400"],
  resp 200 [h "Last-Modified" "400"],
  resp 200 [h "Last-Modified" "600"],
  resp 206 [h "ETag" "x", h "Content-Type" "multipart/byteranges"],
  resp 206 [h "ETag" "z"],
  resp 406 []]⟩

private theorem parts_quiet : exchangeRaises env parts = false := quiet _ (by decide +kernel)

private theorem parts_apart (id : Nat) : Apart env parts id :=
  apart _ _ (by decide +kernel) (by decide +kernel) id

/-- C68: directives in the request. -/
example : ReportedId env asks .req 1152 ∧ ReportedId env asks .req 1159 ∧
    ReportedId env asks .req 1165 ∧ ReportedId env asks .req 1171 ∧
    ReportedId env asks .req 1193 := by
  simp only [C68_notice_1152 env sensible asks asks_quiet (asks_apart _),
    C68_notice_1159 env sensible asks asks_quiet (asks_apart _),
    C68_notice_1165 env sensible asks asks_quiet (asks_apart _),
    C68_notice_1171 env sensible asks asks_quiet (asks_apart _),
    C68_notice_1193_request env sensible asks asks_quiet (asks_apart _)]
  and_intros <;> decide +kernel

/-- C68: another request has none of them. -/
example : ¬ReportedId env asksNot .req 1152 ∧ ¬ReportedId env asksNot .req 1159 ∧
    ¬ReportedId env asksNot .req 1165 ∧ ¬ReportedId env asksNot .req 1171 ∧
    ¬ReportedId env asksNot .req 1193 := by
  simp only [C68_notice_1152 env sensible asksNot asksNot_quiet (asksNot_apart _),
    C68_notice_1159 env sensible asksNot asksNot_quiet (asksNot_apart _),
    C68_notice_1165 env sensible asksNot asksNot_quiet (asksNot_apart _),
    C68_notice_1171 env sensible asksNot asksNot_quiet (asksNot_apart _),
    C68_notice_1193_request env sensible asksNot asksNot_quiet (asksNot_apart _)]
  and_intros <;> decide +kernel

/-- C68: directives in the responses. -/
example : ReportedId env asks (.resp 1) 1153 ∧ ¬ReportedId env asks (.resp 0) 1153 ∧
    ¬ReportedId env asks (.resp 2) 1153 ∧ ReportedId env asks (.resp 0) 1193 ∧
    ¬ReportedId env asks (.resp 1) 1193 ∧ ¬ReportedId env asks (.resp 2) 1193 ∧
    ReportedId env asks (.resp 2) 1238 ∧ ¬ReportedId env asks (.resp 0) 1238 ∧
    ¬ReportedId env asks (.resp 3) 1238 := by
  simp only [C68_notice_1153 env sensible asks asks_quiet (asks_apart _),
    C68_notice_1193 env sensible asks asks_quiet (asks_apart _),
    C68_notice_1238 env sensible asks asks_quiet (asks_apart _)]
  and_intros <;> decide +kernel

/-- C68: conditions that make no sense. -/
example : ReportedId env asks .req 1120 ∧ ¬ReportedId env asksNot .req 1120 ∧
    ReportedId env asks .req 1135 ∧ ¬ReportedId env asksNot .req 1135 ∧
    ReportedId env odd (.resp 0) 1129 ∧ ¬ReportedId env odd (.resp 1) 1129 ∧
    ¬ReportedId env odd (.resp 0) 1128 ∧ ReportedId env since (.resp 0) 1128 ∧
    ¬ReportedId env since (.resp 1) 1128 ∧ ¬ReportedId env since (.resp 0) 1129 := by
  simp only [C68_notice_1120 env sensible asks asks_quiet (asks_apart _),
    C68_notice_1120 env sensible asksNot asksNot_quiet (asksNot_apart _),
    C68_notice_1135 env sensible asks asks_quiet (asks_apart _),
    C68_notice_1135 env sensible asksNot asksNot_quiet (asksNot_apart _),
    C68_notice_1129 env sensible odd odd_quiet (odd_apart _),
    C68_notice_1128 env sensible odd odd_quiet (odd_apart _),
    C68_notice_1128 env sensible since since_quiet (since_apart _),
    C68_notice_1129 env sensible since since_quiet (since_apart _)]
  and_intros <;> decide +kernel

/-- C68: full responses in spite of the conditions. -/
example : ReportedId env parts (.resp 0) 1121 ∧ ¬ReportedId env parts (.resp 1) 1121 ∧
    ¬ReportedId env parts (.resp 2) 1121 ∧ ReportedId env parts (.resp 2) 1123 ∧
    ¬ReportedId env parts (.resp 1) 1123 ∧ ¬ReportedId env parts (.resp 3) 1123 ∧
    ReportedId env parts (.resp 6) 1117 ∧ ¬ReportedId env parts (.resp 0) 1117 := by
  simp only [C68_notice_1121 env sensible parts parts_quiet (parts_apart _),
    C68_notice_1123 env sensible parts parts_quiet (parts_apart _),
    C68_notice_1117 env sensible parts parts_quiet (parts_apart _)]
  and_intros <;> decide +kernel

/-- C68: partial responses. -/
example : ReportedId env parts (.resp 4) 1144 ∧ ¬ReportedId env parts (.resp 0) 1144 ∧
    ¬ReportedId env parts (.resp 5) 1144 ∧ ReportedId env parts (.resp 5) 1145 ∧
    ¬ReportedId env parts (.resp 0) 1145 ∧ ¬ReportedId env parts (.resp 4) 1145 ∧
    ReportedId env parts (.resp 4) 1146 ∧ ¬ReportedId env parts (.resp 0) 1146 ∧
    ¬ReportedId env parts (.resp 5) 1146 := by
  simp only [C68_notice_1144 env sensible parts parts_quiet (parts_apart _),
    C68_notice_1145 env sensible parts parts_quiet (parts_apart _),
    C68_notice_1146 env sensible parts parts_quiet (parts_apart _)]
  and_intros <;> decide +kernel

end Examples

end Httpolice.Props
