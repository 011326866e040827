import Verif.Lemmas.RawAnswer
import Verif.Lemmas.ToyNotices

/-!
# When notices about connections, proxies, statuses and empty bodies are reported
-/

set_option linter.unusedSectionVars false

namespace Httpolice.Props

open Httpolice.Model Httpolice.Spec Httpolice.Lemmas.Check

section

variable (E : Env) (hE : Sensible E) (ex : Exchange) (hok : exchangeRaises E ex = false)
include hE hok

/-! ## C65. Connections and proxies -/

/-- 1025: a body that ends only with the connection. -/
theorem C65_notice_1025 (ha : Apart E ex 1025) (i : Nat) : ReportedId E ex (.resp i) 1025 ↔
    OnAnswer ex i fun r req => EndsWithConnection E r req := by
  rw [from_status hok ha (by decide) (by decide) (by decide) (by decide) (by decide)]
  have key : ∀ r, Says (.resp i) 1025 (checkStatus E ⟨i, r, ex.request⟩) ↔
      ∃ req, ex.request = some req ∧ EndsWithConnection E r req := by
    intro r
    rw [← ends_iff hE ⟨i, r, ex.request⟩, ← says_ends]
    unfold checkStatus
    dsimp only
    locate
    exact Iff.rfl
  simp only [key, OnAnswer]
  grind

/-- 1047: such a body in HTTP/1.1, without `Connection: close`. -/
theorem C65_notice_1047 (ha : Apart E ex 1047) (i : Nat) : ReportedId E ex (.resp i) 1047 ↔
    OnAnswer ex i fun r req => EndsWithConnection E r req ∧ Version r.toMessage "HTTP/1.1" ∧
      ¬HasOption E r.fields "close" := by
  rw [from_status hok ha (by decide) (by decide) (by decide) (by decide) (by decide)]
  have key : ∀ r, Says (.resp i) 1047 (checkStatus E ⟨i, r, ex.request⟩) ↔
      (∃ req, ex.request = some req ∧ EndsWithConnection E r req) ∧ Version r.toMessage "HTTP/1.1" ∧
        ¬HasOption E r.fields "close" := by
    intro r
    rw [← ends_iff hE ⟨i, r, ex.request⟩]
    unfold checkStatus
    dsimp only [Placed.here, Placed.status, Placed.fields]
    locate
    raw hE
  simp only [key, OnAnswer]
  grind

/-- 1046: without `Via`, though a proxy transformed it, or though it is a successful answer to a
request that was sent to a proxy. -/
theorem C65_notice_1046 (ha : Apart E ex 1046) (i : Nat) : ReportedId E ex (.resp i) 1046 ↔
    OnResponse ex i fun r => ¬Has E r.fields "Via" ∧ (Transformed E ex (.resp i) ∨
      (StatusClass r 2 ∧ OnRequest ex fun req => ToProxy E req)) := by
  rw [reported_resp hok ha (by decide)]
  refine exists_congr fun r => and_congr_right fun hr => ?_
  have hf := foreign_resp ha hr (by decide)
  have htr : Transformed E ex (.resp i) ↔ r.status ≠ 103 ∧ (r.status = 203 ∨ Warns E r.fields 214) := by
    simp only [Transformed, OnResponse, hr, Option.some.injEq, exists_eq_left']
  have h1 : Says (.resp i) 1046 (itselfRest E ⟨i, r, ex.request⟩) ↔
      ¬Has E r.fields "Via" ∧ Transformed E ex (.resp i) := by
    have hm := quiet_responseMessage (p := ⟨i, r, ex.request⟩) (N := 1046) hf (by decide)
    have hs : Says (.resp i) 1046 (checkSettledResponse E ⟨i, r, ex.request⟩) ↔
        Transformed E ex (.resp i) ∧ ¬Has E r.fields "Via" := by
      rw [htr, ← transformed_iff hE ⟨i, r, ex.request⟩]
      unfold checkSettledResponse
      dsimp only [Placed.here, Placed.status, Placed.fields]
      locate
      raw hE
    unfold itselfRest
    simp only [says_inOrder_cons, show (Placed.here ⟨i, r, ex.request⟩) = .resp i from rfl] at hm ⊢
    simp only [hm, quiet_part (N := 1046) (checkStatus_only E ⟨i, r, ex.request⟩) (by decide) id,
      quiet_part (N := 1046) (checkResponseHeaders_only E ⟨i, r, ex.request⟩) (by decide) id,
      says_inOrder_nil, or_false, false_or]
    by_cases h : r.status = 103
    · rw [if_pos (show Placed.status ⟨i, r, ex.request⟩ = 103 from h), htr]
      simp [h]
    · rw [if_neg (show ¬Placed.status ⟨i, r, ex.request⟩ = 103 from h), hs, and_comm]
  have h2 : ∀ req, Says (.resp i) 1046 (contextRest E ⟨i, r, ex.request⟩ req) ↔
      ToProxy E req ∧ StatusClass r 2 ∧ ¬Has E r.fields "Via" := by
    intro req
    unfold contextRest
    simp only [says_inOrder_cons, says_inOrder_nil,
      quiet_part (N := 1046) (checkNegotiation_only E ⟨i, r, ex.request⟩ req) (by decide) id,
      quiet_part (N := 1046) (checkCachedAnswer_only E ⟨i, r, ex.request⟩ req) (by decide) id,
      quiet_skipped (quiet_part (N := 1046) (checkSettledAnswer_only E ⟨i, r, ex.request⟩ req)
        (by decide) id), or_false]
    unfold checkAgainstRequest
    dsimp only [Placed.here, Placed.status, Placed.fields]
    locate
    raw hE
    simp only [proxy_true]
  rw [h1]
  simp only [h2, OnRequest]
  grind

/-- 1237: transformed by a proxy, though the request was not sent to a proxy. -/
theorem C65_notice_1237 (ha : Apart E ex 1237) (i : Nat) : ReportedId E ex (.resp i) 1237 ↔
    OnAnswer ex i fun _ req => Transformed E ex (.resp i) ∧ NotToProxy E req := by
  at_against hok ha
  rename_i r req hr hreq
  raw hE
  simp only [transformed_iff hE, proxy_false, Transformed, OnResponse, hr, Option.some.injEq,
    exists_eq_left', and_assoc]

/-- 1236: an answered request that was sent to a proxy. -/
theorem C65_notice_1236 (ha : Apart E ex 1236) : ReportedId E ex .req 1236 ↔
    OnRequest ex fun req => ToProxy E req ∧ ex.responses ≠ [] := by
  constructor
  · rintro ⟨c, hc, hid⟩
    rw [reported_iff hok (reported_present hc), mem_exchangeActs] at hc
    rcases hc with ⟨req, hreq, hc | hc⟩ | ⟨i, r, hr, hc⟩ | ⟨i, r, req, _, _, _, _, _, hc⟩
    · have := (plain_requestStart (l := []) (R := True) req (says_of_mem hc)).2
      rw [hid] at this
      exact absurd this (foreign_apart ha (by decide) (by decide) (.inl ⟨req, hreq, rfl⟩))
    · have hf := foreign_apart ha (by decide) (by decide) (.inl ⟨req, hreq, rfl⟩)
      have := says_of_mem hc
      rw [hid] at this
      unfold requestRest at this
      simp only [says_inOrder_cons, quiet_requestMessage (N := 1236) hf (by decide),
        quiet_part (N := 1236) (checkRequestBasics_only E req) (by decide) hf,
        quiet_part (N := 1236) (checkRequestCaching_only E req) (by decide) id,
        quiet_part (N := 1236) (checkRequestExtras_only E req) (by decide) id, says_inOrder_nil,
        or_false] at this
    · unfold forResponseActs at hc
      rw [List.mem_append] at hc
      rcases hc with hc | hc
      · split at hc
        · simp [say] at hc
        · cases hc
      · have hs := says_of_mem hc
        rw [hid] at hs
        generalize (List.take i ex.responses).length = j at hs
        unfold checkResponse at hs
        rw [checkResponseItself_eq, says_append, says_append] at hs
        rcases hs with (hs | hs) | hs
        · cases (says_itselfStart hs).1
        · cases ((plain_itselfRest E ⟨j, r, ex.request⟩).says hs).1
        · dsimp only at hs
          split at hs
          · next req hreq =>
            refine ⟨req, hreq, ?_, by rintro h; rw [h] at hr; cases hr⟩
            rw [checkResponseInContext_eq, says_append] at hs
            rcases hs with hs | hs
            · exact absurd hs says_silence
            · unfold contextRest at hs
              simp only [says_inOrder_cons, says_inOrder_nil,
                quiet_part (N := 1236) (checkNegotiation_only E ⟨j, r, ex.request⟩ req) (by decide) id,
                quiet_part (N := 1236) (checkCachedAnswer_only E ⟨j, r, ex.request⟩ req) (by decide) id,
                quiet_skipped (quiet_part (N := 1236)
                  (checkSettledAnswer_only E ⟨j, r, ex.request⟩ req) (by decide) id), or_false] at hs
              have key : Says .req 1236 (checkAgainstRequest E ⟨j, r, ex.request⟩ req) ↔
                  Says .req 1236 (req.isToProxy E).2 := by
                unfold checkAgainstRequest
                dsimp only [Placed.here, Placed.status, Placed.fields]
                locate
                exact Iff.rfl
              exact ((says_proxy _ _ _).1 (key.1 hs)).2.2
          · exact absurd hs says_nil
    · cases hc
  · rintro ⟨req, hreq, hp, hne⟩
    obtain ⟨r, rs, hrs⟩ := List.exists_cons_of_ne_nil hne
    have hr : ex.responses[0]? = some r := by rw [hrs]; rfl
    have key : Says .req 1236 (checkAgainstRequest E ⟨0, r, ex.request⟩ req) ↔
        Says .req 1236 (req.isToProxy E).2 := by
      unfold checkAgainstRequest
      dsimp only [Placed.here, Placed.status, Placed.fields]
      locate
      exact Iff.rfl
    obtain ⟨c, hc, hid⟩ := key.2 ((says_proxy _ _ _).2 ⟨rfl, rfl, hp⟩)
    have hpre : Present ex .req := by
      show ex.request.isSome = true
      rw [hreq]; rfl
    refine ⟨c, (reported_iff hok hpre c).2 ((mem_exchangeActs E).2 (.inr (.inl ⟨0, r, hr, ?_⟩))), hid⟩
    unfold forResponseActs
    refine List.mem_append_right _ ?_
    unfold checkResponse
    refine List.mem_append_right _ ?_
    dsimp only
    rw [hreq] at hc ⊢
    dsimp only
    rw [checkResponseInContext_eq]
    refine List.mem_append_right _ ?_
    unfold contextRest
    simp only [inOrder, List.flatten_cons, List.mem_append]
    exact .inl hc

macro "empty_body" : tactic => `(tactic| (
  simp only [emptyBodyNotice, clientError, serverError, StatusClass, decide_eq_true_eq, List.mem_cons,
    List.not_mem_nil, or_false, not_or]
  grind (splits := 20)))

/-! ## C66. Statuses, redirects and empty bodies -/

/-- 1294: a malformed reason phrase. -/
theorem C66_notice_1294 (ha : Apart E ex 1294) (i : Nat) : ReportedId E ex (.resp i) 1294 ↔
    OnResponse ex i fun r => ∃ s, r.reason = some s ∧ ∃ c ∈ s, ¬ReasonChar c := by
  at_status hok ha
  rename_i r hr
  cases r.reason with
  | none => simp
  | some s =>
    raw hE
    simp only [not_iff_false (reason_iff s), Option.some.injEq, exists_eq_left', Classical.not_forall]
    grind

/-- 1167: a status outside 100 to 599. -/
theorem C66_notice_1167 (ha : Apart E ex 1167) (i : Nat) : ReportedId E ex (.resp i) 1167 ↔
    OnResponse ex i fun r => r.status < 100 ∨ 599 < r.status := by
  at_status hok ha
  raw hE
  simp only [decide_eq_false_iff_not]
  omega

/-- 1082: 305 (Use Proxy). -/
theorem C66_notice_1082 (ha : Apart E ex 1082) (i : Nat) : ReportedId E ex (.resp i) 1082 ↔
    OnResponse ex i fun r => r.status = 305 := by
  at_status hok ha
  raw hE

/-- 1083: 306 (unused). -/
theorem C66_notice_1083 (ha : Apart E ex 1083) (i : Nat) : ReportedId E ex (.resp i) 1083 ↔
    OnResponse ex i fun r => r.status = 306 := by
  at_status hok ha
  raw hE
  omega

/-- 1088: 402 (Payment Required). -/
theorem C66_notice_1088 (ha : Apart E ex 1088) (i : Nat) : ReportedId E ex (.resp i) 1088 ↔
    OnResponse ex i fun r => r.status = 402 := by
  at_status hok ha
  raw hE
  omega

/-- 1111: 201 (Created) with a fragment in `Location`. -/
theorem C66_notice_1111 (ha : Apart E ex 1111) (i : Nat) : ReportedId E ex (.resp i) 1111 ↔
    OnResponse ex i fun r => r.status = 201 ∧
      ∃ l, LastOf E r.fields "Location" E.grammars.location l ∧ E.urlFragment l ≠ [] := by
  at_status hok ha
  raw hE
  simp only [List.isEmpty_eq_false_iff, ne_eq]

/-- 1118: `Last-Modified` later than `Date`. -/
theorem C66_notice_1118 (ha : Apart E ex 1118) (i : Nat) : ReportedId E ex (.resp i) 1118 ↔
    OnResponse ex i fun r => ∃ d l, LastOf E r.fields "Date" E.grammars.date d ∧
      LastOf E r.fields "Last-Modified" E.grammars.date l ∧ d < l := by
  at_status hok ha
  raw hE

/-- 1143: `Content-Range` outside the parts of 206 (Partial Content) in several parts. -/
theorem C66_notice_1143 (ha : Apart E ex 1143) (i : Nat) : ReportedId E ex (.resp i) 1143 ↔
    OnResponse ex i fun r => r.status = 206 ∧ HasMediaType E r.fields "multipart/byteranges" ∧
      Has E r.fields "Content-Range" := by
  at_headers hok ha
  raw hE
  rename_i r hr
  have hq := quiet_of (t := .resp i)
    ((checkByteranges_only ⟨i, r, ex.request⟩).ne (N := 1143) (by decide) id)
  simp only [hq, false_or]

/-- 1141: a part without `Content-Range` in such a response. -/
theorem C66_notice_1141 (ha : Apart E ex 1141) (i : Nat) : ReportedId E ex (.resp i) 1141 ↔
    OnResponse ex i fun r => r.status = 206 ∧ HasMediaType E r.fields "multipart/byteranges" ∧
      ∃ ps, r.payload.parts = some ps ∧ ∃ part ∈ ps, part.1 = false := by
  at_headers hok ha
  raw hE
  refine and_congr_right fun _ => and_congr_right fun _ => ?_
  unfold checkByteranges
  dsimp only [Placed.here]
  split
  · next parts hp =>
    raw hE
    simp only [hp, Option.some.injEq, exists_eq_left']
    constructor
    · rintro ⟨x, hx, h⟩
      exact ⟨x.1, List.fst_mem_of_mem_zipIdx hx, h⟩
    · rintro ⟨x, hx, h⟩
      obtain ⟨k, hk, rfl⟩ := List.getElem_of_mem hx
      exact ⟨(parts[k], k), List.mem_zipIdx_iff_getElem?.2 (List.getElem?_eq_getElem hk), h⟩
  · next hp => simp [says_nil, hp]

/-- 1142: a part without `Content-Type` in such a response. -/
theorem C66_notice_1142 (ha : Apart E ex 1142) (i : Nat) : ReportedId E ex (.resp i) 1142 ↔
    OnResponse ex i fun r => r.status = 206 ∧ HasMediaType E r.fields "multipart/byteranges" ∧
      ∃ ps, r.payload.parts = some ps ∧ ∃ part ∈ ps, part.2 = false := by
  at_headers hok ha
  raw hE
  refine and_congr_right fun _ => and_congr_right fun _ => ?_
  unfold checkByteranges
  dsimp only [Placed.here]
  split
  · next parts hp =>
    raw hE
    simp only [hp, Option.some.injEq, exists_eq_left']
    constructor
    · rintro ⟨x, hx, h⟩
      exact ⟨x.1, List.fst_mem_of_mem_zipIdx hx, h⟩
    · rintro ⟨x, hx, h⟩
      obtain ⟨k, hk, rfl⟩ := List.getElem_of_mem hx
      exact ⟨(parts[k], k), List.mem_zipIdx_iff_getElem?.2 (List.getElem?_eq_getElem hk), h⟩
  · next hp => simp [says_nil, hp]

/-- 1243: 451 (Unavailable For Legal Reasons) without a link to who blocks it. -/
theorem C66_notice_1243 (ha : Apart E ex 1243) (i : Nat) : ReportedId E ex (.resp i) 1243 ↔
    OnResponse ex i fun r => r.status = 451 ∧
      ¬∃ l, Listed E r.fields "Link" E.grammars.link l ∧ IsBlockedBy E l := by
  at_headers hok ha
  rename_i r hr
  raw hE
  refine and_congr_right fun hs => ?_
  obtain ⟨b, hb⟩ := links_okay hE hok hr hs
  have hbi := blocked_iff hE _ b hb
  simp only [mem_link hE] at hbi
  rw [← hbi, hb]
  cases b <;> simp

/-- 1041: a body of unknown type; a part of something asked for by `If-Range` may omit the type. -/
theorem C66_notice_1041 (ha : Apart E ex 1041) (i : Nat) : ReportedId E ex (.resp i) 1041 ↔
    OnAnswer ex i fun r req => HasContent r.body ∧ ¬Has E r.fields "Content-Type" ∧
      (r.status ≠ 206 ∨ ¬Has E req.fields "If-Range") := by
  at_against hok ha
  raw hE

/-- 1041: on a request, a body of unknown type. -/
theorem C66_notice_1041_req (ha : Apart E ex 1041) : ReportedId E ex .req 1041 ↔
    OnRequest ex fun req => HasContent req.body ∧ ¬Has E req.fields "Content-Type" := by
  at_basics hok ha
  raw hE

/-- 1055: `Content-Location` that is the effective URI of GET or HEAD itself. -/
theorem C66_notice_1055 (ha : Apart E ex 1055) (i : Nat) : ReportedId E ex (.resp i) 1055 ↔
    OnAnswer ex i fun r req => IsMethod req ["GET", "HEAD"] ∧ r.status ∈ [200, 203, 204, 206, 304] ∧
      ∃ l, LastOf E r.fields "Content-Location" E.grammars.contentLocation l ∧ LeadsBack E req l := by
  at_against hok ha
  rename_i r req hr hreq
  simp only [leadsBack_iff hE]
  split
  · next l uri hl hu =>
    raw hE
    simp only [← single_last hE.lower (show "Content-Location" ∈ checkedNames by decide)]
    simp only [hl, hu, PyVal.val.injEq, Option.some.injEq, exists_eq_left', IsMethod, List.contains_iff_mem, List.mem_cons, List.not_mem_nil, or_false, exists_eq_or_imp,
      exists_eq_left]
    grind
  · next hn =>
    simp only [says_nil, false_iff]
    rintro ⟨_, _, l, hl, uri, hu, _⟩
    exact hn l uri ((single_last hE.lower (by decide) _ _ _).2 hl) hu

/-- 1060: `Content-Location` that is what DELETE was sent to. -/
theorem C66_notice_1060 (ha : Apart E ex 1060) (i : Nat) : ReportedId E ex (.resp i) 1060 ↔
    OnAnswer ex i fun r req => req.method = str "DELETE" ∧
      ∃ l, LastOf E r.fields "Content-Location" E.grammars.contentLocation l ∧ LeadsBack E req l := by
  at_against hok ha
  rename_i r req hr hreq
  simp only [leadsBack_iff hE]
  split
  · next l uri hl hu =>
    raw hE
    simp only [← single_last hE.lower (show "Content-Location" ∈ checkedNames by decide)]
    simp only [hl, hu, PyVal.val.injEq, Option.some.injEq, exists_eq_left']
    grind
  · next hn =>
    simp only [says_nil, false_iff]
    rintro ⟨_, l, hl, uri, hu, _⟩
    exact hn l uri ((single_last hE.lower (by decide) _ _ _).2 hl) hu

/-- 1085: a redirect to the same URI; POST may be redirected so by 301, 302 and 303. -/
theorem C66_notice_1085 (ha : Apart E ex 1085) (i : Nat) : ReportedId E ex (.resp i) 1085 ↔
    OnAnswer ex i fun r req => (r.status ∈ [300, 307, 308] ∨
        r.status ∈ [301, 302, 303] ∧ req.method ≠ str "POST") ∧
      (∃ s, req.scheme = some s ∧ s ≠ []) ∧
      ∃ l, LastOf E r.fields "Location" E.grammars.location l ∧ LeadsBack E req l := by
  at_against hok ha
  rename_i r req hr hreq
  simp only [leadsBack_iff hE]
  split
  · next l uri hl hu =>
    have hsch : (match req.scheme with
        | some s => !s.isEmpty
        | none => false) = true ↔ ∃ s, req.scheme = some s ∧ s ≠ [] := by
      cases req.scheme <;> simp
    rw [← hsch]
    raw hE
    simp only [← single_last hE.lower (show "Location" ∈ checkedNames by decide)]
    simp only [hl, hu, PyVal.val.injEq, Option.some.injEq, exists_eq_left', List.contains_iff_mem]
    grind
  · next hn =>
    simp only [says_nil, false_iff]
    rintro ⟨_, _, l, hl, uri, hu, _⟩
    exact hn l uri ((single_last hE.lower (by decide) _ _ _).2 hl) hu

/-- 1086: a redirect of `OPTIONS *`. -/
theorem C66_notice_1086 (ha : Apart E ex 1086) (i : Nat) : ReportedId E ex (.resp i) 1086 ↔
    OnAnswer ex i fun r req => req.method = str "OPTIONS" ∧ TargetIs E req .asterisk ∧
      r.status ∈ [300, 301, 302, 307, 308] := by
  at_against hok ha
  raw hE
  simp only [targetIs_iff, List.contains_iff_mem]

/-- 1284: 202 (Accepted) with an empty body, other than for HEAD. -/
theorem C66_notice_1284 (ha : Apart E ex 1284) (i : Nat) : ReportedId E ex (.resp i) 1284 ↔
    OnAnswer ex i fun r req => r.status = 202 ∧ r.body = .val [] ∧
      req.method ≠ str "HEAD" := by
  at_against hok ha
  rename_i r req hr hreq
  raw hE
  have key : emptyBodyNotice r.status = some 1284 ↔ r.status = 202 := by
    empty_body
  rw [← key]
  cases emptyBodyNotice r.status with
  | none => simp
  | some id => raw hE; grind

/-- 1077: 300 (Multiple Choices) with an empty body, other than for HEAD. -/
theorem C66_notice_1077 (ha : Apart E ex 1077) (i : Nat) : ReportedId E ex (.resp i) 1077 ↔
    OnAnswer ex i fun r req => r.status = 300 ∧ r.body = .val [] ∧
      req.method ≠ str "HEAD" := by
  at_against hok ha
  rename_i r req hr hreq
  raw hE
  have key : emptyBodyNotice r.status = some 1077 ↔ r.status = 300 := by
    empty_body
  rw [← key]
  cases emptyBodyNotice r.status with
  | none => simp
  | some id => raw hE; grind

/-- 1081: 303 (See Other) with an empty body, other than for HEAD. -/
theorem C66_notice_1081 (ha : Apart E ex 1081) (i : Nat) : ReportedId E ex (.resp i) 1081 ↔
    OnAnswer ex i fun r req => r.status = 303 ∧ r.body = .val [] ∧
      req.method ≠ str "HEAD" := by
  at_against hok ha
  rename_i r req hr hreq
  raw hE
  have key : emptyBodyNotice r.status = some 1081 ↔ r.status = 303 := by
    empty_body
  rw [← key]
  cases emptyBodyNotice r.status with
  | none => simp
  | some id => raw hE; grind

/-- 1092: 406 (Not Acceptable) with an empty body, other than for HEAD. -/
theorem C66_notice_1092 (ha : Apart E ex 1092) (i : Nat) : ReportedId E ex (.resp i) 1092 ↔
    OnAnswer ex i fun r req => r.status = 406 ∧ r.body = .val [] ∧
      req.method ≠ str "HEAD" := by
  at_against hok ha
  rename_i r req hr hreq
  raw hE
  have key : emptyBodyNotice r.status = some 1092 ↔ r.status = 406 := by
    empty_body
  rw [← key]
  cases emptyBodyNotice r.status with
  | none => simp
  | some id => raw hE; grind

/-- 1096: 409 (Conflict) with an empty body, other than for HEAD. -/
theorem C66_notice_1096 (ha : Apart E ex 1096) (i : Nat) : ReportedId E ex (.resp i) 1096 ↔
    OnAnswer ex i fun r req => r.status = 409 ∧ r.body = .val [] ∧
      req.method ≠ str "HEAD" := by
  at_against hok ha
  rename_i r req hr hreq
  raw hE
  have key : emptyBodyNotice r.status = some 1096 ↔ r.status = 409 := by
    empty_body
  rw [← key]
  cases emptyBodyNotice r.status with
  | none => simp
  | some id => raw hE; grind

/-- 1201: 428 (Precondition Required) with an empty body, other than for HEAD. -/
theorem C66_notice_1201 (ha : Apart E ex 1201) (i : Nat) : ReportedId E ex (.resp i) 1201 ↔
    OnAnswer ex i fun r req => r.status = 428 ∧ r.body = .val [] ∧
      req.method ≠ str "HEAD" := by
  at_against hok ha
  rename_i r req hr hreq
  raw hE
  have key : emptyBodyNotice r.status = some 1201 ↔ r.status = 428 := by
    empty_body
  rw [← key]
  cases emptyBodyNotice r.status with
  | none => simp
  | some id => raw hE; grind

/-- 1203: 429 (Too Many Requests) with an empty body, other than for HEAD. -/
theorem C66_notice_1203 (ha : Apart E ex 1203) (i : Nat) : ReportedId E ex (.resp i) 1203 ↔
    OnAnswer ex i fun r req => r.status = 429 ∧ r.body = .val [] ∧
      req.method ≠ str "HEAD" := by
  at_against hok ha
  rename_i r req hr hreq
  raw hE
  have key : emptyBodyNotice r.status = some 1203 ↔ r.status = 429 := by
    empty_body
  rw [← key]
  cases emptyBodyNotice r.status with
  | none => simp
  | some id => raw hE; grind

/-- 1242: 451 (Unavailable For Legal Reasons) with an empty body, other than for HEAD. -/
theorem C66_notice_1242 (ha : Apart E ex 1242) (i : Nat) : ReportedId E ex (.resp i) 1242 ↔
    OnAnswer ex i fun r req => r.status = 451 ∧ r.body = .val [] ∧
      req.method ≠ str "HEAD" := by
  at_against hok ha
  rename_i r req hr hreq
  raw hE
  have key : emptyBodyNotice r.status = some 1242 ↔ r.status = 451 := by
    empty_body
  rw [← key]
  cases emptyBodyNotice r.status with
  | none => simp
  | some id => raw hE; grind

/-- 1087: 4xx, but for those with a notice of their own, with an empty body, other than for HEAD. -/
theorem C66_notice_1087 (ha : Apart E ex 1087) (i : Nat) : ReportedId E ex (.resp i) 1087 ↔
    OnAnswer ex i fun r req => StatusClass r 4 ∧ r.status ∉ [406, 409, 428, 429, 451] ∧ r.body = .val [] ∧
      req.method ≠ str "HEAD" := by
  at_against hok ha
  rename_i r req hr hreq
  raw hE
  have key : emptyBodyNotice r.status = some 1087 ↔ StatusClass r 4 ∧ r.status ∉ [406, 409, 428, 429, 451] := by
    empty_body
  rw [← and_assoc (a := StatusClass r 4), ← key]
  cases emptyBodyNotice r.status with
  | none => simp
  | some id => raw hE; grind

/-- 1106: 505 (HTTP Version Not Supported) with an empty body, other than for HEAD. -/
theorem C66_notice_1106 (ha : Apart E ex 1106) (i : Nat) : ReportedId E ex (.resp i) 1106 ↔
    OnAnswer ex i fun r req => r.status = 505 ∧ r.body = .val [] ∧
      req.method ≠ str "HEAD" := by
  at_against hok ha
  rename_i r req hr hreq
  raw hE
  have key : emptyBodyNotice r.status = some 1106 ↔ r.status = 505 := by
    empty_body
  rw [← key]
  cases emptyBodyNotice r.status with
  | none => simp
  | some id => raw hE; grind

/-- 1204: 511 (Network Authentication Required) with an empty body, other than for HEAD. -/
theorem C66_notice_1204 (ha : Apart E ex 1204) (i : Nat) : ReportedId E ex (.resp i) 1204 ↔
    OnAnswer ex i fun r req => r.status = 511 ∧ r.body = .val [] ∧
      req.method ≠ str "HEAD" := by
  at_against hok ha
  rename_i r req hr hreq
  raw hE
  have key : emptyBodyNotice r.status = some 1204 ↔ r.status = 511 := by
    empty_body
  rw [← key]
  cases emptyBodyNotice r.status with
  | none => simp
  | some id => raw hE; grind

/-- 1104: 5xx, but for those with a notice of their own, with an empty body, other than for HEAD. -/
theorem C66_notice_1104 (ha : Apart E ex 1104) (i : Nat) : ReportedId E ex (.resp i) 1104 ↔
    OnAnswer ex i fun r req => StatusClass r 5 ∧ r.status ∉ [505, 511] ∧ r.body = .val [] ∧
      req.method ≠ str "HEAD" := by
  at_against hok ha
  rename_i r req hr hreq
  raw hE
  have key : emptyBodyNotice r.status = some 1104 ↔ StatusClass r 5 ∧ r.status ∉ [505, 511] := by
    empty_body
  rw [← and_assoc (a := StatusClass r 5), ← key]
  cases emptyBodyNotice r.status with
  | none => simp
  | some id => raw hE; grind

end

/-! ## Examples -/

section
open Httpolice.Spec.Toy

/-- A request to a proxy with a transformed answer that ends with the connection, and a request to the
server with a redirect to itself, with an answer that ends with its length, and with an empty 406. -/
def proxied : Exchange := ⟨some { req "GET" [] with target := str "http://a/b" },
  [resp 203 [h "Via" "x"] "abc", resp 200 [h "Connection" "x,Close"] "abc",
    resp 404 [h "Content-Length" "0"]]⟩

def direct : Exchange := ⟨some (req "GET" [h "Host" "a"]),
  [resp 203 [], resp 302 [h "Location" "b", h "Location" "http://a/"], resp 302 [h "Location" "http://b/"],
    resp 406 [], resp 404 [], { resp 404 [] with body := .unavailable }]⟩

theorem proxied_quiet : exchangeRaises env proxied = false := quiet _ (by decide +kernel)
theorem proxied_apart (id : Nat) : Apart env proxied id :=
  apart _ _ (by decide +kernel) (by decide +kernel) id
theorem direct_quiet : exchangeRaises env direct = false := quiet _ (by decide +kernel)
theorem direct_apart (id : Nat) : Apart env direct id :=
  apart _ _ (by decide +kernel) (by decide +kernel) id

/-- C65: of the three answers two end with the connection, and one of those does not say so. -/
example : ReportedId env proxied (.resp 0) 1025 ∧ ReportedId env proxied (.resp 1) 1025 ∧
    ¬ReportedId env proxied (.resp 2) 1025 ∧ ReportedId env proxied (.resp 0) 1047 ∧
    ¬ReportedId env proxied (.resp 1) 1047 ∧ ¬ReportedId env proxied (.resp 2) 1047 := by
  simp only [C65_notice_1025 env sensible proxied proxied_quiet (proxied_apart _),
    C65_notice_1047 env sensible proxied proxied_quiet (proxied_apart _)]
  decide +kernel

/-- C65: the first answer of the proxy has `Via` and the second does not, and the third is not
successful; the server itself should not transform. -/
example : ¬ReportedId env proxied (.resp 0) 1046 ∧ ReportedId env proxied (.resp 1) 1046 ∧
    ¬ReportedId env proxied (.resp 2) 1046 ∧ ReportedId env proxied .req 1236 ∧
    ¬ReportedId env proxied (.resp 0) 1237 ∧ ¬ReportedId env direct .req 1236 ∧
    ReportedId env direct (.resp 0) 1237 ∧ ¬ReportedId env direct (.resp 1) 1237 := by
  simp only [C65_notice_1046 env sensible proxied proxied_quiet (proxied_apart _),
    C65_notice_1236 env sensible proxied proxied_quiet (proxied_apart _),
    C65_notice_1237 env sensible proxied proxied_quiet (proxied_apart _),
    C65_notice_1236 env sensible direct direct_quiet (direct_apart _),
    C65_notice_1237 env sensible direct direct_quiet (direct_apart _), Transformed]
  and_intros <;> decide +kernel

/-- C66: the first redirect leads back, the second elsewhere. -/
example : ReportedId env direct (.resp 1) 1085 ∧ ¬ReportedId env direct (.resp 2) 1085 := by
  simp only [C66_notice_1085 env sensible direct direct_quiet (direct_apart _)]
  constructor
  · refine ⟨_, _, rfl, rfl, by decide +kernel, ⟨str "http", rfl, by decide +kernel⟩, str "http://a/",
      by decide +kernel, str "http://a/", ?_, by decide +kernel, rfl⟩
    exact .origin (str "http") (str "a") (by decide +kernel) rfl (by decide +kernel) (by decide +kernel)
  · rintro ⟨_, _, hr, hq, _, _, l, hl, uri, hu, _, hj⟩
    cases hr
    cases hq
    rw [lastVal_iff] at hl
    cases hl
    have hs : str "http://b/" = uri := hj
    clear hj
    cases hu with
    | absolute h => exact absurd h (by decide +kernel)
    | authority s h => exact absurd h (by decide +kernel)
    | asterisk s h ht => exact absurd ht (by decide +kernel)
    | origin s h ht hsc _ hh =>
      revert hs
      cases hsc
      rw [lastVal_iff] at hh
      cases hh
      decide +kernel

/-- C66: an empty body has a notice for 406 and another for most errors. -/
example : ReportedId env direct (.resp 3) 1092 ∧ ¬ReportedId env direct (.resp 3) 1087 ∧
    ReportedId env direct (.resp 4) 1087 ∧ ¬ReportedId env direct (.resp 5) 1087 ∧
    ReportedId env direct (.resp 5) 1041 ∧ ¬ReportedId env direct (.resp 4) 1041 := by
  simp only [C66_notice_1092 env sensible direct direct_quiet (direct_apart _),
    C66_notice_1087 env sensible direct direct_quiet (direct_apart _),
    C66_notice_1041 env sensible direct direct_quiet (direct_apart _)]
  and_intros <;> decide +kernel

end

end Httpolice.Props
