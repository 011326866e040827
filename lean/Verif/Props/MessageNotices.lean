import Verif.Lemmas.RawMore
import Verif.Lemmas.ToyNotices

/-!
# Notices that requests and responses have in common
-/

set_option linter.unusedSectionVars false

namespace Httpolice.Props

open Httpolice.Model Httpolice.Spec Httpolice.Lemmas.Check

section

variable (E : Env) (hE : Sensible E) (ex : Exchange) (hok : exchangeRaises E ex = false)
include hE hok

/-! ## C64. Headers of any message -/

/-- 1020: both `Transfer-Encoding` and `Content-Length`. -/
theorem C64_notice_1020 (ha : Apart E ex 1020) (t : Target) : ReportedId E ex t 1020 ↔
    OnMessage ex t fun msg =>
      Has E msg.fields "Transfer-Encoding" ∧ Has E msg.fields "Content-Length" := by
  at_any hok ha
  raw hE

/-- 1030: a trailer that is not announced in `Trailer`. -/
theorem C64_notice_1030 (ha : Apart E ex 1030) (t : Target) : ReportedId E ex t 1030 ↔
    OnMessage ex t fun msg => ∃ e ∈ msg.fields.trailers,
      ¬∃ n, Listed E msg.fields "Trailer" E.grammars.trailer n ∧ E.lower n = E.lower e.name := by
  at_any hok ha
  raw hE
  refine exists_congr fun e => and_congr_right fun _ => ?_
  rw [not_iff_false (any_trailer hE _ _)]
  simp [Env.same]

/-- 1034: a connection option that is the name of a header for all recipients. -/
theorem C64_notice_1034 (ha : Apart E ex 1034) (t : Target) : ReportedId E ex t 1034 ↔
    OnMessage ex t fun msg => ∃ o, Listed E msg.fields "Connection" E.grammars.connection o ∧
      ∃ name ∈ endToEnd, IsWord E o name := by
  at_any hok ha
  raw hE
  simp only [badForConnection_iff hE]
  exact Iff.rfl

/-- 1035: a deprecated media type. -/
theorem C64_notice_1035 (ha : Apart E ex 1035) (t : Target) : ReportedId E ex t 1035 ↔
    OnMessage ex t fun msg => ∃ ct, LastOf E msg.fields "Content-Type" E.grammars.contentType ct ∧
      E.mediaDeprecated ct.1 = true := by
  at_any hok ha
  raw hE

/-- 1042: a repeated parameter of the media type. -/
theorem C64_notice_1042 (ha : Apart E ex 1042) (t : Target) : ReportedId E ex t 1042 ↔
    OnMessage ex t fun msg => ∃ ct, LastOf E msg.fields "Content-Type" E.grammars.contentType ct ∧
      Repeats E (ct.2.map Prod.fst) := by
  at_any hok ha
  refine via_single hE (by decide) (fun ct h => ?_) (fun h => ?_)
  · rw [h]
    raw hE
    exact dups_iff _
  · split
    · next ct h' => exact absurd h' (h ct)
    · exact says_nil

/-- 1280: JSON with the parameter `charset`. -/
theorem C64_notice_1280 (ha : Apart E ex 1280) (t : Target) : ReportedId E ex t 1280 ↔
    OnMessage ex t fun msg => ∃ ct, LastOf E msg.fields "Content-Type" E.grammars.contentType ct ∧
      IsWord E ct.1 "application/json" ∧ HasParam E ct.2 "charset" := by
  at_any hok ha
  raw hE
  simp only [params_iff hE _ (show (str "charset").all (· < 128) = true by decide)]

/-- 1054: `Trailer` in an HTTP/1.1 message without chunked coding. -/
theorem C64_notice_1054 (ha : Apart E ex 1054) (t : Target) : ReportedId E ex t 1054 ↔
    OnMessage ex t fun msg => Version msg "HTTP/1.1" ∧ Has E msg.fields "Trailer" ∧
      ¬∃ x, Listed E msg.fields "Transfer-Encoding" E.grammars.transferEncoding x ∧
        IsWord E x "chunked" := by
  at_any hok ha
  rw [says_whenever, Bool.and_eq_true, Bool.and_eq_true, Bool.not_eq_eq_eq_not, Bool.not_true,
    not_iff_false (chunked_iff hE _)]
  raw hE

/-- 1109: `Date` in the future (by more than 10 seconds). -/
theorem C64_notice_1109 (ha : Apart E ex 1109) (t : Target) : ReportedId E ex t 1109 ↔
    OnMessage ex t fun msg => ∃ d, LastOf E msg.fields "Date" E.grammars.date d ∧ d > E.now + 10 := by
  at_any hok ha
  raw hE

/-- 1163: a warning code that is neither 1xx nor 2xx. -/
theorem C64_notice_1163 (ha : Apart E ex 1163) (t : Target) : ReportedId E ex t 1163 ↔
    OnMessage ex t fun msg => ∃ w, Listed E msg.fields "Warning" E.grammars.warning w ∧
      (w.code < 100 ∨ w.code > 299) := by
  at_any hok ha
  raw hE

/-- 1164: a warning with a date other than that of the message. -/
theorem C64_notice_1164 (ha : Apart E ex 1164) (t : Target) : ReportedId E ex t 1164 ↔
    OnMessage ex t fun msg => ∃ w d d', Listed E msg.fields "Warning" E.grammars.warning w ∧
      w.date = .val d ∧ LastOf E msg.fields "Date" E.grammars.date d' ∧ d ≠ d' := by
  at_any hok ha
  raw hE
  constructor
  · rintro ⟨w, hw, ⟨d, hd⟩, x, y, hx, hy, hne⟩
    exact ⟨w, y, x, hw, hy, hx, fun e => hne e.symm⟩
  · rintro ⟨w, d, d', hw, hd, hd', hne⟩
    exact ⟨w, hw, ⟨d, hd⟩, d', d, hd', hd, fun e => hne e.symm⟩

/-- 1160: an unknown pragma. -/
theorem C64_notice_1160 (ha : Apart E ex 1160) (t : Target) : ReportedId E ex t 1160 ↔
    OnMessage ex t fun msg => ∃ n, Listed E msg.fields "Pragma" E.grammars.pragma (.extension n) ∧
      n ≠ str "no-cache" := by
  at_any hok ha
  raw hE
  constructor
  · rintro ⟨p, hp, h⟩
    cases p with
    | noCache => exact absurd h says_nil
    | extension n => exact ⟨n, hp, by simpa using h⟩
  · rintro ⟨n, hn, h⟩
    exact ⟨_, hn, by simpa using h⟩

/-- 1228: an upgrade to `h2`, which is only for TLS. -/
theorem C64_notice_1228 (ha : Apart E ex 1228) (t : Target) : ReportedId E ex t 1228 ↔
    OnMessage ex t fun msg => ∃ x, Listed E msg.fields "Upgrade" E.grammars.upgrade x ∧
      x.1 = str "h2" := by
  at_any hok ha
  raw hE

/-- 1293: a header name that is not a token. -/
theorem C64_notice_1293 (ha : Apart E ex 1293) (t : Target) : ReportedId E ex t 1293 ↔
    OnMessage ex t fun msg => ∃ n, FirstSpelled E msg.fields n ∧ ¬TokenText n := by
  at_loop hok ha
  rename_i msg hmsg hf
  simp only [says_inOrder_cons, says_each, says_inOrder_nil,
    quiet_part (plain_viewNotes (l := []) (R := True) E t msg _ _) (by simp) hf]
  raw hE
  simp only [not_iff_false (token_iff _), names_first]

/-- 1197: a deprecated header. -/
theorem C64_notice_1197 (ha : Apart E ex 1197) (t : Target) : ReportedId E ex t 1197 ↔
    OnMessage ex t fun msg => Carries E msg.fields deprecatedHeaders := by
  at_loop hok ha
  rename_i msg hmsg hf
  simp only [says_inOrder_cons, says_each, says_inOrder_nil,
    quiet_part (plain_viewNotes (l := []) (R := True) E t msg _ _) (by simp) hf]
  raw hE
  simp only [deprecated_iff hE]
  exact names_oneOf

/-- 1277: an unknown header with the prefix `X-`. -/
theorem C64_notice_1277 (ha : Apart E ex 1277) (t : Target) : ReportedId E ex t 1277 ↔
    OnMessage ex t fun msg => ∃ e ∈ msg.fields.headers ++ msg.fields.trailers,
      str "x-" <+: E.lower e.name ∧ ¬IsKnownName E e.name := by
  at_loop hok ha
  rename_i msg hmsg hf
  simp only [says_inOrder_cons, says_each, says_inOrder_nil,
    quiet_part (plain_viewNotes (l := []) (R := True) E t msg _ _) (by simp) hf]
  raw hE
  rw [List.any_eq_true, ← mem_names (E := E) (P := fun n => str "x-" <+: E.lower n ∧ ¬IsKnownName E n)]
  · refine exists_congr fun n => and_congr_right fun _ => ?_
    rw [Bool.and_eq_true, List.isPrefixOf_iff_prefix, Bool.not_eq_eq_eq_not, Bool.not_true,
      not_iff_false (known_iff hE _), hE.lower (str "X-") (by decide)]
    exact Iff.rfl
  · rintro a b hab ⟨h1, h2⟩
    refine ⟨hab ▸ h1, fun ⟨r, hr, h⟩ => h2 ⟨r, hr, ?_⟩⟩
    unfold IsWord at *
    rw [hab]; exact h

/-- 1050: `Upgrade` without `Connection: upgrade`. -/
theorem C64_notice_1050 (ha : Apart E ex 1050) (t : Target) : ReportedId E ex t 1050 ↔
    OnSettled ex t fun msg => Has E msg.fields "Upgrade" ∧ ¬HasOption E msg.fields "upgrade" := by
  at_common hok ha hE
  raw hE
  exact flag_any

/-- 1191: transformed by a proxy, but without the warning. -/
theorem C64_notice_1191 (ha : Apart E ex 1191) (t : Target) : ReportedId E ex t 1191 ↔
    OnSettled ex t fun msg => Transformed E ex t ∧ ¬Warns E msg.fields 214 := by
  at_common hok ha hE
  raw hE
  exact flag_and

/-- 1192: transformed by a proxy in spite of `no-transform`. -/
theorem C64_notice_1192 (ha : Apart E ex 1192) (t : Target) : ReportedId E ex t 1192 ↔
    OnSettled ex t fun msg => Transformed E ex t ∧ Directs E msg.fields "no-transform" := by
  at_common hok ha hE
  raw hE
  exact flag_and

/-- 1245: `Upgrade` in HTTP/2. -/
theorem C64_notice_1245 (ha : Apart E ex 1245) (t : Target) : ReportedId E ex t 1245 ↔
    OnSettled ex t fun msg => Version msg "HTTP/2" ∧ Carries E msg.fields ["Upgrade"] := by
  at_common hok ha hE
  raw hE
  refine flag_any.trans (and_congr_right fun _ => names_carries fun n => ?_)
  simp only [OneOf, List.mem_singleton, exists_eq_left]
  constructor
  · exact fun h => h.2.2.2
  · exact fun h => ⟨word_apart h (by decide), word_apart h (by decide), word_apart h (by decide), h⟩

/-- 1244: a header for the connection in HTTP/2. In a request, also `TE` other than a single
`trailers`. -/
theorem C64_notice_1244 (ha : Apart E ex 1244) (t : Target) : ReportedId E ex t 1244 ↔
    OnSettled ex t (fun msg => Version msg "HTTP/2" ∧
      Carries E msg.fields ["Connection", "Transfer-Encoding", "Keep-Alive"]) ∨
    (t = .req ∧ OnRequest ex fun req => Version req.toMessage "HTTP/2" ∧
      ListItems E req.fields "TE" E.grammars.te ≠ [] ∧
      ¬∃ c, ListItems E req.fields "TE" E.grammars.te = [some c] ∧ IsWord E c "trailers") := by
  have key : ∀ (t : Target) (msg : Message) (tr : Option Bool),
      Says t 1244 (checkSettledMessage E t msg (tr, [])) ↔ Version msg "HTTP/2" ∧
        Carries E msg.fields ["Connection", "Transfer-Encoding", "Keep-Alive"] := by
    intro t msg tr
    unfold checkSettledMessage
    dsimp only
    raw hE
    refine and_congr_right fun _ => names_carries fun n => ?_
    simp [OneOf, IsWord, or_assoc]
  have hm : ∀ {t : Target} {msg : Message} {tls : Option Bool} {tr : Option Bool × List Act}
      {st : Option Int}, ¬Foreign E msg 1244 → ¬Says t 1244 tr.2 →
      (Says t 1244 (checkMessage E t msg tls tr st) ↔ st ≠ some 103 ∧ Version msg "HTTP/2" ∧
        Carries E msg.fields ["Connection", "Transfer-Encoding", "Keep-Alive"]) := by
    intro t msg tls tr st hf htr
    rw [says_checkMessage, key]
    simp only [quiet_part (N := 1244) (checkHeaders_only E t msg msg.fields) (by decide) hf,
      quiet_part (N := 1244) (checkAnyMessage_only E t msg tls) (by decide) hf, htr, false_or]
  cases t with
  | req =>
    rw [reported_req hok ha (by decide)]
    simp only [OnSettled, OnRequest, true_and, ← exists_or, ← and_or_left]
    refine exists_congr fun req => and_congr_right fun hreq => ?_
    have hf := foreign_req ha hreq (by decide)
    unfold requestRest
    simp only [says_inOrder_cons, quiet_part (N := 1244) (checkRequestCaching_only E req) (by decide) id,
      quiet_part (N := 1244) (checkRequestExtras_only E req) (by decide) id, says_inOrder_nil, or_false,
      hm hf (quiet_part (N := 1244) (messageTransformed_only E .req req.fields) (by decide) id),
      ne_eq, reduceCtorEq, not_false_eq_true, true_and, and_or_left]
    refine or_congr Iff.rfl ?_
    unfold checkRequestBasics
    dsimp only
    locate
    obtain ⟨xs, hx, hmap⟩ := elements_eq hE (name := "TE") (by decide) req.fields _ hE.te
    rw [hx, ← hmap]
    raw hE
    refine and_congr_right fun _ => ?_
    rcases xs with _ | ⟨x | x, _ | ⟨y, l⟩⟩ <;> simp
    rw [not_iff_false (same_word' hE (by decide))]
  | resp i =>
    rw [from_message hok ha (by decide) (by decide) (by decide) (by decide)]
    simp only [OnSettled, OnResponse, reduceCtorEq, false_and, or_false]
    refine exists_congr fun r => and_congr_right fun hr => ?_
    rw [hm (foreign_resp ha hr (by decide))
      (quiet_part (N := 1244) (responseTransformed_only E ⟨i, r, ex.request⟩) (by decide) id)]
    simp
  | exch => 
    simp only [OnSettled, reduceCtorEq, false_and, or_false, iff_false]
    exact fun ⟨c, hc, _⟩ => exch_quiet hok hc

/-- 1233: an upgrade to `h2c`, which is not for TLS, over TLS. -/
theorem C64_notice_1233 (ha : Apart E ex 1233) (t : Target) : ReportedId E ex t 1233 ↔
    OnMessage ex t fun msg => (∃ x, Listed E msg.fields "Upgrade" E.grammars.upgrade x ∧
      x.1 = str "h2c") ∧ OnRequest ex fun req => req.scheme = some (str "https") := by
  have key : ∀ (t : Target) (msg : Message) (tls : Option Bool), ¬Foreign E msg 1233 → 
      (Says t 1233 (checkAnyMessage E t msg tls) ↔ (∃ x, Listed E msg.fields "Upgrade" E.grammars.upgrade x ∧
      x.1 = str "h2c") ∧ tls = some true) := by
    intro t msg tls hf
    unfold checkAnyMessage
    dsimp only
    locate
    raw hE
    grind
  have hm : ∀ {t : Target} {msg : Message} {tls : Option Bool} {tr : Option Bool × List Act}
      {st : Option Int}, ¬Foreign E msg 1233 → ¬Says t 1233 tr.2 →
      (Says t 1233 (checkMessage E t msg tls tr st) ↔
        (∃ x, Listed E msg.fields "Upgrade" E.grammars.upgrade x ∧ x.1 = str "h2c") ∧ tls = some true) := by
    intro t msg tls tr st hf htr
    rw [says_checkMessage, key _ _ _ hf]
    simp only [quiet_part (N := 1233) (checkHeaders_only E t msg msg.fields) (by decide) hf,
      quiet_part (N := 1233) (checkSettledMessage_only E t msg tr.1) (by decide) id, htr, false_or, or_false, and_false]
  cases t with
  | req =>
    rw [reported_req hok ha (by decide)]
    simp only [OnMessage, OnRequest]
    refine exists_congr fun req => and_congr_right fun hreq => ?_
    have hf := foreign_req ha hreq (by decide)
    unfold requestRest
    simp only [says_inOrder_cons, quiet_part (N := 1233) (checkRequestCaching_only E req) (by decide) id,
      quiet_part (N := 1233) (checkRequestBasics_only E req) (by decide) hf, says_inOrder_nil, or_false,
      hm hf (quiet_part (N := 1233) (messageTransformed_only E .req req.fields) (by decide) id), false_or]
    have he : Says .req 1233 (checkRequestExtras E req) ↔ (∃ x, Listed E req.fields "Upgrade"
        E.grammars.upgrade x ∧ x.1 = str "h2c") ∧ req.isTls = some true := by
      unfold checkRequestExtras
      dsimp only
      locate
      raw hE
      grind
    rw [he, or_self, tls_true]
    simp only [hreq, Option.some.injEq, exists_eq_left']
  | resp i =>
    rw [from_message hok ha (by decide) (by decide) (by decide) (by decide)]
    simp only [OnMessage, OnResponse]
    refine exists_congr fun r => and_congr_right fun hr => ?_
    rw [hm (foreign_resp ha hr (by decide))
      (quiet_part (N := 1233) (responseTransformed_only E ⟨i, r, ex.request⟩) (by decide) id)]
    refine and_congr_right fun _ => ?_
    unfold Placed.isTls OnRequest
    cases ex.request <;> simp [tls_true]
  | exch => 
    simp only [OnMessage, iff_false]
    exact fun ⟨c, hc, _⟩ => exch_quiet hok hc

/-- 1189: a proxy says that it transformed the message, by a warning. -/
theorem C64_notice_1189 (ha : Apart E ex 1189) (t : Target) : ReportedId E ex t 1189 ↔
    match t with
    | .req => OnRequest ex fun req => Warns E req.fields 214
    | .resp i => OnResponse ex i fun r => r.status ≠ 103 ∧ r.status ≠ 203 ∧ Warns E r.fields 214
    | .exch => False := by
  cases t with
  | req =>
    rw [from_requestMessage hok ha (by decide) (by decide) (by decide) (by decide)]
    refine exists_congr fun req => and_congr_right fun hreq => ?_
    have hf := foreign_req ha hreq (by decide)
    rw [says_checkMessage]
    simp only [quiet_part (N := 1189) (checkHeaders_only E .req req.toMessage req.fields) (by decide) hf,
      quiet_part (N := 1189) (checkAnyMessage_only E .req req.toMessage req.isTls) (by decide) hf,
      quiet_part (N := 1189) (checkSettledMessage_only E .req req.toMessage _) (by decide) id,
      false_or, or_false, ne_eq, reduceCtorEq, not_false_eq_true, true_and]
    unfold messageTransformed
    by_cases hw : E.hasWarning req.fields 214 = true
    · simp [hw, (warning_iff hE _ _).1 hw]
    · have : ¬Warns E req.fields 214 := fun h => hw ((warning_iff hE req.fields 214).2 h)
      simp [hw, this]
  | resp i =>
    rw [from_respTransformed hok ha (.inl rfl)]
    refine exists_congr fun r => and_congr_right fun hr => ?_
    unfold responseTransformed messageTransformed
    dsimp only [Placed.here, Placed.status, Placed.fields]
    by_cases h1 : r.status = 103
    · simp [h1]
    · by_cases h2 : r.status = 203
      · simp [h2]
      · rw [← warning_iff hE]
        by_cases hw : E.hasWarning r.fields 214 = true <;> simp [h1, h2, hw]
  | exch => exact iff_false_intro fun ⟨c, hc, _⟩ => exch_quiet hok hc

/-- 1190: 203 (Non-Authoritative Information). -/
theorem C64_notice_1190 (ha : Apart E ex 1190) (i : Nat) : ReportedId E ex (.resp i) 1190 ↔
    OnResponse ex i fun r => r.status = 203 := by
  rw [from_respTransformed hok ha (.inr rfl)]
  refine exists_congr fun r => and_congr_right fun hr => ?_
  unfold responseTransformed messageTransformed
  dsimp only [Placed.here, Placed.status, Placed.fields]
  by_cases h1 : r.status = 103
  · simp [h1]
  · by_cases h2 : r.status = 203
    · simp [h2]
    · by_cases hw : E.hasWarning r.fields 214 = true <;> simp [h1, h2, hw]

end

/-! ## Examples -/

section

open Httpolice.Spec.Toy

/-- A request with two framing headers and an unknown header, answered through a proxy with 203, after
Early Hints that look the same. -/
def mixed : Exchange :=
  ⟨some (req "POST" [h "Host" "a", h "Transfer-encoding" "chunked", h "content-length" "1",
      h "x-Foo" "b", h "Te st" "c", h "tE ST" "d", h "Connection" "close,eTag"] "x"),
    [resp 103 [h "Date" "900", h "upgrade" "h2", h "Warning" "110,214"],
     resp 203 [h "Date" "2000", h "upgrade" "h2", h "Warning" "110,214"]]⟩

theorem mixed_quiet : exchangeRaises env mixed = false := by
  rw [← Bool.not_eq_true, C58_raises env toy_lower (by intro e v h; cases h)]
  rintro ⟨r, hr, ⟨_, d, a, _, ha, _⟩ | ⟨h451, _⟩⟩
  · obtain ⟨e, he, hn, _⟩ := lastValue_mem ha
    have : ∀ r ∈ mixed.responses, ∀ e ∈ r.fields.headers, ¬HasName env e "Age" := by decide +kernel
    exact this r hr e he hn
  · have : ∀ r ∈ mixed.responses, r.status ≠ 451 := by decide +kernel
    exact this r hr h451

theorem mixed_apart (id : Nat) : Apart env mixed id := apart _ _ rfl (of_decide_eq_true (by rfl)) id

/-- C64: the framing headers, the unknown header, the malformed name and the connection option of the
request are reported. -/
example : ReportedId env mixed .req 1020 ∧ ReportedId env mixed .req 1277 ∧
    ReportedId env mixed .req 1293 ∧ ReportedId env mixed .req 1034 := by
  refine ⟨(C64_notice_1020 env sensible mixed mixed_quiet (mixed_apart _) .req).2
      ⟨_, rfl, by decide +kernel, by decide +kernel⟩,
    (C64_notice_1277 env sensible mixed mixed_quiet (mixed_apart _) .req).2
      ⟨_, rfl, h "x-Foo" "b", by decide +kernel, ⟨str "foo", by decide +kernel⟩, ?_⟩,
    (C64_notice_1293 env sensible mixed mixed_quiet (mixed_apart _) .req).2
      ⟨_, rfl, str "Te st", ⟨_, h "Te st" "c", _, show _ = [_, _, _, _] ++ _ :: _ from rfl, rfl,
        by decide +kernel⟩, ?_⟩,
    (C64_notice_1034 env sensible mixed mixed_quiet (mixed_apart _) .req).2
      ⟨_, rfl, str "eTag", ⟨h "Connection" "close,eTag", by decide +kernel, by decide +kernel, _, rfl,
        by decide +kernel⟩, by decide +kernel⟩⟩
  · have : ∀ r ∈ headerFlags, ¬IsWord env (str "x-Foo") r.key := by decide +kernel
    rintro ⟨r, hr, h⟩
    exact this r hr h
  · rintro ⟨_, h⟩
    exact absurd (h 32 (by decide +kernel)) (by decide +kernel)

/-- C64: both responses want to upgrade to HTTP/2, but only the second is expected to have the option
in `Connection` for it, or to make sense as a transformed message. -/
example : ReportedId env mixed (.resp 0) 1228 ∧ ReportedId env mixed (.resp 1) 1228 ∧
    ¬ReportedId env mixed (.resp 0) 1050 ∧ ReportedId env mixed (.resp 1) 1050 ∧
    ¬ReportedId env mixed (.resp 0) 1190 ∧ ReportedId env mixed (.resp 1) 1190 ∧
    ¬ReportedId env mixed (.resp 0) 1109 ∧ ReportedId env mixed (.resp 1) 1109 ∧
    ¬ReportedId env mixed (.resp 1) 1189 := by
  rw [C64_notice_1228 env sensible mixed mixed_quiet (mixed_apart _),
    C64_notice_1228 env sensible mixed mixed_quiet (mixed_apart _),
    C64_notice_1050 env sensible mixed mixed_quiet (mixed_apart _),
    C64_notice_1050 env sensible mixed mixed_quiet (mixed_apart _),
    C64_notice_1190 env sensible mixed mixed_quiet (mixed_apart _),
    C64_notice_1190 env sensible mixed mixed_quiet (mixed_apart _),
    C64_notice_1109 env sensible mixed mixed_quiet (mixed_apart _),
    C64_notice_1109 env sensible mixed mixed_quiet (mixed_apart _),
    C64_notice_1189 env sensible mixed mixed_quiet (mixed_apart _)]
  refine ⟨⟨_, rfl, (str "h2", none), ⟨h "upgrade" "h2", by decide +kernel, by decide +kernel, _, rfl,
      by decide +kernel⟩, rfl⟩, ⟨_, rfl, (str "h2", none), ⟨h "upgrade" "h2", by decide +kernel,
      by decide +kernel, _, rfl, by decide +kernel⟩, rfl⟩, ?_, ⟨_, rfl, by decide, by decide +kernel, ?_⟩,
      ?_, ⟨_, rfl, rfl⟩, ?_, ⟨_, rfl, 2000, ⟨[], h "Date" "2000", _, rfl, rfl, by decide +kernel,
        by decide +kernel⟩, by decide⟩, ?_⟩
  · rintro ⟨r, hr, h, _⟩
    cases hr
    exact h rfl
  · rintro ⟨o, ⟨e, he, hn, _⟩, _⟩
    exact absurd ⟨e, he, hn⟩ (show ¬Has env _ "Connection" by decide +kernel)
  · rintro ⟨r, hr, h⟩
    cases hr
    cases h
  · rintro ⟨r, hr, d, ⟨a, e, b, h1, h2, h3, h4⟩, h5⟩
    cases hr
    have he : e ∈ (a ++ e :: b) := by simp
    rw [← h1] at he
    have : ∀ e ∈ fieldsFor (mixed.responses[0]'(by decide)).fields "Date", HasName env e "Date" →
        e = h "Date" "900" := by decide +kernel
    have := this e he h2
    subst this
    cases h4
    exact absurd h5 (by decide)
  · rintro ⟨r, hr, _, h, _⟩
    cases hr
    exact h rfl

end

end Httpolice.Props
