import Verif.Lemmas.RawFields
import Verif.Lemmas.ToyFields

/-!
# When notices about particular headers are reported
-/

set_option linter.unusedSectionVars false

namespace Httpolice.Props

open Httpolice.Model Httpolice.Spec Httpolice.Lemmas.Check

section

variable (E : Env) (hE : Sensible E) (ex : Exchange) (hok : exchangeRaises E ex = false)
include hE hok

/-! ## C70. Particular headers -/

/-- 1247: two parameters of the same name in `Content-Disposition`. -/
theorem C70_notice_1247 (ha : Apart E ex 1247) (i : Nat) : ReportedId E ex (.resp i) 1247 ↔
    OnResponse ex i fun r => ∃ ps, LastOf E r.fields "Content-Disposition" E.grammars.contentDisposition ps ∧
      Repeats E (ps.map Prod.fst) := by
  at_headers hok ha
  refine via_single hE (by decide) (fun ps hp => ?_) fun hn => ?_
  · rw [hp]
    refine (says_disposition hE _).trans ?_
    simp
  · split
    · exact absurd ‹_› (hn _)
    · exact says_nil

/-- 1248: percent-encoding in the `filename` of `Content-Disposition`. -/
theorem C70_notice_1248 (ha : Apart E ex 1248) (i : Nat) : ReportedId E ex (.resp i) 1248 ↔
    OnResponse ex i fun r => ∃ ps, LastOf E r.fields "Content-Disposition" E.grammars.contentDisposition ps ∧
      ∃ f, FirstParam E ps "filename" f ∧ PercentEncoded f := by
  at_headers hok ha
  refine via_single hE (by decide) (fun ps hp => ?_) fun hn => ?_
  · rw [hp]
    refine (says_disposition hE _).trans ?_
    simp
  · split
    · exact absurd ‹_› (hn _)
    · exact says_nil

/-- 1249: a quote or backslash in the `filename` of `Content-Disposition`. -/
theorem C70_notice_1249 (ha : Apart E ex 1249) (i : Nat) : ReportedId E ex (.resp i) 1249 ↔
    OnResponse ex i fun r => ∃ ps, LastOf E r.fields "Content-Disposition" E.grammars.contentDisposition ps ∧
      ∃ f, FirstParam E ps "filename" f ∧ (34 ∈ f ∨ 92 ∈ f) := by
  at_headers hok ha
  refine via_single hE (by decide) (fun ps hp => ?_) fun hn => ?_
  · rw [hp]
    refine (says_disposition hE _).trans ?_
    simp
  · split
    · exact absurd ‹_› (hn _)
    · exact says_nil

/-- 1250: a character that is not ASCII in the `filename` of `Content-Disposition`. -/
theorem C70_notice_1250 (ha : Apart E ex 1250) (i : Nat) : ReportedId E ex (.resp i) 1250 ↔
    OnResponse ex i fun r => ∃ ps, LastOf E r.fields "Content-Disposition" E.grammars.contentDisposition ps ∧
      ∃ f, FirstParam E ps "filename" f ∧ ∃ c ∈ f, 128 ≤ c := by
  at_headers hok ha
  refine via_single hE (by decide) (fun ps hp => ?_) fun hn => ?_
  · rw [hp]
    refine (says_disposition hE _).trans ?_
    simp
  · split
    · exact absurd ‹_› (hn _)
    · exact says_nil

/-- 1251: `filename*` in `Content-Disposition` without `filename`. -/
theorem C70_notice_1251 (ha : Apart E ex 1251) (i : Nat) : ReportedId E ex (.resp i) 1251 ↔
    OnResponse ex i fun r => ∃ ps, LastOf E r.fields "Content-Disposition" E.grammars.contentDisposition ps ∧
      HasParam E ps "filename*" ∧ ¬HasParam E ps "filename" := by
  at_headers hok ha
  refine via_single hE (by decide) (fun ps hp => ?_) fun hn => ?_
  · rw [hp]
    refine (says_disposition hE _).trans ?_
    simp
  · split
    · exact absurd ‹_› (hn _)
    · exact says_nil

/-- 1252: `filename*` in `Content-Disposition` before `filename`. -/
theorem C70_notice_1252 (ha : Apart E ex 1252) (i : Nat) : ReportedId E ex (.resp i) 1252 ↔
    OnResponse ex i fun r => ∃ ps, LastOf E r.fields "Content-Disposition" E.grammars.contentDisposition ps ∧
      Precedes E ps "filename*" "filename" := by
  at_headers hok ha
  refine via_single hE (by decide) (fun ps hp => ?_) fun hn => ?_
  · rw [hp]
    refine (says_disposition hE _).trans ?_
    simp
  · split
    · exact absurd ‹_› (hn _)
    · exact says_nil

/-- 1218: `Strict-Transport-Security` without `max-age`. -/
theorem C70_notice_1218 (ha : Apart E ex 1218) (i : Nat) : ReportedId E ex (.resp i) 1218 ↔
    OnResponse ex i fun r =>
      ∃ ds, LastOf E r.fields "Strict-Transport-Security" E.grammars.strictTransportSecurity ds ∧
      ¬∃ d ∈ ds, IsWord E d.1 "max-age" := by
  at_headers hok ha
  refine via_single hE (by decide) (fun ds hp => ?_) fun hn => ?_
  · rw [hp]
    refine (says_transport hE _).trans ?_
    simp
  · split
    · exact absurd ‹_› (hn _)
    · exact says_nil

/-- 1219: `Strict-Transport-Security` with `max-age=0` and `includeSubDomains`. -/
theorem C70_notice_1219 (ha : Apart E ex 1219) (i : Nat) : ReportedId E ex (.resp i) 1219 ↔
    OnResponse ex i fun r =>
      ∃ ds, LastOf E r.fields "Strict-Transport-Security" E.grammars.strictTransportSecurity ds ∧
      (∃ l d l', ds = l ++ (d, .parsed 0) :: l' ∧ IsWord E d "max-age" ∧ ∀ x ∈ l, ¬IsWord E x.1 "max-age") ∧
      ∃ d ∈ ds, IsWord E d.1 "includeSubDomains" := by
  at_headers hok ha
  refine via_single hE (by decide) (fun ds hp => ?_) fun hn => ?_
  · rw [hp]
    refine (says_transport hE _).trans ?_
    simp
  · split
    · exact absurd ‹_› (hn _)
    · exact says_nil

/-- 1220: two directives of the same name in `Strict-Transport-Security`. -/
theorem C70_notice_1220 (ha : Apart E ex 1220) (i : Nat) : ReportedId E ex (.resp i) 1220 ↔
    OnResponse ex i fun r =>
      ∃ ds, LastOf E r.fields "Strict-Transport-Security" E.grammars.strictTransportSecurity ds ∧
      Repeats E (ds.map Prod.fst) := by
  at_headers hok ha
  refine via_single hE (by decide) (fun ds hp => ?_) fun hn => ?_
  · rw [hp]
    refine (says_transport hE _).trans ?_
    simp
  · split
    · exact absurd ‹_› (hn _)
    · exact says_nil

/-- 1227: a media type in `Accept-Patch` that is known not to be a patch. -/
theorem C70_notice_1227 (ha : Apart E ex 1227) (i : Nat) : ReportedId E ex (.resp i) 1227 ↔
    OnResponse ex i fun r => ∃ x, Listed E r.fields "Accept-Patch" E.grammars.acceptPatch x ∧
      E.mediaPatch x = some false := by
  at_headers hok ha
  raw hE

/-- 1235: `Host` in `Vary`. -/
theorem C70_notice_1235 (ha : Apart E ex 1235) (i : Nat) : ReportedId E ex (.resp i) 1235 ↔
    OnResponse ex i fun r => Unmixed E r.fields "Vary" E.grammars.vary ∧
      ∃ x, Listed E r.fields "Vary" E.grammars.vary x ∧ IsWord E x "Host" := by
  at_headers hok ha
  raw hE
  rw [List.any_eq_true]
  simp only [items_unmixed hE (show "Vary" ∈ checkedNames by decide)]
  raw hE
  grind

/-- 1213: PATCH with a media type that is known not to be a patch. -/
theorem C70_notice_1213 (ha : Apart E ex 1213) : ReportedId E ex .req 1213 ↔
    OnRequest ex fun req => req.method = str "PATCH" ∧
      ∃ ct, LastOf E req.fields "Content-Type" E.grammars.contentType ct ∧ E.mediaPatch ct.1 = some false := by
  at_extras hok ha
  raw hE

/-- 1214: PATCH that succeeded with a media type that is known not to be a patch. -/
theorem C70_notice_1214 (ha : Apart E ex 1214) (i : Nat) : ReportedId E ex (.resp i) 1214 ↔
    OnAnswer ex i fun r req => req.method = str "PATCH" ∧ StatusClass r 2 ∧
      ∃ ct, LastOf E req.fields "Content-Type" E.grammars.contentType ct ∧ E.mediaPatch ct.1 = some false := by
  at_cached hok ha
  raw hE

/-- 1217: `Accept-Patch` in a response that does not allow PATCH. -/
theorem C70_notice_1217 (ha : Apart E ex 1217) (i : Nat) : ReportedId E ex (.resp i) 1217 ↔
    OnResponse ex i fun r => r.status ≠ 103 ∧ Has E r.fields "Allow" ∧ Has E r.fields "Accept-Patch" ∧
      ¬Listed E r.fields "Allow" E.grammars.allow (str "PATCH") := by
  at_settled hok ha
  raw hE

/-- 1310: `Accept-Post` in a response that does not allow POST. -/
theorem C70_notice_1310 (ha : Apart E ex 1310) (i : Nat) : ReportedId E ex (.resp i) 1310 ↔
    OnResponse ex i fun r => r.status ≠ 103 ∧ Has E r.fields "Allow" ∧ Has E r.fields "Accept-Post" ∧
      ¬Listed E r.fields "Allow" E.grammars.allow (str "POST") := by
  at_settled hok ha
  raw hE

/-- 1276: a wildcard with the same weight as something it covers, in one of the headers that say which representations are preferred. -/
theorem C70_notice_1276 (ha : Apart E ex 1276) : ReportedId E ex .req 1276 ↔
    OnRequest ex fun req =>
      ∃ hdr ∈ negotiation, ∃ x y, Listed E req.fields hdr (E.grammars.accept (str hdr)) x ∧
      Listed E req.fields hdr (E.grammars.accept (str hdr)) y ∧ Subsumes E x y := by
  rw [from_extras hok ha (by decide) (by decide) (by decide) (by decide)]
  refine exists_congr fun req => and_congr_right fun hreq => ?_
  unfold checkRequestExtras
  dsimp only
  locate_four
  rw [says_accept hE (by decide), says_accept hE (by decide), says_accept hE (by decide),
    says_accept hE (by decide)]
  simp [negotiation]

/-- 1068: `Referer` with the scheme `https` in a request that is not over TLS. -/
theorem C70_notice_1068 (ha : Apart E ex 1068) : ReportedId E ex .req 1068 ↔
    OnRequest ex fun req => ∃ u, LastOf E req.fields "Referer" E.grammars.referer u ∧
      req.scheme = some (str "http") ∧ E.urlScheme u = str "https" := by
  at_basics hok ha
  raw hE

/-- 1093: `User-Agent` that only has products known to be libraries. -/
theorem C70_notice_1093 (ha : Apart E ex 1093) : ReportedId E ex .req 1093 ↔
    OnRequest ex fun req => ∃ ua, LastOf E req.fields "User-Agent" E.grammars.userAgent ua ∧
      (∃ p, some p ∈ ua) ∧ ∀ p, some p ∈ ua → E.productLibrary p = true := by
  at_basics hok ha
  rw [says_ite]
  simp only [says_say, Nat.reduceEqDiff, and_false, false_or]
  refine via_single hE (by decide) (fun ua hu => ?_) fun hn hc => ?_
  · rw [hu]
    refine (and_congr_right fun _ => says_agent _).trans (and_iff_right ?_)
    rw [absent_has hE.lower (by decide), Classical.not_not]
    obtain ⟨a, e, b, h1, h2, _⟩ := (single_last hE.lower (by decide) _ _ _).1 hu
    exact ⟨e, by rw [h1]; simp, h2⟩
  · obtain ⟨_, hc⟩ := hc
    split at hc
    · exact absurd ‹_› (hn _)
    · exact says_nil hc

/-- 1116: `x-gzip` or `x-compress` with a weight in `Accept-Encoding`. -/
theorem C70_notice_1116 (ha : Apart E ex 1116) : ReportedId E ex .req 1116 ↔
    OnRequest ex fun req =>
      ∃ x, Listed E req.fields "Accept-Encoding" (E.grammars.accept (str "Accept-Encoding")) x ∧
      (IsWord E x.1 "x-gzip" ∨ IsWord E x.1 "x-compress") ∧ x.2 ≠ none := by
  at_basics hok ha
  rw [says_each]
  simp only [mem_items hE.lower (show "Accept-Encoding" ∈ checkedNames by decide) _ _ (hE.accept _)]
  raw hE
  simp only [Option.isSome_iff_ne_none, ne_eq]

/-- 1292: a method that is not a token. -/
theorem C70_notice_1292 (ha : Apart E ex 1292) : ReportedId E ex .req 1292 ↔
    OnRequest ex fun req => ¬TokenText req.method := by
  at_basics hok ha
  raw hE
  rw [not_iff_false (token_iff _)]

/-- 1295: a method that is known in upper case only. -/
theorem C70_notice_1295 (ha : Apart E ex 1295) : ReportedId E ex .req 1295 ↔
    OnRequest ex fun req => req.method ≠ E.upper req.method ∧ KnownMethod (E.upper req.method) := by
  at_basics hok ha
  raw hE
  rw [knownMethod_iff]

/-- 1045: a target that does not have a form that goes with the method. -/
theorem C70_notice_1045 (ha : Apart E ex 1045) : ReportedId E ex .req 1045 ↔
    OnRequest ex fun req => ¬∃ form, TargetIs E req form := by
  at_basics hok ha
  rename_i req _ hf
  unfold targetActs
  simp only [← targetIs_iff]
  unfold Request.targetForm
  cases hp : E.parseTarget (targetForms req.method) req.target with
  | none => simp [says_say]
  | some x =>
    simp only [Option.map_some, Option.some.injEq, exists_eq', not_true_eq_false, iff_false, says_each]
    rintro ⟨n, hn, hs⟩
    refine hf (.inr (.inr ⟨_, _, x, hp, n, hn, ?_⟩))
    rw [sayNote, says_say] at hs
    exact hs.2.symm

/-- 1028: `chunked` in `TE`. -/
theorem C70_notice_1028 (ha : Apart E ex 1028) : ReportedId E ex .req 1028 ↔
    OnRequest ex fun req => ∃ c, Listed E req.fields "TE" E.grammars.te c ∧ IsWord E c "chunked" := by
  at_basics hok ha
  raw hE

/-- 1029: `TE` in an HTTP/1.1 request without the connection option `TE`. -/
theorem C70_notice_1029 (ha : Apart E ex 1029) : ReportedId E ex .req 1029 ↔
    OnRequest ex fun req => Version req.toMessage "HTTP/1.1" ∧
      ListItems E req.fields "TE" E.grammars.te ≠ [] ∧ ¬HasOption E req.fields "TE" := by
  at_basics hok ha
  raw hE
  refine and_congr_right fun _ => and_congr_left fun _ => ?_
  rw [← elems_nil hE (show "TE" ∈ checkedNames by decide) _ _ hE.te]
  split <;> simp_all

/-- 1032: `Host` that is not the first header. -/
theorem C70_notice_1032 (ha : Apart E ex 1032) : ReportedId E ex .req 1032 ↔
    OnRequest ex fun req => Has E req.fields "Host" ∧
      ∃ e rest, req.fields.headers = e :: rest ∧ ¬HasName E e "Host" := by
  at_basics hok ha
  rename_i req _ _
  raw hE
  refine and_congr_right fun _ => ?_
  change Says _ _ (match req.fields.headers with
    | [] => _
    | e :: _ => _) ↔ _
  cases hh : req.fields.headers with
  | nil => simp
  | cons e rest =>
    raw hE
    simp [HasName, IsWord]

/-- 1033: a response that does not reject an HTTP/1.1 request in which `Host` is missing, malformed or given more than once. -/
theorem C70_notice_1033 (ha : Apart E ex 1033) (i : Nat) : ReportedId E ex (.resp i) 1033 ↔
    OnAnswer ex i fun r req => Version req.toMessage "HTTP/1.1" ∧
      ((¬∃ v, LastOf E req.fields "Host" E.grammars.host v) ∨ Twice E req.fields "Host") ∧
      (StatusClass r 2 ∨ StatusClass r 3) := by
  at_against hok ha
  raw hE
  rw [twice_iff hE _ (by decide)]
  simp only [← single_last hE.lower (show "Host" ∈ checkedNames by decide), ← okay_val]
  simp

/-! ## C71. Upgrades and preferences -/

/-- 1230: `HTTP2-Settings` without that connection option. -/
theorem C71_notice_1230 (ha : Apart E ex 1230) : ReportedId E ex .req 1230 ↔
    OnRequest ex fun req => Has E req.fields "HTTP2-Settings" ∧
      ¬LastOf E req.fields "HTTP2-Settings" E.grammars.http2Settings [] ∧ ¬HasOption E req.fields "HTTP2-Settings" := by
  at_extras hok ha
  rw [says_whenever, Bool.and_eq_true, settings_iff hE]
  raw hE

/-- 1232: an upgrade to `h2c` in response to a request in which `HTTP2-Settings` is missing or malformed. -/
theorem C71_notice_1232 (ha : Apart E ex 1232) (i : Nat) : ReportedId E ex (.resp i) 1232 ↔
    OnAnswer ex i fun r req => r.status = 101 ∧ ∃ x, CommonProtocol E r req x ∧ x.1 = str "h2c" ∧
      ¬∃ s, LastOf E req.fields "HTTP2-Settings" E.grammars.http2Settings s := by
  at_against hok ha
  raw hE
  simp only [← single_last hE.lower (show "HTTP2-Settings" ∈ checkedNames by decide), ← okay_val,
    CommonProtocol, and_assoc, Bool.not_eq_true]

/-- 1234: `HTTP2-Settings` that is not in the URL-safe base 64. -/
theorem C71_notice_1234 (ha : Apart E ex 1234) : ReportedId E ex .req 1234 ↔
    OnRequest ex fun req => ∃ s, LastOf E req.fields "HTTP2-Settings" E.grammars.http2Settings s ∧
      ∃ c ∈ s, ¬UrlsafeDigit c := by
  at_extras hok ha
  raw hE
  simp only [not_iff_false (urlsafe_iff _)]
  simp

/-- 1101: 426 (Upgrade Required) without a protocol in `Upgrade`. -/
theorem C71_notice_1101 (ha : Apart E ex 1101) (i : Nat) : ReportedId E ex (.resp i) 1101 ↔
    OnAnswer ex i fun r _ => r.status = 426 ∧ ListItems E r.fields "Upgrade" E.grammars.upgrade = [] := by
  at_negotiation hok ha
  raw hE
  refine and_congr_right fun _ => ?_
  rw [← elems_nil hE (show "Upgrade" ∈ checkedNames by decide) _ _ hE.upgrade]
  split <;> simp_all

/-- 1102: 426 (Upgrade Required) that requires a protocol to which the client asked to upgrade. -/
theorem C71_notice_1102 (ha : Apart E ex 1102) (i : Nat) : ReportedId E ex (.resp i) 1102 ↔
    OnAnswer ex i fun r req => r.status = 426 ∧ ∃ x, CommonProtocol E r req x := by
  at_negotiation hok ha
  refine (says_common hE _ _ _).trans ?_
  simp [successful_iff, and_comm]

/-- 1103: a successful response that lists a protocol to which the client asked to upgrade. -/
theorem C71_notice_1103 (ha : Apart E ex 1103) (i : Nat) : ReportedId E ex (.resp i) 1103 ↔
    OnAnswer ex i fun r req => StatusClass r 2 ∧ ∃ x, CommonProtocol E r req x := by
  at_negotiation hok ha
  refine (says_common hE _ _ _).trans ?_
  simp [successful_iff, and_comm]

/-- 1285: two preferences of the same name. -/
theorem C71_notice_1285 (ha : Apart E ex 1285) : ReportedId E ex .req 1285 ↔
    OnRequest ex fun req => Repeats E ((preferencesOf E req.fields).map Prod.fst) := by
  at_extras hok ha
  rw [preferences_eq hE, ← dups_iff]
  raw hE

/-- 1287: `respond-async` in a request with a safe method. -/
theorem C71_notice_1287 (ha : Apart E ex 1287) : ReportedId E ex .req 1287 ↔
    OnRequest ex fun req => (∃ a, FirstPref E req.fields "respond-async" a ∧ PrefStands a) ∧
      IsMethod req safeMethods := by
  at_extras hok ha
  raw hE
  refine and_congr_left fun _ => ?_
  rw [← stands_iff hE _ (by decide)]
  rfl

/-- 1288: `return=minimal` in a GET. -/
theorem C71_notice_1288 (ha : Apart E ex 1288) : ReportedId E ex .req 1288 ↔
    OnRequest ex fun req => (∃ a, FirstPref E req.fields "return" a ∧ SameArg E a (.raw (str "minimal"))) ∧
      req.method = str "GET" := by
  at_extras hok ha
  raw hE
  refine and_congr_left fun _ => ?_
  rw [← firstIs_iff hE _ (by decide)]
  rfl

/-- 1289: both `return=minimal` and `return=representation`. -/
theorem C71_notice_1289 (ha : Apart E ex 1289) : ReportedId E ex .req 1289 ↔
    OnRequest ex fun req =>
      Prefers E req.fields "return" "minimal" ∧ Prefers E req.fields "return" "representation" := by
  at_extras hok ha
  raw hE
  rw [hasPref_iff hE _ (by decide), hasPref_iff hE _ (by decide)]

/-- 1290: both `handling=strict` and `handling=lenient`. -/
theorem C71_notice_1290 (ha : Apart E ex 1290) : ReportedId E ex .req 1290 ↔
    OnRequest ex fun req =>
      Prefers E req.fields "handling" "strict" ∧ Prefers E req.fields "handling" "lenient" := by
  at_extras hok ha
  raw hE
  rw [hasPref_iff hE _ (by decide), hasPref_iff hE _ (by decide)]

/-- 1286: `Preference-Applied` with something that the request does not prefer. -/
theorem C71_notice_1286 (ha : Apart E ex 1286) (i : Nat) : ReportedId E ex (.resp i) 1286 ↔
    OnAnswer ex i fun r req => ∃ x, Listed E r.fields "Preference-Applied" E.grammars.preferenceApplied x ∧
      ¬∃ y, Listed E req.fields "Prefer" E.grammars.prefer y ∧ E.lower x.1 = E.lower y.1 ∧ SameArg E x.2 y.2 := by
  at_cached hok ha
  rw [says_each]
  simp only [mem_preferenceApplied hE]
  raw hE
  refine exists_congr fun x => and_congr_right fun _ => not_iff_false ?_
  unfold Env.preferences
  rw [any_prefer hE]
  simp only [samePref_iff]

/-- 1291: `Preference-Applied` in a response to GET without `Prefer` or `*` in `Vary`. -/
theorem C71_notice_1291 (ha : Apart E ex 1291) (i : Nat) : ReportedId E ex (.resp i) 1291 ↔
    OnAnswer ex i fun r req => r.status ≠ 103 ∧ Has E r.fields "Preference-Applied" ∧ req.method = str "GET" ∧
      ((∃ v, SoleValue E r.fields "Vary" E.grammars.vary v ∧ v ≠ str "*") ∨
        (¬(∃ v, SoleValue E r.fields "Vary" E.grammars.vary v) ∧
          ¬(Unmixed E r.fields "Vary" E.grammars.vary ∧
            ∃ x, Listed E r.fields "Vary" E.grammars.vary x ∧ IsWord E x "Prefer"))) := by
  at_answer hok ha
  raw hE
  refine and_congr_right fun _ => and_congr_right fun _ => ?_
  exact vary_iff hE _

end

section Examples

open Httpolice.Spec.Toy

/-- Responses with `Content-Disposition`. -/
private def parts : Exchange := ⟨some (req "GET" [h "Host" "a"]), [
  resp 200 [h "Content-Disposition" "filename=a%2Fb,foo=1,Foo=2"],
  resp 200 [h "Content-Disposition" "foo=1,Filename=a\\b%2"],
  resp 200 [h "content-disposition" "filename=ä"],
  resp 200 [h "Content-Disposition" "filename*=x"],
  resp 200 [h "Content-Disposition" "filename*=x,filename=y"],
  resp 200 [h "Content-Disposition" "filename=y,filename*=x"]]⟩

private theorem parts_quiet : exchangeRaises env parts = false := quiet _ (by decide +kernel)

private theorem parts_apart (id : Nat) : Apart env parts id :=
  apart _ _ (by decide +kernel) (by decide +kernel) id

/-- Responses with `Strict-Transport-Security`. -/
private def strict : Exchange := ⟨some (req "GET" [h "Host" "a"]), [
  resp 200 [h "Strict-Transport-Security" "preload"],
  resp 200 [h "Strict-Transport-Security" "Max-Age=0,max-age=5,includesubdomains"],
  resp 200 [h "Strict-Transport-Security" "max-age=5,max-age=0,includeSubDomains"],
  resp 200 [h "Strict-Transport-Security" "max-age=0"]]⟩

private theorem strict_quiet : exchangeRaises env strict = false := quiet _ (by decide +kernel)

private theorem strict_apart (id : Nat) : Apart env strict id :=
  apart _ _ (by decide +kernel) (by decide +kernel) id

/-- A patch of a wrong type, and what servers say. -/
private def patched : Exchange := ⟨some (req "PATCH" [h "Host" "a", h "Content-Type" "text/plain"] "x"), [
  resp 200 [h "Accept-Patch" "a/b,text/plain", h "Vary" "Accept,host", h "Allow" "PATCH"],
  resp 400 [h "Accept-Patch" "a/b", h "Accept-Post" "a/b", h "Vary" "*", h "Allow" "GET,PUT"]]⟩

private theorem patched_quiet : exchangeRaises env patched = false := quiet _ (by decide +kernel)

private theorem patched_apart (id : Nat) : Apart env patched id :=
  apart _ _ (by decide +kernel) (by decide +kernel) id

/-- A request with much wrong in it. -/
private def plenty : Exchange := ⟨some { req "post" [h "Accept" "a,*=1000", h "Host" "b", h "Referer" "https://x", h "User-Agent" "curl",
    h "Accept-Encoding" "X-Gzip=5", h "TE" "Chunked"] with target := str "x" }, [
  resp 200 [h "Date" "900"], resp 400 [h "Date" "900"]]⟩

private theorem plenty_quiet : exchangeRaises env plenty = false := quiet _ (by decide +kernel)

private theorem plenty_apart (id : Nat) : Apart env plenty id :=
  apart _ _ (by decide +kernel) (by decide +kernel) id

/-- A request with two of `Host`, with little wrong in it otherwise. -/
private def twice : Exchange := ⟨some (req "GET" [h "Host" "a", h "hosT" "b", h "Accept" "a,*=500", h "Referer" "http://x",
    h "User-Agent" "curl,foo", h "Accept-Encoding" "x-gzip,gzip=5", h "TE" "gzip", h "Connection" "te"]), [
  resp 200 [h "Date" "900"], resp 400 [h "Date" "900"]]⟩

private theorem twice_quiet : exchangeRaises env twice = false := quiet _ (by decide +kernel)

private theorem twice_apart (id : Nat) : Apart env twice id :=
  apart _ _ (by decide +kernel) (by decide +kernel) id

/-- A method that is not a token. -/
private def blank : Exchange := ⟨some (req "A B" [h "User-Agent" "foo"]), []⟩

private theorem blank_quiet : exchangeRaises env blank = false := quiet _ (by decide +kernel)

private theorem blank_apart (id : Nat) : Apart env blank id :=
  apart _ _ (by decide +kernel) (by decide +kernel) id

/-- An upgrade that is asked for. -/
private def upgrade : Exchange := ⟨some (req "GET" [h "Host" "a", h "Upgrade" "foo,h2c", h "HTTP2-Settings" "a=b"]), [
  resp 426 [h "Date" "900"], resp 426 [h "Upgrade" "bar,h2c"], resp 200 [h "Upgrade" "foo"],
  resp 200 [h "Upgrade" "bar"], resp 101 [h "Upgrade" "h2c"]]⟩

private theorem upgrade_quiet : exchangeRaises env upgrade = false := quiet _ (by decide +kernel)

private theorem upgrade_apart (id : Nat) : Apart env upgrade id :=
  apart _ _ (by decide +kernel) (by decide +kernel) id

/-- An upgrade without settings. -/
private def unset : Exchange := ⟨some (req "GET" [h "Host" "a", h "Upgrade" "h2c"]), [
  resp 101 [h "Upgrade" "h2c"]]⟩

private theorem unset_quiet : exchangeRaises env unset = false := quiet _ (by decide +kernel)

private theorem unset_apart (id : Nat) : Apart env unset id :=
  apart _ _ (by decide +kernel) (by decide +kernel) id

/-- An upgrade with proper settings. -/
private def set : Exchange := ⟨some (req "GET" [h "Host" "a", h "Upgrade" "h2c", h "HTTP2-Settings" "a-B_9",
    h "Connection" "http2-settings"]), []⟩

private theorem set_quiet : exchangeRaises env set = false := quiet _ (by decide +kernel)

private theorem set_apart (id : Nat) : Apart env set id :=
  apart _ _ (by decide +kernel) (by decide +kernel) id

/-- A request with preferences that make no sense. -/
private def picky : Exchange := ⟨some (req "GET" [h "Host" "a", h "Prefer" "respond-async,return=minimal", h "prefer" "Return=representation",
    h "Prefer" "handling=strict,handling=lenient"]), [
  resp 200 [h "Preference-Applied" "Return=minimal"],
  resp 200 [h "Preference-Applied" "return=Minimal", h "Vary" "prefer"],
  resp 200 [h "Preference-Applied" "wait=5", h "Vary" "*"],
  resp 103 [h "Preference-Applied" "wait"]]⟩

private theorem picky_quiet : exchangeRaises env picky = false := quiet _ (by decide +kernel)

private theorem picky_apart (id : Nat) : Apart env picky id :=
  apart _ _ (by decide +kernel) (by decide +kernel) id

/-- A request with preferences that do. -/
private def fair : Exchange := ⟨some (req "POST" [h "Host" "a", h "Prefer" "respond-async,return=minimal,handling=strict"]), [
  resp 200 [h "Preference-Applied" "respond-async"]]⟩

private theorem fair_quiet : exchangeRaises env fair = false := quiet _ (by decide +kernel)

private theorem fair_apart (id : Nat) : Apart env fair id :=
  apart _ _ (by decide +kernel) (by decide +kernel) id

/-- C70: `Content-Disposition`. -/
example : ReportedId env parts (.resp 0) 1247 ∧ ¬ReportedId env parts (.resp 1) 1247 ∧
    ¬ReportedId env parts (.resp 5) 1247 ∧ ReportedId env parts (.resp 0) 1248 ∧
    ¬ReportedId env parts (.resp 1) 1248 ∧ ¬ReportedId env parts (.resp 5) 1248 ∧
    ReportedId env parts (.resp 1) 1249 ∧ ¬ReportedId env parts (.resp 0) 1249 ∧
    ¬ReportedId env parts (.resp 2) 1249 ∧ ReportedId env parts (.resp 2) 1250 ∧
    ¬ReportedId env parts (.resp 1) 1250 ∧ ¬ReportedId env parts (.resp 3) 1250 ∧
    ReportedId env parts (.resp 3) 1251 ∧ ¬ReportedId env parts (.resp 4) 1251 ∧
    ¬ReportedId env parts (.resp 5) 1251 ∧ ¬ReportedId env parts (.resp 0) 1251 ∧
    ReportedId env parts (.resp 4) 1252 ∧ ¬ReportedId env parts (.resp 3) 1252 ∧
    ¬ReportedId env parts (.resp 5) 1252 := by
  simp only [C70_notice_1247 env sensible parts parts_quiet (parts_apart _),
    C70_notice_1248 env sensible parts parts_quiet (parts_apart _),
    C70_notice_1249 env sensible parts parts_quiet (parts_apart _),
    C70_notice_1250 env sensible parts parts_quiet (parts_apart _),
    C70_notice_1251 env sensible parts parts_quiet (parts_apart _),
    C70_notice_1252 env sensible parts parts_quiet (parts_apart _)]
  and_intros <;> decide +kernel

/-- C70: `Strict-Transport-Security`. -/
example : ReportedId env strict (.resp 0) 1218 ∧ ¬ReportedId env strict (.resp 1) 1218 ∧
    ReportedId env strict (.resp 1) 1219 ∧ ¬ReportedId env strict (.resp 2) 1219 ∧
    ¬ReportedId env strict (.resp 3) 1219 ∧ ReportedId env strict (.resp 1) 1220 ∧
    ReportedId env strict (.resp 2) 1220 ∧ ¬ReportedId env strict (.resp 3) 1220 := by
  simp only [C70_notice_1218 env sensible strict strict_quiet (strict_apart _),
    C70_notice_1219 env sensible strict strict_quiet (strict_apart _),
    C70_notice_1220 env sensible strict strict_quiet (strict_apart _)]
  and_intros <;> decide +kernel

/-- C70: patches and varying responses. -/
example : ReportedId env patched (.resp 0) 1227 ∧ ¬ReportedId env patched (.resp 1) 1227 ∧
    ReportedId env patched (.resp 0) 1235 ∧ ¬ReportedId env patched (.resp 1) 1235 ∧
    ReportedId env patched .req 1213 ∧ ¬ReportedId env plenty .req 1213 ∧
    ReportedId env patched (.resp 0) 1214 ∧ ¬ReportedId env patched (.resp 1) 1214 ∧
    ReportedId env patched (.resp 1) 1217 ∧ ¬ReportedId env patched (.resp 0) 1217 ∧
    ReportedId env patched (.resp 1) 1310 ∧ ¬ReportedId env patched (.resp 0) 1310 := by
  simp only [C70_notice_1227 env sensible patched patched_quiet (patched_apart _),
    C70_notice_1235 env sensible patched patched_quiet (patched_apart _),
    C70_notice_1213 env sensible patched patched_quiet (patched_apart _),
    C70_notice_1213 env sensible plenty plenty_quiet (plenty_apart _),
    C70_notice_1214 env sensible patched patched_quiet (patched_apart _),
    C70_notice_1217 env sensible patched patched_quiet (patched_apart _),
    C70_notice_1310 env sensible patched patched_quiet (patched_apart _)]
  and_intros <;> decide +kernel

/-- C70: requests with much wrong in them, or little. -/
example : ReportedId env plenty .req 1276 ∧ ¬ReportedId env twice .req 1276 ∧
    ReportedId env plenty .req 1068 ∧ ¬ReportedId env twice .req 1068 ∧
    ReportedId env plenty .req 1093 ∧ ¬ReportedId env twice .req 1093 ∧
    ReportedId env plenty .req 1116 ∧ ¬ReportedId env twice .req 1116 := by
  simp only [C70_notice_1276 env sensible plenty plenty_quiet (plenty_apart _),
    C70_notice_1276 env sensible twice twice_quiet (twice_apart _),
    C70_notice_1068 env sensible plenty plenty_quiet (plenty_apart _),
    C70_notice_1068 env sensible twice twice_quiet (twice_apart _),
    C70_notice_1093 env sensible plenty plenty_quiet (plenty_apart _),
    C70_notice_1093 env sensible twice twice_quiet (twice_apart _),
    C70_notice_1116 env sensible plenty plenty_quiet (plenty_apart _),
    C70_notice_1116 env sensible twice twice_quiet (twice_apart _)]
  and_intros <;> decide +kernel

/-- C70: requests with much wrong in them, or little. -/
example : ReportedId env blank .req 1292 ∧ ¬ReportedId env twice .req 1292 ∧
    ReportedId env plenty .req 1295 ∧ ¬ReportedId env twice .req 1295 ∧
    ReportedId env plenty .req 1045 ∧ ¬ReportedId env twice .req 1045 := by
  simp only [C70_notice_1292 env sensible blank blank_quiet (blank_apart _),
    C70_notice_1292 env sensible twice twice_quiet (twice_apart _),
    C70_notice_1295 env sensible plenty plenty_quiet (plenty_apart _),
    C70_notice_1295 env sensible twice twice_quiet (twice_apart _),
    C70_notice_1045 env sensible plenty plenty_quiet (plenty_apart _),
    C70_notice_1045 env sensible twice twice_quiet (twice_apart _)]
  and_intros <;> decide +kernel

/-- C70: requests with much wrong in them, or little. -/
example : ReportedId env plenty .req 1028 ∧ ¬ReportedId env twice .req 1028 ∧
    ReportedId env plenty .req 1029 ∧ ¬ReportedId env twice .req 1029 ∧
    ReportedId env plenty .req 1032 ∧ ¬ReportedId env twice .req 1032 := by
  simp only [C70_notice_1028 env sensible plenty plenty_quiet (plenty_apart _),
    C70_notice_1028 env sensible twice twice_quiet (twice_apart _),
    C70_notice_1029 env sensible plenty plenty_quiet (plenty_apart _),
    C70_notice_1029 env sensible twice twice_quiet (twice_apart _),
    C70_notice_1032 env sensible plenty plenty_quiet (plenty_apart _),
    C70_notice_1032 env sensible twice twice_quiet (twice_apart _)]
  and_intros <;> decide +kernel

/-- C70: requests that should be rejected, and how they are answered. -/
example : ReportedId env twice (.resp 0) 1033 ∧ ¬ReportedId env twice (.resp 1) 1033 ∧
    ¬ReportedId env upgrade (.resp 2) 1033 := by
  simp only [C70_notice_1033 env sensible twice twice_quiet (twice_apart _),
    C70_notice_1033 env sensible upgrade upgrade_quiet (upgrade_apart _)]
  and_intros <;> decide +kernel

/-- C71: upgrades. -/
example : ReportedId env upgrade .req 1230 ∧ ¬ReportedId env set .req 1230 ∧
    ¬ReportedId env unset .req 1230 ∧ ReportedId env upgrade .req 1234 ∧
    ¬ReportedId env set .req 1234 ∧ ReportedId env unset (.resp 0) 1232 ∧
    ¬ReportedId env upgrade (.resp 4) 1232 := by
  simp only [C71_notice_1230 env sensible upgrade upgrade_quiet (upgrade_apart _),
    C71_notice_1230 env sensible set set_quiet (set_apart _),
    C71_notice_1230 env sensible unset unset_quiet (unset_apart _),
    C71_notice_1234 env sensible upgrade upgrade_quiet (upgrade_apart _),
    C71_notice_1234 env sensible set set_quiet (set_apart _),
    C71_notice_1232 env sensible unset unset_quiet (unset_apart _),
    C71_notice_1232 env sensible upgrade upgrade_quiet (upgrade_apart _)]
  and_intros <;> decide +kernel

/-- C71: protocols in responses. -/
example : ReportedId env upgrade (.resp 0) 1101 ∧ ¬ReportedId env upgrade (.resp 1) 1101 ∧
    ¬ReportedId env upgrade (.resp 2) 1101 ∧ ReportedId env upgrade (.resp 1) 1102 ∧
    ¬ReportedId env upgrade (.resp 0) 1102 ∧ ¬ReportedId env upgrade (.resp 2) 1102 ∧
    ReportedId env upgrade (.resp 2) 1103 ∧ ¬ReportedId env upgrade (.resp 1) 1103 ∧
    ¬ReportedId env upgrade (.resp 3) 1103 := by
  simp only [C71_notice_1101 env sensible upgrade upgrade_quiet (upgrade_apart _),
    C71_notice_1102 env sensible upgrade upgrade_quiet (upgrade_apart _),
    C71_notice_1103 env sensible upgrade upgrade_quiet (upgrade_apart _)]
  and_intros <;> decide +kernel

/-- C71: preferences in requests. -/
example : ReportedId env picky .req 1285 ∧ ¬ReportedId env fair .req 1285 ∧
    ReportedId env picky .req 1287 ∧ ¬ReportedId env fair .req 1287 ∧
    ReportedId env picky .req 1288 ∧ ¬ReportedId env fair .req 1288 ∧
    ReportedId env picky .req 1289 ∧ ¬ReportedId env fair .req 1289 ∧
    ReportedId env picky .req 1290 ∧ ¬ReportedId env fair .req 1290 := by
  simp only [C71_notice_1285 env sensible picky picky_quiet (picky_apart _),
    C71_notice_1285 env sensible fair fair_quiet (fair_apart _),
    C71_notice_1287 env sensible picky picky_quiet (picky_apart _),
    C71_notice_1287 env sensible fair fair_quiet (fair_apart _),
    C71_notice_1288 env sensible picky picky_quiet (picky_apart _),
    C71_notice_1288 env sensible fair fair_quiet (fair_apart _),
    C71_notice_1289 env sensible picky picky_quiet (picky_apart _),
    C71_notice_1289 env sensible fair fair_quiet (fair_apart _),
    C71_notice_1290 env sensible picky picky_quiet (picky_apart _),
    C71_notice_1290 env sensible fair fair_quiet (fair_apart _)]
  and_intros <;> decide +kernel

/-- C71: preferences in responses. -/
example : ReportedId env picky (.resp 1) 1286 ∧ ReportedId env picky (.resp 2) 1286 ∧
    ReportedId env picky (.resp 3) 1286 ∧ ¬ReportedId env picky (.resp 0) 1286 ∧
    ReportedId env picky (.resp 0) 1291 ∧ ¬ReportedId env picky (.resp 1) 1291 ∧
    ¬ReportedId env picky (.resp 2) 1291 ∧ ¬ReportedId env picky (.resp 3) 1291 ∧
    ¬ReportedId env fair (.resp 0) 1286 ∧ ¬ReportedId env fair (.resp 0) 1291 := by
  simp only [C71_notice_1286 env sensible picky picky_quiet (picky_apart _),
    C71_notice_1291 env sensible picky picky_quiet (picky_apart _),
    C71_notice_1286 env sensible fair fair_quiet (fair_apart _),
    C71_notice_1291 env sensible fair fair_quiet (fair_apart _)]
  and_intros <;> decide +kernel

end Examples

end Httpolice.Props
