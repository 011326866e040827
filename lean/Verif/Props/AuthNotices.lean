import Verif.Lemmas.RawCredentials
import Verif.Lemmas.ToyMore

/-!
# When notices about authentication are reported
-/

set_option linter.unusedSectionVars false

namespace Httpolice.Props

open Httpolice.Model Httpolice.Spec Httpolice.Lemmas.Check

set_option hygiene false in
/-- A notice about credentials. -/
local macro "at_credentials" hE:term:max hok:term:max ha:term:max P:term:max : tactic => `(tactic| (
  rw [from_extras $hok $ha (by decide) (by decide) (by decide) (by decide)]
  refine exists_congr fun req => and_congr_right fun hreq => ?_
  unfold checkRequestExtras
  dsimp only
  locate_two
  refine (says_auth $hE req (P := $P) fun hdr a => ?_).trans ?_
  · rw [says_credentials $hE, says_basic, says_bearer]
    simp))

set_option hygiene false in
/-- A notice about a challenge of the scheme `Basic`. -/
local macro "at_basic" hE:term:max hok:term:max ha:term:max : tactic => `(tactic| (
  rw [from_headers $hok $ha (by decide) (by decide) (by decide) (by decide) (by decide)]
  refine exists_congr fun r => and_congr_right fun hr => ?_
  unfold checkResponseHeaders
  dsimp only [Placed.status, Placed.fields]
  locate_two
  refine says_basicChallenges $hE ⟨i, r, ex.request⟩ (fun hdr c => ?_) (by decide)
  rw [says_basicChallenge $hE]
  simp))

set_option hygiene false in
/-- A notice about a challenge of the scheme `Bearer`. -/
local macro "at_bearer" hE:term:max hok:term:max ha:term:max : tactic => `(tactic| (
  rw [from_headers $hok $ha (by decide) (by decide) (by decide) (by decide) (by decide)]
  refine exists_congr fun r => and_congr_right fun hr => ?_
  unfold checkResponseHeaders
  dsimp only [Placed.status, Placed.fields]
  locate_two
  refine says_bearerChallenges $hE ⟨i, r, ex.request⟩ (fun c => ?_) (by decide)
  rw [says_bearerChallenge $hE]
  simp))

section

variable (E : Env) (hE : Sensible E) (ex : Exchange) (hok : exchangeRaises E ex = false)
include hE hok

/-! ## C69. Authentication -/

/-- 1209: `Basic` credentials that are parameters. -/
theorem C69_notice_1209 (ha : Apart E ex 1209) : ReportedId E ex .req 1209 ↔
    OnRequest ex fun req => ∃ c, Credentials E req "Basic" c ∧ ∃ ps, c = .params ps := by
  at_credentials hE hok ha (fun a => IsWord E a.1 "Basic" ∧ ∃ ps, a.2 = .params ps)
  exact creds_iff (Q := fun c => ∃ ps, c = .params ps)

/-- 1210: `Basic` credentials that are not in base 64. -/
theorem C69_notice_1210 (ha : Apart E ex 1210) : ReportedId E ex .req 1210 ↔
    OnRequest ex fun req => ∃ c, Credentials E req "Basic" c ∧
      ∃ s, c = .token68 s ∧ E.b64decode s = none := by
  at_credentials hE hok ha (fun a => IsWord E a.1 "Basic" ∧ ∃ s, a.2 = .token68 s ∧ E.b64decode s = none)
  exact creds_iff (Q := fun c => ∃ s, c = .token68 s ∧ E.b64decode s = none)

/-- 1211: `Basic` credentials without a colon. -/
theorem C69_notice_1211 (ha : Apart E ex 1211) : ReportedId E ex .req 1211 ↔
    OnRequest ex fun req => ∃ c, Credentials E req "Basic" c ∧
      ∃ s cs, c = .token68 s ∧ E.b64decode s = some cs ∧ 58 ∉ cs := by
  at_credentials hE hok ha (fun a => IsWord E a.1 "Basic" ∧
    ∃ s cs, a.2 = .token68 s ∧ E.b64decode s = some cs ∧ 58 ∉ cs)
  exact creds_iff (Q := fun c => ∃ s cs, c = .token68 s ∧ E.b64decode s = some cs ∧ 58 ∉ cs)

/-- 1212: `Basic` credentials with a control character. -/
theorem C69_notice_1212 (ha : Apart E ex 1212) : ReportedId E ex .req 1212 ↔
    OnRequest ex fun req => ∃ c, Credentials E req "Basic" c ∧
      ∃ s cs, c = .token68 s ∧ E.b64decode s = some cs ∧ ∃ x ∈ cs, x < 32 ∨ x = 127 := by
  at_credentials hE hok ha (fun a => IsWord E a.1 "Basic" ∧
    ∃ s cs, a.2 = .token68 s ∧ E.b64decode s = some cs ∧ ∃ x ∈ cs, x < 32 ∨ x = 127)
  exact creds_iff (Q := fun c => ∃ s cs, c = .token68 s ∧ E.b64decode s = some cs ∧
    ∃ x ∈ cs, x < 32 ∨ x = 127)

/-- 1261: `Bearer` credentials without TLS. -/
theorem C69_notice_1261 (ha : Apart E ex 1261) : ReportedId E ex .req 1261 ↔
    OnRequest ex fun req => ∃ c, Credentials E req "Bearer" c ∧ req.scheme = some (str "http") := by
  at_credentials hE hok ha (fun a => IsWord E a.1 "Bearer" ∧ req.scheme = some (str "http"))
  exact creds_iff (Q := fun c => req.scheme = some (str "http"))

/-- 1262: `Bearer` credentials that are parameters. -/
theorem C69_notice_1262 (ha : Apart E ex 1262) : ReportedId E ex .req 1262 ↔
    OnRequest ex fun req => ∃ c, Credentials E req "Bearer" c ∧ ∃ ps, c = .params ps := by
  at_credentials hE hok ha (fun a => IsWord E a.1 "Bearer" ∧ ∃ ps, a.2 = .params ps)
  exact creds_iff (Q := fun c => ∃ ps, c = .params ps)

/-- 1274: credentials of another scheme that are empty. -/
theorem C69_notice_1274 (ha : Apart E ex 1274) : ReportedId E ex .req 1274 ↔
    OnRequest ex fun req => ∃ hdr ∈ credentialHeaders, ∃ s c,
      LastOf E req.fields hdr E.grammars.authorization (s, c) ∧ ¬IsWord E s "Basic" ∧
      ¬IsWord E s "Bearer" ∧ (c = .token68 [] ∨ c = .params []) := by
  at_credentials hE hok ha (fun a => ¬IsWord E a.1 "Basic" ∧ ¬IsWord E a.1 "Bearer" ∧
    (a.2 = .token68 [] ∨ a.2 = .params []))
  simp only [Prod.exists]

/-- 1270: an access token in the query. -/
theorem C69_notice_1270 (ha : Apart E ex 1270) : ReportedId E ex .req 1270 ↔
    OnRequest ex fun req => TokenInQuery E req := by
  at_extras hok ha
  raw hE
  rw [query_iff hE]

/-- 1271: an access token in the query or in a form, without TLS. -/
theorem C69_notice_1271 (ha : Apart E ex 1271) : ReportedId E ex .req 1271 ↔
    OnRequest ex fun req => (TokenInQuery E req ∨ TokenInForm req) ∧
      req.scheme = some (str "http") := by
  rw [from_extras hok ha (by decide) (by decide) (by decide) (by decide)]
  refine exists_congr fun req => and_congr_right fun hreq => ?_
  unfold checkRequestExtras
  dsimp only
  locate_two
  raw hE
  rw [query_iff hE]
  refine (or_congr Iff.rfl (and_congr (form_iff req) Iff.rfl)).trans ?_
  grind

/-- 1272: an access token in the query of a request without `no-store`. -/
theorem C69_notice_1272 (ha : Apart E ex 1272) : ReportedId E ex .req 1272 ↔
    OnRequest ex fun req => TokenInQuery E req ∧ ¬Directs E req.fields "no-store" := by
  at_extras hok ha
  raw hE
  rw [query_iff hE]

/-- 1273: a `Basic` challenge that is not parameters. -/
theorem C69_notice_1273 (ha : Apart E ex 1273) (i : Nat) : ReportedId E ex (.resp i) 1273 ↔
    OnResponse ex i fun r => ∃ c, Challenges E r "Basic" c ∧ ∃ s, c = .token68 s := by
  at_basic hE hok ha

/-- 1206: a `Basic` challenge without a realm. -/
theorem C69_notice_1206 (ha : Apart E ex 1206) (i : Nat) : ReportedId E ex (.resp i) 1206 ↔
    OnResponse ex i fun r => ∃ c, Challenges E r "Basic" c ∧
      ∃ ps, c = .params ps ∧ ¬HasParam E ps "realm" := by
  at_basic hE hok ha

/-- 1208: a `Basic` challenge with a charset other than UTF-8. -/
theorem C69_notice_1208 (ha : Apart E ex 1208) (i : Nat) : ReportedId E ex (.resp i) 1208 ↔
    OnResponse ex i fun r => ∃ c, Challenges E r "Basic" c ∧
      ∃ ps, c = .params ps ∧ ∃ x ∈ ps, IsWord E x.1 "charset" ∧ ¬IsWord E x.2 "UTF-8" := by
  at_basic hE hok ha

/-- 1207: a `Basic` challenge with parameters other than the realm and charset. -/
theorem C69_notice_1207 (ha : Apart E ex 1207) (i : Nat) : ReportedId E ex (.resp i) 1207 ↔
    OnResponse ex i fun r => ∃ c, Challenges E r "Basic" c ∧
      ∃ ps, c = .params ps ∧ ∃ x ∈ ps, ¬IsWord E x.1 "charset" ∧ ¬IsWord E x.1 "realm" := by
  at_basic hE hok ha

/-- 1263: a `Bearer` challenge without TLS. -/
theorem C69_notice_1263 (ha : Apart E ex 1263) (i : Nat) : ReportedId E ex (.resp i) 1263 ↔
    OnAnswer ex i fun r req => (∃ c, BearerChallenge E r c) ∧ req.scheme = some (str "http") := by
  refine Iff.trans (b := OnResponse ex i fun r =>
      ∃ c, BearerChallenge E r c ∧ ∃ req, ex.request = some req ∧ req.scheme = some (str "http")) ?_ ?_
  · at_bearer hE hok ha
  · unfold OnResponse OnAnswer
    grind

/-- 1264: a `Bearer` challenge without parameters. -/
theorem C69_notice_1264 (ha : Apart E ex 1264) (i : Nat) : ReportedId E ex (.resp i) 1264 ↔
    OnResponse ex i fun r => ∃ c, BearerChallenge E r c ∧ (c = .params [] ∨ ∃ s, c = .token68 s) := by
  at_bearer hE hok ha

/-- 1265: a `Bearer` challenge in which a parameter occurs twice. -/
theorem C69_notice_1265 (ha : Apart E ex 1265) (i : Nat) : ReportedId E ex (.resp i) 1265 ↔
    OnResponse ex i fun r => ∃ c, BearerChallenge E r c ∧ ∃ ps, c = .params ps ∧
      ∃ n ∈ ["realm", "scope", "error", "error_description", "error_uri"],
        2 ≤ (ps.map fun p => E.lower p.1).count (asciiLower (str n)) := by
  at_bearer hE hok ha
  refine exists_congr fun ps => and_congr_right fun _ => and_iff_right_of_imp ?_
  rintro h rfl
  simp at h

/-- 1266: a `Bearer` challenge with a malformed parameter. -/
theorem C69_notice_1266 (ha : Apart E ex 1266) (i : Nat) : ReportedId E ex (.resp i) 1266 ↔
    OnResponse ex i fun r => ∃ c, BearerChallenge E r c ∧ ∃ ps, c = .params ps ∧
      ∃ n ∈ ["scope", "error", "error_description", "error_uri"],
        ∃ v, FirstParam E ps n v ∧ E.oauthSyntax (str n) v = false := by
  at_bearer hE hok ha
  refine exists_congr fun ps => and_congr_right fun _ => and_iff_right_of_imp ?_
  rintro (⟨_, h, _⟩ | ⟨_, h, _⟩ | ⟨_, h, _⟩ | ⟨_, h, _⟩) <;> exact first_ne h

/-- 1267: a `Bearer` challenge without an error code, in a 401 (Unauthorized) response to a request
with a token. -/
theorem C69_notice_1267 (ha : Apart E ex 1267) (i : Nat) : ReportedId E ex (.resp i) 1267 ↔
    OnAnswer ex i fun r req => r.status = 401 ∧
      (∃ c, BearerChallenge E r c ∧ ∃ ps, c = .params ps ∧ ps ≠ [] ∧ ¬HasParam E ps "error") ∧
      ∃ a, LastOf E req.fields "Authorization" E.grammars.authorization a ∧ IsWord E a.1 "Bearer" := by
  refine Iff.trans (b := OnResponse ex i fun r =>
      ∃ c, BearerChallenge E r c ∧ ∃ ps, c = .params ps ∧ ps ≠ [] ∧ r.status = 401 ∧ ¬HasParam E ps "error" ∧
        ∃ req, ex.request = some req ∧ ∃ a, LastOf E req.fields "Authorization" E.grammars.authorization a ∧
          IsWord E a.1 "Bearer") ?_ ?_
  · at_bearer hE hok ha
  · unfold OnResponse OnAnswer
    grind

/-- 1268: a `Bearer` challenge with an error code that does not go with the status. -/
theorem C69_notice_1268 (ha : Apart E ex 1268) (i : Nat) : ReportedId E ex (.resp i) 1268 ↔
    OnResponse ex i fun r => ∃ c, BearerChallenge E r c ∧ ∃ ps, c = .params ps ∧
      ∃ code, FirstParam E ps "error" code ∧ ∃ x ∈ errorStatuses, code = str x.1 ∧ r.status ≠ x.2 := by
  at_bearer hE hok ha
  refine exists_congr fun ps => and_congr_right fun _ => and_iff_right_of_imp ?_
  rintro ⟨_, h, _⟩
  exact first_ne h

/-- 1269: a `Bearer` challenge with an error, though the request has no token. -/
theorem C69_notice_1269 (ha : Apart E ex 1269) (i : Nat) : ReportedId E ex (.resp i) 1269 ↔
    OnAnswer ex i fun r req => ¬Has E req.fields "Authorization" ∧ ¬TokenInQuery E req ∧
      ¬TokenInForm req ∧ ∃ c, BearerChallenge E r c ∧ ∃ ps, c = .params ps ∧
        ∃ n ∈ ["error", "error_description", "error_uri"], HasParam E ps n := by
  refine Iff.trans (b := OnResponse ex i fun r =>
      ∃ c, BearerChallenge E r c ∧ ∃ ps, c = .params ps ∧ ps ≠ [] ∧ ∃ req, ex.request = some req ∧
        ¬Has E req.fields "Authorization" ∧ ¬TokenInQuery E req ∧ ¬TokenInForm req ∧
          ∃ n ∈ ["error", "error_description", "error_uri"], HasParam E ps n) ?_ ?_
  · at_bearer hE hok ha
  · constructor
    · rintro ⟨r, h1, c, h2, ps, h3, _, req, h4, h5, h6, h7, n, h8, h9⟩
      exact ⟨r, req, h1, h4, h5, h6, h7, c, h2, ps, h3, n, h8, h9⟩
    · rintro ⟨r, req, h1, h4, h5, h6, h7, c, h2, ps, h3, n, h8, h9⟩
      exact ⟨r, h1, c, h2, ps, h3, param_ne h9, req, h4, h5, h6, h7, n, h8, h9⟩

end

section Examples

open Httpolice.Spec.Toy

/-- Credentials that are parameters. -/
private def params : Exchange := ⟨some (req "GET" [h "Host" "a", h "Authorization" "basic=a=b", h "Proxy-Authorization" "Bearer=a=b"]), []⟩

private theorem params_quiet : exchangeRaises env params = false := quiet _ (by decide +kernel)

private theorem params_apart (id : Nat) : Apart env params id :=
  apart _ _ (by decide +kernel) (by decide +kernel) id

/-- Credentials that are not in base 64. -/
private def garbled : Exchange := ⟨some (req "GET" [h "Host" "a", h "Authorization" "Basic=!"]), []⟩

private theorem garbled_quiet : exchangeRaises env garbled = false := quiet _ (by decide +kernel)

private theorem garbled_apart (id : Nat) : Apart env garbled id :=
  apart _ _ (by decide +kernel) (by decide +kernel) id

/-- Credentials with a control character and without a colon. -/
private def control : Exchange := ⟨some (req "GET" [h "Host" "a", h "Authorization" "Basic=a\tb"]), []⟩

private theorem control_quiet : exchangeRaises env control = false := quiet _ (by decide +kernel)

private theorem control_apart (id : Nat) : Apart env control id :=
  apart _ _ (by decide +kernel) (by decide +kernel) id

/-- Credentials that are in order. -/
private def proper : Exchange := ⟨some (req "GET" [h "Host" "a", h "Proxy-Authorization" "Basic=a:b"]), []⟩

private theorem proper_quiet : exchangeRaises env proper = false := quiet _ (by decide +kernel)

private theorem proper_apart (id : Nat) : Apart env proper id :=
  apart _ _ (by decide +kernel) (by decide +kernel) id

/-- Credentials of another scheme, without anything. -/
private def nothing : Exchange := ⟨some (req "GET" [h "Host" "a", h "Authorization" "Digest"]), []⟩

private theorem nothing_quiet : exchangeRaises env nothing = false := quiet _ (by decide +kernel)

private theorem nothing_apart (id : Nat) : Apart env nothing id :=
  apart _ _ (by decide +kernel) (by decide +kernel) id

/-- A token in the query. -/
private def query : Exchange := ⟨some { req "GET" [h "Host" "a"] with target := str "/?access_token=x" }, [
  resp 401 [h "WWW-Authenticate" "Bearer=error=x"]]⟩

private theorem query_quiet : exchangeRaises env query = false := quiet _ (by decide +kernel)

private theorem query_apart (id : Nat) : Apart env query id :=
  apart _ _ (by decide +kernel) (by decide +kernel) id

/-- A token in a form, and another request that must not be stored. -/
private def form : Exchange := ⟨some { req "POST" [h "Host" "a", h "Cache-Control" "no-store"] with
    payload := ⟨[], some [str "access_token"], none⟩ }, []⟩

private theorem form_quiet : exchangeRaises env form = false := quiet _ (by decide +kernel)

private theorem form_apart (id : Nat) : Apart env form id :=
  apart _ _ (by decide +kernel) (by decide +kernel) id

/-- Challenges to a request without a token. -/
private def asked : Exchange := ⟨some (req "GET" [h "Host" "a"]), [
  resp 401 [h "WWW-Authenticate" "Basic=x"],
  resp 401 [h "Proxy-Authenticate" "Basic=Charset=latin-1,foo=bar"],
  resp 401 [h "WWW-Authenticate" "Basic=realm=x,charset=Utf-8"],
  resp 401 [h "WWW-Authenticate" "Bearer"],
  resp 401 [h "WWW-Authenticate" "Bearer=scope=a,scope=b"],
  resp 401 [h "WWW-Authenticate" "Bearer=foo=a,foo=b"],
  resp 401 [h "WWW-Authenticate" "bearer=error=invalid_request"],
  resp 401 [h "WWW-Authenticate" "Bearer=scope=!"],
  resp 401 [h "Proxy-Authenticate" "Bearer=error=x"]]⟩

private theorem asked_quiet : exchangeRaises env asked = false := quiet _ (by decide +kernel)

private theorem asked_apart (id : Nat) : Apart env asked id :=
  apart _ _ (by decide +kernel) (by decide +kernel) id

/-- Challenges to a request with a token. -/
private def again : Exchange := ⟨some { req "GET" [h "Host" "a", h "Authorization" "Bearer=x"] with
    scheme := some (str "https") }, [
  resp 401 [h "WWW-Authenticate" "Bearer=realm=x"],
  resp 401 [h "WWW-Authenticate" "Bearer=realm=x,error=invalid_token"],
  resp 403 [h "WWW-Authenticate" "Bearer=realm=x"]]⟩

private theorem again_quiet : exchangeRaises env again = false := quiet _ (by decide +kernel)

private theorem again_apart (id : Nat) : Apart env again id :=
  apart _ _ (by decide +kernel) (by decide +kernel) id

/-- C69: `Basic` credentials. -/
example : ReportedId env params .req 1209 ∧ ¬ReportedId env garbled .req 1209 ∧
    ReportedId env garbled .req 1210 ∧ ¬ReportedId env proper .req 1210 ∧
    ReportedId env control .req 1211 ∧ ¬ReportedId env proper .req 1211 ∧
    ReportedId env control .req 1212 ∧ ¬ReportedId env proper .req 1212 := by
  simp only [C69_notice_1209 env sensible params params_quiet (params_apart _),
    C69_notice_1209 env sensible garbled garbled_quiet (garbled_apart _),
    C69_notice_1210 env sensible garbled garbled_quiet (garbled_apart _),
    C69_notice_1210 env sensible proper proper_quiet (proper_apart _),
    C69_notice_1211 env sensible control control_quiet (control_apart _),
    C69_notice_1211 env sensible proper proper_quiet (proper_apart _),
    C69_notice_1212 env sensible control control_quiet (control_apart _),
    C69_notice_1212 env sensible proper proper_quiet (proper_apart _)]
  and_intros <;> decide +kernel

/-- C69: `Bearer` credentials and others. -/
example : ReportedId env params .req 1261 ∧ ¬ReportedId env again .req 1261 ∧
    ReportedId env params .req 1262 ∧ ¬ReportedId env again .req 1262 ∧
    ReportedId env nothing .req 1274 ∧ ¬ReportedId env params .req 1274 := by
  simp only [C69_notice_1261 env sensible params params_quiet (params_apart _),
    C69_notice_1261 env sensible again again_quiet (again_apart _),
    C69_notice_1262 env sensible params params_quiet (params_apart _),
    C69_notice_1262 env sensible again again_quiet (again_apart _),
    C69_notice_1274 env sensible nothing nothing_quiet (nothing_apart _),
    C69_notice_1274 env sensible params params_quiet (params_apart _)]
  and_intros <;> decide +kernel

/-- C69: tokens elsewhere. -/
example : ReportedId env query .req 1270 ∧ ¬ReportedId env form .req 1270 ∧
    ReportedId env query .req 1271 ∧ ReportedId env form .req 1271 ∧
    ¬ReportedId env params .req 1271 ∧ ReportedId env query .req 1272 ∧
    ¬ReportedId env form .req 1272 := by
  simp only [C69_notice_1270 env sensible query query_quiet (query_apart _),
    C69_notice_1270 env sensible form form_quiet (form_apart _),
    C69_notice_1271 env sensible query query_quiet (query_apart _),
    C69_notice_1271 env sensible form form_quiet (form_apart _),
    C69_notice_1271 env sensible params params_quiet (params_apart _),
    C69_notice_1272 env sensible query query_quiet (query_apart _),
    C69_notice_1272 env sensible form form_quiet (form_apart _)]
  and_intros <;> decide +kernel

/-- C69: challenges of the scheme `Basic`. -/
example : ReportedId env asked (.resp 0) 1273 ∧ ¬ReportedId env asked (.resp 1) 1273 ∧
    ¬ReportedId env asked (.resp 2) 1273 ∧ ¬ReportedId env asked (.resp 3) 1273 ∧
    ReportedId env asked (.resp 1) 1206 ∧ ¬ReportedId env asked (.resp 0) 1206 ∧
    ¬ReportedId env asked (.resp 2) 1206 ∧ ¬ReportedId env asked (.resp 3) 1206 ∧
    ReportedId env asked (.resp 1) 1208 ∧ ¬ReportedId env asked (.resp 2) 1208 ∧
    ReportedId env asked (.resp 1) 1207 ∧ ¬ReportedId env asked (.resp 2) 1207 ∧
    ¬ReportedId env asked (.resp 6) 1207 := by
  simp only [C69_notice_1273 env sensible asked asked_quiet (asked_apart _),
    C69_notice_1206 env sensible asked asked_quiet (asked_apart _),
    C69_notice_1208 env sensible asked asked_quiet (asked_apart _),
    C69_notice_1207 env sensible asked asked_quiet (asked_apart _)]
  and_intros <;> decide +kernel

/-- C69: challenges of the scheme `Bearer`. -/
example : ReportedId env asked (.resp 3) 1263 ∧ ReportedId env asked (.resp 6) 1263 ∧
    ¬ReportedId env asked (.resp 2) 1263 ∧ ¬ReportedId env asked (.resp 8) 1263 ∧
    ¬ReportedId env again (.resp 0) 1263 ∧ ReportedId env asked (.resp 3) 1264 ∧
    ¬ReportedId env asked (.resp 4) 1264 ∧ ¬ReportedId env asked (.resp 2) 1264 ∧
    ReportedId env asked (.resp 4) 1265 ∧ ¬ReportedId env asked (.resp 5) 1265 ∧
    ReportedId env asked (.resp 7) 1266 ∧ ¬ReportedId env asked (.resp 4) 1266 := by
  simp only [C69_notice_1263 env sensible asked asked_quiet (asked_apart _),
    C69_notice_1263 env sensible again again_quiet (again_apart _),
    C69_notice_1264 env sensible asked asked_quiet (asked_apart _),
    C69_notice_1265 env sensible asked asked_quiet (asked_apart _),
    C69_notice_1266 env sensible asked asked_quiet (asked_apart _)]
  and_intros <;> decide +kernel

/-- C69: challenges of the scheme `Bearer` and the token that was sent, or not. -/
example : ReportedId env again (.resp 0) 1267 ∧ ¬ReportedId env again (.resp 1) 1267 ∧
    ¬ReportedId env again (.resp 2) 1267 ∧ ¬ReportedId env asked (.resp 4) 1267 ∧
    ReportedId env asked (.resp 6) 1268 ∧ ¬ReportedId env asked (.resp 4) 1268 ∧
    ¬ReportedId env again (.resp 1) 1268 ∧ ReportedId env asked (.resp 6) 1269 ∧
    ¬ReportedId env asked (.resp 4) 1269 ∧ ¬ReportedId env asked (.resp 8) 1269 ∧
    ¬ReportedId env again (.resp 1) 1269 ∧ ¬ReportedId env query (.resp 0) 1269 := by
  simp only [C69_notice_1267 env sensible again again_quiet (again_apart _),
    C69_notice_1267 env sensible asked asked_quiet (asked_apart _),
    C69_notice_1268 env sensible asked asked_quiet (asked_apart _),
    C69_notice_1268 env sensible again again_quiet (again_apart _),
    C69_notice_1269 env sensible asked asked_quiet (asked_apart _),
    C69_notice_1269 env sensible again again_quiet (again_apart _),
    C69_notice_1269 env sensible query query_quiet (query_apart _)]
  and_intros <;> decide +kernel

end Examples

end Httpolice.Props
