import Verif.Lemmas.RawCaches
import Verif.Lemmas.ToyMore

/-!
# When notices about caching and conditional requests are reported
-/

set_option linter.unusedSectionVars false

namespace Httpolice.Props

open Httpolice.Model Httpolice.Spec Httpolice.Lemmas.Check

set_option hygiene false in
/-- A notice of a derived property, which is read in two checks. -/
local macro "at_state" hE:term:max hok:term:max ha:term:max key:term:max : tactic => `(tactic| (
  refine from_state $hok $ha (by decide) (by decide) (by decide) (by decide) (by decide)
    (fun r hr => hr.1) (fun r hr => ?_) (fun r req hr => ?_)
  · have key := $key $hE ⟨i, r, ex.request⟩ (age_okay $hE $hok hr)
    unfold checkSettledResponse
    dsimp only [Placed.here, Placed.status, Placed.fields]
    locate
    exact key
  · have key := $key $hE ⟨i, r, ex.request⟩ (age_okay $hE $hok hr)
    unfold checkCachedAnswer
    dsimp only [Placed.here, Placed.status, Placed.fields]
    locate
    exact key))

set_option hygiene false in
/-- A notice that depends on derived properties. -/
local macro "at_derived" hE:term:max hok:term:max ha:term:max hP:term:max : tactic => `(tactic| (
  refine from_derived $hok $ha (by decide) (by decide) (by decide) (by decide) (by decide) $hP
    fun r hr => ?_
  have hno := age_okay $hE $hok hr
  have hfrom := (fromCache_eq $hE ⟨i, r, ex.request⟩ hno).1
  have hheur := heuristic_eq $hE ⟨i, r, ex.request⟩ hno
  have hstale := (stale_eq $hE ⟨i, r, ex.request⟩).1
  unfold checkSettledResponse
  dsimp only [Placed.here, Placed.status, Placed.fields] at hfrom hheur hstale ⊢
  locate
  raw $hE
  simp only [hfrom, hheur, hstale, neverStored_iff, notStored_iff, Gives]))

set_option hygiene false in
/-- The same in the checks against the request. -/
local macro "at_answered" hE:term:max hok:term:max ha:term:max : tactic => `(tactic| (
  at_cached $hok $ha
  rename_i r req hr hreq
  have hno := age_okay $hE $hok hr
  have hfrom := (fromCache_eq $hE ⟨i, r, ex.request⟩ hno).1
  have hstale := (stale_eq $hE ⟨i, r, ex.request⟩).1
  dsimp only at hfrom hstale
  raw $hE
  simp only [hfrom, hstale, Gives]))

section

variable (E : Env) (hE : Sensible E) (ex : Exchange) (hok : exchangeRaises E ex = false)
include hE hok

/-! ## C67. Responses from caches -/

/-- 1241: date and age of a response add up to a time in the future. -/
theorem C67_notice_1241 (ha : Apart E ex 1241) (i : Nat) : ReportedId E ex (.resp i) 1241 ↔
    OnResponse ex i fun r => r.status ≠ 103 ∧ Aged E r.fields := by
  at_state hE hok ha (fun hE p hno => (fromCache_eq hE p hno).2.1)

/-- 1168: a response from a cache, going by `Age`. -/
theorem C67_notice_1168 (ha : Apart E ex 1168) (i : Nat) : ReportedId E ex (.resp i) 1168 ↔
    OnResponse ex i fun r => r.status ≠ 103 ∧ ¬Aged E r.fields ∧ Has E r.fields "Age" := by
  at_state hE hok ha (fun hE p hno => (fromCache_eq hE p hno).2.2.1)

/-- 1169: a response from a cache, going by a warning. -/
theorem C67_notice_1169 (ha : Apart E ex 1169) (i : Nat) : ReportedId E ex (.resp i) 1169 ↔
    OnResponse ex i fun r => r.status ≠ 103 ∧ ¬Has E r.fields "Age" ∧ WarnsOfCache E r.fields := by
  at_state hE hok ha (fun hE p hno => (fromCache_eq hE p hno).2.2.2)

/-- 1183: a stale response, going by a warning. -/
theorem C67_notice_1183 (ha : Apart E ex 1183) (i : Nat) : ReportedId E ex (.resp i) 1183 ↔
    OnResponse ex i fun r => r.status ≠ 103 ∧ (Warns E r.fields 110 ∨ Warns E r.fields 111) := by
  at_state hE hok ha (fun hE p _ => (stale_eq hE p).2.1)

/-- 1184: a stale response without such a warning, going by its age limit. -/
theorem C67_notice_1184 (ha : Apart E ex 1184) (i : Nat) : ReportedId E ex (.resp i) 1184 ↔
    OnResponse ex i fun r => r.status ≠ 103 ∧ ¬Warns E r.fields 110 ∧ ¬Warns E r.fields 111 ∧
      OverMaxAge E r.fields := by
  at_state hE hok ha (fun hE p _ => (stale_eq hE p).2.2.1)

/-- 1185: a stale response without such a warning or an age limit, going by its expiration time. -/
theorem C67_notice_1185 (ha : Apart E ex 1185) (i : Nat) : ReportedId E ex (.resp i) 1185 ↔
    OnResponse ex i fun r => r.status ≠ 103 ∧ ¬Warns E r.fields 110 ∧ ¬Warns E r.fields 111 ∧
      OverExpires E r.fields := by
  at_state hE hok ha (fun hE p _ => (stale_eq hE p).2.2.2)

/-- 1166: a response from a cache without `Age`. -/
theorem C67_notice_1166 (ha : Apart E ex 1166) (i : Nat) : ReportedId E ex (.resp i) 1166 ↔
    OnResponse ex i fun r => FromCache E r ∧ ¬Has E r.fields "Age" := by
  at_derived hE hok ha (fun r hr => hr.1.1)

/-- 1175: a response from a cache in spite of its `no-cache`. -/
theorem C67_notice_1175 (ha : Apart E ex 1175) (i : Nat) : ReportedId E ex (.resp i) 1175 ↔
    OnResponse ex i fun r => FromCache E r ∧ DirectsFully E r.fields "no-cache" := by
  at_derived hE hok ha (fun r hr => hr.1.1)

/-- 1176: a response from a cache in spite of its `no-store`. -/
theorem C67_notice_1176 (ha : Apart E ex 1176) (i : Nat) : ReportedId E ex (.resp i) 1176 ↔
    OnResponse ex i fun r => FromCache E r ∧ Directs E r.fields "no-store" := by
  at_derived hE hok ha (fun r hr => hr.1.1)

/-- 1202: a response from a cache with a status that must not be stored. -/
theorem C67_notice_1202 (ha : Apart E ex 1202) (i : Nat) : ReportedId E ex (.resp i) 1202 ↔
    OnResponse ex i fun r => FromCache E r ∧ r.status ∈ neverStored := by
  at_derived hE hok ha (fun r hr => hr.1.1)

/-- 1177: a response from a cache with a status that is not stored by default, without `Expires` and
`Cache-Control`. -/
theorem C67_notice_1177 (ha : Apart E ex 1177) (i : Nat) : ReportedId E ex (.resp i) 1177 ↔
    OnResponse ex i fun r => FromCache E r ∧ r.status ∈ notStoredByDefault ∧
      ¬Has E r.fields "Expires" ∧ ¬Has E r.fields "Cache-Control" := by
  at_derived hE hok ha (fun r hr => hr.1.1)

/-- 1179: a response from a cache that made up its expiration time, going by a warning. -/
theorem C67_notice_1179 (ha : Apart E ex 1179) (i : Nat) : ReportedId E ex (.resp i) 1179 ↔
    OnResponse ex i fun r => FromCache E r ∧ Warns E r.fields 113 := by
  refine from_derived hok ha (by decide) (by decide) (by decide) (by decide) (by decide)
    (fun r hr => hr.1.1) fun r hr => ?_
  have key := (heuristic_eq hE ⟨i, r, ex.request⟩ (age_okay hE hok hr)).2.1
  unfold checkSettledResponse
  dsimp only [Placed.here, Placed.status, Placed.fields]
  locate
  exact key

/-- 1178: a response from a cache that made up its expiration time, going by the lack of
`Expires` and `Cache-Control`. -/
theorem C67_notice_1178 (ha : Apart E ex 1178) (i : Nat) : ReportedId E ex (.resp i) 1178 ↔
    OnResponse ex i fun r => FromCache E r ∧ ¬Warns E r.fields 113 ∧ ¬Has E r.fields "Expires" ∧
      ¬Has E r.fields "Cache-Control" := by
  refine from_derived hok ha (by decide) (by decide) (by decide) (by decide) (by decide)
    (fun r hr => hr.1.1) fun r hr => ?_
  have key := (heuristic_eq hE ⟨i, r, ex.request⟩ (age_okay hE hok hr)).2.2
  unfold checkSettledResponse
  dsimp only [Placed.here, Placed.status, Placed.fields]
  locate
  exact key

/-- 1180: such a response that is older than a day, without a warning. -/
theorem C67_notice_1180 (ha : Apart E ex 1180) (i : Nat) : ReportedId E ex (.resp i) 1180 ↔
    OnResponse ex i fun r => Heuristic E r ∧ ¬Warns E r.fields 113 ∧
      ∃ a, LastOf E r.fields "Age" E.grammars.age a ∧ 86400 < a := by
  at_derived hE hok ha (fun r hr => hr.1.1.1)
  rw [ageOver_iff hE]
  refine and_congr_right fun _ => ?_
  rw [and_comm]
  refine and_congr_right fun _ => exists_congr fun a => ?_
  constructor
  · rintro ⟨n, h1, h2, h3⟩
    cases h2
    exact ⟨h1, by omega⟩
  · rintro ⟨h1, h2⟩
    exact ⟨86400, h1, rfl, by omega⟩

/-- 1181: such a response with `Expires`. -/
theorem C67_notice_1181 (ha : Apart E ex 1181) (i : Nat) : ReportedId E ex (.resp i) 1181 ↔
    OnResponse ex i fun r => Heuristic E r ∧ Has E r.fields "Expires" := by
  at_derived hE hok ha (fun r hr => hr.1.1.1)

/-- 1182: such a response with an age limit and without `Expires`. -/
theorem C67_notice_1182 (ha : Apart E ex 1182) (i : Nat) : ReportedId E ex (.resp i) 1182 ↔
    OnResponse ex i fun r => Heuristic E r ∧ ¬Has E r.fields "Expires" ∧ Gives E r.fields "max-age" := by
  at_derived hE hok ha (fun r hr => hr.1.1.1)

/-- 1186: a stale response without the warning for that. -/
theorem C67_notice_1186 (ha : Apart E ex 1186) (i : Nat) : ReportedId E ex (.resp i) 1186 ↔
    OnResponse ex i fun r => Stale E r ∧ ¬Warns E r.fields 110 := by
  at_derived hE hok ha (fun r hr => hr.1.1)

/-- 1187: a stale response in spite of its `must-revalidate`. -/
theorem C67_notice_1187 (ha : Apart E ex 1187) (i : Nat) : ReportedId E ex (.resp i) 1187 ↔
    OnResponse ex i fun r => Stale E r ∧ Directs E r.fields "must-revalidate" := by
  at_derived hE hok ha (fun r hr => hr.1.1)

/-- 1302: `immutable` without TLS. -/
theorem C67_notice_1302 (ha : Apart E ex 1302) (i : Nat) : ReportedId E ex (.resp i) 1302 ↔
    OnAnswer ex i fun r req => r.status ≠ 103 ∧ Directs E r.fields "immutable" ∧
      req.scheme = some (str "http") := by
  rw [from_settled hok ha (by decide) (by decide) (by decide) (by decide) (by decide)]
  refine exists_congr fun r => Iff.trans (b := ex.responses[i]? = some r ∧ r.status ≠ 103 ∧
    Directs E r.fields "immutable" ∧ ∃ req, ex.request = some req ∧ req.scheme = some (str "http"))
    (and_congr_right fun hr => and_congr_right fun hs => ?_) (by grind)
  unfold checkSettledResponse
  dsimp only [Placed.here, Placed.status, Placed.fields]
  locate
  raw hE
  refine and_congr_right fun _ => ?_
  have htls : Placed.isTls ⟨i, r, ex.request⟩ = some false ↔
      ∃ req, ex.request = some req ∧ req.scheme = some (str "http") := by
    unfold Placed.isTls
    cases ex.request with
    | none => simp
    | some req => simp [tls_false]
  rw [htls]

/-- 1303: `immutable` on a response that ends only with the connection. -/
theorem C67_notice_1303 (ha : Apart E ex 1303) (i : Nat) : ReportedId E ex (.resp i) 1303 ↔
    OnAnswer ex i fun r req => r.status ≠ 103 ∧ Directs E r.fields "immutable" ∧
      EndsWithConnection E r req := by
  rw [from_settled hok ha (by decide) (by decide) (by decide) (by decide) (by decide)]
  refine exists_congr fun r => Iff.trans (b := ex.responses[i]? = some r ∧ r.status ≠ 103 ∧
    Directs E r.fields "immutable" ∧ ∃ req, ex.request = some req ∧ EndsWithConnection E r req)
    (and_congr_right fun hr => and_congr_right fun hs => ?_) (by grind)
  unfold checkSettledResponse
  dsimp only [Placed.here, Placed.status, Placed.fields]
  locate
  raw hE
  refine and_congr_right fun _ => ?_
  rw [ends_iff hE]

/-- 1172: a response from a cache to a request with a method that is not cacheable. -/
theorem C67_notice_1172 (ha : Apart E ex 1172) (i : Nat) : ReportedId E ex (.resp i) 1172 ↔
    OnAnswer ex i fun r req => FromCache E r ∧ IsMethod req uncacheableMethods := by
  at_answered hE hok ha

/-- 1170: a response from a cache that is older than the request allows. -/
theorem C67_notice_1170 (ha : Apart E ex 1170) (i : Nat) : ReportedId E ex (.resp i) 1170 ↔
    OnAnswer ex i fun r req => FromCache E r ∧
      ∃ a n, LastOf E r.fields "Age" E.grammars.age a ∧ MaxAge E req.fields n ∧ n < a := by
  at_answered hE hok ha
  rw [ageOver_iff hE]
  simp only [found_max hE]
  refine and_congr_right fun _ => exists_congr fun a => ?_
  constructor
  · rintro ⟨n, h1, ⟨k, rfl, h2⟩, h3⟩
    exact ⟨k, h1, h2, by omega⟩
  · rintro ⟨k, h1, h2, h3⟩
    exact ⟨k, h1, ⟨k, rfl, h2⟩, by omega⟩

/-- 1173: a response from a cache in spite of `no-cache` in the request. -/
theorem C67_notice_1173 (ha : Apart E ex 1173) (i : Nat) : ReportedId E ex (.resp i) 1173 ↔
    OnAnswer ex i fun r req => FromCache E r ∧ Directs E req.fields "no-cache" := by
  at_answered hE hok ha

/-- 1174: a response from a cache in spite of `Pragma: no-cache` in the request, which has no
`Cache-Control`. -/
theorem C67_notice_1174 (ha : Apart E ex 1174) (i : Nat) : ReportedId E ex (.resp i) 1174 ↔
    OnAnswer ex i fun r req => FromCache E r ∧ ¬Has E req.fields "Cache-Control" ∧
      ∃ x, Listed E req.fields "Pragma" E.grammars.pragma x ∧ IsNoCache x := by
  at_answered hE hok ha
  refine and_congr_right fun _ => ?_
  constructor
  · exact fun h => h.2
  · exact fun h => ⟨fun hc => h.1 (gives_has (directs_given hc)), h⟩

/-- 1188: a stale response that is not permitted by a directive or explained by a warning. -/
theorem C67_notice_1188 (ha : Apart E ex 1188) (i : Nat) : ReportedId E ex (.resp i) 1188 ↔
    OnAnswer ex i fun r req => Stale E r ∧ ¬Warns E r.fields 111 ∧ ¬Warns E r.fields 112 ∧
      ¬Gives E req.fields "max-stale" ∧ ¬Gives E req.fields "stale-if-error" ∧
      ¬Gives E r.fields "stale-if-error" ∧ ¬Gives E r.fields "stale-while-revalidate" := by
  at_answered hE hok ha

end

section Examples

open Httpolice.Spec.Toy

/-- Responses of caches, more or less proper. -/
private def stored : Exchange := ⟨some (req "GET" [h "Host" "a", h "Cache-Control" "max-age=50"]), [
  resp 200 [h "Age" "100"],
  resp 200 [h "Date" "900", h "Age" "500"],
  resp 200 [h "Warning" "110"],
  resp 200 [h "Age" "100", h "Cache-Control" "max-age=60,must-revalidate"],
  resp 200 [h "Age" "100", h "Date" "500", h "Expires" "550"],
  resp 200 [h "Age" "10", h "Cache-Control" "no-cache,no-store"],
  resp 428 [h "Age" "10"],
  resp 302 [h "Age" "10"],
  resp 200 [h "Age" "100000", h "Warning" "113", h "Expires" "200000"],
  resp 200 [h "Age" "100000"],
  resp 200 [h "Age" "10", h "Warning" "113", h "Cache-Control" "max-age=60"],
  resp 200 [h "Cache-Control" "immutable"],
  resp 103 [h "Age" "100", h "Warning" "110", h "Cache-Control" "max-age=60,must-revalidate"]]⟩

private theorem stored_quiet : exchangeRaises env stored = false := quiet _ (by decide +kernel)

private theorem stored_apart (id : Nat) : Apart env stored id :=
  apart _ _ (by decide +kernel) (by decide +kernel) id

/-- A response of a cache that should not be used for the request. -/
private def fresh : Exchange := ⟨some (req "PUT" [h "Host" "a", h "Cache-Control" "no-cache"]),
  [resp 200 [h "Age" "10"], resp 200 []]⟩

private theorem fresh_quiet : exchangeRaises env fresh = false := quiet _ (by decide +kernel)

private theorem fresh_apart (id : Nat) : Apart env fresh id :=
  apart _ _ (by decide +kernel) (by decide +kernel) id

/-- The same with an older directive. -/
private def older : Exchange := ⟨some (req "GET" [h "Host" "a", h "Pragma" "no-cache"]),
  [resp 200 [h "Age" "10"], resp 200 []]⟩

private theorem older_quiet : exchangeRaises env older = false := quiet _ (by decide +kernel)

private theorem older_apart (id : Nat) : Apart env older id :=
  apart _ _ (by decide +kernel) (by decide +kernel) id

/-- C67: ages and warnings say that a response is from a cache, unless the clocks differ. -/
example : ReportedId env stored (.resp 1) 1241 ∧ ¬ReportedId env stored (.resp 0) 1241 ∧
    ¬ReportedId env stored (.resp 12) 1241 ∧ ReportedId env stored (.resp 0) 1168 ∧
    ReportedId env stored (.resp 3) 1168 ∧ ¬ReportedId env stored (.resp 1) 1168 ∧
    ¬ReportedId env stored (.resp 2) 1168 ∧ ¬ReportedId env stored (.resp 11) 1168 ∧
    ¬ReportedId env stored (.resp 12) 1168 ∧ ReportedId env stored (.resp 2) 1169 ∧
    ¬ReportedId env stored (.resp 0) 1169 ∧ ¬ReportedId env stored (.resp 8) 1169 ∧
    ¬ReportedId env stored (.resp 12) 1169 ∧ ReportedId env stored (.resp 2) 1166 ∧
    ¬ReportedId env stored (.resp 0) 1166 ∧ ¬ReportedId env stored (.resp 11) 1166 := by
  simp only [C67_notice_1241 env sensible stored stored_quiet (stored_apart _),
    C67_notice_1168 env sensible stored stored_quiet (stored_apart _),
    C67_notice_1169 env sensible stored stored_quiet (stored_apart _),
    C67_notice_1166 env sensible stored stored_quiet (stored_apart _)]
  and_intros <;> decide +kernel

/-- C67: a response may be stale for three reasons. -/
example : ReportedId env stored (.resp 2) 1183 ∧ ¬ReportedId env stored (.resp 0) 1183 ∧
    ¬ReportedId env stored (.resp 8) 1183 ∧ ¬ReportedId env stored (.resp 12) 1183 ∧
    ReportedId env stored (.resp 3) 1184 ∧ ¬ReportedId env stored (.resp 0) 1184 ∧
    ¬ReportedId env stored (.resp 4) 1184 ∧ ¬ReportedId env stored (.resp 10) 1184 ∧
    ¬ReportedId env stored (.resp 12) 1184 ∧ ReportedId env stored (.resp 4) 1185 ∧
    ¬ReportedId env stored (.resp 3) 1185 ∧ ¬ReportedId env stored (.resp 8) 1185 ∧
    ReportedId env stored (.resp 3) 1186 ∧ ReportedId env stored (.resp 4) 1186 ∧
    ¬ReportedId env stored (.resp 2) 1186 ∧ ¬ReportedId env stored (.resp 10) 1186 ∧
    ReportedId env stored (.resp 3) 1187 ∧ ¬ReportedId env stored (.resp 4) 1187 ∧
    ¬ReportedId env stored (.resp 12) 1187 := by
  simp only [C67_notice_1183 env sensible stored stored_quiet (stored_apart _),
    C67_notice_1184 env sensible stored stored_quiet (stored_apart _),
    C67_notice_1185 env sensible stored stored_quiet (stored_apart _),
    C67_notice_1186 env sensible stored stored_quiet (stored_apart _),
    C67_notice_1187 env sensible stored stored_quiet (stored_apart _)]
  and_intros <;> decide +kernel

/-- C67: some responses should not have been stored. -/
example : ReportedId env stored (.resp 5) 1175 ∧ ¬ReportedId env stored (.resp 3) 1175 ∧
    ReportedId env stored (.resp 5) 1176 ∧ ¬ReportedId env stored (.resp 3) 1176 ∧
    ReportedId env stored (.resp 6) 1202 ∧ ¬ReportedId env stored (.resp 5) 1202 ∧
    ¬ReportedId env stored (.resp 7) 1202 ∧ ReportedId env stored (.resp 7) 1177 ∧
    ¬ReportedId env stored (.resp 5) 1177 ∧ ¬ReportedId env stored (.resp 6) 1177 := by
  simp only [C67_notice_1175 env sensible stored stored_quiet (stored_apart _),
    C67_notice_1176 env sensible stored stored_quiet (stored_apart _),
    C67_notice_1202 env sensible stored stored_quiet (stored_apart _),
    C67_notice_1177 env sensible stored stored_quiet (stored_apart _)]
  and_intros <;> decide +kernel

/-- C67: an expiration time that the cache made up. -/
example : ReportedId env stored (.resp 8) 1179 ∧ ReportedId env stored (.resp 10) 1179 ∧
    ¬ReportedId env stored (.resp 0) 1179 ∧ ReportedId env stored (.resp 0) 1178 ∧
    ReportedId env stored (.resp 9) 1178 ∧ ¬ReportedId env stored (.resp 3) 1178 ∧
    ¬ReportedId env stored (.resp 8) 1178 ∧ ReportedId env stored (.resp 9) 1180 ∧
    ¬ReportedId env stored (.resp 0) 1180 ∧ ¬ReportedId env stored (.resp 8) 1180 ∧
    ReportedId env stored (.resp 8) 1181 ∧ ¬ReportedId env stored (.resp 4) 1181 ∧
    ¬ReportedId env stored (.resp 9) 1181 ∧ ReportedId env stored (.resp 10) 1182 ∧
    ¬ReportedId env stored (.resp 3) 1182 ∧ ¬ReportedId env stored (.resp 8) 1182 := by
  simp only [C67_notice_1179 env sensible stored stored_quiet (stored_apart _),
    C67_notice_1178 env sensible stored stored_quiet (stored_apart _),
    C67_notice_1180 env sensible stored stored_quiet (stored_apart _),
    C67_notice_1181 env sensible stored stored_quiet (stored_apart _),
    C67_notice_1182 env sensible stored stored_quiet (stored_apart _)]
  and_intros <;> decide +kernel

/-- C67: `immutable` has no effect without TLS. -/
example : ReportedId env stored (.resp 11) 1302 ∧ ¬ReportedId env stored (.resp 10) 1302 ∧
    ReportedId env stored (.resp 11) 1303 ∧ ¬ReportedId env stored (.resp 10) 1303 := by
  simp only [C67_notice_1302 env sensible stored stored_quiet (stored_apart _),
    C67_notice_1303 env sensible stored stored_quiet (stored_apart _)]
  and_intros <;> decide +kernel

/-- C67: a response from a cache that the request rules out. -/
example : ReportedId env fresh (.resp 0) 1172 ∧ ¬ReportedId env fresh (.resp 1) 1172 ∧
    ReportedId env fresh (.resp 0) 1173 ∧ ¬ReportedId env fresh (.resp 1) 1173 ∧
    ¬ReportedId env stored (.resp 0) 1172 ∧ ¬ReportedId env stored (.resp 0) 1173 ∧
    ReportedId env stored (.resp 0) 1170 ∧ ReportedId env stored (.resp 3) 1170 ∧
    ¬ReportedId env stored (.resp 1) 1170 ∧ ¬ReportedId env stored (.resp 5) 1170 ∧
    ¬ReportedId env stored (.resp 11) 1170 ∧ ReportedId env older (.resp 0) 1174 ∧
    ¬ReportedId env older (.resp 1) 1174 ∧ ¬ReportedId env fresh (.resp 0) 1174 := by
  simp only [C67_notice_1172 env sensible fresh fresh_quiet (fresh_apart _),
    C67_notice_1173 env sensible fresh fresh_quiet (fresh_apart _),
    C67_notice_1172 env sensible stored stored_quiet (stored_apart _),
    C67_notice_1173 env sensible stored stored_quiet (stored_apart _),
    C67_notice_1170 env sensible stored stored_quiet (stored_apart _),
    C67_notice_1174 env sensible older older_quiet (older_apart _),
    C67_notice_1174 env sensible fresh fresh_quiet (fresh_apart _)]
  and_intros <;> decide +kernel

/-- C67: a stale response that the request does not permit. -/
example : ReportedId env stored (.resp 2) 1188 ∧ ReportedId env stored (.resp 3) 1188 ∧
    ReportedId env stored (.resp 4) 1188 ∧ ¬ReportedId env stored (.resp 0) 1188 ∧
    ¬ReportedId env stored (.resp 5) 1188 ∧ ¬ReportedId env stored (.resp 12) 1188 := by
  simp only [C67_notice_1188 env sensible stored stored_quiet (stored_apart _)]
  and_intros <;> decide +kernel

end Examples

end Httpolice.Props
