import Verif.Spec.Caches
import Verif.Lemmas.RawAnswer

/-!
# Derived properties about caching in terms of raw entries
-/

namespace Httpolice.Lemmas.Check

open Httpolice.Model Httpolice.Spec Httpolice.Props

variable {E : Env}

theorem aged_iff (h : Sensible E) (m : Msg) :
    okayAnd (E.single m "Date" E.grammars.date) (fun d => okayAnd (E.single m "Age" E.grammars.age)
      fun a => decide (d + a > E.now + 30)) = true ↔ Aged E m := by
  simp (disch := decide) only [okay_last h.lower, decide_eq_true_eq]
  unfold Aged
  constructor
  · rintro ⟨d, hd, a, ha, hl⟩
    exact ⟨d, a, hd, ha, hl⟩
  · rintro ⟨d, a, hd, ha, hl⟩
    exact ⟨d, hd, a, ha, hl⟩

theorem not_overflow (h : Sensible E) (p : Placed) (hs : p.status ≠ 103) (hno : ¬TooOld E p.resp) :
    ¬okayAnd (E.single p.fields "Date" E.grammars.date) (fun d =>
      okayAnd (E.single p.fields "Age" E.grammars.age) fun a => decide (d + a > maxDateTime)) = true := by
  rw [← overflow_iff h.lower] at hno
  intro hc
  refine hno ⟨hs, ?_⟩
  simp only [okayAnd_iff, decide_eq_true_eq] at hc
  obtain ⟨d, hd, a, ha, hl⟩ := hc
  exact ⟨d, a, hd, ha, hl⟩

/-- What reading `from_cache` gives. -/
theorem fromCache_eq (h : Sensible E) (p : Placed) (hno : ¬TooOld E p.resp) :
    ((fromCache E p).1 = some true ↔ FromCache E p.resp) ∧
    (Says p.here 1241 (fromCache E p).2 ↔ p.resp.status ≠ 103 ∧ Aged E p.resp.fields) ∧
    (Says p.here 1168 (fromCache E p).2 ↔ p.resp.status ≠ 103 ∧ ¬Aged E p.resp.fields ∧
      Has E p.resp.fields "Age") ∧
    (Says p.here 1169 (fromCache E p).2 ↔ p.resp.status ≠ 103 ∧ ¬Has E p.resp.fields "Age" ∧
      WarnsOfCache E p.resp.fields) := by
  have hA : Aged E p.resp.fields → Has E p.resp.fields "Age" := by
    rintro ⟨d, a, _, ⟨x, e, y, h1, h2, _⟩, _⟩
    exact ⟨e, by rw [h1]; simp, h2⟩
  unfold fromCache FromCache
  dsimp only
  rw [show p.resp.status = p.status from rfl, show p.resp.fields = p.fields from rfl] at *
  by_cases hs : p.status = 103
  · rw [if_pos hs]
    simp [hs, says_nil]
  · rw [if_neg hs, if_neg (not_overflow h p hs hno)]
    by_cases ha : Aged E p.fields
    · rw [if_pos ((aged_iff h _).2 ha)]
      simp [hs, ha, hA ha, says_say]
    · rw [if_neg (fun hc => ha ((aged_iff h _).1 hc))]
      by_cases hp : Has E p.fields "Age"
      · rw [if_pos ((present_has h.lower (by decide) _).2 hp)]
        simp [hs, ha, hp, says_say]
      · rw [if_neg (fun hc => hp ((present_has h.lower (by decide) _).1 hc))]
        have hw : WarnsOfCache E p.fields ↔ ∃ w ∈ E.items p.fields "Warning" E.grammars.warning,
            decide (100 ≤ w.code ∧ w.code < 200) = true := by
          unfold WarnsOfCache
          simp only [mem_warning h, decide_eq_true_eq]
          refine exists_congr fun w => and_congr_right fun _ => ?_
          omega
        split
        · next w hf =>
          have h2 := List.find?_some hf
          have hex := hw.2 ⟨w, List.mem_of_find?_eq_some hf, h2⟩
          simp [hs, ha, hp, hex, says_say]
        · next hf =>
          rw [List.find?_eq_none] at hf
          have hex : ¬WarnsOfCache E p.fields := fun hc =>
            let ⟨w, h1, h2⟩ := hw.1 hc
            hf w h1 h2
          simp [hs, ha, hp, hex, says_nil]

theorem directs_given {m : Msg} {d : String} (h : Directs E m d) : Gives E m d :=
  let ⟨a, ha, _⟩ := h
  ⟨a, ha⟩

theorem gives_has {m : Msg} {d : String} (h : Gives E m d) : Has E m "Cache-Control" := by
  obtain ⟨a, l, d, l', h, _⟩ := h
  have : (d, a) ∈ cacheDirectives E m := by rw [h]; simp
  unfold cacheDirectives at this
  rw [List.mem_flatMap] at this
  obtain ⟨e, he, _⟩ := this
  rw [List.mem_filter, decide_eq_true_eq] at he
  exact ⟨e, he.1, he.2⟩

theorem heuristic_eq (h : Sensible E) (p : Placed) (hno : ¬TooOld E p.resp) :
    ((heuristicExpiration E p).1 = some true ↔ Heuristic E p.resp) ∧
    (Says p.here 1179 (heuristicExpiration E p).2 ↔ FromCache E p.resp ∧ Warns E p.resp.fields 113) ∧
    (Says p.here 1178 (heuristicExpiration E p).2 ↔ FromCache E p.resp ∧ ¬Warns E p.resp.fields 113 ∧
      ¬Has E p.resp.fields "Expires" ∧ ¬Has E p.resp.fields "Cache-Control") := by
  have hf := (fromCache_eq h p hno).1
  have hw : E.hasWarning p.fields 113 = true ↔ Warns E p.resp.fields 113 := warning_iff h _ _
  have he : E.present p.fields "Expires" = true ↔ Has E p.resp.fields "Expires" :=
    present_has h.lower (by decide) _
  have hc : E.absent p.fields "Cache-Control" = true ↔ ¬Has E p.resp.fields "Cache-Control" :=
    absent_has h.lower (by decide) _
  have hm : cacheTruthy (E.cache p.fields "max-age") = true → Has E p.resp.fields "Cache-Control" :=
    fun ht => gives_has (directs_given ((truthy_iff h _ (by decide)).1 ht))
  unfold heuristicExpiration Heuristic
  dsimp only
  split
  · next h1 =>
    rw [ne_eq, hf] at h1
    simp [h1, hf, says_nil]
  · next h1 =>
    rw [ne_eq, hf, Classical.not_not] at h1
    split
    · next h2 => simp [h1, hw.1 h2, says_say]
    · next h2 =>
      rw [hw] at h2
      split
      · next h3 => simp [h1, h2, he.1 h3, says_nil]
      · next h3 =>
        rw [he] at h3
        split
        · next h4 => simp [h2, hm h4, says_nil]
        · split
          · next h5 => simp [h1, h2, h3, hc.1 h5, says_say]
          · next h5 =>
            rw [hc, Classical.not_not] at h5
            simp [h2, h5, says_nil]

theorem found_max (h : Sensible E) (m : Msg) (n : Int) :
    foundInt (E.cache m "max-age") = .val n ↔ ∃ k : Nat, n = k ∧ MaxAge E m k := by
  unfold foundInt MaxAge
  have hd : (str "max-age").all (· < 128) = true := by decide
  have key : ∀ a, FirstDirective E m "max-age" a → E.cache m "max-age" = foundOf a := fun a ha =>
    (cache_first h m hd (f := foundOf a) (by cases a <;> simp [foundOf])).2 ⟨a, ha, rfl⟩
  constructor
  · intro hc
    have hf : E.cache m "max-age" ≠ .none := by
      intro e; rw [e] at hc; simp [cacheNumber] at hc
    obtain ⟨a, ha, hfa⟩ := (cache_first h m hd hf).1 rfl
    rw [← hfa] at hc
    cases a with
    | none =>
      simp only [foundOf, cacheNumber, PyVal.val.injEq] at hc
      exact ⟨1, hc.symm, .inr ⟨rfl, ha⟩⟩
    | parsed q =>
      cases q with
      | num k =>
        simp only [foundOf, cacheNumber, PyVal.val.injEq] at hc
        exact ⟨k, hc.symm, .inl ha⟩
      | names l => simp [foundOf, cacheNumber] at hc
    | _ => simp [foundOf, cacheNumber] at hc
  · rintro ⟨k, rfl, ha | ⟨rfl, ha⟩⟩
    · rw [key _ ha]; rfl
    · rw [key _ ha]; rfl

theorem ageOver_iff (h : Sensible E) (m : Msg) (x : PyVal Int) : ageOver E m x = true ↔
    ∃ a n, LastOf E m "Age" E.grammars.age a ∧ x = .val n ∧ n < (a : Int) := by
  unfold ageOver
  simp (disch := decide) only [compare_iff, single_last h.lower, decide_eq_true_eq, gt_iff_lt]

theorem overMaxAge_iff (h : Sensible E) (m : Msg) : (notGiven (E.cache m "s-maxage") &&
    ageOver E m (foundInt (E.cache m "max-age"))) = true ↔ OverMaxAge E m := by
  rw [Bool.and_eq_true, notGiven_iff h _ (by decide), ageOver_iff h]
  simp only [found_max h]
  unfold OverMaxAge Gives
  refine and_congr_right fun _ => exists_congr fun a => ?_
  constructor
  · rintro ⟨n, ha, ⟨k, rfl, hk⟩, hl⟩
    exact ⟨k, ha, hk, by omega⟩
  · rintro ⟨k, ha, hk, hl⟩
    exact ⟨k, ha, ⟨k, rfl, hk⟩, by omega⟩

theorem overExpires_iff (h : Sensible E) (m : Msg) : (notGiven (E.cache m "s-maxage") &&
    notGiven (E.cache m "max-age") && ageOver E m (lifetime E m)) = true ↔ OverExpires E m := by
  rw [Bool.and_eq_true, Bool.and_eq_true, notGiven_iff h _ (by decide), notGiven_iff h _ (by decide),
    ageOver_iff h, and_assoc]
  unfold OverExpires Gives
  refine and_congr_right fun _ => and_congr_right fun _ => exists_congr fun a => ?_
  simp (disch := decide) only [← single_last h.lower]
  unfold lifetime
  constructor
  · rintro ⟨n, ha, hn, hl⟩
    split at hn
    · next e d he hd =>
      cases hn
      have : DateTime = Nat := rfl
      exact ⟨e, d, ha, he, hd, by
        have hl' : @LT.lt Int _ ((@Nat.cast Int _ e) - (@Nat.cast Int _ d)) (@Nat.cast Int _ a) := hl
        show @LT.lt Nat _ e (@HAdd.hAdd Nat Nat Nat _ d a)
        omega⟩
    · cases hn
  · rintro ⟨e, d, ha, he, hd, hl⟩
    refine ⟨_, ha, by rw [he, hd], ?_⟩
    have hl' : @LT.lt Nat _ e (@HAdd.hAdd Nat Nat Nat _ d a) := hl
    show @LT.lt Int _ ((@Nat.cast Int _ e) - (@Nat.cast Int _ d)) (@Nat.cast Int _ a)
    omega

theorem maxAge_given {m : Msg} (h : OverMaxAge E m) : Gives E m "max-age" := by
  obtain ⟨_, a, n, _, h | ⟨_, h⟩, _⟩ := h
  · exact ⟨_, h⟩
  · exact ⟨_, h⟩

theorem stale_eq (h : Sensible E) (p : Placed) :
    ((stale E p).1 = some true ↔ Stale E p.resp) ∧
    (Says p.here 1183 (stale E p).2 ↔ p.resp.status ≠ 103 ∧
      (Warns E p.resp.fields 110 ∨ Warns E p.resp.fields 111)) ∧
    (Says p.here 1184 (stale E p).2 ↔ p.resp.status ≠ 103 ∧ ¬Warns E p.resp.fields 110 ∧
      ¬Warns E p.resp.fields 111 ∧ OverMaxAge E p.resp.fields) ∧
    (Says p.here 1185 (stale E p).2 ↔ p.resp.status ≠ 103 ∧ ¬Warns E p.resp.fields 110 ∧
      ¬Warns E p.resp.fields 111 ∧ OverExpires E p.resp.fields) := by
  have h1 : E.hasWarning p.fields 110 = true ↔ Warns E p.resp.fields 110 := warning_iff h _ _
  have h2 : E.hasWarning p.fields 111 = true ↔ Warns E p.resp.fields 111 := warning_iff h _ _
  have h3 : (notGiven (E.cache p.fields "s-maxage") &&
    ageOver E p.fields (foundInt (E.cache p.fields "max-age"))) = true ↔ OverMaxAge E p.resp.fields :=
    overMaxAge_iff h _
  have h4 : (notGiven (E.cache p.fields "s-maxage") && notGiven (E.cache p.fields "max-age") &&
    ageOver E p.fields (lifetime E p.fields)) = true ↔ OverExpires E p.resp.fields := overExpires_iff h _
  unfold stale Stale
  dsimp only
  rw [show p.resp.status = p.status from rfl]
  split
  · next hs => simp [hs, says_nil]
  · next hs =>
    split
    · next hc => simp [hs, h1.1 hc, says_say]
    · next hc1 =>
      rw [h1] at hc1
      split
      · next hc => simp [hs, h2.1 hc, says_say]
      · next hc2 =>
        rw [h2] at hc2
        split
        · next hc3 =>
          rw [h3] at hc3
          have : ¬OverExpires E p.resp.fields := fun ho => ho.2.1 (maxAge_given hc3)
          simp [hs, hc1, hc2, hc3, this, says_say]
        · next hc3 =>
          rw [h3] at hc3
          split
          · next hc4 =>
            rw [h4] at hc4
            simp [hs, hc1, hc2, hc3, hc4, says_say]
          · next hc4 =>
            rw [h4] at hc4
            simp [hc1, hc2, hc3, hc4, says_nil]

theorem from_both {ex : Exchange} {N i : Nat} (hok : exchangeRaises E ex = false)
    (ha : Apart E ex N) (h0 : N ∉ outerIds) (h1 : N ∉ messageIds)
    (h2 : N ∉ checkStatusIds ++ checkResponseHeadersIds)
    (h3 : N ∉ checkAgainstRequestIds ++ checkNegotiationIds) (h4 : N ∉ checkSettledAnswerIds) :
    ReportedId E ex (.resp i) N ↔ ∃ r, ex.responses[i]? = some r ∧
      (r.status ≠ 103 ∧ Says (.resp i) N (checkSettledResponse E ⟨i, r, ex.request⟩) ∨
        ∃ req, ex.request = some req ∧
          Says (.resp i) N (checkCachedAnswer E ⟨i, r, ex.request⟩ req)) := by
  rw [reported_resp hok ha (outer_resp h0)]
  refine exists_congr fun r => and_congr_right fun hr => ?_
  have hm := quiet_responseMessage (p := ⟨i, r, ex.request⟩) (foreign_resp ha hr h0) h1
  rw [List.mem_append, not_or] at h2 h3
  have hq : ∀ p req, ¬Says (.resp i) N (checkAgainstRequest E p req) :=
    fun p req h => h3.1 ((checkAgainstRequest_only E p req).says h)
  unfold itselfRest contextRest
  simp only [says_inOrder_cons, show (Placed.here ⟨i, r, ex.request⟩) = .resp i from rfl] at hm ⊢
  simp only [hm, hq, quiet_part (checkStatus_only E _) h2.1 id,
    quiet_part (checkResponseHeaders_only E _) h2.2 id,
    quiet_part (checkNegotiation_only E _ _) h3.2 id,
    quiet_skipped (quiet_part (checkSettledAnswer_only E _ _) h4 id), says_inOrder_nil, or_false,
    false_or]
  refine or_congr_left ?_
  by_cases h : r.status = 103
  · rw [if_pos (show Placed.status ⟨i, r, ex.request⟩ = 103 from h)]
    simp [h, says_nil]
  · rw [if_neg (show ¬Placed.status ⟨i, r, ex.request⟩ = 103 from h)]
    simp [h]

/-- A notice of a derived property, which is read in two checks. -/
theorem from_state {ex : Exchange} {N i : Nat} (hok : exchangeRaises E ex = false)
    (ha : Apart E ex N) (h0 : N ∉ outerIds) (h1 : N ∉ messageIds)
    (h2 : N ∉ checkStatusIds ++ checkResponseHeadersIds)
    (h3 : N ∉ checkAgainstRequestIds ++ checkNegotiationIds) (h4 : N ∉ checkSettledAnswerIds)
    {P : Response → Prop} (hP : ∀ r, P r → r.status ≠ 103)
    (k1 : ∀ r, ex.responses[i]? = some r →
      (Says (.resp i) N (checkSettledResponse E ⟨i, r, ex.request⟩) ↔ P r))
    (k2 : ∀ r req, ex.responses[i]? = some r →
      (Says (.resp i) N (checkCachedAnswer E ⟨i, r, ex.request⟩ req) ↔ P r)) :
    ReportedId E ex (.resp i) N ↔ OnResponse ex i P := by
  rw [from_both hok ha h0 h1 h2 h3 h4]
  refine exists_congr fun r => and_congr_right fun hr => ?_
  rw [k1 r hr]
  simp only [k2 r _ hr]
  grind

/-- A notice that depends on derived properties of responses. -/
theorem from_derived {ex : Exchange} {N i : Nat} (hok : exchangeRaises E ex = false)
    (ha : Apart E ex N) (h0 : N ∉ outerIds) (h1 : N ∉ messageIds) (h2 : N ∉ checkStatusIds)
    (h3 : N ∉ checkResponseHeadersIds)
    (h4 : N ∉ answerIds)
    {P : Response → Prop} (hP : ∀ r, P r → r.status ≠ 103)
    (k : ∀ r, ex.responses[i]? = some r →
      (Says (.resp i) N (checkSettledResponse E ⟨i, r, ex.request⟩) ↔ P r)) :
    ReportedId E ex (.resp i) N ↔ OnResponse ex i P := by
  rw [from_settled hok ha h0 h1 h2 h3 h4]
  refine exists_congr fun r => and_congr_right fun hr => ?_
  rw [k r hr]
  exact and_iff_right_of_imp (hP r)

theorem cacheability_iff (status : Int) (c : Cacheable) : cacheability status = some c ↔
    status ∈ (statusCacheable.filter fun r => r.2 == c).map Prod.fst := by
  have hp : statusCacheable.Pairwise fun a b => a.1 ≠ b.1 := by decide +kernel
  unfold cacheability
  rw [Option.map_eq_some_iff]
  simp only [find_of_apart hp, List.mem_map, List.mem_filter, beq_iff_eq]
  constructor
  · rintro ⟨a, ⟨h1, h2⟩, h3⟩
    exact ⟨a, ⟨h1, h3⟩, h2⟩
  · rintro ⟨a, ⟨h1, h3⟩, h2⟩
    exact ⟨a, ⟨h1, h2⟩, h3⟩

theorem neverStored_iff (status : Int) :
    cacheability status = some .notAtAll ↔ status ∈ neverStored := by
  rw [cacheability_iff, show (statusCacheable.filter fun r => r.2 == Cacheable.notAtAll).map Prod.fst =
    neverStored by decide +kernel]

theorem notStored_iff (status : Int) :
    cacheability status = some .notByDefault ↔ status ∈ notStoredByDefault := by
  rw [cacheability_iff, show (statusCacheable.filter fun r => r.2 == Cacheable.notByDefault).map Prod.fst =
    notStoredByDefault by decide +kernel]

end Httpolice.Lemmas.Check
