import Verif.Spec.Credentials
import Verif.Lemmas.RawAnswer

/-!
# Authentication in terms of raw entries
-/

namespace Httpolice.Lemmas.Check

open Httpolice.Model Httpolice.Spec Httpolice.Props

variable {E : Env}

/-- What is done for each of the headers with credentials. -/
theorem says_auth (h : Sensible E) (req : Request) {N : Nat} {P : Str × AuthParams → Prop}
    (hP : ∀ hdr (a : Str × AuthParams), Says .req N (if E.same a.1 (str "Basic") then
        checkBasicAuth E hdr a.2
      else if E.same a.1 (str "Bearer") then checkBearerAuth E req hdr a.2
      else match a.2 with
        | .token68 s => whenever s.isEmpty (say .req 1274 [("header", .header (E.lower (str hdr)))])
        | .params ps => whenever ps.isEmpty (say .req 1274 [("header", .header (E.lower (str hdr)))]))
      ↔ P a) :
    Says .req N (checkAuth E req "Authorization") ∨ Says .req N (checkAuth E req "Proxy-Authorization") ↔
      ∃ hdr ∈ credentialHeaders, ∃ a, LastOf E req.fields hdr E.grammars.authorization a ∧ P a := by
  have key : ∀ hdr ∈ credentialHeaders, Says .req N (checkAuth E req hdr) ↔
      ∃ a, LastOf E req.fields hdr E.grammars.authorization a ∧ P a := by
    intro hdr hh
    have hc : hdr ∈ checkedNames := by
      revert hdr
      decide
    refine via_single h hc (fun a ha => ?_) fun hn => ?_
    · unfold checkAuth
      rw [ha]
      exact hP hdr a
    · unfold checkAuth
      cases hs : E.single req.fields hdr E.grammars.authorization with
      | val a => exact absurd hs (hn a)
      | none => exact says_nil
      | unavailable => exact says_nil
  rw [key _ (by decide), key _ (by decide)]
  simp [credentialHeaders]

theorem says_basic {hdr : String} {N : Nat} {c : AuthParams} :
    Says .req N (checkBasicAuth E hdr c) ↔ (N = 1209 ∧ ∃ ps, c = .params ps) ∨
      (N = 1210 ∧ ∃ s, c = .token68 s ∧ E.b64decode s = none) ∨
      (N = 1211 ∧ ∃ s cs, c = .token68 s ∧ E.b64decode s = some cs ∧ 58 ∉ cs) ∨
      (N = 1212 ∧ ∃ s cs, c = .token68 s ∧ E.b64decode s = some cs ∧ ∃ x ∈ cs, x < 32 ∨ x = 127) := by
  cases c with
  | params ps => simp [checkBasicAuth, says_say, eq_comm]
  | token68 s =>
    unfold checkBasicAuth
    cases hd : E.b64decode s with
    | none => simp [says_say, hd, eq_comm]
    | some cs =>
      simp only [says_inOrder_cons, says_inOrder_nil, says_whenever, says_each, says_say, isCtl]
      simp [hd]
      grind

theorem says_bearer {req : Request} {hdr : String} {N : Nat} {c : AuthParams} :
    Says .req N (checkBearerAuth E req hdr c) ↔ (N = 1261 ∧ req.scheme = some (str "http")) ∨
      (N = 1262 ∧ ∃ ps, c = .params ps) := by
  unfold checkBearerAuth
  cases c with
  | params ps =>
    simp only [says_inOrder_cons, says_inOrder_nil, says_whenever, says_say, beq_iff_eq, tls_false]
    simp
    grind
  | token68 s =>
    simp only [says_inOrder_cons, says_inOrder_nil, says_whenever, says_say, beq_iff_eq, tls_false, says_nil]
    simp
    grind

theorem query_iff (h : Sensible E) (req : Request) :
    (req.queryKeys E).contains (str "access_token") = true ↔ TokenInQuery E req := by
  unfold Request.queryKeys TokenInQuery
  simp only [← effectiveUri_iff h]
  cases req.effectiveUri E <;> simp

theorem form_iff (req : Request) : (match req.payload.formKeys with
    | some ks => ks.contains (str "access_token")
    | none => false) = true ↔ TokenInForm req := by
  unfold TokenInForm
  cases req.payload.formKeys <;> simp

theorem two_items {t : Target} {N : Nat} {a b : List Act} {l : List (List Act)} {P : Prop}
    (h : ¬Says t N (inOrder l)) (h' : Says t N a ∨ Says t N b ↔ P) :
    Says t N (inOrder (a :: b :: l)) ↔ P := by
  rw [says_inOrder_cons, says_inOrder_cons, ← h']
  simp [h]

/-- Drop the statements that do not report the notice, up to the two that may. -/
macro "locate_two" : tactic => `(tactic| (
  repeat (refine skip_item (quiet_of ?_) ?_; focus (plain_ne; done))
  refine two_items (quiet_of ?_) ?_
  focus (plain_ne; done)))

/-- What the checks do with credentials. -/
theorem says_credentials (h : Sensible E) {hdr : String} {req : Request} {N : Nat}
    {a : Str × AuthParams} :
    Says .req N (if E.same a.1 (str "Basic") then checkBasicAuth E hdr a.2
      else if E.same a.1 (str "Bearer") then checkBearerAuth E req hdr a.2
      else match a.2 with
        | .token68 s => whenever s.isEmpty (say .req 1274 [("header", .header (E.lower (str hdr)))])
        | .params ps => whenever ps.isEmpty (say .req 1274 [("header", .header (E.lower (str hdr)))]))
      ↔ IsWord E a.1 "Basic" ∧ Says .req N (checkBasicAuth E hdr a.2) ∨
        IsWord E a.1 "Bearer" ∧ Says .req N (checkBearerAuth E req hdr a.2) ∨
        ¬IsWord E a.1 "Basic" ∧ ¬IsWord E a.1 "Bearer" ∧ N = 1274 ∧
          (a.2 = .token68 [] ∨ a.2 = .params []) := by
  have hb : IsWord E a.1 "Basic" → ¬IsWord E a.1 "Bearer" := fun hc => word_apart hc (by decide)
  rw [says_ite, says_ite, same_word' h (by decide), same_word' h (by decide)]
  have hm : Says .req N (match a.2 with
        | .token68 s => whenever s.isEmpty (say .req 1274 [("header", .header (E.lower (str hdr)))])
        | .params ps => whenever ps.isEmpty (say .req 1274 [("header", .header (E.lower (str hdr)))]))
      ↔ N = 1274 ∧ (a.2 = .token68 [] ∨ a.2 = .params []) := by
    cases a.2 <;> simp [says_whenever, says_say] <;> grind
  rw [hm]
  grind

theorem creds_iff {req : Request} {w : String} {Q : AuthParams → Prop} :
    (∃ hdr ∈ credentialHeaders, ∃ a, LastOf E req.fields hdr E.grammars.authorization a ∧
      IsWord E a.1 w ∧ Q a.2) ↔ ∃ c, Credentials E req w c ∧ Q c := by
  unfold Credentials
  constructor
  · rintro ⟨hdr, hh, ⟨s, c⟩, h1, h2, h3⟩
    exact ⟨c, ⟨hdr, hh, s, h1, h2⟩, h3⟩
  · rintro ⟨c, ⟨hdr, hh, s, h1, h2⟩, h3⟩
    exact ⟨hdr, hh, ⟨s, c⟩, h1, h2, h3⟩

theorem mem_challenge (h : Sensible E) {hdr : String} (hn : hdr ∈ checkedNames) (m : Msg) (x) :
    x ∈ E.items m hdr E.grammars.challenge ↔ Listed E m hdr E.grammars.challenge x :=
  mem_items h.lower hn m _ h.challenge x

/-- What is done with challenges of the scheme `Basic`. -/
theorem says_basicChallenges (h : Sensible E) (p : Placed) {N : Nat}
    {Q : AuthParams → Prop} (hQ : ∀ hdr c, Says p.here N (checkBasicChallenge E p hdr c) ↔ Q c)
    (hB : N ∉ checkBearerChallengeIds) :
    Says p.here N (checkChallenges E p "WWW-Authenticate") ∨
      Says p.here N (checkChallenges E p "Proxy-Authenticate") ↔
      ∃ c, Challenges E p.resp "Basic" c ∧ Q c := by
  have hq : ∀ c, ¬Says p.here N (checkBearerChallenge E p c) := fun c =>
    quiet_of ((checkBearerChallenge_only E p c).ne hB id)
  have key : ∀ hdr ∈ challengeHeaders, Says p.here N (checkChallenges E p hdr) ↔
      ∃ c, Listed E p.resp.fields hdr E.grammars.challenge c ∧ IsWord E c.1 "Basic" ∧ Q c.2 := by
    intro hdr hh
    have hc : hdr ∈ checkedNames := by
      revert hdr
      decide
    unfold checkChallenges
    simp (disch := decide) only [says_each, says_inOrder_cons, says_inOrder_nil, says_whenever, hQ, hq,
      and_false, or_false, same_word' h, mem_challenge h hc]
    rfl
  rw [key _ (by decide), key _ (by decide)]
  unfold Challenges
  constructor
  · rintro (⟨c, h1, h2, h3⟩ | ⟨c, h1, h2, h3⟩)
    · exact ⟨c.2, ⟨_, by decide, c.1, h1, h2⟩, h3⟩
    · exact ⟨c.2, ⟨"Proxy-Authenticate", by decide, c.1, h1, h2⟩, h3⟩
  · rintro ⟨c, ⟨hdr, hh, s, h1, h2⟩, h3⟩
    simp only [challengeHeaders, List.mem_cons, List.not_mem_nil, or_false] at hh
    rcases hh with rfl | rfl
    · exact .inl ⟨_, h1, h2, h3⟩
    · exact .inr ⟨_, h1, h2, h3⟩

/-- What is done with challenges of the scheme `Bearer`. -/
theorem says_bearerChallenges (h : Sensible E) (p : Placed) {N : Nat}
    {Q : AuthParams → Prop} (hQ : ∀ c, Says p.here N (checkBearerChallenge E p c) ↔ Q c)
    (hB : N ∉ checkBasicChallengeIds) :
    Says p.here N (checkChallenges E p "WWW-Authenticate") ∨
      Says p.here N (checkChallenges E p "Proxy-Authenticate") ↔
      ∃ c, BearerChallenge E p.resp c ∧ Q c := by
  have hq : ∀ hdr c, ¬Says p.here N (checkBasicChallenge E p hdr c) := fun hdr c =>
    quiet_of ((checkBasicChallenge_only E p hdr c).ne hB id)
  have h2 : ¬Says p.here N (checkChallenges E p "Proxy-Authenticate") := by
    unfold checkChallenges
    simp [says_each, says_inOrder_cons, says_inOrder_nil, says_whenever, hq]
  rw [or_iff_left h2]
  unfold checkChallenges BearerChallenge
  simp (disch := decide) only [says_each, says_inOrder_cons, says_inOrder_nil, says_whenever, hQ, hq,
    and_false, or_false, false_or, Bool.and_eq_true, beq_self_eq_true, and_true, same_word' h,
    mem_challenge h (show "WWW-Authenticate" ∈ checkedNames by decide)]
  constructor
  · rintro ⟨c, h1, h2, h3⟩
    exact ⟨c.2, ⟨c.1, h1, h2⟩, h3⟩
  · rintro ⟨c, ⟨s, h1, h2⟩, h3⟩
    exact ⟨(s, c), h1, h2, h3⟩

theorem tls_placed (p : Placed) : p.isTls = some false ↔
    ∃ req, p.req = some req ∧ req.scheme = some (str "http") := by
  unfold Placed.isTls
  cases p.req with
  | none => simp
  | some req => simp [tls_false]

theorem expected_iff (code : Str) (st : Int) :
    expectedStatus code = some st ↔ ∃ x ∈ errorStatuses, code = str x.1 ∧ st = x.2 := by
  have h1 : str "invalid_request" ≠ str "invalid_token" := by decide
  have h2 : str "invalid_request" ≠ str "insufficient_scope" := by decide
  have h3 : str "invalid_token" ≠ str "insufficient_scope" := by decide
  simp only [expectedStatus, errorStatuses, List.mem_cons, List.not_mem_nil, or_false]
  split
  · simp_all [eq_comm]
  · split
    · simp_all [eq_comm]
    · split
      · simp_all [eq_comm]
      · simp_all

theorem says_basicChallenge (h : Sensible E) (p : Placed) (hdr : String) (c : AuthParams) {N : Nat} :
    Says p.here N (checkBasicChallenge E p hdr c) ↔ (N = 1273 ∧ ∃ s, c = .token68 s) ∨
      ∃ ps, c = .params ps ∧ ((N = 1206 ∧ ¬HasParam E ps "realm") ∨
        (N = 1208 ∧ ∃ x ∈ ps, IsWord E x.1 "charset" ∧ ¬IsWord E x.2 "UTF-8") ∨
        (N = 1207 ∧ ∃ x ∈ ps, ¬IsWord E x.1 "charset" ∧ ¬IsWord E x.1 "realm")) := by
  cases c with
  | token68 s => simp [checkBasicChallenge, says_say, eq_comm]
  | params ps =>
    have hu : ∀ s, IsWord E s "UTF-8" ↔ E.lower s = str "utf-8" := fun s => by
      rw [IsWord, show asciiLower (str "UTF-8") = str "utf-8" by decide]
    unfold checkBasicChallenge
    simp (disch := decide) only [says_inOrder_cons, says_inOrder_nil, says_whenever, says_each, says_say,
      List.mem_filter, Bool.not_eq_true', ← Bool.not_eq_true, params_iff h, same_word' h, hu, bne_iff_ne,
      Bool.and_eq_true]
    simp
    grind

/-- Parameters of which there should be one. -/
theorem dupParams_iff (h : Sensible E) (ps : List (Str × Str)) {ns : List String}
    (hn : ∀ n ∈ ns, (str n).all (· < 128) = true) :
    (∃ d ∈ E.dupNames (ps.map Prod.fst), (ns.any fun x => d == E.lower (str x)) = true) ↔
      ∃ n ∈ ns, 2 ≤ (ps.map fun x => E.lower x.1).count (asciiLower (str n)) := by
  unfold Env.dupNames
  rw [List.map_map]
  simp only [(C44_duplicates _).1, List.any_eq_true, beq_iff_eq]
  have hc : ∀ d : Str, @List.count Str instBEqOfDecidableEq d (ps.map (E.lower ∘ Prod.fst)) =
      (ps.map fun x => E.lower x.1).count d := fun d => by
    unfold List.count
    refine List.countP_congr fun x _ => ?_
    exact (@beq_iff_eq Str instBEqOfDecidableEq _ x d).trans beq_iff_eq.symm
  simp only [hc]
  have hl : ∀ n ∈ ns, E.lower (str n) = asciiLower (str n) := fun n hm => h.lower _ (by
    simpa using hn n hm)
  constructor
  · rintro ⟨d, h1, n, h2, rfl⟩
    rw [hl n h2] at h1
    exact ⟨n, h2, h1⟩
  · rintro ⟨n, h2, h1⟩
    exact ⟨_, h1, n, h2, (hl n h2).symm⟩

theorem says_bearerChallenge (h : Sensible E) (p : Placed) (c : AuthParams) {N : Nat} :
    Says p.here N (checkBearerChallenge E p c) ↔
      (N = 1263 ∧ ∃ req, p.req = some req ∧ req.scheme = some (str "http")) ∨
      (N = 1264 ∧ (c = .params [] ∨ ∃ s, c = .token68 s)) ∨
      ∃ ps, c = .params ps ∧ ps ≠ [] ∧ (
        (N = 1265 ∧ ∃ n ∈ ["realm", "scope", "error", "error_description", "error_uri"],
          2 ≤ (ps.map fun x => E.lower x.1).count (asciiLower (str n))) ∨
        (N = 1266 ∧ ∃ n ∈ ["scope", "error", "error_description", "error_uri"],
          ∃ v, FirstParam E ps n v ∧ E.oauthSyntax (str n) v = false) ∨
        (N = 1267 ∧ p.resp.status = 401 ∧ ¬HasParam E ps "error" ∧ ∃ req, p.req = some req ∧
          ∃ a, LastOf E req.fields "Authorization" E.grammars.authorization a ∧ IsWord E a.1 "Bearer") ∨
        (N = 1268 ∧ ∃ code, FirstParam E ps "error" code ∧
          ∃ x ∈ errorStatuses, code = str x.1 ∧ p.resp.status ≠ x.2) ∨
        (N = 1269 ∧ ∃ req, p.req = some req ∧ ¬Has E req.fields "Authorization" ∧ ¬TokenInQuery E req ∧
          ¬TokenInForm req ∧ ∃ n ∈ ["error", "error_description", "error_uri"], HasParam E ps n)) := by
  unfold checkBearerChallenge
  rw [says_inOrder_cons, says_inOrder_cons, says_whenever, says_say, beq_iff_eq, tls_placed]
  cases c with
  | token68 s => simp [says_say, says_inOrder_nil, and_comm]
  | params ps =>
    cases ps with
    | nil => simp [says_say, says_inOrder_nil, and_comm]
    | cons q l =>
      dsimp only
      generalize hps : q :: l = ps
      have hne : ps ≠ [] := by rw [← hps]; simp
      clear hps
      have e2 : ∀ x ∈ ["scope", "error", "error_description", "error_uri"],
          (Says p.here N (match E.getParam x ps with
            | some v => whenever (!E.oauthSyntax (str x) v)
              (say p.here 1266 [("param", .text (str x)), ("value", .text v), ("error", .other)])
            | none => []) ↔ N = 1266 ∧ ∃ v, FirstParam E ps x v ∧ E.oauthSyntax (str x) v = false) := by
        intro x hx
        have hx' : (str x).all (· < 128) = true := by
          revert x; decide
        simp only [← getParam_iff h ps hx']
        cases E.getParam x ps <;> simp [says_nil, says_whenever, says_say]
        grind
      have e3 : (match p.req with
            | some req => okayAnd (E.single req.fields "Authorization" E.grammars.authorization)
                fun a => E.same a.1 (str "Bearer")
            | none => false) = true ↔ ∃ req, p.req = some req ∧
          ∃ a, LastOf E req.fields "Authorization" E.grammars.authorization a ∧ IsWord E a.1 "Bearer" := by
        cases p.req with
        | none => simp
        | some req =>
          simp (disch := decide) only [okay_last h.lower, same_word' h]
          simp
      have e4 : Says p.here N (match E.getParam "error" ps with
          | some code => (match expectedStatus code with
            | some st => whenever (p.status != st)
              (say p.here 1268 [("error_code", .text code), ("expected_status", .num st)])
            | none => [])
          | none => []) ↔ N = 1268 ∧ ∃ code, FirstParam E ps "error" code ∧
          ∃ x ∈ errorStatuses, code = str x.1 ∧ p.resp.status ≠ x.2 := by
        simp only [← getParam_iff h ps (show (str "error").all (· < 128) = true by decide)]
        cases E.getParam "error" ps with
        | none => simp [says_nil]
        | some code =>
          have := expected_iff code
          dsimp only
          cases he : expectedStatus code with
          | none =>
            rw [he] at this
            simp only [says_nil, false_iff]
            rintro ⟨_, c, hc, x, h1, h2, h3⟩
            cases hc
            exact absurd ((this x.2).2 ⟨x, h1, h2, rfl⟩) (by simp)
          | some st =>
            rw [he] at this
            simp only [says_whenever, says_say, bne_iff_ne]
            constructor
            · rintro ⟨h1, h2⟩
              obtain ⟨x, h3, h4, rfl⟩ := (this st).1 rfl
              exact ⟨by simpa [eq_comm] using h2, code, rfl, x, h3, h4, h1⟩
            · rintro ⟨h1, c, hc, x, h3, h4, h5⟩
              cases hc
              have := Option.some.inj ((this x.2).2 ⟨x, h3, h4, rfl⟩)
              rw [this]
              exact ⟨h5, by simpa [eq_comm] using h1⟩
      have e5 : Says p.here N (match p.req with
          | some req => whenever (E.absent req.fields "Authorization" && !requestHasToken E req)
            (each ["error", "error_description", "error_uri"] fun x =>
              whenever (E.inParams x ps) (say p.here 1269 [("param", .text (str x))]))
          | none => []) ↔ N = 1269 ∧ ∃ req, p.req = some req ∧ ¬Has E req.fields "Authorization" ∧
          ¬TokenInQuery E req ∧ ¬TokenInForm req ∧
          ∃ n ∈ ["error", "error_description", "error_uri"], HasParam E ps n := by
        cases p.req with
        | none => simp [says_nil]
        | some req =>
          have hr : (E.absent req.fields "Authorization" && !requestHasToken E req) = true ↔
              ¬Has E req.fields "Authorization" ∧ ¬TokenInQuery E req ∧ ¬TokenInForm req := by
            rw [Bool.and_eq_true, absent_has h.lower (by decide)]
            refine and_congr_right fun hn => ?_
            unfold requestHasToken
            have ho : okayAnd (E.single req.fields "Authorization" E.grammars.authorization)
                (fun a => E.same a.1 (str "Bearer")) = false := by
              rw [← Bool.not_eq_true, okay_last h.lower (by decide)]
              rintro ⟨a, h1, _⟩
              obtain ⟨x, e, y, h2, h3, _⟩ := h1
              exact hn ⟨e, by rw [h2]; simp, h3⟩
            rw [Bool.not_eq_true', ho, Bool.false_or, Bool.or_eq_false_iff, ← Bool.not_eq_true,
              ← Bool.not_eq_true, query_iff h, and_comm]
            exact and_congr_right fun _ => not_congr (form_iff req)
          have hp : ∀ x ∈ ["error", "error_description", "error_uri"],
              (E.inParams x ps = true ↔ HasParam E ps x) := fun x hx => params_iff h ps (by
            revert x; decide)
          simp only [says_whenever, hr, says_each, says_say, Option.some.injEq, exists_eq_left']
          constructor
          · rintro ⟨⟨h1, h2, h3⟩, x, hx, h4, h5⟩
            exact ⟨by simpa [eq_comm] using h5, h1, h2, h3, x, hx, (hp x hx).1 h4⟩
          · rintro ⟨h5, h1, h2, h3, x, hx, h4⟩
            exact ⟨⟨h1, h2, h3⟩, x, hx, (hp x hx).2 h4, by simpa [eq_comm] using h5⟩
      have e1 := dupParams_iff h ps (ns := ["realm", "scope", "error", "error_description", "error_uri"])
        (by decide)
      have e2' : (∃ x ∈ ["scope", "error", "error_description", "error_uri"],
          Says p.here N (match E.getParam x ps with
            | some v => whenever (!E.oauthSyntax (str x) v)
              (say p.here 1266 [("param", .text (str x)), ("value", .text v), ("error", .other)])
            | none => [])) ↔ N = 1266 ∧ ∃ n ∈ ["scope", "error", "error_description", "error_uri"],
          ∃ v, FirstParam E ps n v ∧ E.oauthSyntax (str n) v = false := by
        constructor
        · rintro ⟨x, hx, h1⟩
          obtain ⟨h2, h3⟩ := (e2 x hx).1 h1
          exact ⟨h2, x, hx, h3⟩
        · rintro ⟨h2, x, hx, h3⟩
          exact ⟨x, hx, (e2 x hx).2 ⟨h2, h3⟩⟩
      have d1 : Says p.here N (each (E.dupNames (ps.map Prod.fst)) fun d => whenever
          (["realm", "scope", "error", "error_description", "error_uri"].any fun x =>
            d == E.lower (str x)) (say p.here 1265 [("param", .text d)])) ↔ N = 1265 ∧
          ∃ n ∈ ["realm", "scope", "error", "error_description", "error_uri"],
            2 ≤ (ps.map fun x => E.lower x.1).count (asciiLower (str n)) := by
        rw [← e1]
        simp only [says_each, says_whenever, says_say]
        grind
      have d3 : ∀ b : Bool, (b = true ↔ ∃ req, p.req = some req ∧
          ∃ a, LastOf E req.fields "Authorization" E.grammars.authorization a ∧ IsWord E a.1 "Bearer") →
          (Says p.here N (whenever (p.status == 401 && !E.inParams "error" ps && b) (say p.here 1267)) ↔
          N = 1267 ∧ p.resp.status = 401 ∧ ¬HasParam E ps "error" ∧ ∃ req, p.req = some req ∧
          ∃ a, LastOf E req.fields "Authorization" E.grammars.authorization a ∧
            IsWord E a.1 "Bearer") := by
        intro b hb
        rw [says_whenever, says_say, Bool.and_eq_true, Bool.and_eq_true, Bool.not_eq_true',
          ← Bool.not_eq_true, hb, params_iff h ps (by decide), beq_iff_eq]
        simp only [Placed.status]
        grind
      simp only [says_inOrder_cons, says_inOrder_nil, or_false]
      refine (or_congr Iff.rfl (or_congr d1 (or_congr (says_each.trans e2') (or_congr (d3 _ e3)
        (or_congr e4 e5))))).trans ?_
      simp only [AuthParams.params.injEq, exists_eq_left', hne, ne_eq, not_false_eq_true, true_and,
        reduceCtorEq, exists_false, or_false, and_false, false_or]
      rw [and_comm (b := N = 1263)]

theorem first_ne {ps : List (Str × Str)} {n : String} {v : Str} (h : FirstParam E ps n v) : ps ≠ [] := by
  rintro rfl
  obtain ⟨x, k, y, h1, _⟩ := h
  simp at h1

theorem param_ne {ps : List (Str × Str)} {n : String} (h : HasParam E ps n) : ps ≠ [] := by
  rintro rfl
  obtain ⟨x, h1, _⟩ := h
  simp at h1

end Httpolice.Lemmas.Check
