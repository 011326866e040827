import Verif.Spec.Answers

/-!
# Vocabulary for stating when a notice about authentication is reported
-/

namespace Httpolice.Spec

open Httpolice.Model

/-- Headers of requests with credentials. -/
def credentialHeaders : List String := ["Authorization", "Proxy-Authorization"]

/-- Headers of responses with challenges. -/
def challengeHeaders : List String := ["WWW-Authenticate", "Proxy-Authenticate"]

/-- The request has credentials of that scheme. -/
def Credentials (E : Env) (req : Request) (scheme : String) (c : AuthParams) : Prop :=
  ∃ hdr ∈ credentialHeaders, ∃ s, LastOf E req.fields hdr E.grammars.authorization (s, c) ∧
    IsWord E s scheme

/-- The response has a challenge of that scheme, from the server or a proxy. -/
def Challenges (E : Env) (r : Response) (scheme : String) (c : AuthParams) : Prop :=
  ∃ hdr ∈ challengeHeaders, ∃ s, Listed E r.fields hdr E.grammars.challenge (s, c) ∧ IsWord E s scheme

/-- The response has a challenge of the scheme `Bearer` from the server. -/
def BearerChallenge (E : Env) (r : Response) (c : AuthParams) : Prop :=
  ∃ s, Listed E r.fields "WWW-Authenticate" E.grammars.challenge (s, c) ∧ IsWord E s "Bearer"

/-- There is an access token in the query of the target. -/
def TokenInQuery (E : Env) (req : Request) : Prop :=
  ∃ uri, EffectiveUri E req uri ∧ str "access_token" ∈ E.queryKeys uri

/-- There is an access token in the form that is the body. -/
def TokenInForm (req : Request) : Prop :=
  ∃ keys, req.payload.formKeys = some keys ∧ str "access_token" ∈ keys

/-- The statuses that go with error codes (RFC 6750 section 3.1). -/
def errorStatuses : List (String × Int) := [
  ("invalid_request", 400), ("invalid_token", 401), ("insufficient_scope", 403)]

end Httpolice.Spec
