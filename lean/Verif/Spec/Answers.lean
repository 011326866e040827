import Verif.Spec.Notices

/-!
# Vocabulary for stating when a notice about an answer is reported

What a response means in the light of its request, again in terms of raw header entries.
-/

namespace Httpolice.Spec

open Httpolice.Model

/-- HTTP/1.0 or HTTP/1.1. -/
def Http1 (m : Message) : Prop := Version m "HTTP/1.0" ∨ Version m "HTTP/1.1"

/-- Sent with the chunked coding. -/
def Chunked (E : Env) (m : Msg) : Prop :=
  ∃ c, Listed E m "Transfer-Encoding" E.grammars.transferEncoding c ∧ IsWord E c "chunked"

/-- The response has a body that ends only with the connection (RFC 7230 section 3.3.3). -/
def EndsWithConnection (E : Env) (r : Response) (req : Request) : Prop :=
  Http1 r.toMessage ∧ ¬Has E r.fields "Content-Length" ∧ ¬Chunked E r.fields ∧ ¬StatusClass r 1 ∧
    r.status ≠ 204 ∧ r.status ≠ 304 ∧ req.method ≠ str "HEAD" ∧
    ¬(req.method = str "CONNECT" ∧ StatusClass r 2)

/-- The forms of target that go with a method (RFC 7230 section 5.3). -/
inductive GoesWith (method : Str) : List TargetForm → Prop
  | connect : method = str "CONNECT" → GoesWith method [.authority]
  | options : method = str "OPTIONS" → GoesWith method [.origin, .asterisk, .absolute]
  | other : method ≠ str "CONNECT" → method ≠ str "OPTIONS" → GoesWith method [.origin, .absolute]

/-- The target of the request has the form. -/
def TargetIs (E : Env) (req : Request) (form : TargetForm) : Prop :=
  ∃ forms notes, GoesWith req.method forms ∧ E.parseTarget forms req.target = some (form, notes)

/-- The effective URI of the request (RFC 7230 section 5.5), if it is known. -/
inductive EffectiveUri (E : Env) (req : Request) : Str → Prop
  | absolute : TargetIs E req .absolute → EffectiveUri E req req.target
  | authority (s : Str) : TargetIs E req .authority → req.scheme = some s → s ≠ [] →
      EffectiveUri E req (s ++ str "://" ++ req.target)
  | asterisk (s h : Str) : TargetIs E req .asterisk → req.scheme = some s → s ≠ [] →
      LastOf E req.fields "Host" E.grammars.host h → EffectiveUri E req (s ++ str "://" ++ h)
  | origin (s h : Str) : TargetIs E req .origin → req.scheme = some s → s ≠ [] →
      LastOf E req.fields "Host" E.grammars.host h →
      EffectiveUri E req (s ++ str "://" ++ h ++ req.target)

/-- The reference leads back to where the request went. -/
def LeadsBack (E : Env) (req : Request) (ref : Str) : Prop :=
  ∃ uri, EffectiveUri E req uri ∧ uri ≠ [] ∧ E.urlJoin uri ref = uri

/-- The request names its target as one would for a proxy. -/
def ToProxy (E : Env) (req : Request) : Prop :=
  req.proxyUnknown = false ∧ Http1 req.toMessage ∧ TargetIs E req .absolute

/-- The request names its target as one would for the server itself. -/
def NotToProxy (E : Env) (req : Request) : Prop :=
  req.proxyUnknown = false ∧ Http1 req.toMessage ∧ ¬TargetIs E req .absolute

/-- A character of a reason phrase: tab, space, visible ASCII, or 80 to FF. -/
def ReasonChar (c : Nat) : Prop := c = 9 ∨ (32 ≤ c ∧ c ≤ 126) ∨ (128 ≤ c ∧ c ≤ 255)

end Httpolice.Spec
