import Verif.Spec.Answers

/-!
# Vocabulary for stating when a notice about caching is reported
-/

namespace Httpolice.Spec

open Httpolice.Model

/-- The response was generated in the future, going by its date and age (30 seconds are allowed for
clocks that differ). -/
def Aged (E : Env) (m : Msg) : Prop :=
  ∃ d a, LastOf E m "Date" E.grammars.date d ∧ LastOf E m "Age" E.grammars.age a ∧ E.now + 30 < d + a

/-- A warning about freshness, which only caches add. -/
def WarnsOfCache (E : Env) (m : Msg) : Prop :=
  ∃ w, Listed E m "Warning" E.grammars.warning w ∧ 100 ≤ w.code ∧ w.code ≤ 199

/-- The response comes from a cache, by all appearances. -/
def FromCache (E : Env) (r : Response) : Prop :=
  r.status ≠ 103 ∧ ¬Aged E r.fields ∧ (Has E r.fields "Age" ∨ WarnsOfCache E r.fields)

/-- The cache that the response comes from made up its expiration time. -/
def Heuristic (E : Env) (r : Response) : Prop :=
  FromCache E r ∧ (Warns E r.fields 113 ∨
    ¬Has E r.fields "Expires" ∧ ¬Has E r.fields "Cache-Control")

/-- The directive is there, with any argument. -/
def Gives (E : Env) (m : Msg) (name : String) : Prop := ∃ a, FirstDirective E m name a

/-- The age limit; a directive without an argument counts as one second. -/
def MaxAge (E : Env) (m : Msg) (n : Nat) : Prop :=
  FirstDirective E m "max-age" (.parsed (.num n)) ∨ n = 1 ∧ FirstDirective E m "max-age" .none

/-- Older than its own age limit. -/
def OverMaxAge (E : Env) (m : Msg) : Prop :=
  ¬Gives E m "s-maxage" ∧ ∃ a n, LastOf E m "Age" E.grammars.age a ∧ MaxAge E m n ∧ n < a

/-- Older than the time from its date to its expiration. -/
def OverExpires (E : Env) (m : Msg) : Prop :=
  ¬Gives E m "s-maxage" ∧ ¬Gives E m "max-age" ∧ ∃ a e d, LastOf E m "Age" E.grammars.age a ∧
    LastOf E m "Expires" E.grammars.date e ∧ LastOf E m "Date" E.grammars.date d ∧ e < d + a

/-- The response is stale. -/
def Stale (E : Env) (r : Response) : Prop :=
  r.status ≠ 103 ∧ (Warns E r.fields 110 ∨ Warns E r.fields 111 ∨ OverMaxAge E r.fields ∨
    OverExpires E r.fields)

/-- Statuses of responses that caches must not store. -/
def neverStored : List Int := [428, 429, 431, 511]

/-- Statuses of responses that caches do not store unless there is an expiration time. -/
def notStoredByDefault : List Int := [
  100, 101, 201, 202, 205, 302, 303, 307, 400, 401, 403, 406, 407, 408, 409, 411, 412, 413, 415, 416,
  417, 422, 423, 424, 426, 500, 502, 503, 504, 505, 507]

/-- Directives that are not for requests. -/
def notForRequests : List String := [
  "immutable", "must-revalidate", "private", "proxy-revalidate", "public", "s-maxage",
  "stale-while-revalidate"]

/-- Directives that are not for responses. -/
def notForResponses : List String := ["max-stale", "min-fresh", "only-if-cached"]

/-- The message has one of the directives. -/
def HasDirective (E : Env) (m : Msg) (names : List String) : Prop :=
  ∃ d, Listed E m "Cache-Control" E.grammars.cacheControl d ∧ ∃ n ∈ names, IsWord E d.1 n

/-- Directives of requests that contradict each other. -/
def contradictInRequests : List (String × String) := [
  ("max-stale", "min-fresh"), ("stale-if-error", "min-fresh"), ("max-stale", "no-cache"),
  ("max-age", "no-cache")]

/-- Directives of responses that contradict each other. -/
def contradictInResponses : List (String × String) := [
  ("public", "no-store"), ("private", "public"), ("private", "no-store"),
  ("must-revalidate", "stale-while-revalidate"), ("must-revalidate", "stale-if-error")]

/-- Directives of responses of which the first has no effect because of the second. -/
def uselessInResponses : List (String × String) := [
  ("max-age", "no-cache"), ("max-age", "no-store"), ("s-maxage", "private"),
  ("s-maxage", "no-cache"), ("s-maxage", "no-store")]

end Httpolice.Spec
