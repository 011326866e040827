import Verif.Model.StreamRun
import Verif.Spec.Run

/-!
# Specification of a whole run on streams and captures
-/

namespace Httpolice.Spec

open Httpolice.Model

/-- What is in a file, if there is a path at all. -/
def Contents (D : Disk) (path data : Option Str) : Prop :=
  (path = none ∧ data = none) ∨ ∃ p d, path = some p ∧ D.contents p = some d ∧ data = some d

/-- Of two streams, which is inbound and which is outbound: a status line at the start of one decides, and
if there is none, a request line. -/
inductive Flow (a b : Option Str) : Option Str → Option Str → Prop
  | status1 : There id StartsWithStatus a → Flow a b b a
  | status2 : ¬There id StartsWithStatus a → There id StartsWithStatus b → Flow a b a b
  | request1 : ¬There id StartsWithStatus a → ¬There id StartsWithStatus b → There id StartsWithRequest a → Flow a b a b
  | request2 : ¬There id StartsWithStatus a → ¬There id StartsWithStatus b → ¬There id StartsWithRequest a →
      There id StartsWithRequest b → Flow a b b a

/-- Neither looks like HTTP/1.x. -/
def NotHttp (a b : Option Str) : Prop :=
  ∀ x ∈ [a, b], ¬There id StartsWithStatus x ∧ ¬There id StartsWithRequest x

/-- What comes of the two streams of a connection. -/
def Streamed (S : Setup) (inbound outbound : Option Str) (ys : List Yield) : Prop :=
  ∃ final, parseStreams (S.world.frame S.base.lower S.libs) (inbound.map SS.new) (outbound.map SS.new) = (ys, .ok final)

open Classical in
/-- What comes of a captured connection: 1278 if one side is missing, 1279 if it is not HTTP/1.x. -/
def CapturedPair (S : Setup) (a b : Option Str) (ys : List Yield) : Prop :=
  ∃ rest, ys = (if a = none ∨ b = none then [.box 1278] else []) ++ rest ∧
    ((NotHttp a b ∧ rest = [.box 1279]) ∨ ∃ i o, Flow a b i o ∧ Streamed S i o rest)

/-- The exchanges of a connection, all of which can be read. -/
def Conveyed (S : Setup) (D : Disk) (captures : Bool) (pair : PathPair) (ys : List Yield) : Prop :=
  ∃ a b, Contents D pair.1 a ∧ Contents D pair.2.1 b ∧
    ((captures = true ∧ CapturedPair S a b ys) ∨ (captures = false ∧ Streamed S a b ys))

/-- No response is dated so that the year 9999 ends before its age is added. -/
def AgesFit (S : Setup) (y : Yield) : Prop :=
  ∀ r ∈ (captured (some (str "http")) y).responses, ∀ d n, TimeText S.base.lower r.fields "Date" d →
    NumberText S.base.lower r.fields "Age" n → d + n ≤ 315537897599

/-- The exchange can be checked, and put in its place. -/
def Steady (S : Setup) (y : Yield) : Prop := ¬Breaks S (some (str "http")) y ∧ AgesFit S y

/-- A response tells the time: its date, and its age added if it has one. -/
def ResponseTime (lower : Str → Str) (r : Response) (t : Nat) : Prop :=
  ∃ d, TimeText lower r.fields "Date" d ∧
    ((∃ n, NumberText lower r.fields "Age" n ∧ t = d + n) ∨ ((¬∃ n, NumberText lower r.fields "Age" n) ∧ t = d))

/-- The request has a date. -/
def RequestTime (lower : Str → Str) (ex : Exchange) (t : Nat) : Prop :=
  ∃ req, ex.request = some req ∧ TimeText lower req.fields "Date" t

/-- The exchange tells the time: the request does, or else the first response that does. -/
def Tells (lower : Str → Str) (ex : Exchange) (t : Nat) : Prop :=
  RequestTime lower ex t ∨
    ((¬∃ u, RequestTime lower ex u) ∧ ∃ a r b, ex.responses = a ++ r :: b ∧
      (∀ x ∈ a, ¬∃ u, ResponseTime lower x u) ∧ ResponseTime lower r t)

/-- Time does not go back from one exchange to the next, nor from the hint; an exchange that does not tell
the time has that of the one before it. -/
def Advances (S : Setup) (time : Yield → Int) : Option Int → List Yield → Prop
  | _, [] => True
  | prev, y :: ys =>
    ((∃ t : Nat, Tells S.base.lower (captured (some (str "http")) y) t ∧ time y = t) ∨
      ((¬∃ t, Tells S.base.lower (captured (some (str "http")) y) t) ∧ prev = some (time y))) ∧
    (∀ p, prev = some p → p ≤ time y) ∧ Advances S time (some (time y)) ys

end Httpolice.Spec
