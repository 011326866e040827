import Verif.Model.HarRun
import Verif.Spec.Run
import Verif.Spec.Har

/-!
# Specification of a whole run on HAR files
-/

namespace Httpolice.Spec

open Httpolice.Model HarLib

/-- The exchange with the messages that were recorded. There are no trailers, and nothing is known of proxies. -/
def recorded (x : HarRequest × List HarResponse) : Exchange where
  request := some
    { version := x.1.version, fields := { headers := x.1.headers, trailers := [] }, body := x.1.body,
      payload := ⟨[], none, none⟩, scheme := some x.1.scheme, method := x.1.method, target := x.1.target,
      proxyUnknown := true }
  responses := x.2.map fun r =>
    { version := r.version, fields := { headers := r.headers, trailers := [] }, body := r.body,
      payload := ⟨[], none, none⟩, status := r.status, reason := r.reason }

/-- The text of a body was recorded. -/
def TextIs (j : Option Json) (t : Option Str) : Prop := j = t.map Json.text

/-- Payloads that were recorded for the messages. -/
structure Payloads (x : HarRequest × List HarResponse) (given : Target → Assigned) : Prop where
  request : (given .req).decoded = none ∧ TextIs x.1.unicodeBody (given .req).unicode
  responses : ∀ i r, x.2[i]? = some r → (given (.resp i)).decoded = r.decodedBody ∧ TextIs r.unicodeBody (given (.resp i)).unicode

/-- The notice is to be shown on the object of an exchange: a check reports it, and it is silenced neither by
an option nor by a header. -/
def HarToShow (S : Setup) (x : HarRequest × List HarResponse) (t : Target) (c : Complaint Ctx) : Prop :=
  (∃ given, Payloads x given ∧
    Reported (S.world.all S.base) (loadPayloads S.libs (S.world.all S.base) S.world.codings given (recorded x)) t c) ∧
  c.id ∉ S.silence ∧ ¬SilencedText S.base.lower (recorded x) c.id t

/-- The exchange is shown with just the notices that are to be shown. -/
def HarShown (S : Setup) (x : HarRequest × List HarResponse) (b : ExchBoards Ctx) : Prop :=
  (b.request.isSome = true ∧ b.responses.length = x.2.length) ∧
  ∀ t c, (∃ obj, b.get t = some obj ∧ c ∈ obj.complaints) ↔ HarToShow S x t c

/-- A valid file by the given creator with the given entries. -/
def ValidFile (L : HarLib) (f : Json) : Prop := ∃ creator es, FileOf f creator es ∧ ∀ e ∈ es, ValidEntry L e

/-- The exchanges of a file. -/
def ExchangesOf (L : HarLib) (f : Json) (xs : List (HarRequest × List HarResponse)) : Prop :=
  ∃ creator es, FileOf f creator es ∧ Pairwise2 (ExchangeOf L creator) es xs

/-- No exchange of the file makes the checks raise an exception. -/
def Calm (S : Setup) (L : HarLib) (f : Json) : Prop :=
  ∀ creator es, FileOf f creator es → ∀ e ∈ es, ∀ x, ExchangeOf L creator e x → ¬Raising S.base.lower (recorded x)

end Httpolice.Spec
