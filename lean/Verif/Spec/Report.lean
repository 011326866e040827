import Verif.Model.TextReport

/-!
# Specification of the text report
-/

namespace Httpolice.Spec
open Httpolice.Model

/-- All notices of an exchange in the order of the report: those of the request, of the responses one
after the other, and of the exchange itself. -/
def noticesOf (e : TExch) : List TComplaint :=
  (e.request.toList.flatMap (·.complaints)) ++ (e.responses.flatMap (·.complaints)) ++ e.complaints

/-- The line that shows a notice, without its end. -/
def noticeLine (c : TComplaint) : Str :=
  (match c.severity with
    | .error => str "E "
    | .comment => str "C "
    | .debug => str "D ") ++
    decimalText c.id ++ str " " ++ detypographize (stripText (pieceText c.title))

/-- The lines of a text, each of which ends in a line feed; what follows the last line feed is left
out. -/
def linesOf : Str → List Str
  | [] => []
  | c :: s =>
    if c = 10 then [] :: linesOf s
    else
      match linesOf s with
      | [] => []
      | l :: ls => (c :: l) :: ls

/-- Nothing that is shown of an exchange contains a line feed. -/
def OneLiners (e : TExch) : Prop :=
  (∀ r, e.request = some r → 10 ∉ r.method ∧ 10 ∉ r.target) ∧
    (∀ r ∈ e.responses, 10 ∉ r.phrase) ∧ ∀ c ∈ noticesOf e, ∀ t ∈ c.title, 10 ∉ t

end Httpolice.Spec
