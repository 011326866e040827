import Verif.Model.Catalogue

/-!
# When a notice can be shown
-/

namespace Httpolice.Spec

open Httpolice.Model

/-- The notice is in the catalogue, every reference in its text leads to something, and if its text
has a place for details of an error, there is an error. -/
def Shown (E : Env) (ex : Exchange) (t : Target) (c : Complaint Ctx) : Prop :=
  ∃ row ∈ noticeRows, row.id = c.id ∧
    (∀ path ∈ row.references, ∃ x, resolveReference E ex t c.ctx path = some x) ∧
    (row.details = true → ∃ d, ("error", d) ∈ c.ctx)

end Httpolice.Spec
