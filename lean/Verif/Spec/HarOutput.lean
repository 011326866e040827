import Verif.Model.HarOutput
import Verif.Spec.HarRun
import Verif.Spec.Output

/-!
# Specification of what a whole run on HAR files prints
-/

namespace Httpolice.Spec

open Httpolice.Model HarLib

/-- No text that goes into a title, and no title of a status code, contains a line feed. -/
def HarOneLine (V : HarWording) : Prop :=
  (∀ x t c, ∀ text ∈ V.title x t c, 10 ∉ text) ∧ ∀ n text, V.status n = some text → 10 ∉ text

/-- The method, the target and the reason phrases have no line feeds. -/
def HarNoFeeds (x : HarRequest × List HarResponse) : Prop :=
  10 ∉ x.1.method ∧ 10 ∉ x.1.target ∧ ∀ r ∈ x.2, ∀ reason, r.reason = some reason → 10 ∉ reason

/-- The line that tells of a notice: the letter of its severity in the catalogue, its number, its title. -/
def HarLineFor (V : HarWording) (x : HarRequest × List HarResponse) (t : Target) (c : Complaint Ctx) (line : Str) : Prop :=
  ∃ row ∈ noticeRows, row.id = c.id ∧
    line = [letter row.severity] ++ [32] ++ decimalText c.id ++ [32] ++
      detypographize (stripText (pieceText (V.title x t c)))

/-- The lines tell of just the notices that are to be shown on an object. -/
def HarTellsOf (S : Setup) (V : HarWording) (x : HarRequest × List HarResponse) (t : Target) (lines : List Str) : Prop :=
  ∀ line, line ∈ lines ↔ ∃ c, HarToShow S x t c ∧ HarLineFor V x t c line

/-- The line above the notices of an exchange. -/
def harHeading (x : HarRequest × List HarResponse) : Str :=
  ellipsize (str "------------ request: " ++ printable x.1.method ++ [32] ++ printable x.1.target) 79

/-- A number as text. -/
def signedText (n : Int) : Str := (if n < 0 then [45] else []) ++ decimalText n.natAbs

/-- The line above the notices of a response. The phrase is that of the response, or else the title of its status
code, or else a stopgap. -/
def harSubheading (V : HarWording) (r : HarResponse) : Str :=
  ellipsize (str "------------ response: " ++ signedText r.status ++ [32] ++
    printable (match r.reason, V.status r.status with
      | some (c :: s), _ => c :: s
      | _, some (c :: s) => c :: s
      | _, _ => str "(unknown)")) 60

/-- What is printed for an exchange: under the line for the exchange, the notices of the request, of each response under
a line of its own, and of the exchange. -/
def HarBlock (S : Setup) (V : HarWording) (x : HarRequest × List HarResponse) (block : Str) : Prop :=
  ∃ (reqLines : List Str) (groups : List (List Str)) (exchLines all : List Str),
    HarTellsOf S V x .req reqLines ∧ HarTellsOf S V x .exch exchLines ∧ groups.length = x.2.length ∧
    (∀ (i : Nat) r group, x.2[i]? = some r → groups[i]? = some group →
      ∃ lines, HarTellsOf S V x (.resp i) lines ∧ Under (harSubheading V r) lines group) ∧
    Under (harHeading x) (reqLines ++ groups.flatten ++ exchLines) all ∧ block = all.flatMap (· ++ [10])

end Httpolice.Spec
