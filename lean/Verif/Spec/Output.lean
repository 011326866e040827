import Verif.Model.Output
import Verif.Spec.StreamRun
import Verif.Spec.Report

/-!
# Specification of what a whole run prints
-/

namespace Httpolice.Spec

open Httpolice.Model

/-- No text that goes into a title, and no title of a status code, contains a line feed. -/
def OneLine (V : Wording) : Prop :=
  (∀ y t c, ∀ text ∈ V.title y t c, 10 ∉ text) ∧ ∀ n text, V.status n = some text → 10 ∉ text

/-- The letter that stands for a severity. -/
def letter : Severity → Nat
  | .error => 69
  | .comment => 67
  | .debug => 68

/-- The line that tells of a notice: the letter of its severity in the catalogue, its number, its title. -/
def LineFor (V : Wording) (y : Yield) (t : Target) (c : Complaint Ctx) (line : Str) : Prop :=
  ∃ row ∈ noticeRows, row.id = c.id ∧
    line = [letter row.severity] ++ [32] ++ decimalText c.id ++ [32] ++
      detypographize (stripText (pieceText (V.title y t c)))

/-- The lines tell of just the notices that are to be shown on an object. -/
def TellsOf (S : Setup) (V : Wording) (x : Option Str × Yield) (t : Target) (lines : List Str) : Prop :=
  ∀ line, line ∈ lines ↔ ∃ c, ToShow S x.1 x.2 t c ∧ LineFor V x.2 t c line

/-- The line above the notices of an exchange. -/
def heading : Yield → Str
  | .exch (some r) _ => ellipsize (str "------------ request: " ++ printable r.method ++ [32] ++ printable r.target) 79
  | .exch none (_ :: _) => str "------------ unknown request"
  | _ => str "------------"

/-- The line above the notices of a response. The phrase is that of the response, or else the title of its status
code, or else a stopgap. -/
def subheading (V : Wording) (r : FResp) : Str :=
  ellipsize (str "------------ response: " ++ decimalText r.status ++ [32] ++
    printable (if r.reason ≠ [] then r.reason else
      match V.status r.status with
      | some (c :: s) => c :: s
      | _ => str "(unknown)")) 60

/-- The responses of what is yielded. -/
def responsesOf : Yield → List FResp
  | .exch _ rs => rs
  | .box _ => []

/-- A group of lines under the line above them, if there are any. -/
def Under (top : Str) (lines group : List Str) : Prop :=
  (lines = [] ∧ group = []) ∨ (lines ≠ [] ∧ group = top :: lines)

/-- What is printed for an exchange: under the line for the exchange, the notices of the request, of each response under
a line of its own, and of the exchange. -/
def Block (S : Setup) (V : Wording) (x : Option Str × Yield) (block : Str) : Prop :=
  ∃ (reqLines : List Str) (groups : List (List Str)) (exchLines all : List Str), TellsOf S V x .req reqLines ∧ TellsOf S V x .exch exchLines ∧
    groups.length = (responsesOf x.2).length ∧
    (∀ (i : Nat) r group, (responsesOf x.2)[i]? = some r → groups[i]? = some group →
      ∃ lines, TellsOf S V x (.resp i) lines ∧ Under (subheading V r) lines group) ∧
    Under (heading x.2) (reqLines ++ groups.flatten ++ exchLines) all ∧ block = all.flatMap (· ++ [10])

/-- The letters of severities that are the given one or higher. -/
def lettersFrom : Severity → List Nat
  | .error => [69]
  | .comment => [69, 67]
  | .debug => [69, 67, 68]

end Httpolice.Spec
