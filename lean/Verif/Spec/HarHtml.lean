import Verif.Model.HarHtml
import Verif.Spec.HtmlRun
import Verif.Spec.HarOutput

/-!
# Specification of the HTML that a whole run on HAR files writes
-/

namespace Httpolice.Spec

open Httpolice.Model HarLib

/-- The pieces of an annotated value spell the value. -/
def HarSpelled (V : Nat → HarStaging) : Prop :=
  ∀ k t s (e : Entry), (((V k).annotated t s e).flatMap fun | .bytes s => s | .known k => k.text) = e.value

/-- The element tells of the notice: the severity that it has in the catalogue, its number, its title and its
explanation, with values in the places of variables. -/
def HarNoticeElement (V : HarStaging) (t : Target) (c : Complaint Ctx) (d : Doc) : Prop :=
  ∃ row ∈ noticeRows, row.id = c.id ∧ attrOf "class" d = some (noticeClass row.severity) ∧
    ∃ h rest, inside d = h :: rest ∧ nameOf h = str "h3" ∧
      (inside h).map textIn = [[letter row.severity], decimalText c.id, saidAll (V.ctx t c) (V.title t c)] ∧
      textsIn rest = saidAll (V.ctx t c) (V.explanation t c)

/-- The nodes tell of just the notices that are to be shown on an object: a box with an element for each, or nothing
if there are none. -/
def HarBoxFor (S : Setup) (V : HarStaging) (x : HarRequest × List HarResponse) (t : Target) (ds : List Doc) : Prop :=
  ((¬∃ c, HarToShow S x t c) ∧ ds = []) ∨
  ∃ box, ds = [box] ∧ attrOf "class" box = some (str "complaints") ∧ (∃ c, HarToShow S x t c) ∧
    (∀ d ∈ inside box, ∃ c, HarToShow S x t c ∧ HarNoticeElement V t c d) ∧
    ∀ c, HarToShow S x t c → ∃ d ∈ inside box, HarNoticeElement V t c d

/-- What is to be seen of a message: the parts of its first line, and its headers. -/
structure HarSheet where
  target : Target
  line : List Str
  entries : List Entry

/-- What is to be seen of the messages of an exchange: the request, then the responses. The phrase is that of the
response, or else the title of its status code, or else a stopgap. -/
def harSheets (V : HarStaging) (x : HarRequest × List HarResponse) : List HarSheet :=
  ⟨.req, [x.1.method, x.1.target] ++ versionTexts (x.1.version.getD []), x.1.headers⟩ ::
    x.2.zipIdx.map fun (r, i) => ⟨.resp i, versionTexts (r.version.getD []) ++ [signedText r.status ++ [32] ++
      (match r.reason, shownIf (knownTitle (V.statusInfo r.status) false) with
        | some (c :: s), _ => c :: s
        | _, some (c :: s) => c :: s
        | _, _ => str "(unknown)")], r.headers⟩

/-- The section shows the message, and beside it just the notices that are to be shown on it. -/
def HarSectionFor (S : Setup) (V : HarStaging) (x : HarRequest × List HarResponse) (m : HarSheet) (d : Doc) : Prop :=
  nameOf d = str "section" ∧ ∃ disp rest, inside d = disp :: rest ∧ HarBoxFor S V x m.target rest ∧
    attrOf "class" disp = some (str "message-display") ∧
    (classed "message-remark" [disp]).map textIn = [legible (str "from " ++ V.path)] ∧
    (elements "h2" [disp]).map (fun h => ((inside h).flatMap inside).map textIn) = [m.line.map legible] ∧
    (classed "header-entry" [disp]).map textIn = entryTexts m.entries ∧ classed "trailer" [disp] = []

/-- The block shows the exchange: a section for each message, then the notices on the exchange itself. -/
def HarBlockFor (S : Setup) (V : HarStaging) (x : HarRequest × List HarResponse) (d : Doc) : Prop :=
  nameOf d = str "div" ∧ attrOf "class" d = some (str "exchange") ∧
  ∃ sections box, HarBoxFor S V x .exch box ∧ Pairwise2 (HarSectionFor S V x) (harSheets V x) sections ∧
    inside d = (sections ++ box).flatMap fun s => [s, .elem (str "hr") [] []]

end Httpolice.Spec
