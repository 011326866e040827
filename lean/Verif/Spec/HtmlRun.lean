import Verif.Model.HtmlRun
import Verif.Spec.Html
import Verif.Spec.Output

/-!
# Specification of the HTML that a whole run writes
-/

namespace Httpolice.Spec

open Httpolice.Model

/-- The pieces of an annotated value spell the value. -/
def Spelled (V : Staging) : Prop :=
  ∀ y t s (e : Entry), ((V.annotated y t s e).flatMap fun | .bytes s => s | .known k => k.text) = e.value

/-- The class of the element for a notice of a severity. -/
def noticeClass : Severity → Str
  | .error => str "notice error"
  | .comment => str "notice comment"
  | .debug => str "notice debug"

/-- The element tells of the notice: the severity that it has in the catalogue, its number, its title and its
explanation, with values in the places of variables. -/
def NoticeElement (V : Staging) (y : Yield) (t : Target) (c : Complaint Ctx) (d : Doc) : Prop :=
  ∃ row ∈ noticeRows, row.id = c.id ∧ attrOf "class" d = some (noticeClass row.severity) ∧
    ∃ h rest, inside d = h :: rest ∧ nameOf h = str "h3" ∧
      (inside h).map textIn = [[letter row.severity], decimalText c.id, saidAll (V.ctx y t c) (V.title y t c)] ∧
      textsIn rest = saidAll (V.ctx y t c) (V.explanation y t c)

/-- The nodes tell of just the notices that are to be shown on an object: a box with an element for each, or nothing
if there are none. -/
def BoxFor (S : Setup) (V : Staging) (x : Option Str × Yield) (t : Target) (ds : List Doc) : Prop :=
  ((¬∃ c, ToShow S x.1 x.2 t c) ∧ ds = []) ∨
  ∃ box, ds = [box] ∧ attrOf "class" box = some (str "complaints") ∧ (∃ c, ToShow S x.1 x.2 t c) ∧
    (∀ d ∈ inside box, ∃ c, ToShow S x.1 x.2 t c ∧ NoticeElement V x.2 t c d) ∧
    ∀ c, ToShow S x.1 x.2 t c → ∃ d ∈ inside box, NoticeElement V x.2 t c d

/-- What is to be seen of a message: where it starts; the parts of its first line; its headers, and those of them that are
from its trailer. -/
structure Sheet where
  target : Target
  start : Nat
  line : List Str
  entries : List Entry
  trailers : List Entry

/-- The text of a version, unless it is empty. -/
def versionTexts (v : Str) : List Str := if v = [] then [] else [v]

/-- What is to be seen of the messages of an exchange: the request, then the responses. The phrase is that of the
response, or else the title of its status code, or else a stopgap. -/
def sheets (V : Staging) : Yield → List Sheet
  | .exch req resps =>
    (req.toList.map fun r => ⟨.req, r.msg.start, [r.method, r.target] ++ versionTexts r.version, r.msg.entries, r.msg.trailers⟩) ++
    resps.zipIdx.map fun (r, i) => ⟨.resp i, r.msg.start, versionTexts r.version ++ [decimalText r.status ++ [32] ++
      (if r.reason ≠ [] then r.reason else
        match shownIf (knownTitle (V.statusInfo r.status) false) with
        | some (c :: s) => c :: s
        | _ => str "(unknown)")], r.msg.entries, r.msg.trailers⟩
  | .box _ => []

/-- Headers as they are to be seen. -/
def entryTexts (es : List Entry) : List Str := es.map fun e => legible (e.name ++ [58, 32] ++ e.value)

/-- The section shows the message, and beside it just the notices that are to be shown on it. -/
def SectionFor (S : Setup) (V : Staging) (x : Option Str × Yield) (m : Sheet) (d : Doc) : Prop :=
  nameOf d = str "section" ∧ ∃ disp rest, inside d = disp :: rest ∧ BoxFor S V x m.target rest ∧
    attrOf "class" disp = some (str "message-display") ∧
    (classed "message-remark" [disp]).map textIn =
      [legible (str "from " ++ V.source x.2 m.target ++ str ", offset " ++ decimalText m.start)] ∧
    (elements "h2" [disp]).map (fun h => ((inside h).flatMap inside).map textIn) = [m.line.map legible] ∧
    (classed "header-entry" [disp]).map textIn = entryTexts m.entries ++ entryTexts m.trailers ∧
    ((classed "trailer" [disp]).flatMap fun t => (classed "header-entry" [t]).map textIn) = entryTexts m.trailers

/-- The block shows the exchange: a section for each message, then the notices on the exchange itself. -/
def BlockFor (S : Setup) (V : Staging) (x : Option Str × Yield) (d : Doc) : Prop :=
  nameOf d = str "div" ∧ attrOf "class" d = some (str "exchange") ∧
  ∃ sections box, BoxFor S V x .exch box ∧ Pairwise2 (SectionFor S V x) (sheets V x.2) sections ∧
    inside d = (sections ++ box).flatMap fun s => [s, .elem (str "hr") [] []]

/-- There is something to show: a message, or a notice. -/
def Substantial (S : Setup) (V : Staging) (x : Option Str × Yield) : Prop :=
  sheets V x.2 ≠ [] ∨ ∃ c, ToShow S x.1 x.2 .exch c

/-- What is written for an exchange: a block, or nothing if there is nothing to show. -/
def Written (S : Setup) (V : Staging) (x : Option Str × Yield) (ds : List Doc) : Prop :=
  (Substantial S V x ∧ ∃ d, ds = [d] ∧ BlockFor S V x d) ∨ (¬Substantial S V x ∧ ds = [])

/-- The classes of notices of severities that are the given one or higher. -/
def classesFrom : Severity → List Str
  | .error => [str "notice error"]
  | .comment => [str "notice error", str "notice comment"]
  | .debug => [str "notice error", str "notice comment", str "notice debug"]

end Httpolice.Spec
