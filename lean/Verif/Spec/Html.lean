import Verif.Model.Html
import Verif.Props.Text
import Verif.Spec.Negotiation

/-!
# Specification of the HTML report
-/

namespace Httpolice.Spec
open Httpolice.Model Httpolice.Props

/-! ## Looking at a document -/

mutual

/-- The text in a node. -/
def textIn : Doc → Str
  | .text s => s
  | .elem _ _ cs => textsIn cs

/-- The text in several nodes, one after the other. -/
def textsIn : List Doc → Str
  | [] => []
  | d :: ds => textIn d ++ textsIn ds

end

/-- What is inside an element. -/
def inside : Doc → List Doc
  | .text _ => []
  | .elem _ _ cs => cs

/-- The name of an element. -/
def nameOf : Doc → Str
  | .text _ => []
  | .elem t _ _ => t

/-- An attribute of an element. -/
def attrOf (a : String) : Doc → Option Str
  | .text _ => none
  | .elem _ as _ => as.lookup (str a)

mutual

/-- All nodes, in the order of the document. -/
def nodesOf : Doc → List Doc
  | .text s => [.text s]
  | .elem t as cs => .elem t as cs :: nodesIn cs

/-- The same for several nodes. -/
def nodesIn : List Doc → List Doc
  | [] => []
  | d :: ds => nodesOf d ++ nodesIn ds

end

/-- The elements of a class. -/
def classed (c : String) (ds : List Doc) : List Doc :=
  (nodesIn ds).filter fun d => attrOf "class" d = some (str c)

/-- The elements of a name. -/
def elements (t : String) (ds : List Doc) : List Doc := (nodesIn ds).filter fun d => nameOf d = str t

/-- The elements that refer to something: the references, and the text. -/
def pointers (ds : List Doc) : List (Str × Str) :=
  (nodesIn ds).filterMap fun d => (attrOf "data-ref-to" d).map fun r => (r, textIn d)

/-! ## References -/

/-- The text of an attribute if the object `o` has the number `f o`. -/
def attrWith (f : Nat → Nat) : HAttr → Str
  | .lit s => s
  | .place o => decimalText (f o)
  | .links os => joinWith (str " ") (os.map fun o => decimalText (f o))

mutual

/-- A node if the object `o` has the number `f o`. -/
def docWith (f : Nat → Nat) : Html → Doc
  | .text s => .text s
  | .elem t as cs => .elem t (as.map fun a => (a.1, attrWith f a.2)) (docsWith f cs)

/-- The same for several nodes. -/
def docsWith (f : Nat → Nat) : List Html → List Doc
  | [] => []
  | h :: hs => docWith f h :: docsWith f hs

end

/-- Any two objects have different numbers. -/
def Distinct (f : Nat → Nat) : Prop := ∀ a b, f a = f b → a = b

/-- Reports made one after the other. -/
def reportsFrom (seen : List Nat) : List (List HExch) → List (List Doc)
  | [] => []
  | es :: rest => (htmlReport seen es).1 :: reportsFrom (htmlReport seen es).2 rest

/-- The same objects with other identities. -/
def attrMoved (σ : Nat → Nat) : HAttr → HAttr
  | .lit s => .lit s
  | .place o => .place (σ o)
  | .links os => .links (os.map σ)

mutual

/-- The same node where objects have other identities. -/
def moved (σ : Nat → Nat) : Html → Html
  | .text s => .text s
  | .elem t as cs => .elem t (as.map fun a => (a.1, attrMoved σ a.2)) (movedAll σ cs)

/-- The same for several nodes. -/
def movedAll (σ : Nat → Nat) : List Html → List Html
  | [] => []
  | h :: hs => moved σ h :: movedAll σ hs

end

/-! ## What is said -/

/-- Text where characters that cannot be displayed are replaced. -/
def legible (s : Str) : Str := s.map fun c => if Forbidden c then 0xFFFD else c

/-- The title of a citation. -/
def citeTitle (c : Citation) : Str := match c.title with | some t => t.show | none => []

mutual

/-- The text that stands for a value. -/
def valueText : PVal → Str
  | .plain _ s => legible s
  | .known k => legible k.text
  | .header _ k => legible k.text
  | .symbol _ name none => legible name
  | .symbol _ name (some c) => legible name ++ str " (" ++ citeTitle c ++ str ")"
  | .param _ v => valueText v
  | .list vs => valueTexts vs
  | .citation _ c => citeTitle c

/-- The same for several values. -/
def valueTexts : List PVal → Str
  | [] => []
  | v :: vs => valueText v ++ valueTexts vs

end

/-- The paragraph about one thing that was expected. -/
def expectation (first : Bool) (e : Str × List PVal) : Str :=
  let option := legible e.1
  let within := joinWith (str " or ") (e.2.map valueText)
  if e.1 = [] then within
  else (if first then [] else str "or ") ++ option ++ (if e.2 = [] then [] else str " as part of " ++ within)

/-- The paragraphs about a parse error: what was being read, where it stopped, what was found there,
and what was expected. -/
def errorTexts (e : HError) : List Str :=
  e.name.toList.map valueText ++
    [str "Parse error at offset " ++ decimalText e.position ++ str "."] ++
    (match e.found with
      | none => []
      | some none => [str "Found end of data."]
      | some (some c) => [legible (str "Found: " ++ formatChars [c])]) ++
    [str "Expected:"] ++
    (e.expected.take 1).map (expectation true) ++ (e.expected.drop 1).map (expectation false)

mutual

/-- What a part of a notice says. -/
def said (ctx : NoticeCtx) : NPiece → Str
  | .text s => legible s
  | .para ps => saidAll ctx ps
  | .known _ _ k => legible k.text
  | .var path => valueText (ctx.lookup path)
  | .exc =>
    match ctx.error with
    | .parse e => (errorTexts e).flatten
    | .other v => valueText v
  | .cite c [] => citeTitle c
  | .cite c (q :: qs) => citeTitle c ++ str ": " ++ (said ctx q ++ saidAll ctx qs)
  | .ref _ => []

/-- What several parts say. -/
def saidAll (ctx : NoticeCtx) : List NPiece → Str
  | [] => []
  | p :: ps => said ctx p ++ saidAll ctx ps

end

mutual

/-- What a value consists of, if it is highlighted: the entries of a header, the members of a list. -/
def spots : PVal → List Nat
  | .plain o _ => [o]
  | .known k => [k.oid]
  | .header os _ => os
  | .symbol o _ _ => [o]
  | .param o _ => [o]
  | .list vs => allSpots vs
  | .citation o _ => [o]

/-- The same for several values. -/
def allSpots : List PVal → List Nat
  | [] => []
  | v :: vs => spots v ++ allSpots vs

end

/-- What is highlighted for the name of something: the entries of a header of that name; the method
of the message, or of its request, if it is this one; the status code, if it is this one. -/
def mentioned (kind : MagicKind) (name : Str) (m : MagicMsg) : List Nat :=
  match kind with
  | .field => m.headers name
  | .method => (((m.method.toList ++ m.requestMethod.toList).filter fun t => t.text = name).take 1).map (·.oid)
  | .status => (m.status.toList.filter fun t => t.text = name).map (·.oid)
  | .other => []

mutual

/-- What a part of a notice refers to: the objects, and the text that refers to them. -/
def references (ctx : NoticeCtx) : NPiece → List (List Nat × Str)
  | .text _ => []
  | .para ps => referencesAll ctx ps
  | .known true _ k => [([], legible k.text)]
  | .known false kind k =>
    [((match ctx.msg with | some m => mentioned kind k.text m | none => []), legible k.text)]
  | .var path => [(spots (ctx.lookup path), valueText (ctx.lookup path))]
  | .exc => []
  | .cite _ ps => referencesAll ctx ps
  | .ref path => [(spots (ctx.lookup path), [])]

/-- The same for several parts. -/
def referencesAll (ctx : NoticeCtx) : List NPiece → List (List Nat × Str)
  | [] => []
  | p :: ps => references ctx p ++ referencesAll ctx ps

end

/-- A reference as it is written if the object `o` has the number `f o`. -/
def written (f : Nat → Nat) (r : List Nat × Str) : Str × Str :=
  (joinWith (str " ") (r.1.map fun o => decimalText (f o)), r.2)

/-! ## What is shown -/

/-- The element shows the complaint: its severity, its number, its title, its explanation, and
references to what it is about. -/
structure ShowsNotice (f : Nat → Nat) (c : HComplaint) (d : Doc) : Prop where
  severity : attrOf "class" d = some (match c.severity with
    | .error => str "notice error"
    | .comment => str "notice comment"
    | .debug => str "notice debug")
  heading : ∃ h rest, inside d = h :: rest ∧ nameOf h = str "h3" ∧
    (inside h).map textIn = [(match c.severity with
      | .error => str "E"
      | .comment => str "C"
      | .debug => str "D"), decimalText c.id, saidAll c.ctx c.title] ∧
    textsIn rest = saidAll c.ctx c.explanation
  pointers : pointers [d] = (referencesAll c.ctx (c.title ++ c.explanation)).map (written f)

/-- The nodes show the complaints, in this order. -/
def ShowsNotices (f : Nat → Nat) (cs : List HComplaint) (ds : List Doc) : Prop :=
  if cs = [] then ds = []
  else ∃ box, ds = [box] ∧ attrOf "class" box = some (str "complaints") ∧
    Pairwise2 (ShowsNotice f) cs (inside box)

/-- The line of a header: its name and its value. -/
def entryText (e : HEntry) : Str :=
  legible (e.name.text ++ str ": " ++ e.value.flatMap fun | .bytes s => s | .known k => k.text)

/-- Headers as they are shown: the number of the entry, and the line. -/
def entryLines (f : Nat → Nat) (es : List HEntry) : List (Option Str × Str) :=
  es.map fun e => (some (decimalText (f e.oid)), entryText e)

/-- What is shown in place of the body: nothing if it is empty, otherwise headings and text. -/
def bodyLines : HBody → List (List (Str × Str))
  | .unknown => [[(str "h3", str "Body is unknown")]]
  | .unavailable => [[(str "h3", str "Body is present, but not available for inspection")]]
  | .shown [] _ => []
  | .shown t [] => [[(str "pre", t)]]
  | .shown t ts => [[(str "h3", str "Body after " ++ nicelyJoin ts), (str "pre", t)]]

/-- A remark as it is shown. -/
def remarkLines : Option Str → List Str
  | none => []
  | some [] => []
  | some r => [legible r]

/-- A version as it is shown, with its number. -/
def versionPart (f : Nat → Nat) : Option HText → List (Option Str × Str)
  | none => []
  | some v => if v.text = [] then [] else [(some (decimalText (f v.oid)), legible v.text)]

/-- The first line of a request: method, target, version. -/
def requestLine (f : Nat → Nat) (r : HReq) : List (Option Str × Str) :=
  [(some (decimalText (f r.method.oid)), legible r.method.text),
    (some (decimalText (f r.target.oid)), legible r.target.text)] ++ versionPart f r.version

/-- The first line of a response: version, status code with the reason, if need be the usual one. -/
def statusLine (f : Nat → Nat) (r : HResp) : List (Option Str × Str) :=
  versionPart f r.version ++
    [(some (decimalText (f r.status.oid)), legible (r.status.text ++ str " " ++
      findReasonPhrase r.reason (shownIf (knownTitle r.status.info false))))]

/-- The section shows the message with this first line: remark, first line, headers, body, headers
from the trailer, complaints. -/
structure ShowsMessage (f : Nat → Nat) (line : List (Option Str × Str)) (m : HMessage) (d : Doc) :
    Prop where
  name : nameOf d = str "section"
  parts : ∃ disp rest, inside d = disp :: rest ∧ ShowsNotices f m.complaints rest ∧
    attrOf "class" disp = some (str "message-display") ∧
    (classed "message-remark" [disp]).map textIn = remarkLines m.remark ∧
    (elements "h2" [disp]).map (fun h => ((inside h).flatMap inside).map fun s =>
      (attrOf "data-ref-id" s, textIn s)) = [line] ∧
    (classed "header-entry" [disp]).map (fun e => (attrOf "data-ref-id" e, textIn e)) =
      entryLines f m.entries ++ entryLines f m.trailers ∧
    (classed "trailer" [disp]).map (fun t => (classed "header-entry" [t]).map fun e =>
      (attrOf "data-ref-id" e, textIn e)) =
      (if m.trailers = [] then [] else [entryLines f m.trailers]) ∧
    (classed "body-display" [disp]).map (fun b => (attrOf "data-ref-id" b,
      (inside b).map fun c => (nameOf c, textIn c))) =
      (bodyLines (displayableBody m.body)).map fun ls => (some (decimalText (f m.bodyOid)), ls)

/-- The form of a body that is shown: as JSON if it is that, otherwise as text, otherwise without
its codings, otherwise as it is. -/
def bestForm (b : BodySource) : Option Str := ((b.json.or b.unicode).or b.decoded).or b.raw

/-- Phrases for what was done to a body to show it, in this order, where `t` is its best form. -/
def transformations (b : BodySource) (t : Str) : List Str :=
  ([(b.hasTransferEncoding, str "removing Transfer-Encoding"),
    (b.hasContentEncoding && (b.json.isSome || b.unicode.isSome || b.decoded.isSome),
      str "removing Content-Encoding"),
    ((b.json.isSome || b.unicode.isSome) && b.charset.getD [] ≠ [] && b.charset ≠ some (str "utf-8"),
      str "decoding from " ++ b.charset.getD []),
    (b.json.isSome, str "pretty-printing"),
    (1000 < t.length, str "taking the first 1000 characters"),
    ((t.take 1000).any fun c => Forbidden c,
      str "replacing non-printable characters with the � sign")].filter (·.1)).map (·.2)

/-- The messages of an exchange with their first lines: the request, then the responses. -/
def messagesOf (f : Nat → Nat) (e : HExch) : List (List (Option Str × Str) × HMessage) :=
  e.request.toList.map (fun r => (requestLine f r, r.msg)) ++
    e.responses.map fun r => (statusLine f r, r.msg)

/-- The block shows the exchange: each message in a section, then its own complaints. -/
structure ShowsExchange (f : Nat → Nat) (e : HExch) (d : Doc) : Prop where
  name : nameOf d = str "div"
  cls : attrOf "class" d = some (str "exchange")
  parts : ∃ ss cs, inside d = ss.flatMap (fun s => [s, .elem (str "hr") [] []]) ++ cs ∧
    Pairwise2 (fun m s => ShowsMessage f m.1 m.2 s) (messagesOf f e) ss ∧
    ((e.complaints = [] ∧ cs = []) ∨
      ∃ ds, cs = ds ++ [.elem (str "hr") [] []] ∧ e.complaints ≠ [] ∧ ShowsNotices f e.complaints ds)

/-- There is something to show. -/
def HasParts (e : HExch) : Bool :=
  e.request.isSome || !e.responses.isEmpty || !e.complaints.isEmpty

/-! ## Markup -/

/-- The elements that are used. -/
def elementNames : List Str :=
  ["div", "section", "p", "h2", "h3", "code", "pre", "span", "a", "abbr", "cite", "q", "hr"].map str

/-- The attributes that are used, except links. -/
def classNames : List Str :=
  ["exchange", "message-display", "message-remark", "StatusCode", "header-entry", "body-display",
    "trailer", "complaints", "notice error", "notice comment", "notice debug", "severity",
    "ident"].map str

/-- The citation of something known. -/
def knownCites (k : HKnown) : List (Citation × Option Str) :=
  match k.info.get (str "citation") with
  | some (.cite c) => [(c, shownIf (knownTitle k.info true))]
  | _ => []

mutual

/-- Citations in a value. -/
def valueCites : PVal → List (Citation × Option Str)
  | .plain _ _ => []
  | .known k => knownCites k
  | .header _ k => knownCites k
  | .symbol _ _ c => c.toList.map (·, none)
  | .param _ v => valueCites v
  | .list vs => valuesCites vs
  | .citation _ c => [(c, none)]

/-- The same for several values. -/
def valuesCites : List PVal → List (Citation × Option Str)
  | [] => []
  | v :: vs => valueCites v ++ valuesCites vs

end

/-- Citations in an error. -/
def errorCites : ErrorVal → List (Citation × Option Str)
  | .other v => valueCites v
  | .parse e => e.name.toList.flatMap valueCites ++ e.expected.flatMap fun x => x.2.flatMap valueCites

mutual

/-- Citations in a part of a notice. -/
def pieceCites (ctx : NoticeCtx) : NPiece → List (Citation × Option Str)
  | .text _ => []
  | .para ps => piecesCites ctx ps
  | .known _ _ k => knownCites k
  | .var path => valueCites (ctx.lookup path)
  | .exc => errorCites ctx.error
  | .cite c ps => (c, none) :: piecesCites ctx ps
  | .ref _ => []

/-- The same for several parts. -/
def piecesCites (ctx : NoticeCtx) : List NPiece → List (Citation × Option Str)
  | [] => []
  | p :: ps => pieceCites ctx p ++ piecesCites ctx ps

end

/-- Citations in complaints. -/
def complaintCites (cs : List HComplaint) : List (Citation × Option Str) :=
  cs.flatMap fun c => piecesCites c.ctx (c.title ++ c.explanation)

/-- Citations in headers. -/
def entryCites (es : List HEntry) : List (Citation × Option Str) :=
  es.flatMap fun e => knownCites e.name ++ e.value.flatMap fun
    | .bytes _ => []
    | .known k => knownCites k

/-- Citations in a message. -/
def messageCites (m : HMessage) : List (Citation × Option Str) :=
  entryCites m.entries ++ entryCites m.trailers ++ complaintCites m.complaints

/-- All citations in an exchange: documents that are linked to, with the title of what is known. -/
def citesOf (e : HExch) : List (Citation × Option Str) :=
  e.request.toList.flatMap (fun r => knownCites r.method ++ messageCites r.msg) ++
    e.responses.flatMap (fun r => knownCites r.status ++ messageCites r.msg) ++
    complaintCites e.complaints

/-- An attribute that may be there, given the citations. -/
def AttrFine (cites : List (Citation × Option Str)) (a : Str × Str) : Prop :=
  (a.1 = str "class" ∧ a.2 ∈ classNames) ∨
  (a.1 = str "href" ∧ ∃ c ∈ cites, a.2 = c.1.url.show) ∨
  (a.1 = str "title" ∧ (a.2 ∈ ["error", "comment", "debug"].map str ∨ ∃ c ∈ cites, c.2 = some a.2)) ∨
  ((a.1 = str "data-ref-id" ∨ a.1 = str "data-ref-to") ∧ ∀ c ∈ a.2, c = 32 ∨ 48 ≤ c ∧ c ≤ 57)

/-- A node that may be there, given the citations: an element and attributes from the list, or text
that can be displayed. -/
def NodeFine (cites : List (Citation × Option Str)) : Doc → Prop
  | .text s => ∀ c ∈ s, ¬ Forbidden c
  | .elem t as _ => t ∈ elementNames ∧ ∀ a ∈ as, AttrFine cites a

/-- What is displayed although it is not text of a message can be displayed: titles of documents and
the name of the charset. -/
def Displayable (e : HExch) : Prop :=
  (∀ c ∈ citesOf e, ∀ x ∈ citeTitle c.1, ¬ Forbidden x) ∧
    (∀ m ∈ e.request.toList.map (·.msg) ++ e.responses.map (·.msg), ∀ cs, m.body.charset = some cs →
      ∀ x ∈ cs, ¬ Forbidden x)

/-! ## The text report -/

/-- A title as they are: texts, names of things and values, where citations have titles. -/
def IsTitle (ctx : NoticeCtx) (ps : List NPiece) : Prop :=
  ∀ p ∈ ps, (∃ s, p = .text s) ∨ (∃ n kind k, p = .known n kind k) ∨
    ∃ path, p = .var path ∧ ∀ c ∈ valueCites (ctx.lookup path), c.2 = none →
      optTrue c.1.title = true ∧ ∀ x ∈ citeTitle c.1, ¬ Forbidden x

end Httpolice.Spec
