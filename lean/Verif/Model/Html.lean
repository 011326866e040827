import Verif.Model.Knowledge

/-!
# Model of `httpolice/reports/html.py`

The report is built as a tree of elements with Dominate, which turns it into text; that part (and
the fixed head of the document with its style and script, html.py 44-63, 107-114) is left out. The
list of all notices (66-104) is in `NoticeXml`. Python objects that can be highlighted are known by their `id()`,
a number. References between elements (231-260) are numbers that are given out in the order in which
elements are created, which is the order of the document; here the tree first has the objects
themselves (`HAttr.place`, `HAttr.links`) and `number` goes through it afterwards.
-/

namespace Httpolice.Model

/-- The value of an attribute: text, the object that is displayed, or the objects referred to
(httpolice/reports/html.py 233-260). -/
inductive HAttr
  | lit (s : Str)
  | place (o : Nat)
  | links (os : List Nat)
deriving DecidableEq, Repr

/-- A node of the document (httpolice/reports/html.py 26-63). -/
inductive Html
  | text (s : Str)
  | elem (tag : Str) (attrs : List (Str × HAttr)) (children : List Html)

/-- An instance of one of `known.classes`: its `id()`, its text `str(obj)`, and what `known.get`
returns for it (httpolice/reports/html.py 295-305). -/
structure HKnown where
  oid : Nat
  text : Str
  info : Dict KCell

/-- A string that is displayed (target, version) (httpolice/reports/html.py 138-174, 252-257). -/
structure HText where
  oid : Nat
  text : Str

/-- A piece of an annotated string: bytes, or an object made from them (parse.py, `_splice`). -/
inductive HPiece
  | bytes (s : Str)
  | known (k : HKnown)

/-- A header entry with its annotated value (message.py 58-66). -/
structure HEntry where
  oid : Nat
  name : HKnown
  value : List HPiece

/-- `displayable_body` (message.py 198-241): the body, and how it was transformed for display. -/
inductive HBody
  | unknown
  | unavailable
  | shown (text : Str) (transforms : List Str)
deriving DecidableEq, Repr

/-- `displayable_body` (message.py 198-241) from what it looks at: whether the message has
`Transfer-Encoding` and `Content-Encoding`, the charset, and the first of `json_data` (pretty-printed),
`unicode_body`, `decoded_body` and `body` (the last two decoded with replacements) that is okay;
whether `body` is an `Unavailable`. -/
structure BodySource where
  hasTransferEncoding : Bool
  hasContentEncoding : Bool
  charset : Option Str
  json : Option Str
  unicode : Option Str
  decoded : Option Str
  raw : Option Str
  unavailable : Bool

/-- The first of the forms of the body, with what was done (message.py 205-228). -/
def bodyForm (b : BodySource) : Option (Str × List Str) :=
  let te := if b.hasTransferEncoding then [str "removing Transfer-Encoding"] else []
  let ce := if b.hasContentEncoding then [str "removing Content-Encoding"] else []
  let cs := match b.charset with
    | some c => if !c.isEmpty && c ≠ str "utf-8" then [str "decoding from " ++ c] else []
    | none => []
  match b.json, b.unicode, b.decoded, b.raw with
  | some j, _, _, _ => some (j, te ++ ce ++ cs ++ [str "pretty-printing"])
  | none, some u, _, _ => some (u, te ++ ce ++ cs)
  | none, none, some d, _ => some (d, te ++ ce)
  | none, none, none, some r => some (r, te)
  | none, none, none, none => none

/-- `displayable_body` (message.py 198-241). -/
def displayableBody (b : BodySource) : HBody :=
  match bodyForm b with
  | none => if b.unavailable then .unavailable else .unknown
  | some (r, transforms) =>
    let cut := r.take 1000
    let transforms := if r.length > 1000 then
      transforms ++ [str "taking the first 1000 characters"] else transforms
    let pr := printable cut
    if cut ≠ pr then
      .shown pr (transforms ++ [str "replacing non-printable characters with the � sign"])
    else .shown cut transforms

/-- Any value that a notice refers to, as far as it is shown: by `str()`; as an instance of a known
class; a header, by its canonical name, with its entries; a grammar symbol; something with
parameters; a list; a citation (httpolice/reports/common.py 23-53). -/
inductive PVal
  | plain (oid : Nat) (s : Str)
  | known (k : HKnown)
  | header (oids : List Nat) (name : HKnown)
  | symbol (oid : Nat) (name : Str) (cite : Option Citation)
  | param (oid : Nat) (item : PVal)
  | list (xs : List PVal)
  | citation (oid : Nat) (c : Citation)

/-- What `_magic_references` looks at in an element such as `<h/>` or `<st/>` (html.py 263-288). -/
inductive MagicKind
  | field
  | method
  | status
  | other
deriving DecidableEq, Repr

/-- Elements inside a notice (notice.py 75-168), read: `<explain/>`; `<h/>`, `<st/>` and the like,
with `ref="no"` or not; `<var/>`; `<exception/>`; `<cite/>` and `<rfc/>`; `<ref/>`. -/
inductive NPiece
  | text (s : Str)
  | para (content : List NPiece)
  | known (noRef : Bool) (kind : MagicKind) (k : HKnown)
  | var (path : List Str)
  | exc
  | cite (info : Citation) (quote : List NPiece)
  | ref (path : List Str)

/-- `ParseError` as it is shown: its name; where; what was found (`none` if this is not known, empty
for the end of data); what was expected, each with the symbols it is part of
(httpolice/reports/common.py 54-73). -/
structure HError where
  name : Option PVal
  position : Nat
  found : Option (Option Nat)
  expected : List (Str × List PVal)

/-- `ctx['error']`: a `ParseError`, or anything else (httpolice/reports/html.py 353-356). -/
inductive ErrorVal
  | parse (e : HError)
  | other (v : PVal)

/-- The message that `ctx['msg']` is, as far as `_magic_references` looks at it: the entries of the
view of a header, none if it is absent; the method of a request; the method of the request that a
response belongs to; the status of a response (httpolice/reports/html.py 263-292). -/
structure MagicMsg where
  headers : Str → List Nat
  method : Option HText
  requestMethod : Option HText
  status : Option HText

/-- The context of a complaint: what a reference leads to (`resolve_reference`, reports/common.py 10-15); the
message, unless `msg` is something else; the error. -/
structure NoticeCtx where
  lookup : List Str → PVal
  msg : Option MagicMsg
  error : ErrorVal

/-- A complaint as the report shows it: `complaint.notice` and `complaint.context`
(httpolice/reports/html.py 216-228, 308-320). -/
structure HComplaint where
  severity : Severity
  id : Nat
  title : List NPiece
  explanation : List NPiece
  ctx : NoticeCtx

/-- What the report shows of both kinds of messages; `bodyOid` is the identity of the pair
`msg.displayable_body` (httpolice/reports/html.py 177-195). -/
structure HMessage where
  remark : Option Str
  entries : List HEntry
  bodyOid : Nat
  body : BodySource
  trailers : List HEntry
  complaints : List HComplaint

/-- A request (httpolice/reports/html.py 138-154). -/
structure HReq where
  method : HKnown
  target : HText
  version : Option HText
  msg : HMessage

/-- A response; the reason is empty if there is none (httpolice/reports/html.py 157-174). -/
structure HResp where
  version : Option HText
  status : HKnown
  reason : Str
  msg : HMessage

/-- An exchange (httpolice/reports/html.py 117-135). -/
structure HExch where
  request : Option HReq
  responses : List HResp
  complaints : List HComplaint

/-- The attribute `class` (httpolice/reports/html.py 117-228). -/
def classAttr (s : String) : Str × HAttr := (str "class", .lit (str s))

/-- `_for_object` (html.py 252-256) without the class. -/
def placeAttr (o : Nat) : Str × HAttr := (str "data-ref-id", .place o)

/-- `_referring_to` (html.py 259-260). -/
def linkAttr (os : List Nat) : Str × HAttr := (str "data-ref-to", .links os)

/-- An element (httpolice/reports/html.py 117-228). -/
def tag (name : String) (attrs : List (Str × HAttr)) (children : List Html) : Html :=
  .elem (str name) attrs children

/-- `_render_known` (html.py 295-305). -/
def renderKnown (k : HKnown) : List Html :=
  match knownCitation k.info with
  | some cite =>
    let title := knownTitle k.info true
    [tag "a" ((str "href", .lit cite.url.show) ::
      (match title with
        | some t => if t.truthy then [(str "title", .lit t.show)] else []
        | none => [])) [.text (printable k.text)]]
  | none => [.text (printable k.text)]

/-- `_render_annotated` (html.py 207-213). -/
def renderAnnotated (pieces : List HPiece) : List Html :=
  pieces.flatMap fun
    | .bytes s => [.text (printable s)]
    | .known k => renderKnown k

/-- `_render_header_entries` (html.py 198-204). -/
def renderEntries (entries : List HEntry) : List Html :=
  entries.map fun e =>
    tag "pre" [placeAttr e.oid, classAttr "header-entry"]
      [tag "code" [] (renderKnown e.name ++ [.text (str ": ")] ++ renderAnnotated e.value)]

/-- The body of a message (html.py 180-190). -/
def renderBody (o : Nat) (body : HBody) : List Html :=
  match body with
  | .unknown =>
    [tag "div" [placeAttr o, classAttr "body-display"] [tag "h3" [] [.text (str "Body is unknown")]]]
  | .unavailable =>
    [tag "div" [placeAttr o, classAttr "body-display"]
      [tag "h3" [] [.text (str "Body is present, but not available for inspection")]]]
  | .shown text transforms =>
    if text.isEmpty then []
    else
      [tag "div" [placeAttr o, classAttr "body-display"]
        ((if transforms.isEmpty then []
          else [tag "h3" [] [.text (str "Body after " ++ nicelyJoin transforms)]]) ++
          [tag "pre" [] [.text text]])]

/-- `_render_message` (html.py 177-195). -/
def renderMessage (m : HMessage) : List Html :=
  renderEntries m.entries ++ renderBody m.bodyOid (displayableBody m.body) ++
    if m.trailers.isEmpty then []
    else [tag "div" [classAttr "trailer"]
      (tag "h3" [] [.text (str "Headers from the trailer part")] :: renderEntries m.trailers)]

mutual

/-- `_reference_ids` (html.py 239-249), as objects. -/
def PVal.objects : PVal → List Nat
  | .plain o _ => [o]
  | .known k => [k.oid]
  | .header os _ => os
  | .symbol o _ _ => [o]
  | .param o _ => [o]
  | .list xs => PVal.allObjects xs
  | .citation o _ => [o]

/-- `_list_reference_ids` (html.py 243-245). -/
def PVal.allObjects : List PVal → List Nat
  | [] => []
  | x :: xs => x.objects ++ PVal.allObjects xs

end

/-- `_cite_to_html` (html.py 367-370). -/
def citeHtml (c : Citation) : Html :=
  tag "cite" [] [tag "a" [(str "href", .lit c.url.show)]
    [.text (match c.title with | some t => t.show | none => [])]]

mutual

/-- `_piece_to_html` for values (html.py 322-333, 367-370, 381-382) with `expand_piece`
(reports/common.py 18-46). -/
def PVal.html : PVal → List Html
  | .plain _ s => [.text (printable s)]
  | .known k => renderKnown k
  | .header _ k => renderKnown k
  | .symbol _ name cite =>
    match cite with
    | none => [.text (printable name)]
    | some c => [.text (printable name), .text (str " ("), citeHtml c, .text (str ")")]
  | .param _ item => item.html
  | .list xs => PVal.htmls xs
  | .citation _ c => [citeHtml c]

/-- `_list_to_html` (html.py 330-333). -/
def PVal.htmls : List PVal → List Html
  | [] => []
  | x :: xs => x.html ++ PVal.htmls xs

end

/-- A paragraph of an error: texts and values (httpolice/reports/common.py 50-73). -/
inductive ErrPiece
  | text (s : Str)
  | val (v : PVal)

/-- One expected thing (reports/common.py 63-70); `first` if it is the first. -/
def expectedPara (first : Bool) (e : Str × List PVal) : List ErrPiece :=
  (if e.1.isEmpty then []
    else (if first then [.text e.1] else [.text (str "or "), .text e.1]) ++
      (if e.2.isEmpty then [] else [.text (str " as part of ")])) ++
    match e.2 with
    | [] => []
    | s :: ss => .val s :: ss.flatMap fun s => [.text (str " or "), .val s]

/-- `expand_error`, `expand_parse_error` (reports/common.py 49-73): paragraphs. -/
def expandError : ErrorVal → List (List ErrPiece)
  | .other v => [[.val v]]
  | .parse e =>
    (match e.name with | some n => [[.val n]] | none => []) ++
    [[.text (str "Parse error at offset " ++ decimalText e.position ++ str ".")]] ++
    (match e.found with
      | none => []
      | some none => [[.text (str "Found end of data.")]]
      | some (some c) => [[.text (str "Found: " ++ formatChars [c])]]) ++
    [[.text (str "Expected:")]] ++
    match e.expected with
    | [] => []
    | x :: xs => expectedPara true x :: xs.map (expectedPara false)

/-- A piece of an error in the report (httpolice/reports/html.py 353-356). -/
def ErrPiece.html : ErrPiece → List Html
  | .text s => [.text (printable s)]
  | .val v => v.html

/-- `_magic_references` (html.py 263-288): the objects to refer to. A status code is compared by its
text, which is that of a number. -/
def magicReferences (noRef : Bool) (kind : MagicKind) (k : HKnown)
    (msg : Option MagicMsg) : List Nat :=
  if noRef then []
  else
    match msg with
    | none => []
    | some m =>
      match kind with
      | .field => m.headers k.text
      | .method =>
        match m.method, m.requestMethod with
        | some t, r =>
          if t.text = k.text then [t.oid]
          else (match r with | some r => if r.text = k.text then [r.oid] else [] | none => [])
        | none, some r => if r.text = k.text then [r.oid] else []
        | none, none => []
      | .status =>
        match m.status with
        | some s => if s.text = k.text then [s.oid] else []
        | none => []
      | .other => []

mutual

/-- `_piece_to_html` for elements of notices (html.py 335-375). -/
def NPiece.html (ctx : NoticeCtx) : NPiece → List Html
  | .text s => [.text (printable s)]
  | .para content => [tag "p" [] (NPiece.htmls ctx content)]
  | .known noRef kind k =>
    [tag "span" [linkAttr (magicReferences noRef kind k ctx.msg)] (renderKnown k)]
  | .var path => [tag "span" [linkAttr (ctx.lookup path).objects] (ctx.lookup path).html]
  | .exc => (expandError ctx.error).map fun para => tag "p" [] (para.flatMap ErrPiece.html)
  | .cite info quote =>
    citeHtml info ::
      match quote with
      | [] => []
      | q :: qs => [.text (str ": "), tag "q" [] (NPiece.html ctx q ++ NPiece.htmls ctx qs)]
  | .ref path => [tag "span" [linkAttr (ctx.lookup path).objects] [.text []]]

/-- `_list_to_html` (html.py 330-333). -/
def NPiece.htmls (ctx : NoticeCtx) : List NPiece → List Html
  | [] => []
  | p :: ps => NPiece.html ctx p ++ NPiece.htmls ctx ps

end

/-- `Citation.__str__` (citation.py 6). -/
def Citation.text (c : Citation) : Str :=
  match c.title with
  | some t => if t.truthy then t.show else c.url.show
  | none => c.url.show

mutual

/-- The texts that `_piece_to_text` reaches in a value (reports/text.py 63-73). -/
def PVal.texts : PVal → List Str
  | .plain _ s => [s]
  | .known k => [k.text]
  | .header _ k => [k.text]
  | .symbol _ name cite =>
    match cite with
    | none => [name]
    | some c => [name, str " (", c.text, str ")"]
  | .param _ item => item.texts
  | .list xs => PVal.allTexts xs
  | .citation _ c => [c.text]

/-- `_list_to_text` (reports/text.py 71-73). -/
def PVal.allTexts : List PVal → List Str
  | [] => []
  | x :: xs => x.texts ++ PVal.allTexts xs

end

/-- The texts that `_piece_to_text` reaches in a title (reports/text.py 63-78). Others than texts,
names and values do not come up in titles. -/
def titleTexts (ctx : NoticeCtx) : NPiece → List Str
  | .text s => [s]
  | .known _ _ k => [k.text]
  | .var path => (ctx.lookup path).texts
  | _ => []

/-- A complaint as the text report shows it (httpolice/reports/text.py 56-78). -/
def HComplaint.asText (c : HComplaint) : TComplaint where
  severity := c.severity
  id := c.id
  title := c.title.flatMap (titleTexts c.ctx)

/-- `severity.name` (httpolice/reports/html.py 308-320). -/
def Severity.name : Severity → Str
  | .error => str "error"
  | .comment => str "comment"
  | .debug => str "debug"

/-- `_notice_to_html` (html.py 308-319). -/
def noticeHtml (c : HComplaint) : Html :=
  tag "div" [(str "class", .lit (str "notice " ++ c.severity.name))]
    (tag "h3" []
      [tag "abbr" [classAttr "severity", (str "title", .lit c.severity.name)] [.text c.severity.short],
       tag "span" [classAttr "ident"] [.text (decimalText c.id)],
       tag "span" [] (NPiece.htmls c.ctx c.title)] ::
      NPiece.htmls c.ctx c.explanation)

/-- `_render_complaints` (html.py 216-220). -/
def renderComplaints (cs : List HComplaint) : List Html :=
  if cs.isEmpty then [] else [tag "div" [classAttr "complaints"] (cs.map noticeHtml)]

/-- The remark of a message (html.py 141-142, 160-161). -/
def renderRemark (remark : Option Str) : List Html :=
  match remark with
  | some r => if r.isEmpty then [] else [tag "p" [classAttr "message-remark"] [.text (printable r)]]
  | none => []

/-- A version, unless it is missing or empty (html.py 151-152, 164-166). -/
def renderVersion (v : Option HText) : List Html :=
  match v with
  | some v => if v.text.isEmpty then [] else [tag "span" [placeAttr v.oid] [.text (printable v.text)]]
  | none => []

/-- `_render_request` (html.py 138-154). -/
def renderRequest (r : HReq) : Html :=
  tag "section" []
    (tag "div" [classAttr "message-display"]
      (renderRemark r.msg.remark ++
        [tag "h2" [] [tag "code" []
          (tag "span" [placeAttr r.method.oid] (renderKnown r.method) ::
            tag "span" [placeAttr r.target.oid] [.text (printable r.target.text)] ::
            renderVersion r.version)]] ++
        renderMessage r.msg) ::
      renderComplaints r.msg.complaints)

/-- `_render_response` (html.py 157-174). -/
def renderResponse (r : HResp) : Html :=
  tag "section" []
    (tag "div" [classAttr "message-display"]
      (renderRemark r.msg.remark ++
        [tag "h2" [] [tag "code" []
          (renderVersion r.version ++
            [tag "span" [placeAttr r.status.oid, classAttr "StatusCode"]
              (renderKnown r.status ++ [.text (str " " ++
                printable (findReasonPhrase r.reason (shownIf (knownTitle r.status.info false))))])])]] ++
        renderMessage r.msg) ::
      renderComplaints r.msg.complaints)

/-- `H.hr()` (httpolice/reports/html.py 117-135). -/
def hr : Html := tag "hr" [] []

/-- What an exchange consists of (html.py 120-130). -/
def exchangeNodes (e : HExch) : List Html :=
  (match e.request with | some r => [renderRequest r, hr] | none => []) ++
    e.responses.flatMap (fun r => [renderResponse r, hr]) ++
    (if e.complaints.isEmpty then [] else renderComplaints e.complaints ++ [hr])

/-- `_generate_exchange_divs` (html.py 117-135). -/
def exchangeDivs (es : List HExch) : List Html :=
  es.filterMap fun e =>
    match exchangeNodes e with
    | [] => none
    | ns => some (tag "div" [classAttr "exchange"] ns)

/-- `_anonymize_id` (html.py 233-236). `seen` has the keys of `_seen_ids` in the order of insertion;
the number of a key is its position. -/
def anonymize (seen : List Nat) (o : Nat) : Nat × List Nat :=
  if seen.contains o then (seen.idxOf o, seen) else (seen.length, seen ++ [o])

/-- The numbers for several objects (httpolice/reports/html.py 233-245). -/
def anonymizeAll : List Nat → List Nat → List Nat × List Nat
  | seen, [] => ([], seen)
  | seen, o :: os =>
    let r := anonymize seen o
    let rs := anonymizeAll r.2 os
    (r.1 :: rs.1, rs.2)

/-- A finished document (httpolice/reports/html.py 26-63, 233-260). -/
inductive Doc
  | text (s : Str)
  | elem (tag : Str) (attrs : List (Str × Str)) (children : List Doc)

/-- The text of an attribute (html.py 241, 253, 260). -/
def numberAttr (seen : List Nat) (a : HAttr) : Str × List Nat :=
  match a with
  | .lit s => (s, seen)
  | .place o => let r := anonymize seen o; (decimalText r.1, r.2)
  | .links os => let r := anonymizeAll seen os; (joinWith (str " ") (r.1.map decimalText), r.2)

/-- The attributes of an element (httpolice/reports/html.py 233-260). -/
def numberAttrs : List Nat → List (Str × HAttr) → List (Str × Str) × List Nat
  | seen, [] => ([], seen)
  | seen, (k, a) :: as =>
    let r := numberAttr seen a
    let rs := numberAttrs r.2 as
    ((k, r.1) :: rs.1, rs.2)

mutual

/-- Numbers in place of objects, in the order of the document (html.py 231-260). -/
def number (seen : List Nat) : Html → Doc × List Nat
  | .text s => (.text s, seen)
  | .elem t attrs children =>
    let r := numberAttrs seen attrs
    let rs := numbers r.2 children
    (.elem t r.1 rs.1, rs.2)

/-- The same for several nodes (httpolice/reports/html.py 233-260). -/
def numbers (seen : List Nat) : List Html → List Doc × List Nat
  | [] => ([], seen)
  | n :: ns =>
    let r := number seen n
    let rs := numbers r.2 ns
    (r.1 :: rs.1, rs.2)

end

/-- The part of the report for the exchanges (html.py 60-63), and `_seen_ids` afterwards. -/
def htmlReport (seen : List Nat) (es : List HExch) : List Doc × List Nat :=
  numbers seen (exchangeDivs es)

end Httpolice.Model
