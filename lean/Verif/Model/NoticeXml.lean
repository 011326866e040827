import Verif.Model.Html
import Verif.Model.Helpers

/-!
# Reading notices (httpolice/notice.py) and the list of all notices (httpolice/reports/html.py 66-104)

Notices are elements of an XML document. lxml gives every element the class that is registered for
its name (notice.py 23-24, 49-182), so elements are modelled by their classes. Parsing of XML, and
`known_map` (notice.py 46), which depends on names of variables in known/__init__.py, are left out.

`str(x)` of an element without a class of its own and of an XML comment is a parameter, as is the
object that `known_map[tag](name)` makes.
-/

namespace Httpolice.Model

/-- Names of elements for protocol items: the names of the accessors in known/__init__.py
(notice.py 46, 171-172; known/__init__.py 242-388). -/
inductive KnownTag
  | altsvc | auth | cache | cc | forwarded | h | hsts | m | media | prefer | st | tc | unit | upgrade
  | warn
deriving DecidableEq, Repr

/-- The class of an element (notice.py 49-51, 94-172); `other` is for elements of any other name. -/
inductive XmlClass
  | notice (severity : Severity)
  | title
  | explain
  | ref
  | var
  | exception
  | cite
  | rfc
  | known (t : KnownTag)
  | other
deriving DecidableEq, Repr

/-- An element with its attributes, the text before its first child, its children, and the text after
it, or a comment with the text after it; there being no text is the same as its being empty
(notice.py 75-92). -/
inductive Xml
  | elem (cls : XmlClass) (attrs : Dict Str) (text : Str) (children : List Xml) (tail : Str)
  | comment (text : Str) (tail : Str)

/-- `elem.tail` (notice.py 84). -/
def Xml.tail : Xml → Str
  | .elem _ _ _ _ tail => tail
  | .comment _ tail => tail

/-- `isinstance(elem, …)` (notice.py 63-66, 182). -/
def Xml.cls : Xml → Option XmlClass
  | .elem cls _ _ _ _ => some cls
  | .comment _ _ => none

/-- Whether numbers are made from the text (structure.py 194, 361): `StatusCode`, `WarnCode`. -/
def KnownTag.numeric : KnownTag → Bool
  | .st => true
  | .warn => true
  | _ => false

/-- What `_magic_references` does with an object of the class (httpolice/reports/html.py 275-290). -/
def KnownTag.magic : KnownTag → MagicKind
  | .h => .field
  | .m => .method
  | .st => .status
  | _ => .other

/-- Parameters of the model: `str(elem)` of what has no class, and the objects made for known items
(httpolice/reports/common.py 18-20, notice.py 161-168). -/
structure XmlEnv where
  objText : Xml → Str
  item : KnownTag → KeyVal → HKnown

/-- `s.lstrip()` (notice.py 89). -/
def lstripText (s : Str) : Str := s.dropWhile isSpaceChar

/-- `s.rstrip()` (notice.py 91). -/
def rstripText (s : Str) : Str := (s.reverse.dropWhile isSpaceChar).reverse

/-- A piece of text, unless it is empty (notice.py 85). -/
def textPiece (s : Str) (shown : Str → Str) : List NPiece :=
  if s = [] then [] else [.text (shown s)]

/-- The children and the texts after them, of which the last is stripped (notice.py 82-91). -/
def kidPieces : List (List NPiece × Str) → List NPiece
  | [] => []
  | [(ps, tail)] => ps ++ textPiece tail rstripText
  | (ps, tail) :: kid :: kids => ps ++ textPiece tail id ++ kidPieces (kid :: kids)

/-- `Content.content` (notice.py 79-93), with the pieces that the children turn out to be. -/
def assemble (text : Str) (kids : List (List NPiece × Str)) : List NPiece :=
  match kids with
  | [] => textPiece text fun s => rstripText (lstripText s)
  | kid :: kids => textPiece text lstripText ++ kidPieces (kid :: kids)

/-- `Known.content` (notice.py 161-168): the object. There must be one piece. An element in the place
of the name has its `str(elem)` taken, which `int` does not do. -/
def knownContent (E : XmlEnv) (t : KnownTag) (text : Str) (children : List Xml) : Except KnowErr HKnown :=
  match children with
  | [] =>
    if text = [] then .error .valueError
    else
      let name := rstripText (lstripText text)
      if t.numeric then
        match pyInt name with
        | some n => .ok (E.item t (.num n))
        | none => .error .valueError
      else .ok (E.item t (.word name))
  | [x] =>
    if text = [] ∧ x.tail = [] then
      if t.numeric then .error .typeError else .ok (E.item t (.word (E.objText x)))
    else .error .valueError
  | _ => .error .valueError

/-- `Cite.info` (notice.py 138-142). A citation without an address is left out: an error. -/
def citeInfo (attrs : Dict Str) : Except KnowErr Citation :=
  match attrs.get (str "url") with
  | none => .error .typeError
  | some url => .ok (.doc ((attrs.get (str "title")).map .text) (.text url))

/-- `CiteRFC.info` (notice.py 149-154). -/
def rfcInfo (attrs : Dict Str) : Except KnowErr Citation :=
  match attrs.get (str "num") with
  | none => .error .typeError
  | some num =>
    mkRfc (.text num) ((attrs.get (str "sect")).map .text) ((attrs.get (str "appendix")).map .text)
      ((attrs.get (str "errata")).map .text)

/-- `Ref.reference` and `Var.reference` (notice.py 107-125). -/
def referenceOf (attrs : Dict Str) (name : Str) : Except KnowErr (List Str) :=
  match attrs.get name with
  | none => .error .attributeError
  | some s => .ok (splitOn 46 s)

mutual

/-- An element as `_piece_to_html` takes it (reports/html.py 322-382, reports/common.py 18-24, notice.py 75-172):
pieces, or the error that `content`, `info` or `reference` raises. -/
def readNode (E : XmlEnv) : Xml → Except KnowErr (List NPiece)
  | .comment text tail => .ok [.text (E.objText (.comment text tail))]
  | .elem cls attrs text children tail =>
    match cls with
    | .explain =>
      match readNodes E children with
      | .error e => .error e
      | .ok kids => .ok [.para (assemble text kids)]
    | .title =>
      match readNodes E children with
      | .error e => .error e
      | .ok kids => .ok (assemble text kids)
    | .cite =>
      match citeInfo attrs with
      | .error e => .error e
      | .ok info =>
        match readNodes E children with
        | .error e => .error e
        | .ok kids => .ok [.cite info (assemble text kids)]
    | .rfc =>
      match rfcInfo attrs with
      | .error e => .error e
      | .ok info =>
        match readNodes E children with
        | .error e => .error e
        | .ok kids => .ok [.cite info (assemble text kids)]
    | .var =>
      match referenceOf attrs (str "ref") with
      | .error e => .error e
      | .ok path => .ok [.var path]
    | .ref =>
      match referenceOf attrs (str "to") with
      | .error e => .error e
      | .ok path => .ok [.ref path]
    | .exception => .ok [.exc]
    | .known t =>
      match knownContent E t text children with
      | .error e => .error e
      | .ok k => .ok [.known (attrs.get (str "ref") = some (str "no")) t.magic k]
    | .notice _ | .other => .ok [.text (E.objText (.elem cls attrs text children tail))]

/-- The children of an element with the texts after them (notice.py 82-84). -/
def readNodes (E : XmlEnv) : List Xml → Except KnowErr (List (List NPiece × Str))
  | [] => .ok []
  | x :: xs =>
    match readNode E x with
    | .error e => .error e
    | .ok ps =>
      match readNodes E xs with
      | .error e => .error e
      | .ok kids => .ok ((ps, x.tail) :: kids)

end

/-- `Notice.explanation` (notice.py 60-72): elements that are not paragraphs are put in one. The copy
that is made of such an element has its tail (`copy.deepcopy` of lxml). -/
def explanationOf : List Xml → List Xml
  | [] => []
  | x :: xs =>
    match x.cls with
    | none => explanationOf xs
    | some .title => explanationOf xs
    | some .explain => x :: explanationOf xs
    | some .exception => x :: explanationOf xs
    | some .ref => x :: explanationOf xs
    | some .var => x :: explanationOf xs
    | some _ => .elem .explain [] [] [x] [] :: explanationOf xs

/-- A notice, read: `id`, `severity`, `title`, `explanation` (notice.py 54-72). -/
structure NoticeText where
  id : Int
  severity : Severity
  title : List NPiece
  explanation : List NPiece

/-- `Notice.id` (notice.py 54). -/
def noticeId (attrs : Dict Str) : Except KnowErr Int :=
  match attrs.get (str "id") with
  | none => .error .typeError
  | some s =>
    match pyInt s with
    | some n => .ok n
    | none => .error .valueError

/-- Everything that `_notice_to_html` takes from a notice (reports/html.py 308-319, notice.py 54-72). What is not
a notice has no `id` or `severity`. -/
def readNotice (E : XmlEnv) : Xml → Except KnowErr NoticeText
  | .elem (.notice severity) attrs _ children _ =>
    match noticeId attrs with
    | .error e => .error e
    | .ok id =>
      match children.find? fun x => x.cls = some .title with
      | none => .error .attributeError
      | some t =>
        match readNode E t with
        | .error e => .error e
        | .ok title =>
          match readNodes E (explanationOf children) with
          | .error e => .error e
          | .ok kids => .ok ⟨id, severity, title, kids.flatMap Prod.fst⟩
  | _ => .error .attributeError

/-- `_load_notices` (notice.py 175-185): `r`, in the order of the file. -/
def loadNotices : List (Int × Xml) → List Xml → Except KnowErr (List (Int × Xml))
  | r, [] => .ok r
  | r, x :: xs =>
    match x with
    | .elem (.notice _) attrs _ _ _ =>
      match noticeId attrs with
      | .error e => .error e
      | .ok id =>
        if r.any fun e => e.1 = id then .error .assertion else loadNotices (r ++ [(id, x)]) xs
    | _ => loadNotices r xs

mutual

/-- `_piece_to_html` with `Placeholder()` for a context (reports/html.py 66-83, 322-379). A reference
leads to a placeholder that has the last name in it. The attribute `data-ref-to`, which here has numbers
for temporary objects that differ from run to run, is left out. -/
def NPiece.listed : NPiece → List Html
  | .text s => [.text (printable s)]
  | .para content => [tag "p" [] (NPiece.allListed content)]
  | .known _ _ k => [tag "span" [] (renderKnown k)]
  | .var path => [tag "span" [] [tag "var" [] [.text (path.getLast?.getD [])]]]
  | .exc => [tag "p" [] [tag "var" [] [.text (str "error")]]]
  | .cite info quote =>
    citeHtml info ::
      match quote with
      | [] => []
      | q :: qs => [.text (str ": "), tag "q" [] (NPiece.listed q ++ NPiece.allListed qs)]
  | .ref _ => [tag "span" [] [.text []]]

/-- `_list_to_html` (reports/html.py 330-333). -/
def NPiece.allListed : List NPiece → List Html
  | [] => []
  | p :: ps => NPiece.listed p ++ NPiece.allListed ps

end

/-- `_notice_to_html(…, with_anchor=True)` (reports/html.py 308-319). -/
def listedNotice (n : NoticeText) : Html :=
  tag "div" [(str "class", .lit (str "notice " ++ n.severity.name)), (str "id", .lit (intText n.id))]
    (tag "h3" []
      [tag "abbr" [classAttr "severity", (str "title", .lit n.severity.name)] [.text n.severity.short],
       tag "span" [classAttr "ident"] [.text (intText n.id)],
       tag "span" [] (NPiece.allListed n.title)] ::
      NPiece.allListed n.explanation)

/-- `sorted` of the IDs, with the notices (reports/html.py 101). -/
def sortNotices : List (Int × Xml) → List (Int × Xml)
  | [] => []
  | e :: es => place e (sortNotices es)
where
  /-- Insertion before the first that is not less (reports/html.py 101). -/
  place (e : Int × Xml) : List (Int × Xml) → List (Int × Xml)
    | [] => [e]
    | x :: xs => if e.1 ≤ x.1 then e :: x :: xs else x :: place e xs

/-- The loop of `list_notices` (reports/html.py 101-103). -/
def listNotices (E : XmlEnv) : List (Int × Xml) → Except KnowErr (List Html)
  | [] => .ok []
  | e :: es =>
    match readNotice E e.2 with
    | .error e => .error e
    | .ok n =>
      match listNotices E es with
      | .error e => .error e
      | .ok hs => .ok (listedNotice n :: hs)

/-- The notices in `list_notices` (reports/html.py 86-104, notice.py 175-187) for a file. -/
def noticesList (E : XmlEnv) (root : List Xml) : Except KnowErr (List Html) :=
  match loadNotices [] root with
  | .error e => .error e
  | .ok r => listNotices E (sortNotices r)

end Httpolice.Model
