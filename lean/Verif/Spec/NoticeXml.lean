import Verif.Model.NoticeXml
import Verif.Spec.Knowledge
import Verif.Spec.Html

/-!
# Specification of reading notices

What is written in an element, as a sequence of letters, names, places for values and so on, without
regard to white space; and what elements are written properly.
-/

namespace Httpolice.Spec

open Httpolice.Model

/-- Something that is written in a notice. -/
inductive Token
  | letter (c : Nat)
  | item (noRef : Bool) (k : HKnown)
  | value (reference : Str)
  | link (reference : Str)
  | details
  | source (c : Citation)
  | beginPara
  | endPara
  | beginQuote
  | endQuote

/-- A text without white space. -/
def letters (s : Str) : List Token := (s.filter fun c => !isSpaceChar c).map .letter

/-- A text without the white space around it. -/
def trim (s : Str) : Str :=
  ((s.dropWhile isSpaceChar).reverse.dropWhile isSpaceChar).reverse

/-- The item that an element names. -/
def itemOf (E : XmlEnv) (t : KnownTag) (text : Str) : HKnown :=
  E.item t (if t = .st ∨ t = .warn then .num (numberOf (trim text)) else .word (trim text))

/-- The document that `<rfc/>` and `<cite/>` are about. -/
def sourceOf (cls : XmlClass) (attrs : Dict Str) : Citation :=
  if cls = .rfc then
    .rfc (numberOf ((attrs.get (str "num")).getD [])) (attrs.get (str "sect"))
      (attrs.get (str "appendix")) ((attrs.get (str "errata")).map fun s => (numberOf s : Int))
  else .doc ((attrs.get (str "title")).map .text) (.text ((attrs.get (str "url")).getD []))

mutual

/-- What is written in an element. -/
def inXml (E : XmlEnv) : Xml → List Token
  | .comment _ _ => []
  | .elem cls attrs text children _ =>
    match cls with
    | .explain => .beginPara :: (letters text ++ inXmls E children) ++ [.endPara]
    | .title => letters text ++ inXmls E children
    | .cite | .rfc =>
      .source (sourceOf cls attrs) ::
        if text = [] ∧ children.isEmpty then []
        else .beginQuote :: (letters text ++ inXmls E children) ++ [.endQuote]
    | .var => [.value ((attrs.get (str "ref")).getD [])]
    | .ref => [.link ((attrs.get (str "to")).getD [])]
    | .exception => [.details]
    | .known t => [.item (attrs.get (str "ref") = some (str "no")) (itemOf E t text)]
    | .notice _ | .other => []

/-- What is written in elements and after them. -/
def inXmls (E : XmlEnv) : List Xml → List Token
  | [] => []
  | x :: xs => inXml E x ++ letters x.tail ++ inXmls E xs

end

/-- The attributes of `<rfc/>`: a number, and one place in the document at most. -/
structure ProperRfc (attrs : Dict Str) : Prop where
  num : ∃ s n, attrs.get (str "num") = some s ∧ Numeral s n
  place : attrs.get (str "sect") ≠ some [] ∧ attrs.get (str "appendix") ≠ some []
  errata : ∀ s, attrs.get (str "errata") = some s → ∃ n, Numeral s n
  one : (attrs.get (str "sect") = none ∧ attrs.get (str "appendix") = none) ∨
    (attrs.get (str "sect") = none ∧ attrs.get (str "errata") = none) ∨
    (attrs.get (str "appendix") = none ∧ attrs.get (str "errata") = none)

/-- The attributes of `<cite/>`: a title and an address. -/
def ProperCite (attrs : Dict Str) : Prop :=
  (∃ t, attrs.get (str "title") = some t ∧ t ≠ []) ∧ ∃ u, attrs.get (str "url") = some u ∧ u ≠ []

mutual

/-- An element that can be shown: it is one of those that are for explanations, with the attributes
that it needs; names of items are texts, codes are numerals. -/
def Proper : Xml → Prop
  | .comment _ _ => False
  | .elem cls attrs text children _ =>
    match cls with
    | .explain => AllProper children
    | .cite => ProperCite attrs ∧ AllProper children
    | .rfc => ProperRfc attrs ∧ AllProper children
    | .var => attrs.get (str "ref") ≠ none
    | .ref => attrs.get (str "to") ≠ none
    | .exception => True
    | .known t => children = [] ∧ text ≠ [] ∧ ((t = .st ∨ t = .warn) → ∃ n, Numeral (trim text) n)
    | .title | .notice _ | .other => False

/-- Elements that can all be shown. -/
def AllProper : List Xml → Prop
  | [] => True
  | x :: xs => Proper x ∧ AllProper xs

end

/-- The element is a title. -/
def IsTitleElem (x : Xml) : Prop := x.cls = some .title

/-- A notice with an ID, a title, and an explanation. -/
structure ProperNotice (x : Xml) (severity : Severity) (id : Nat) (title : Xml) (rest : List Xml) :
    Prop where
  shape : ∃ attrs text children tail s, x = .elem (.notice severity) attrs text children tail ∧
    attrs.get (str "id") = some s ∧ Numeral s id ∧
    ∃ before after, children = before ++ title :: after ∧
      (∀ y ∈ before, ¬ IsTitleElem y) ∧
      rest = (before ++ after).filter fun y => y.cls ≠ none ∧ y.cls ≠ some .title
  title : ∃ attrs text children tail, title = .elem .title attrs text children tail ∧
    AllProper children
  rest : ∀ y ∈ rest, Proper y

/-- What is written in the explanation of a notice: elements that are not paragraphs are in a paragraph
of their own, with the text after them. -/
def explained (E : XmlEnv) (y : Xml) : List Token :=
  if y.cls = some .explain ∨ y.cls = some .exception ∨ y.cls = some .ref ∨ y.cls = some .var then
    inXml E y
  else .beginPara :: (inXml E y ++ letters y.tail) ++ [.endPara]

mutual

/-- What there is in a piece of a notice that has been read. -/
def inPiece : NPiece → List Token
  | .text s => letters s
  | .para content => .beginPara :: inPieces content ++ [.endPara]
  | .known noRef _ k => [.item noRef k]
  | .var path => [.value (List.intercalate [46] path)]
  | .exc => [.details]
  | .cite info quote =>
    .source info ::
      match quote with
      | [] => []
      | q :: qs => .beginQuote :: (inPiece q ++ inPieces qs) ++ [.endQuote]
  | .ref path => [.link (List.intercalate [46] path)]

/-- What there is in pieces. -/
def inPieces : List NPiece → List Token
  | [] => []
  | p :: ps => inPiece p ++ inPieces ps

end

/-- The last of names with dots between them. -/
def lastName (s : Str) : Str := (s.reverse.takeWhile (· ≠ 46)).reverse

/-- Something to be seen: neither white space nor the mark that stands for what cannot be printed. -/
def toBeSeen (c : Nat) : Bool := !isSpaceChar c && c != 0xFFFD

/-- The letters that the list of notices has for something that is written. -/
def inList : Token → Str
  | .letter c => (printable [c]).filter toBeSeen
  | .item _ k => (printable k.text).filter toBeSeen
  | .value r => (lastName r).filter toBeSeen
  | .link _ => []
  | .details => str "error"
  | .source c => ((c.title.map Scalar.show).getD []).filter toBeSeen
  | .beginPara | .endPara | .endQuote => []
  | .beginQuote => str ":"

mutual

/-- The letters in a document. -/
def seen : Html → Str
  | .text s => s.filter toBeSeen
  | .elem _ _ children => allSeen children

/-- The letters in a document. -/
def allSeen : List Html → Str
  | [] => []
  | h :: hs => seen h ++ allSeen hs

end

/-- The value of an attribute of an element. -/
def htmlAttr (name : Str) : Html → Option HAttr
  | .text _ => none
  | .elem _ attrs _ => attrs.lookup name

/-- A notice of the file, with what is in it. -/
structure NoticeEntry where
  xml : Xml
  severity : Severity
  id : Nat
  title : Xml
  rest : List Xml

/-- The element is a notice. -/
def isNotice (x : Xml) : Bool :=
  match x with
  | .elem (.notice _) _ _ _ _ => true
  | _ => false

/-- The letter that stands for a severity. -/
def severityLetter : Severity → Str
  | .error => str "E"
  | .comment => str "C"
  | .debug => str "D"

/-- The notice is shown by this part of the list: it can be linked to by its ID, and has its severity,
its ID, its title and its explanation. -/
def ListedAs (E : XmlEnv) (e : NoticeEntry) (h : Html) : Prop :=
  htmlAttr (str "id") h = some (.lit (str (toString e.id))) ∧
  htmlAttr (str "class") h = some (.lit (match e.severity with
    | .error => str "notice error"
    | .comment => str "notice comment"
    | .debug => str "notice debug")) ∧
  seen h = severityLetter e.severity ++ str (toString e.id) ++
    (inXml E e.title ++ e.rest.flatMap (explained E)).flatMap inList

end Httpolice.Spec
