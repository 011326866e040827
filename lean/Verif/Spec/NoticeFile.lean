import Verif.Spec.NoticeXml
import Verif.Model.NoticeFile
import Verif.Model.Catalogue

/-!
# Specification of the file of notices

What is counted in it: references to values, details of errors, attributes.
-/

namespace Httpolice.Spec

open Httpolice.Model

mutual

/-- The references to values in an element, in order. -/
def referencesIn : Xml → List Str
  | .comment _ _ => []
  | .elem cls attrs _ children _ =>
    match cls with
    | .var => [(attrs.get (str "ref")).getD []]
    | .ref => [(attrs.get (str "to")).getD []]
    | _ => referencesInAll children

/-- The references to values in elements, in order. -/
def referencesInAll : List Xml → List Str
  | [] => []
  | x :: xs => referencesIn x ++ referencesInAll xs

end

/-- The notice has a place for the details of an error. -/
def hasDetails : Xml → Bool
  | .comment _ _ => false
  | .elem _ _ _ children _ => children.any fun x => x.cls = some .exception

/-- The children of an element. -/
def childrenOf : Xml → List Xml
  | .comment _ _ => []
  | .elem _ _ _ children _ => children

/-- The names of attributes that mean something, for every class of elements. -/
def meantAttrs : XmlClass → List Str
  | .notice _ => [str "id"]
  | .ref => [str "to"]
  | .var => [str "ref"]
  | .known _ => [str "ref"]
  | .cite => [str "title", str "url"]
  | .rfc => [str "num", str "sect", str "appendix", str "errata"]
  | .title | .explain | .exception | .other => []

mutual

/-- Attributes in an element that mean nothing, with the attributes of the element. -/
def lostAttrs : Xml → List (XmlClass × Dict Str)
  | .comment _ _ => []
  | .elem cls attrs _ children _ =>
    (if attrs.all fun a => (meantAttrs cls).contains a.1 then [] else [(cls, attrs)]) ++
      lostAttrsAll children

/-- Attributes in elements that mean nothing. -/
def lostAttrsAll : List Xml → List (XmlClass × Dict Str)
  | [] => []
  | x :: xs => lostAttrs x ++ lostAttrsAll xs

end

/-- What the row of the table of notices (C92) says is what is written in the notice. -/
def RowFor (e : NoticeEntry) (r : NoticeRow) : Prop :=
  e.id = r.id ∧ e.severity = r.severity ∧
  (referencesIn e.xml).eraseDups = r.references.map (fun path => List.intercalate [46] (path.map str)) ∧
  hasDetails e.xml = r.details

end Httpolice.Spec
