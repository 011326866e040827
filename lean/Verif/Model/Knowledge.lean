import Verif.Model.TextReport
import Verif.Model.Framing
import Verif.Model.CaseInsens

/-!
# Model of `httpolice/known/__init__.py` and `httpolice/citation.py`

The tables of what is known about protocol elements. A row of a CSV file is the list of its fields
with their texts, in the order of the columns; reading the file itself (`csv.DictReader`, lines
36-40) is left out. The files are ASCII (line 37), so `isdigit`, `lower` and `int` are those of ASCII
text. `unprocess` and `dump` (106-134), which only the tool that edits the files uses, are in
`KnownDump`. What `importlib` and `getattr` find (lines 162-165) is a parameter.
-/

namespace Httpolice.Model

/-- Exceptions that this code can raise (httpolice/known/__init__.py 21-104). -/
inductive KnowErr
  | assertion
  | keyError
  | valueError
  | typeError
  | importError
  | attributeError
deriving DecidableEq, Repr

/-- An instance of the class that a table is about: a string, or a number (`StatusCode`,
`WarnCode`) (httpolice/known/__init__.py 28-48). -/
inductive KeyVal
  | word (s : Str)
  | num (n : Int)
deriving DecidableEq, Repr

/-- How `name_from_raw` is overridden (known/__init__.py 67-77, 247-249, 369-372). -/
inductive Naming
  | plain
  | upper
  | same
deriving DecidableEq, Repr

/-- A subclass of `Knowledge` with the class `cls` it is made with: whether this is a number,
whether it is a `CaseInsensitive`, the attributes that are enumerations with the names of their
members (`rule = HeaderRule` and the like), whether it is a `SyntaxKnowledge`
(httpolice/known/__init__.py 21-48). -/
structure KnowClass where
  numeric : Bool
  ci : Bool
  enums : List (Str × List Str)
  hasSyntax : Bool
  naming : Naming
deriving Repr

/-- A cell as `process` understands it (httpolice/known/__init__.py 79-104). -/
inductive Scalar
  | key (k : KeyVal)
  | num (n : Int)
  | flag (b : Bool)
  | member (name : Str)
  | text (s : Str)
deriving DecidableEq, Repr

/-- `Citation` and `RFC` (citation.py 1-58). Titles and URLs of a `Citation` are taken from cells as
they are, so they may be numbers. -/
inductive Citation
  | doc (title : Option Scalar) (url : Scalar)
  | rfc (num : Int) (sect appendix : Option Str) (errata : Option Int)
deriving DecidableEq, Repr

/-- A value in what `process` returns; a symbol is a number given by the parameter
(httpolice/known/__init__.py 79-104, 155-166). -/
inductive KCell
  | plain (v : Scalar)
  | cite (c : Citation)
  | symbol (n : Nat)
deriving DecidableEq, Repr

/-- A Python `dict` with strings as keys, in the order of insertion (httpolice/known/__init__.py 28-48, 79-104). -/
abbrev Dict (V : Type) := List (Str × V)

/-- `d.get(k)` (httpolice/known/__init__.py 79-104). -/
def Dict.get {V : Type} (d : Dict V) (k : Str) : Option V :=
  match d with
  | [] => none
  | (k', v) :: d => if k' = k then some v else Dict.get d k

/-- `d[k] = v` (httpolice/known/__init__.py 79-104). -/
def Dict.set {V : Type} (d : Dict V) (k : Str) (v : V) : Dict V :=
  match d with
  | [] => [(k, v)]
  | (k', v') :: d => if k' = k then (k, v) :: d else (k', v') :: Dict.set d k v

/-- What is left after `d.pop(k, None)` (httpolice/known/__init__.py 79-104). -/
def Dict.drop {V : Type} (d : Dict V) (k : Str) : Dict V := d.filter fun e => e.1 ≠ k

/-- `int(s)` for decimal digits with single underscores between them (httpolice/known/__init__.py 79-104). -/
def intBody (s : Str) : Option Nat :=
  let rec go (acc : Nat) (after : Bool) : Str → Option Nat
    | [] => if after then some acc else none
    | c :: s =>
      if isDigit c then go (acc * 10 + (c - 48)) true s
      else if c = 95 ∧ after = true ∧ s ≠ [] then go acc false s
      else none
  go 0 false s

/-- `int(s)` of ASCII text; `none` models `ValueError` (httpolice/known/__init__.py 79-104). -/
def pyInt (s : Str) : Option Int :=
  match stripText s with
  | 45 :: t => (intBody t).map fun n => -(n : Int)
  | 43 :: t => (intBody t).map fun n => (n : Int)
  | t => (intBody t).map fun n => (n : Int)

/-- `str(b)` (httpolice/citation.py 36-54). -/
def flagText (b : Bool) : Str := if b then str "True" else str "False"

/-- `str(x)`; that of an enumeration has the name of its class in it and never comes up
(httpolice/citation.py 36-54). -/
def Scalar.show : Scalar → Str
  | .key (.word s) => s
  | .key (.num n) => intText n
  | .num n => intText n
  | .flag b => flagText b
  | .member s => s
  | .text s => s

/-- `bool(x)` (httpolice/known/__init__.py 79-104, citation.py 36-54). -/
def Scalar.truthy : Scalar → Bool
  | .key (.word s) => !s.isEmpty
  | .key (.num n) => n ≠ 0
  | .num n => n ≠ 0
  | .flag b => b
  | .member _ => true
  | .text s => !s.isEmpty

/-- `int(x)` (httpolice/known/__init__.py 79-104). -/
def Scalar.toInt : Scalar → Except KnowErr Int
  | .key (.word s) => match pyInt s with | some n => .ok n | none => .error .valueError
  | .key (.num n) => .ok n
  | .num n => .ok n
  | .flag b => .ok (if b then 1 else 0)
  | .member _ => .error .typeError
  | .text s => match pyInt s with | some n => .ok n | none => .error .valueError

/-- `str(x) if x else None` (citation.py 39-40). -/
def shownIf (x : Option Scalar) : Option Str :=
  match x with
  | some v => if v.truthy then some v.show else none
  | none => none

/-- `bool(x)` of an optional argument (citation.py 37). -/
def optTrue (x : Option Scalar) : Bool := match x with | some v => v.truthy | none => false

/-- `RFC.__init__` (citation.py 36-41): the checks and the conversions. -/
def mkRfc (num : Scalar) (sect appendix errata : Option Scalar) : Except KnowErr Citation :=
  if optTrue sect && optTrue appendix || optTrue sect && optTrue errata ||
      optTrue appendix && optTrue errata then .error .assertion
  else
    match num.toInt with
    | .error e => .error e
    | .ok n =>
      if optTrue errata then
        match errata with
        | none => .ok (.rfc n (shownIf sect) (shownIf appendix) none)
        | some v =>
          match v.toInt with
          | .error e => .error e
          | .ok m => .ok (.rfc n (shownIf sect) (shownIf appendix) (some m))
      else .ok (.rfc n (shownIf sect) (shownIf appendix) none)

/-- `errata` is set and is not zero (citation.py 43). -/
def hasErrata : Option Int → Bool
  | none => false
  | some m => m ≠ 0

/-- `.title` of a citation: `Citation.__init__` (citation.py 8-10), `RFC.__init__` (42-53). -/
def Citation.title : Citation → Option Scalar
  | .doc t _ => t
  | .rfc n sect appendix errata =>
    some (.text (str "RFC" ++ [0xA0] ++ intText n ++
      (if hasErrata errata then str " errata"
       else match sect, appendix with
        | some s, _ => str " §" ++ [0xA0] ++ s
        | none, some a => str " appendix" ++ [0xA0] ++ a
        | none, none => [])))

/-- `.url` of a citation: `Citation.__init__` (citation.py 8-10), `RFC.__init__` (43-54). -/
def Citation.url : Citation → Scalar
  | .doc _ u => u
  | .rfc n sect appendix errata =>
    .text (match errata, hasErrata errata with
      | some m, true => str "https://www.rfc-editor.org/errata_search.php?eid=" ++ intText m
      | _, _ => str "https://tools.ietf.org/html/rfc" ++ intText n ++
        match sect, appendix with
        | some s, _ => str "#section-" ++ s
        | none, some a => str "#appendix-" ++ a
        | none, none => [])

/-- `self.cls(value)` (known/__init__.py 41, 86). -/
def mkKey (c : KnowClass) (value : Str) : Except KnowErr KeyVal :=
  if c.numeric then
    match pyInt value with
    | some n => .ok (.num n)
    | none => .error .valueError
  else .ok (.word value)

/-- One field of a row, unless it is empty (known/__init__.py 83-94). -/
def processField (c : KnowClass) (field value : Str) : Except KnowErr Scalar :=
  if field = str "key" then (mkKey c value).map .key
  else if value.all isDigit then
    match intBody value with
    | some n => .ok (.num n)
    | none => .error .valueError
  else if asciiLower value = str "true" ∨ asciiLower value = str "false" then
    .ok (.flag (asciiLower value = str "true"))
  else
    match c.enums.lookup field with
    | some members => if members.contains value then .ok (.member value) else .error .keyError
    | none => .ok (.text value)

/-- The loop over the fields (known/__init__.py 80-94). -/
def processFields (c : KnowClass) : Dict KCell → Dict Str → Except KnowErr (Dict KCell)
  | p, [] => .ok p
  | p, (field, value) :: raw =>
    if value.isEmpty then processFields c p raw
    else
      match processField c field value with
      | .error e => .error e
      | .ok v => processFields c (p.set field (.plain v)) raw

/-- The value as an argument of `RFC` and `Citation` (httpolice/known/__init__.py 79-104). -/
def scalarOf : Option KCell → Option Scalar
  | some (.plain v) => some v
  | _ => none

/-- Making up the citation from `rfc`, `rfc_section`, `rfc_appendix` (known/__init__.py 96-99). -/
def citeRfc (p : Dict KCell) : Except KnowErr (Dict KCell) :=
  match p.get (str "rfc") with
  | none => .ok p
  | some v =>
    match scalarOf (some v) with
    | none => .error .typeError
    | some n =>
      match mkRfc n (scalarOf (p.get (str "rfc_section"))) (scalarOf (p.get (str "rfc_appendix"))) none with
      | .error e => .error e
      | .ok cite =>
        .ok ((((p.drop (str "rfc")).drop (str "rfc_section")).drop (str "rfc_appendix")).set
          (str "citation") (.cite cite))

/-- Making up the citation from `cite_url`, `cite_title` (known/__init__.py 100-102). -/
def citeUrl (p : Dict KCell) : Dict KCell :=
  match scalarOf (p.get (str "cite_url")) with
  | none => p
  | some url =>
    ((p.drop (str "cite_title")).drop (str "cite_url")).set (str "citation")
      (.cite (.doc (scalarOf (p.get (str "cite_title"))) url))

/-- The rest of `SyntaxKnowledge.process` (known/__init__.py 161-165). `find module name` is what
the import and `getattr` give. -/
def findSyntax (find : Str → Str → Except KnowErr Nat) (p : Dict KCell) :
    Except KnowErr (Dict KCell) :=
  match scalarOf (p.get (str "syntax_module")) with
  | none => .ok p
  | some m =>
    match scalarOf (p.get (str "syntax_symbol")) with
    | none => .error .keyError
    | some (.text s) =>
      match find m.show s with
      | .error e => .error e
      | .ok n =>
        .ok (((p.drop (str "syntax_module")).drop (str "syntax_symbol")).set (str "syntax") (.symbol n))
    | some _ => .error .typeError

/-- `Knowledge.process` and `SyntaxKnowledge.process` (known/__init__.py 79-104, 159-166). -/
def process (find : Str → Str → Except KnowErr Nat) (c : KnowClass) (raw : Dict Str) :
    Except KnowErr (Dict KCell) :=
  match processFields c [] raw with
  | .error e => .error e
  | .ok p =>
    match citeRfc p with
    | .error e => .error e
    | .ok p => if c.hasSyntax then findSyntax find (citeUrl p) else .ok (citeUrl p)

/-- `name.replace(a, b)` for single characters (httpolice/known/__init__.py 67-76). -/
def swapChar (a b : Nat) (s : Str) : Str := s.map fun c => if c = a then b else c

/-- `s.upper()` of ASCII text (httpolice/known/__init__.py 245-249). -/
def asciiUpper (s : Str) : Str := s.map upperChar

/-- `Knowledge.name_from_raw` (known/__init__.py 67-77) given the key or the title. -/
def plainName (s : Str) : Str :=
  let name := asciiLower (swapChar 46 95 (swapChar 43 95 (swapChar 47 95 (swapChar 32 95
    (swapChar 45 32 s)))))
  if name = str "continue" ∨ name = str "for" ∨ name = str "from" ∨ name = str "return" then
    name ++ str "_"
  else name

/-- `name_from_raw` with its overriding methods (known/__init__.py 67-77, 247-249, 369-372). -/
def nameFromRaw (c : KnowClass) (key : KeyVal) (raw : Dict Str) : Except KnowErr Str :=
  match c.naming, key with
  | .same, .word s => .ok s
  | .same, .num _ => .error .typeError
  | n, .word s => .ok (if n = .upper then asciiUpper (plainName s) else plainName s)
  | n, .num _ =>
    match raw.get (str "title") with
    | none => .error .keyError
    | some t => .ok (if n = .upper then asciiUpper (plainName t) else plainName t)

/-- Strings as `==` and `hash` see them: those of a `CaseInsensitive` without case
(structure.py 153-166; `lower` is `str.lower`). -/
def sameKey (lower : Str → Str) (c : KnowClass) (a b : KeyVal) : Bool :=
  match a, b with
  | .word s, .word t => if c.ci then lower s == lower t else s == t
  | .num m, .num n => m == n
  | _, _ => false

/-- Lookup in a `dict` whose keys are instances of `cls` (httpolice/known/__init__.py 50-64). -/
def keyLookup {V : Type} (lower : Str → Str) (c : KnowClass) (k : KeyVal) :
    List (KeyVal × V) → Option V
  | [] => none
  | (k', v) :: d => if sameKey lower c k' k then some v else keyLookup lower c k d

/-- An instance of `Knowledge` (known/__init__.py 28-48). -/
structure Knowledge where
  keysByName : Dict KeyVal
  rawByKey : List (KeyVal × Dict Str)
  processedByKey : List (KeyVal × Dict KCell)

/-- The loop of `Knowledge.__init__` (known/__init__.py 40-46). -/
def loadRows (lower : Str → Str) (c : KnowClass) : Knowledge → List (Dict Str) →
    Except KnowErr Knowledge
  | k, [] => .ok k
  | k, raw :: rows =>
    match raw.get (str "key") with
    | none => .error .keyError
    | some value =>
      match mkKey c value with
      | .error e => .error e
      | .ok key =>
        if (keyLookup lower c key k.rawByKey).isSome then .error .assertion
        else
          match nameFromRaw c key raw with
          | .error e => .error e
          | .ok name =>
            if (k.keysByName.get name).isSome then .error .assertion
            else loadRows lower c
              { k with rawByKey := k.rawByKey ++ [(key, raw)],
                       keysByName := k.keysByName ++ [(name, key)] } rows

/-- `Knowledge.__init__` (known/__init__.py 28-48), given the rows of the file. -/
def loadKnowledge (lower : Str → Str) (c : KnowClass) (rows : List (Dict Str)) :
    Except KnowErr Knowledge :=
  loadRows lower c ⟨[], [], []⟩ rows

/-- `Knowledge.get` (known/__init__.py 56-65): the result, and the instance afterwards. -/
def Knowledge.get (lower : Str → Str) (find : Str → Str → Except KnowErr Nat) (c : KnowClass)
    (k : Knowledge) (key : KeyVal) : Except KnowErr (Dict KCell) × Knowledge :=
  match keyLookup lower c key k.processedByKey with
  | some p => (.ok p, k)
  | none =>
    match keyLookup lower c key k.rawByKey with
    | none => (.ok [], { k with processedByKey := k.processedByKey ++ [(key, [])] })
    | some raw =>
      match process find c raw with
      | .error e => (.error e, k)
      | .ok p => (.ok p, { k with processedByKey := k.processedByKey ++ [(key, p)] })

/-- A history of calls of `get`: what they return, and the instance afterwards
(httpolice/known/__init__.py 56-64). -/
def Knowledge.gets (lower : Str → Str) (find : Str → Str → Except KnowErr Nat) (c : KnowClass)
    (k : Knowledge) : List KeyVal → List (Except KnowErr (Dict KCell)) × Knowledge
  | [] => ([], k)
  | key :: keys =>
    let r := k.get lower find c key
    let rs := r.2.gets lower find c keys
    (r.1 :: rs.1, rs.2)

/-- `KnowledgeAccessor.__getattr__` (known/__init__.py 148-152). -/
def Knowledge.attr (k : Knowledge) (name : Str) : Except KnowErr KeyVal :=
  match k.keysByName.get name with
  | some key => .ok key
  | none => .error .attributeError

/-- `Knowledge.__contains__` (known/__init__.py 50-51). -/
def Knowledge.has (lower : Str → Str) (c : KnowClass) (k : Knowledge) (key : KeyVal) : Bool :=
  (keyLookup lower c key k.rawByKey).isSome

/-- `.get('flag')` used as a condition, as in `is_bad_for_trailer`, `is_safe`, `is_library`, …
(known/__init__.py 209-232, 251-258, 294-298, 312-334). -/
def flagOf (p : Dict KCell) (field : Str) : Bool :=
  match scalarOf (p.get field) with
  | some v => v.truthy
  | none => false

/-- `.get('argument') is Argument.required` and the like (known/__init__.py 193-197, 234-235,
273-274, 288-292). -/
def isMember (p : Dict KCell) (field name : Str) : Bool :=
  p.get field == some (.plain (.member name))

/-- `is_deprecated` of headers (known/__init__.py 237-239). -/
def headerDeprecated (p : Dict KCell) : Bool :=
  p.get (str "iana_status") == some (.plain (.text (str "deprecated"))) ||
    p.get (str "iana_status") == some (.plain (.text (str "obsoleted")))

/-- `key.endswith(suffix)` of a `CaseInsensitive` (structure.py 171-172). -/
def endsWithCi (lower : Str → Str) (key suffix : Str) : Bool := (lower suffix).isSuffixOf (lower key)

/-- `is_json` (known/__init__.py 315-316). -/
def mediaIsJson (lower : Str → Str) (p : Dict KCell) (key : Str) : Bool :=
  flagOf p (str "is_json") || endsWithCi lower key (str "+json")

/-- `is_xml` (known/__init__.py 318-319). -/
def mediaIsXml (lower : Str → Str) (p : Dict KCell) (key : Str) : Bool :=
  flagOf p (str "is_xml") || endsWithCi lower key (str "+xml")

/-- `is_multipart` (known/__init__.py 321-322). -/
def mediaIsMultipart (lower : Str → Str) (key : Str) : Bool :=
  (lower (str "multipart/")).isPrefixOf (lower key)

/-- `citation` (known/__init__.py 398-399), given what `get` returned. -/
def knownCitation (p : Dict KCell) : Option Citation :=
  match p.get (str "citation") with
  | some (.cite c) => some c
  | _ => none

/-- `title` (known/__init__.py 402-412), given what `get` returned. -/
def knownTitle (p : Dict KCell) (withCitation : Bool) : Option Scalar :=
  let t := scalarOf (p.get (str "title"))
  if withCitation then
    match knownCitation p with
    | none => t
    | some cite =>
      if optTrue cite.title then
        match t, cite.title with
        | some t, some ct =>
          if t.truthy then some (.text (t.show ++ str " (" ++ ct.show ++ str ")")) else some ct
        | _, ct => ct
      else t
  else t

end Httpolice.Model
