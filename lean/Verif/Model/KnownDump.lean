import Verif.Model.Knowledge

/-!
# Saving the tables of known things (httpolice/known/__init__.py 106-134, 168-176)

The opposite of `process`, used by `tools/iana.py`, which fetches the registries of IANA and writes
the tables anew. Writing and reading CSV is left out: a file is the list of its rows.

`str(x)` of a key that is a number (`StatusCode`, `WarnCode`) is a parameter. In Python 3.4 to 3.7,
which setup.py names, `int.__str__` gives the decimal numeral. Since Python 3.8 `int` has no `__str__`
of its own, `object.__str__` calls `__repr__`, and `StatusCode.__repr__` (structure.py 198-199) gives
`StatusCode(200)`.
-/

namespace Httpolice.Model

/-- `processed[k] = v`, where `None` counts as nothing, because of line 123
(httpolice/known/__init__.py 110-118). -/
def Dict.put {V : Type} (d : Dict V) (k : Str) (v : Option V) : Dict V :=
  match v with
  | some v => d.set k v
  | none => d.drop k

/-- `str(value)`, or the name of a member of an enumeration (known/__init__.py 121-124). -/
def Scalar.saved (code : Int → Str) : Scalar → Str
  | .key (.num n) => code n
  | v => v.show

/-- One value in the row to be saved (known/__init__.py 120-124). Citations and symbols come up only
as `citation` and `syntax`, which are taken out before. -/
def savedCell (code : Int → Str) : KCell → Option Str
  | .plain v => some (v.saved code)
  | _ => none

/-- Taking the citation apart (known/__init__.py 108-117). -/
def unciteRow (p : Dict KCell) : Dict KCell :=
  let rest := p.drop (str "citation")
  match p.get (str "citation") with
  | some (.cite (.rfc n sect appendix _)) =>
    ((rest.put (str "rfc") (some (.plain (.num n)))).put (str "rfc_section")
      (sect.map fun s => .plain (.text s))).put (str "rfc_appendix")
      (appendix.map fun s => .plain (.text s))
  | some (.cite (.doc title url)) =>
    (rest.put (str "cite_url") (some (.plain url))).put (str "cite_title") (title.map .plain)
  | _ => rest

/-- The first part of `SyntaxKnowledge.unprocess` (known/__init__.py 168-175). -/
def keepSyntax (p : Dict KCell) (orig : Dict Str) : Dict KCell :=
  ((p.drop (str "syntax")).set (str "syntax_module")
      (.plain (.text ((orig.get (str "syntax_module")).getD [])))).set (str "syntax_symbol")
    (.plain (.text ((orig.get (str "syntax_symbol")).getD [])))

/-- `Knowledge.unprocess` and `SyntaxKnowledge.unprocess` (known/__init__.py 106-125, 168-176). -/
def unprocess (code : Int → Str) (c : KnowClass) (p : Dict KCell) (orig : Dict Str) : Dict Str :=
  (unciteRow (if c.hasSyntax then keepSyntax p orig else p)).filterMap fun e =>
    (savedCell code e.2).map fun s => (e.1, s)

/-- `DictWriter.writerow` (known/__init__.py 134): fields that are not columns of the file are an
error, columns without a field are left empty. -/
def writeRow (columns : List Str) (raw : Dict Str) : Except KnowErr (Dict Str) :=
  if raw.all fun e => columns.contains e.1 then
    .ok (columns.map fun f => (f, (raw.get f).getD []))
  else .error .valueError

/-- `Knowledge.dump` (known/__init__.py 127-134): the rows of the file that is written. An entry whose
`key` is not of the class of keys, which the tool never makes, is taken to be an error. -/
def dumpRows (lower : Str → Str) (code : Int → Str) (c : KnowClass) (k : Knowledge)
    (columns : List Str) : List (Dict KCell) → Except KnowErr (List (Dict Str))
  | [] => .ok []
  | p :: ps =>
    match p.get (str "key") with
    | some (.plain (.key key)) =>
      match writeRow columns (unprocess code c p ((keyLookup lower c key k.rawByKey).getD [])) with
      | .error e => .error e
      | .ok row =>
        match dumpRows lower code c k columns ps with
        | .error e => .error e
        | .ok rows => .ok (row :: rows)
    | some _ => .error .typeError
    | none => .error .keyError

end Httpolice.Model
