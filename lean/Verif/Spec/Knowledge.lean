import Verif.Model.Knowledge

/-!
# Specification of the tables of known things

What a row of a table says, by fields. Types come from the model (`Model/Knowledge`), functions do
not, except for `Dict.get` and lower case.
-/

namespace Httpolice.Spec

open Httpolice.Model

/-- A decimal digit. -/
def IsDec (c : Nat) : Prop := 48 ≤ c ∧ c ≤ 57

/-- The number written with these digits. -/
def numberOf (s : Str) : Nat := s.foldl (fun n c => 10 * n + (c - 48)) 0

/-- The cell is the numeral of `n`. -/
def Numeral (s : Str) (n : Nat) : Prop := s ≠ [] ∧ (∀ c ∈ s, IsDec c) ∧ n = numberOf s

/-- The cell says yes or no. -/
def YesNo (s : Str) (b : Bool) : Prop :=
  asciiLower s = (if b then str "true" else str "false")

/-- `v` is what a cell that is not empty says, in a column of a table. -/
inductive CellSays (c : KnowClass) : Str → Str → Scalar → Prop
  | name (s : Str) : c.numeric = false → CellSays c (str "key") s (.key (.word s))
  | code (s : Str) (n : Nat) : c.numeric = true → Numeral s n →
      CellSays c (str "key") s (.key (.num n))
  | number (field s : Str) (n : Nat) : field ≠ str "key" → Numeral s n → CellSays c field s (.num n)
  | yesNo (field s : Str) (b : Bool) : field ≠ str "key" → YesNo s b → CellSays c field s (.flag b)
  | member (field s : Str) (members : List Str) : field ≠ str "key" →
      (¬ ∀ ch ∈ s, IsDec ch) → (∀ b, ¬ YesNo s b) →
      (field, members) ∈ c.enums → s ∈ members → CellSays c field s (.member s)
  | text (field s : Str) : field ≠ str "key" → (¬ ∀ ch ∈ s, IsDec ch) → (∀ b, ¬ YesNo s b) →
      (∀ members, (field, members) ∉ c.enums) → CellSays c field s (.text s)

/-- The row says `v` in this column, and something at all. -/
def RowSays (c : KnowClass) (raw : Dict Str) (field : Str) (v : Scalar) : Prop :=
  ∃ s, (field, s) ∈ raw ∧ s ≠ [] ∧ CellSays c field s v

/-- The row says nothing in this column. -/
def Silent (raw : Dict Str) (field : Str) : Prop := ∀ s, (field, s) ∈ raw → s = []

/-- The row says `r` in this column. -/
def Says (c : KnowClass) (raw : Dict Str) (field : Str) (r : Option Scalar) : Prop :=
  match r with
  | none => Silent raw field
  | some v => RowSays c raw field v

/-- A section or an appendix that is shown as `s`: a number, or another text. Zero and `False` stand
for nothing. -/
inductive Part (c : KnowClass) (raw : Dict Str) (field : Str) : Option Str → Prop
  | none : Silent raw field → Part c raw field .none
  | zero : RowSays c raw field (.num 0) → Part c raw field .none
  | no : RowSays c raw field (.flag false) → Part c raw field .none
  | number (n : Nat) : n ≠ 0 → RowSays c raw field (.num n) →
      Part c raw field (some (str (toString n)))
  | yes : RowSays c raw field (.flag true) → Part c raw field (some (str "True"))
  | text (s : Str) : RowSays c raw field (.text s) → Part c raw field (some s)

/-- The document that a row refers to. -/
inductive Cites (c : KnowClass) (raw : Dict Str) : Option Citation → Prop
  | url (title : Option Scalar) (url : Scalar) : RowSays c raw (str "cite_url") url →
      Says c raw (str "cite_title") title → Cites c raw (some (.doc title url))
  | rfc (n : Nat) (sect appendix : Option Str) : Silent raw (str "cite_url") →
      RowSays c raw (str "rfc") (.num n) → Part c raw (str "rfc_section") sect →
      Part c raw (str "rfc_appendix") appendix →
      Cites c raw (some (.rfc n sect appendix none))
  | nothing : Silent raw (str "cite_url") → Silent raw (str "rfc") → Cites c raw none

/-- The columns that make up the citation and the syntax. -/
def Used (c : KnowClass) (raw : Dict Str) (field : Str) : Prop :=
  (field = str "rfc" ∨ field = str "rfc_section" ∨ field = str "rfc_appendix") ∧
      ¬ Silent raw (str "rfc") ∨
    (field = str "cite_url" ∨ field = str "cite_title") ∧ ¬ Silent raw (str "cite_url") ∨
    c.hasSyntax = true ∧ (field = str "syntax_module" ∨ field = str "syntax_symbol") ∧
      ¬ Silent raw (str "syntax_module")

/-- The columns of a file: named once each, with none of the names for made-up values. -/
structure Columns (raw : Dict Str) : Prop where
  once : (raw.map Prod.fst).Nodup
  citation : ∀ s, (str "citation", s) ∉ raw
  grammar : ∀ s, (str "syntax", s) ∉ raw

/-- A kind of tables: columns with an enumeration have one, and are not those of the citation. -/
structure Orderly (c : KnowClass) : Prop where
  once : (c.enums.map Prod.fst).Nodup
  plain : ∀ field ∈ c.enums.map Prod.fst, field ≠ str "rfc" ∧ field ≠ str "rfc_section" ∧
    field ≠ str "rfc_appendix"

/-- A row that can be understood. -/
structure Understood (find : Str → Str → Except KnowErr Nat) (c : KnowClass) (raw : Dict Str) : Prop where
  cells : ∀ field s, (field, s) ∈ raw → s ≠ [] → ∃ v, CellSays c field s v
  rfc : ¬ Silent raw (str "rfc") → ∃ n : Nat, RowSays c raw (str "rfc") (.num n)
  onePart : ¬ Silent raw (str "rfc") → Part c raw (str "rfc_section") none ∨ Part c raw (str "rfc_appendix") none
  grammar : c.hasSyntax = true → ¬ Silent raw (str "syntax_module") →
    ∃ m s n, RowSays c raw (str "syntax_module") (.text m) ∧
      RowSays c raw (str "syntax_symbol") (.text s) ∧ find m s = .ok n

/-- What is known from a row: in each field. -/
def Describes (find : Str → Str → Except KnowErr Nat) (c : KnowClass) (raw : Dict Str)
    (d : Dict KCell) : Prop :=
  (∀ cite, Cites c raw cite → d.get (str "citation") = cite.map .cite) ∧
  (∃ cite, Cites c raw cite) ∧
  (∀ m s n, c.hasSyntax = true → RowSays c raw (str "syntax_module") (.text m) →
    RowSays c raw (str "syntax_symbol") (.text s) → find m s = .ok n →
      d.get (str "syntax") = some (.symbol n)) ∧
  (c.hasSyntax = false ∨ Silent raw (str "syntax_module") → d.get (str "syntax") = none) ∧
  (∀ field, field ≠ str "citation" → field ≠ str "syntax" →
    (Used c raw field → d.get field = none) ∧
    (¬ Used c raw field → ∃ r, Says c raw field r ∧ d.get field = r.map .plain))

/-- The key of a row. -/
def HasKey (c : KnowClass) (raw : Dict Str) (key : KeyVal) : Prop :=
  ∃ s, (str "key", s) ∈ raw ∧ CellSays c (str "key") s (.key key)

/-- The same key: without regard to case if the class says so. -/
def Alike (lower : Str → Str) (c : KnowClass) : KeyVal → KeyVal → Prop
  | .word s, .word t => s = t ∨ c.ci = true ∧ lower s = lower t
  | .num m, .num n => m = n
  | _, _ => False

/-- A character of a key or a title in the name of an attribute. -/
def nameChar (ch : Nat) : Nat :=
  if ch = 45 ∨ ch = 32 ∨ ch = 47 ∨ ch = 43 ∨ ch = 46 then 95
  else if 65 ≤ ch ∧ ch ≤ 90 then ch + 32 else ch

/-- The name of an attribute: punctuation becomes underscores, letters are in lower case, and there
is one underscore more after words of Python. -/
def attrName (s : Str) : Str :=
  s.map nameChar ++
    if s.map nameChar ∈ [str "continue", str "for", str "from", str "return"] then str "_" else []

/-- The same in upper case. -/
def bigName (s : Str) : Str :=
  (attrName s).map fun ch => if 97 ≤ ch ∧ ch ≤ 122 then ch - 32 else ch

/-- The attribute for a row: made of the key, or of the title if the key is a number. -/
inductive NamedAs (c : KnowClass) (raw : Dict Str) : KeyVal → Str → Prop
  | key (s : Str) : c.naming = .plain → NamedAs c raw (.word s) (attrName s)
  | title (n : Int) (t : Str) : c.naming = .plain → (str "title", t) ∈ raw →
      NamedAs c raw (.num n) (attrName t)
  | big (s : Str) : c.naming = .upper → NamedAs c raw (.word s) (bigName s)
  | bigTitle (n : Int) (t : Str) : c.naming = .upper → (str "title", t) ∈ raw →
      NamedAs c raw (.num n) (bigName t)
  | same (s : Str) : c.naming = .same → NamedAs c raw (.word s) s

/-- No two members of the list are related. -/
def NoneAlike {α : Type} (R : α → α → Prop) (xs : List α) : Prop := xs.Pairwise fun a b => ¬ R a b

/-- Rows with their keys and names. -/
inductive TableOf (c : KnowClass) : List (Dict Str) → List (KeyVal × Str) → Prop
  | nil : TableOf c [] []
  | cons (raw : Dict Str) (rows : List (Dict Str)) (key : KeyVal) (name : Str)
      (rest : List (KeyVal × Str)) : HasKey c raw key → NamedAs c raw key name →
      TableOf c rows rest → TableOf c (raw :: rows) ((key, name) :: rest)

/-- How a section or an appendix of an RFC is shown and linked to. -/
inductive RfcPlace : Option Str → Option Str → Str → Str → Prop
  | whole : RfcPlace none none [] []
  | sect (s : Str) : RfcPlace (some s) none (str " §" ++ [0xA0] ++ s) (str "#section-" ++ s)
  | appendix (s : Str) : RfcPlace none (some s) (str " appendix" ++ [0xA0] ++ s)
      (str "#appendix-" ++ s)

end Httpolice.Spec
