import Verif.Spec.Languages
import Verif.Spec.Links
import Verif.Spec.Wire
import Verif.Model.Rfc8187

/-!
# Encoded values (RFC 8187), Content-Disposition (RFC 6266) and values of the parameters of links (RFC 8288)
-/

namespace Httpolice.Spec

open Httpolice.Model

/-! ## Encoded values -/

/-- UTF-8 (RFC 3629). -/
def utf8 (c : Nat) : Str :=
  if c < 0x80 then [c]
  else if c < 0x800 then [0xC0 + c / 0x40, 0x80 + c % 0x40]
  else if c < 0x10000 then [0xE0 + c / 0x1000, 0x80 + c / 0x40 % 0x40, 0x80 + c % 0x40]
  else [0xF0 + c / 0x40000, 0x80 + c / 0x1000 % 0x40, 0x80 + c / 0x40 % 0x40, 0x80 + c % 0x40]

/-- Characters of Unicode: without surrogates. -/
def IsScalar (c : Nat) : Prop := c < 0xD800 ∨ (0xE000 ≤ c ∧ c < 0x110000)

/-- The bytes are characters in UTF-8. -/
def IsUtf8 (b : Str) : Prop := ∃ w : Str, (∀ c ∈ w, IsScalar c) ∧ b = w.flatMap utf8

/-- A byte, as it is or in two hexadecimal digits. -/
inductive XChar
  | plain (c : Nat)
  | percent (a b : Nat)
deriving DecidableEq, Repr

/-- What need not be encoded. -/
def IsAttrChar (c : Nat) : Prop := IsLetter c ∨ IsDigit c ∨ c ∈ str "!#$&+-.^_`|~"

def XChar.Ok : XChar → Prop
  | .plain c => IsAttrChar c
  | .percent a b => IsHexDigit a ∧ IsHexDigit b

def XChar.text : XChar → Str
  | .plain c => [c]
  | .percent a b => [37, a, b]

/-- The byte. -/
def XChar.byte : XChar → Nat
  | .plain c => c
  | .percent a b => 16 * hexVal a + hexVal b

/-- A name of a charset. -/
def IsCharsetName (w : Str) : Prop := w ≠ [] ∧ ∀ c ∈ w, IsLetter c ∨ IsDigit c ∨ c ∈ str "!#$%&+-^_`{}~"

/-- A value with its charset and perhaps a language. -/
structure ExtSyn where
  charset : Str
  language : Option Str
  chars : List XChar

structure ExtSyn.Ok (x : ExtSyn) : Prop where
  charset : IsCharsetName x.charset
  language : ∀ w, x.language = some w → IsLanguageTag w
  chars : ∀ c ∈ x.chars, c.Ok

def ExtSyn.text (x : ExtSyn) : Str := x.charset ++ 39 :: x.language.getD [] ++ 39 :: x.chars.flatMap XChar.text

def ExtSyn.bytes (x : ExtSyn) : Str := x.chars.map XChar.byte

def ExtSyn.value (x : ExtSyn) : GVal :=
  .obj (str "ExtValue") [nameValue (str "CaseInsensitive") x.charset,
    (match x.language with | none => .none | some w => nameValue (str "LanguageTag") w), .obj (str "bytes") [.text x.bytes]]

open Classical in
/-- 1253 if it is not in UTF-8; 1254 if it is said to be so, but is not. -/
noncomputable def ExtSyn.notes (x : ExtSyn) : List PyComplaint :=
  if ¬ SameWord x.charset (str "UTF-8") then [(1253, [(str "charset", .other (nameValue (str "CaseInsensitive") x.charset))])]
  else if IsUtf8 x.bytes then []
  else [(1254, [(str "charset", .other (nameValue (str "CaseInsensitive") x.charset)), (str "error", .unicodeErr (.bytes x.bytes))])]

/-! ## Content-Disposition -/

/-- A value of a parameter. -/
inductive DispValue
  | word (w : Word)
  | ext (x : ExtSyn)

def DispValue.Ok : DispValue → Prop
  | .word w => w.Ok
  | .ext x => x.Ok

def DispValue.text : DispValue → Str
  | .word w => w.text
  | .ext x => x.text

def DispValue.value : DispValue → GVal
  | .word w => .text w.content
  | .ext x => x.value

noncomputable def DispValue.notes : DispValue → List PyComplaint
  | .word w => w.notes
  | .ext x => x.notes

def DispValue.IsExt : DispValue → Prop
  | .word _ => False
  | .ext _ => True

/-- A parameter, with the whitespace before and after the equals sign. -/
structure DispParam where
  name : Str
  before : Str
  after : Str
  value : DispValue

/-- The value is encoded for `filename*` and only there. -/
structure DispParam.Ok (x : DispParam) : Prop where
  name : IsToken x.name
  before : IsOws x.before
  after : IsOws x.after
  value : x.value.Ok
  ext : x.value.IsExt ↔ SameWord x.name (str "filename*")

def DispParam.text (x : DispParam) : Str := x.name ++ x.before ++ 61 :: x.after ++ x.value.text

def DispParam.entry (x : DispParam) : GVal := .tuple [nameValue (str "CaseInsensitive") x.name, x.value.value]

structure DispSyn where
  name : Str
  params : SemiSyn DispParam

def DispSyn.Ok (x : DispSyn) : Prop := IsToken x.name ∧ x.params.Ok DispParam.Ok

def DispSyn.text (x : DispSyn) : Str := x.name ++ x.params.text DispParam.text

def DispSyn.value (x : DispSyn) : GVal :=
  .obj (str "Parametrized") [nameValue (str "CaseInsensitive") x.name, multi (x.params.elems.map DispParam.entry)]

noncomputable def DispSyn.notes (x : DispSyn) : List PyComplaint := x.params.elems.flatMap fun p => p.value.notes

/-! ## Parameters of links -/

/-- A registered name in lower case, or a URI. -/
inductive RelSyn
  | name (w : Str)
  | uri (w : Str)

def RelSyn.Ok : RelSyn → Prop
  | .name w => ∃ c v, (97 ≤ c ∧ c ≤ 122) ∧ (∀ d ∈ v, (97 ≤ d ∧ d ≤ 122) ∨ IsDigit d ∨ d = 46 ∨ d = 45) ∧ w = c :: v
  | .uri w => ∃ x : Uri, x.Ok ∧ x.scheme ≠ none ∧ w = x.text

def RelSyn.text : RelSyn → Str
  | .name w => w
  | .uri w => w

def RelSyn.value : RelSyn → GVal
  | .name w => nameValue (str "CaseInsensitive") w
  | .uri w => .text w

/-- Some of them, with spaces in between. -/
structure RelsSyn where
  first : RelSyn
  rest : List (Str × RelSyn)

def RelsSyn.Ok (x : RelsSyn) : Prop :=
  x.first.Ok ∧ ∀ y ∈ x.rest, (y.1 ≠ [] ∧ ∀ c ∈ y.1, c = 32) ∧ y.2.Ok

def RelsSyn.text (x : RelsSyn) : Str := x.first.text ++ x.rest.flatMap fun y => y.1 ++ y.2.text

def RelsSyn.value (x : RelsSyn) : GVal := .list (x.first.value :: x.rest.map fun y => y.2.value)

/-- A name in a media type, after RFC 6838. -/
def IsRestricted (w : Str) : Prop :=
  ∃ c v, (IsLetter c ∨ IsDigit c) ∧ (∀ d ∈ v, IsLetter d ∨ IsDigit d ∨ d ∈ str "!#$&-^_.+") ∧ v.length ≤ 126 ∧ w = c :: v

/-- A media type. -/
def IsLinkType (w : Str) : Prop := ∃ u v, IsRestricted u ∧ IsRestricted v ∧ w = u ++ 47 :: v

/-- What the value of a parameter of a link is read as, and with which complaints. -/
inductive IsRead : LinkSymbol → Str → GVal → List PyComplaint → Prop
  | anchor {w : Str} : IsUriReference w → IsRead .uriReference w (.text w) []
  | rel {x : RelsSyn} : x.Ok → IsRead .rel x.text x.value []
  | rev {x : RelsSyn} : x.Ok → IsRead .rev x.text x.value []
  | hreflang {w : Str} : IsLanguageTag w → IsRead .hreflang w (nameValue (str "LanguageTag") w) []
  | type_ {w : Str} : IsLinkType w → IsRead .type_ w (nameValue (str "MediaType") w) (meantNotes w)
  | title {x : ExtSyn} : x.Ok → IsRead .extValue x.text x.value x.notes

/-- What becomes of the value of a parameter called `name`: what it is read as, with the complaints about it put in context; or, if
it is not well-formed, 1158. -/
def ArgumentIs (s : LinkSymbol) (name w : Str) (v : GVal) (cs : List PyComplaint) : Prop :=
  let about : Context PErr GVal := [(str "name", .other (nameValue (str "CaseInsensitive") name)), (str "value", .other (.text w))]
  (∃ (ns ds : List PyComplaint), IsRead s w v ns ∧ ds.Perm ns ∧ cs = ds.map fun d => (d.1, mergeContext about d.2)) ∨
    ((∀ v' ns, ¬ IsRead s w v' ns) ∧ v = unavailableObj w ∧ ∃ e, cs = [(1158, about ++ [(str "error", .err (.parse e))])])

end Httpolice.Spec
