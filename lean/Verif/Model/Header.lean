import Verif.Model.HeaderTable
import Verif.Model.Text

/-!
# Model of the header views (httpolice/header.py)

`lower` is Python's `str.lower`; field names are `CaseInsensitive` (structure.py 227), so they are
compared by lower-case form (keys passed to `HeadersView` are `FieldName` objects, as the code and
its API do; a plain `str` would be hashed differently). The grammar of each header is a parameter: what `parse` and
`_process_parsed` give for an entry, together with the notices they report.
A notice is represented by its ID and the entries it is about (other context is left out).
-/

namespace Httpolice.Model

/-- `HeaderEntry` (structure.py 208-224). -/
structure Entry where
  name : Str
  value : Str
deriving DecidableEq, Repr

/-- The part of a `Message` (message.py 44-56) used by header views. -/
structure Msg where
  headers : List Entry
  trailers : List Entry

/-- A notice: ID and entries (httpolice/header.py 128-175). -/
structure Note where
  id : Nat
  entries : List Entry
deriving DecidableEq, Repr

/-- An element of a list value: a parsed element, or `Unavailable(inner)` (httpolice/header.py 298-325). -/
inductive Elem (V : Type)
  | ok (v : V)
  | unavailable (inner : Option Str)
deriving DecidableEq, Repr

/-- The result of parsing one entry: a list, another ("singular") value, or `Unavailable`
(httpolice/header.py 128-150). -/
inductive Parsed (V : Type)
  | list (xs : List V)
  | single (v : V)
  | unavailable (inner : Option Str)
deriving DecidableEq, Repr

/-- What is known about a header (known/__init__.py 205-239): whether it is forbidden in trailers,
and the result of parsing an entry together with the notices reported while doing so, including
1000 for a malformed one and those of `_check_quoted_delims` (header.py 138-149). -/
structure HeaderKind (V : Type) where
  badForTrailer : Bool
  parse : Entry → Parsed V × List Note

/-- `HeadersView.enumerate` (header.py 85-93). -/
def enumerateHeaders (lower : Str → Str) (m : Msg) (name : Option Str) : List (Bool × Nat × Entry) :=
  [(false, m.headers), (true, m.trailers)].flatMap fun p =>
    (p.2.zipIdx.filter fun ei => match name with
      | none => true
      | some n => lower n = lower ei.1.name).map fun ei => (p.1, ei.2, ei.1)

/-- The loop of `HeadersView.names` (header.py 73-79) over one list of entries. -/
def namesFrom (lower : Str → Str) : List Str → List Entry → List Str × List Str
  | seen, [] => ([], seen)
  | seen, e :: es =>
    if lower e.name ∈ seen then namesFrom lower seen es
    else
      let (out, seen') := namesFrom lower (lower e.name :: seen) es
      (e.name :: out, seen')

/-- `HeadersView.names` (header.py 71-79); `seen` is a set of `CaseInsensitive`. -/
def headerNames (lower : Str → Str) (m : Msg) : List Str :=
  let (out1, seen1) := namesFrom lower [] m.headers
  let (out2, _) := namesFrom lower seen1 m.trailers
  out1 ++ out2

/-- The loop of `HeaderView._pre_parse` (header.py 133-149). -/
def preParseFrom {V : Type} (k : HeaderKind V) :
    List (Bool × Nat × Entry) → List Entry × List (Parsed V) × List Note
  | [] => ([], [], [])
  | (fromTrailer, _, e) :: items =>
    if fromTrailer && k.badForTrailer then
      let (es, vs, ns) := preParseFrom k items
      (es, vs, ⟨1026, [e]⟩ :: ns)
    else
      let (v, ns1) := k.parse e
      let (es, vs, ns) := preParseFrom k items
      (e :: es, v :: vs, ns1 ++ ns)

/-- `HeaderView._pre_parse` (header.py 128-150): entries, values and notices. -/
def preParse {V : Type} (lower : Str → Str) (k : HeaderKind V) (m : Msg) (name : Str) :
    List Entry × List (Parsed V) × List Note :=
  preParseFrom k (enumerateHeaders lower m (some name))

/-- A parsed `HeaderView`: `_value`, `_entries` and the notices reported on the message
(httpolice/header.py 99-190). -/
structure View (α : Type) where
  value : α
  entries : List Entry
  notes : List Note

/-- `SingleHeaderView._parse` (header.py 286-295). -/
def singleView {V : Type} (lower : Str → Str) (k : HeaderKind V) (m : Msg) (name : Str) :
    View (Option (Parsed V)) :=
  let (entries, values, notes) := preParse lower k m name
  if entries.isEmpty then ⟨none, [], notes⟩
  else ⟨values.getLast?, entries.getLast?.toList,
    notes ++ (if entries.length > 1 then [⟨1013, entries⟩] else [])⟩

/-- The value of a `MultiHeaderView` (httpolice/header.py 298-325). -/
inductive MultiValue (V : Type)
  | single (v : V)
  | elems (xs : List (Elem V))
deriving DecidableEq, Repr

/-- `singular` in `MultiHeaderView._parse` (header.py 307-308). -/
def singulars {V : Type} (values : List (Parsed V)) : List V :=
  values.filterMap fun v => match v with
    | .single v => some v
    | _ => none

/-- The loop of `MultiHeaderView._parse` (header.py 317-321), for values without singular ones. -/
def multiElems {V : Type} : List (Parsed V) → List (Elem V)
  | [] => []
  | .unavailable inner :: vs => .unavailable inner :: multiElems vs
  | .list xs :: vs => xs.map .ok ++ multiElems vs
  | .single _ :: vs => multiElems vs

/-- `MultiHeaderView._parse` (header.py 302-322). -/
def multiView {V : Type} (lower : Str → Str) (k : HeaderKind V) (m : Msg) (name : Str) :
    View (MultiValue V) :=
  let (entries, values, notes) := preParse lower k m name
  match singulars values with
  | [] => ⟨.elems (multiElems values), entries, notes⟩
  | v :: vs =>
    if (v :: vs).length = entries.length ∧ entries.length = 1 then ⟨.single v, entries, notes⟩
    else ⟨.elems [.unavailable none], entries, notes ++ [⟨1013, entries⟩]⟩

/-- `UnknownHeaderView._parse` (header.py 274-279). Such headers have no syntax
(`C49_unknown_has_no_syntax`), so the values are the raw bytes. -/
def unknownView (lower : Str → Str) (badForTrailer : Bool) (m : Msg) (name : Str) :
    View (Option Str) :=
  let (entries, values, notes) :=
    preParse lower ⟨badForTrailer, fun e => (.single e.value, [])⟩ m name
  ⟨if (singulars values).isEmpty then none else some (joinWith (str ",") (singulars values)),
    entries, notes⟩

/-- A Python value as `okay` (structure.py 52-53) sees it. -/
inductive PyVal (α : Type)
  | none
  | unavailable
  | val (a : α)

/-- The `value` property of a single header (header.py 187-190). -/
def singleValue {V : Type} : Option (Parsed V) → PyVal (Parsed V)
  | .none => .none
  | .some (.unavailable _) => .unavailable
  | .some p => .val p

/-- `okay` (structure.py 52-53). -/
def PyVal.okay {α : Type} : PyVal α → Bool
  | .none => false
  | .unavailable => false
  | .val _ => true

/-- `HeaderView._compare` (header.py 242-244) with an operand that is not itself a `HeaderView`;
`op` is one of `<`, `<=`, `==`, `!=`, `>=`, `>` on the values. -/
def compareView {α β : Type} (op : α → β → Bool) (value : PyVal α) (other : PyVal β) : Bool :=
  value.okay && other.okay && (match value, other with
    | .val a, .val b => op a b
    | _, _ => false)

/-! ## Directives -/

/-- Knowledge about a directive (known/__init__.py 178-197): whether an argument is required or
forbidden, and the parser for the argument if it has a defined syntax (`none` for a malformed
one). Notices reported while parsing an argument successfully are left out. -/
structure DirectiveInfo (A : Type) where
  required : Bool
  noArgument : Bool
  parser : Option (Str → Option A)

/-- The argument of a processed directive (httpolice/header.py 337-356). -/
inductive ArgVal (A : Type)
  | none
  | unavailable (s : Str)
  | raw (s : Str)
  | parsed (a : A)
deriving DecidableEq, Repr

/-- `ArgumentsView._process_pair` (header.py 340-355): the processed argument and the ID of the
notice reported, if any. -/
def processPair {A : Type} (info : DirectiveInfo A) : Option Str → ArgVal A × Option Nat
  | .none => if info.required then (.unavailable [], some 1156) else (.none, .none)
  | .some arg =>
    if info.noArgument then (.unavailable arg, some 1157)
    else match info.parser with
      | .none => (.raw arg, .none)
      | .some p => match p arg with
        | .some a => (.parsed a, .none)
        | .none => (.unavailable arg, some 1158)

/-- How the argument of a cache directive was written (syntax/rfc7234.py): `token` or
`quoted-string`. -/
inductive ArgForm
  | token
  | quotedString
deriving DecidableEq, Repr

/-- `CacheControlView._process_pair` (header.py 378-392); `preferred` is the `argument_form` column
of cache_directive.csv. Returns the notices in order. -/
def processCachePair {A : Type} (info : DirectiveInfo A) (preferred : Option ArgForm)
    (arg : Option (ArgForm × Str)) : ArgVal A × List Nat :=
  let ns1 := match arg with
    | .none => []
    | .some (form, _) =>
      (if preferred = some .quotedString ∧ form ≠ .quotedString then [1154] else []) ++
      (if preferred = some .token ∧ form ≠ .token then [1155] else [])
  let (a, n) := processPair info (arg.map Prod.snd)
  (a, ns1 ++ n.toList)

/-- The result of `headers.x[d]`: `True`, an argument, or `None` (httpolice/header.py 365-370). -/
inductive Found (A : Type)
  | true
  | arg (a : ArgVal A)
  | none
deriving DecidableEq, Repr

/-- `DirectivesView.__getitem__` (header.py 365-369) over the elements of the value; `Unavailable`
elements are skipped by `MultiHeaderView.__iter__` (header.py 324-325). -/
def directiveGet {A : Type} (lower : Str → Str) (key : Str) :
    List (Elem (Str × ArgVal A)) → Found A
  | [] => .none
  | .unavailable _ :: es => directiveGet lower key es
  | .ok (d, a) :: es =>
    if lower d = lower key then
      match a with
      | .none => .true
      | a => .arg a
    else directiveGet lower key es

/-- Parsing an entry of a directives header: the grammar gives the list of pairs (or fails, notice
1000), `ArgumentsView._process_parsed` (header.py 337-338) processes each pair. -/
def directivesKind {A : Type} (bad : Bool) (grammar : Str → Option (List (Str × Option Str)))
    (info : Str → DirectiveInfo A) : HeaderKind (Str × ArgVal A) where
  badForTrailer := bad
  parse e := match grammar e.value with
    | .none => (.unavailable (some e.value), [⟨1000, [e]⟩])
    | .some ps => (.list (ps.map fun p => (p.1, (processPair (info p.1) p.2).1)),
        ps.filterMap fun p => (processPair (info p.1) p.2).2.map fun id => ⟨id, [e]⟩)

/-! ## View classes and the cache of `HeadersView` -/

/-- The class of a header view (httpolice/header.py 47-70). -/
inductive ViewClass
  | single
  | multi
  | unknown
  | special (name : String)
deriving DecidableEq, Repr

/-- `HeadersView.special_cases` (header.py 32-38, filled at 372, 395, 402, 420, 445, 452). -/
def specialCases : List String :=
  ["Cache-Control", "Strict-Transport-Security", "Alt-Svc", "Prefer", "Preference-Applied",
   "Forwarded"]

/-- `HeaderKnowledge.rule_for` (known/__init__.py 234-235) via `Knowledge.get` (56-65): lookup by
case-insensitive key, `None` for unknown headers and for known headers without a rule. -/
def ruleFor (lower : Str → Str) (key : Str) : Option HeaderRule :=
  (headerRows.find? fun r => lower (str r.key) = lower key).bind HeaderRow.rule

/-- The choice of view class in `HeadersView.__getitem__` (header.py 49-65); `none` models
`AssertionError`. -/
def viewClass (lower : Str → Str) (key : Str) : Option ViewClass :=
  match specialCases.find? fun s => lower (str s) = lower key with
  | some s => if ruleFor lower key = some .special then some (.special s) else none
  | none =>
    match ruleFor lower key with
    | some .special => none
    | some .single => some .single
    | some .multi => some .multi
    | none => some .unknown

/-- The cache of a `HeadersView`: key, and the view object made for it (a serial number and its
class) (httpolice/header.py 40-70). -/
abbrev ViewCache := List (Str × Nat × ViewClass)

/-- `HeadersView.__getitem__` (header.py 47-69); `none` models `AssertionError`. -/
def getView (lower : Str → Str) (cache : ViewCache) (key : Str) :
    Option ((Nat × ViewClass) × ViewCache) :=
  match cache.find? fun e => lower e.1 = lower key with
  | some e => some (e.2, cache)
  | none => (viewClass lower key).map fun c =>
      ((cache.length, c), cache ++ [(key, cache.length, c)])

/-- `Knowledge.name_from_raw` (known/__init__.py 67-77) for string keys. -/
def nameFromKey (key : Str) : Str :=
  let s := asciiLower (key.map fun c => if c ∈ [45, 32, 47, 43, 46] then 95 else c)
  if s ∈ [str "continue", str "for", str "from", str "return"] then s ++ [95] else s

end Httpolice.Model
