import Verif.Model.Header
import Verif.Model.Rfc7231
import Verif.Model.Structure

/-!
# Header views on parsed values (httpolice/header.py)

`Model/Header.lean` leaves open what is made of an entry. Here is what the code does with one, with the values that the grammars
give. A parser is a parameter; the parsers that are made of the grammars are in the modules of `Verif/Model` for
httpolice/syntax. The annotations of entries (header.py 147) are left out.
-/

namespace Httpolice.Model

/-- `_inner_parse` for a symbol and for some classes to annotate (httpolice/parse.py 725-800). -/
abbrev SymParser := Str → Except PErr (Node GVal × List PyComplaint × List (Annot GVal))

/-- `parse(data, symbol, self.message.complain, fail, place=entry, ...)` (parse.py 53-127): the value, and what is reported.
`data` is bytes, or the text of a value that has been parsed from bytes, which can always be encoded (parse.py 91-94). Any
error is taken for `ParseError`; by C72 to C84 there are no others. The context of complaints is left out but for `place`. -/
def runParser (p : SymParser) (fail : Nat) (e : Entry) (data : Str) : GVal × List Note :=
  match p data with
  | .error _ => (unavailableObj data, [⟨fail, [e]⟩])
  | .ok (node, cs, _) => (.ofNode node, cs.map fun c => ⟨c.1, [e]⟩)

/-! ## Delimiters in strings -/

/-- Subclasses of `str` in structure.py (145-272, 281-290, 322-420). -/
def strClasses : List Str := [str "AltSvcParam", str "AuthScheme", str "CacheDirective", str "CaseInsensitive", str "Charset",
  str "ConnectionOption", str "ContentCoding", str "FieldName", str "ForwardedParam", str "HSTSDirective", str "LanguageTag",
  str "MediaType", str "Method", str "Preference", str "ProductName", str "RangeUnit", str "TransferCoding", str "UpgradeToken"]

/-- Subclasses of `tuple` in structure.py (56-75, 133-141, 293-334, 338-360, 381-386); and `MultiDict` (78-130), in place of which
the code looks at `sequence`, a list. -/
def tupleClasses : List Str := [str "Parametrized", str "Versioned", str "EntityTag", str "RangeSpecifier", str "ContentRange",
  str "WarningValue", str "ExtValue", str "MultiDict"]

/-- What `check` reports on a string (header.py 165-168). -/
def delimNote (comma semi : Bool) (e : Entry) (s : Str) : List Note :=
  (if comma && s.contains 44 then [⟨1299, [e]⟩] else []) ++ (if semi && s.contains 59 then [⟨1300, [e]⟩] else [])

mutual
/-- `check` in `HeaderView._check_quoted_delims` (header.py 164-173). -/
def delimNotes (comma semi : Bool) (e : Entry) : GVal → List Note
  | .text s => delimNote comma semi e s
  | .tuple l => delimNotesAll comma semi e l
  | .list l => delimNotesAll comma semi e l
  | .obj cls args => if cls ∈ strClasses ∨ cls ∈ tupleClasses then delimNotesAll comma semi e args else []
  | .none => []
  | .skip => []
  | .int _ => []

/-- The loop (header.py 170-171). -/
def delimNotesAll (comma semi : Bool) (e : Entry) : List GVal → List Note
  | [] => []
  | v :: l => delimNotes comma semi e v ++ delimNotesAll comma semi e l
end

/-- The headers with `quoted_comma_bad` or `quoted_semicolon_bad` (known/header.csv). -/
def delimRows : List (String × Bool × Bool) := [
  ("Accept", true, true),
  ("Accept-Patch", true, true),
  ("Accept-Post", true, true),
  ("Content-Type", false, true),
  ("Forwarded", true, true),
  ("Link", true, true),
  ("Prefer", true, true),
  ("Preference-Applied", true, false),
  ("Strict-Transport-Security", false, true),
  ("TE", true, true),
  ("Transfer-Encoding", true, true),
  ("Via", true, false),
  ("Warning", true, false)]

/-- `HeaderKnowledge.bad_quoted_delims` (known/__init__.py 215-217). Names of headers are in ASCII. -/
def badQuotedDelims (key : Str) : Bool × Bool :=
  ((delimRows.find? fun r => asciiLower (str r.1) = asciiLower key).map Prod.snd).getD (false, false)

/-! ## Entries -/

/-- How `MultiHeaderView` and `SingleHeaderView` tell values apart (httpolice/header.py 282-325). -/
def toParsed : GVal → Parsed GVal
  | .list l => .list l
  | v => .single v

/-- What the loop of `HeaderView._pre_parse` does with an entry (header.py 138-149), for a header with a syntax. `process` is
`_process_parsed`. -/
def readEntry (p : SymParser) (process : Entry → GVal → GVal × List Note) (flags : Bool × Bool) (e : Entry) :
    Parsed GVal × List Note :=
  match runParser p 1000 e e.value with
  | (.obj cls args, ns) =>
    if cls = str "Unavailable" then (.unavailable (match args with | [.text s] => some s | _ => none), ns)
    else
      let (w, ms) := process e (.obj cls args)
      (toParsed w, ns ++ ms ++ delimNotes flags.1 flags.2 e w)
  | (v, ns) =>
    let (w, ms) := process e v
    (toParsed w, ns ++ ms ++ delimNotes flags.1 flags.2 e w)

/-- A known header, by name (known/header.csv). -/
def knownKind (key : String) (p : SymParser) (process : Entry → GVal → GVal × List Note) : HeaderKind GVal where
  badForTrailer := ((headerRows.find? fun r => r.key = key).map HeaderRow.badForTrailer).getD false
  parse := readEntry p process (badQuotedDelims (str key))

/-- `HeaderView._process_parsed` (header.py 124-126). -/
def plainProcess (_ : Entry) (v : GVal) : GVal × List Note := (v, [])

/-! ## Arguments -/

/-- The column `argument`, an `Argument` or nothing (known/__init__.py 182-185). -/
inductive ArgKind
  | no
  | optional
  | required
  | unknown
deriving DecidableEq, Repr

/-- What is known about a name that may have an argument (httpolice/known/__init__.py 182-197). -/
structure ArgRule where
  kind : ArgKind
  syn : Option SymParser

/-- `name, argument = pair` (header.py 341). -/
def unpackPair : GVal → Option (GVal × GVal)
  | .tuple [a, b] => some (a, b)
  | .list [a, b] => some (a, b)
  | .obj _ [a, b] => some (a, b)
  | _ => none

/-- The text of a string (httpolice/structure.py 143-150). -/
def strText : GVal → Str
  | .text s => s
  | .obj _ [.text s] => s
  | _ => []

/-- A processed argument (header.py 342-354). -/
def processArgument (r : ArgRule) (e : Entry) : GVal → GVal × List Note
  | .none => if r.kind = .required then (unavailableObj [], [⟨1156, [e]⟩]) else (.none, [])
  | arg =>
    if r.kind = .no then (.obj (str "Unavailable") [arg], [⟨1157, [e]⟩])
    else match r.syn with
      | none => (arg, [])
      | some p => runParser p 1158 e (strText arg)

/-- `ArgumentsView._process_pair` (header.py 340-355). Anything but pairs cannot occur. -/
def processPairG (know : Str → ArgRule) (e : Entry) (pair : GVal) : GVal × List Note :=
  match unpackPair pair with
  | none => (pair, [])
  | some (name, arg) =>
    let (a, ns) := processArgument (know (strText name)) e arg
    (.obj (str "Parametrized") [name, a], ns)

/-- `[f(d) for d in parsed]`. Anything but lists cannot occur (httpolice/header.py 337-338). -/
def processEach (f : GVal → GVal × List Note) : GVal → GVal × List Note
  | .list l => (.list (l.map fun v => (f v).1), l.flatMap fun v => (f v).2)
  | v => (v, [])

/-- `ArgumentsView._process_parsed` (header.py 337-338). -/
def argumentsProcess (know : Str → ArgRule) (e : Entry) : GVal → GVal × List Note := processEach (processPairG know e)

/-- `CacheControlView._process_pair` (header.py 378-392); the other argument is the column `argument_form`. -/
def cachePair (know : Str → ArgRule) (form : Str → Option ArgForm) (e : Entry) (pair : GVal) : GVal × List Note :=
  match unpackPair pair with
  | none => (pair, [])
  | some (name, .tuple [.obj symbol _, arg]) =>
    let ns := (if form (strText name) = some .quotedString ∧ symbol ≠ str "quoted_string" then [(⟨1154, []⟩ : Note)] else []) ++
      (if form (strText name) = some .token ∧ symbol ≠ str "token" then [⟨1155, []⟩] else [])
    let (v, ms) := processPairG know e (.tuple [name, arg])
    (v, ns ++ ms)
  | some (name, arg) => processPairG know e (.tuple [name, arg])

/-- `CacheControlView` (header.py 372-392). -/
def cacheProcess (know : Str → ArgRule) (form : Str → Option ArgForm) (e : Entry) : GVal → GVal × List Note :=
  processEach (cachePair know form e)

/-- An alternative in `AltSvcView._process_parsed` (header.py 414-416). -/
def altProcessOne (know : Str → ArgRule) (e : Entry) : GVal → GVal × List Note
  | .obj cls [item, .obj dict [sequence]] =>
    let (w, ns) := argumentsProcess know e sequence
    (.obj cls [item, .obj dict [w]], ns)
  | v => (v, [])

/-- `AltSvcView._process_parsed` (header.py 408-417); anything but `clear` is a list. -/
def altProcess (know : Str → ArgRule) (e : Entry) : GVal → GVal × List Note := processEach (altProcessOne know e)

/-- An element in `PreferView._process_parsed` (header.py 430-432). -/
def preferPair (know : Str → ArgRule) (e : Entry) (v : GVal) : GVal × List Note :=
  match unpackPair v with
  | none => (v, [])
  | some (pair, params) =>
    let (w, ns) := processPairG know e pair
    (.obj (str "Parametrized") [w, params], ns)

/-- `PreferView._process_parsed` (header.py 430-432). -/
def preferProcess (know : Str → ArgRule) (e : Entry) : GVal → GVal × List Note := processEach (preferPair know e)

/-- The names in an element of Forwarded, in lower case, as `duplicates` compares `ForwardedParam` objects (structure.py 168-181). -/
def paramNames : GVal → List Str
  | .list l => l.filterMap fun v => (unpackPair v).map fun x => asciiLower (strText x.1)
  | _ => []

/-- `ForwardedView._process_parsed` (header.py 458-476). -/
def forwardedProcess (know : Str → ArgRule) (e : Entry) (parsed : GVal) : GVal × List Note :=
  let (elements, ns) := processEach (argumentsProcess know e) parsed
  let l := match elements with
    | .list l => l
    | _ => []
  (elements, ns ++ (l.flatMap fun el => (duplicates (paramNames el)).map fun _ => ⟨1296, [e]⟩) ++
    (if 1 < l.length ∧ (∀ el ∈ l, (paramNames el).length = 1) ∧ duplicates (l.flatMap paramNames) = []
      then [⟨1297, [e]⟩] else []))

/-! ## Tables of arguments -/

/-- `ArgumentKnowledge` (known/__init__.py 187-197) by name; `fold` is how keys are compared. -/
def argRule (fold : Str → Str) (rows : List (String × ArgKind × Option SymParser)) (name : Str) : ArgRule :=
  match rows.find? fun r => fold (str r.1) = fold name with
  | none => ⟨.unknown, none⟩
  | some r => ⟨r.2.1, r.2.2⟩

/-- known/cache_directive.csv: `key`, `argument`, and the symbols `delta_seconds`, `no_cache` and `private` of rfc7234. -/
def cacheRules (seconds noCache priv : SymParser) : List (String × ArgKind × Option SymParser) := [
  ("immutable", .no, none),
  ("max-age", .required, some seconds),
  ("max-stale", .optional, some seconds),
  ("min-fresh", .required, some seconds),
  ("must-revalidate", .no, none),
  ("no-cache", .optional, some noCache),
  ("no-store", .no, none),
  ("no-transform", .no, none),
  ("only-if-cached", .no, none),
  ("private", .optional, some priv),
  ("proxy-revalidate", .no, none),
  ("public", .no, none),
  ("s-maxage", .required, some seconds),
  ("stale-if-error", .required, some seconds),
  ("stale-while-revalidate", .required, some seconds)]

/-- known/cache_directive.csv: `key` and `argument_form`. -/
def cacheForms : List (String × ArgForm) := [
  ("max-age", .token),
  ("max-stale", .token),
  ("min-fresh", .token),
  ("no-cache", .quotedString),
  ("private", .quotedString),
  ("s-maxage", .token)]

/-- `quoted_string_preferred` and `token_preferred` (known/__init__.py 288-292). -/
def cacheForm (name : Str) : Option ArgForm :=
  (cacheForms.find? fun r => asciiLower (str r.1) = asciiLower name).map Prod.snd

/-- known/hsts_directive.csv: `key`, `argument`, and the symbol `max_age_value` of rfc6797. -/
def hstsRules (maxAge : SymParser) : List (String × ArgKind × Option SymParser) := [
  ("includeSubDomains", .no, none),
  ("max-age", .required, some maxAge)]

/-- known/preference.csv: `key`, `argument`, and the symbols `handling`, `return_` and `wait` of rfc7240. -/
def preferRules (handling return_ wait : SymParser) : List (String × ArgKind × Option SymParser) := [
  ("depth-noroot", .unknown, none),
  ("handling", .required, some handling),
  ("respond-async", .no, none),
  ("return", .required, some return_),
  ("wait", .required, some wait)]

/-- known/alt_svc_param.csv: `key`, `argument`, and the symbols `ma` and `persist` of rfc7838. -/
def altRules (ma persist : SymParser) : List (String × ArgKind × Option SymParser) := [
  ("ma", .required, some ma),
  ("persist", .required, some persist)]

/-- known/forwarded_param.csv: `key`, `argument`, and the symbols `node` of rfc7239, `Host` of rfc7230 and `scheme` of
rfc3986. -/
def forwardedRules (node host scheme : SymParser) : List (String × ArgKind × Option SymParser) := [
  ("by", .required, some node),
  ("for", .required, some node),
  ("host", .required, some host),
  ("proto", .required, some scheme)]

end Httpolice.Model
