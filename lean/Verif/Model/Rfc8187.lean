import Verif.Model.Languages
import Verif.Model.Rfc8288

/-!
# Encoded values: rfc8187.py, rfc6266.py and rfc6838.py in httpolice/syntax, and what is left of rfc8288.py
-/

namespace Httpolice.Model

/-- The number a hexadecimal digit stands for; nothing if it is none (httpolice/syntax/rfc8187.py 29-45). -/
def hexDigitOf (c : Nat) : Option Nat :=
  if 48 ≤ c ∧ c ≤ 57 then some (c - 48) else if 65 ≤ c ∧ c ≤ 70 then some (c - 55) else if 97 ≤ c ∧ c ≤ 102 then some (c - 87)
  else none

/-- `urllib.parse.unquote_to_bytes` of the standard library, which splits at `%` and decodes where two hexadecimal digits come
first, and leaves the rest as it is (httpolice/syntax/rfc8187.py 29-45). -/
def unquote : Str → Str
  | [] => []
  | 37 :: a :: b :: w =>
    match hexDigitOf a, hexDigitOf b with
    | some x, some y => (16 * x + y) :: unquote w
    | _, _ => 37 :: unquote (a :: b :: w)
  | c :: w => c :: unquote w

/-- Whether `bytes.decode('UTF-8')` of Python gives text, and no `UnicodeDecodeError`: the well-formed sequences of Unicode
(httpolice/syntax/rfc8187.py 29-45). -/
def utf8Decodes : Str → Bool
  | [] => true
  | a :: w =>
    if a < 0x80 then utf8Decodes w
    else if a < 0xC2 then false
    else if a < 0xE0 then
      match w with
      | b :: w => tail b && utf8Decodes w
      | _ => false
    else if a < 0xF0 then
      match w with
      | b :: c :: w => tail b && tail c && (a != 0xE0 || 0xA0 ≤ b) && (a != 0xED || b < 0xA0) && utf8Decodes w
      | _ => false
    else if a < 0xF5 then
      match w with
      | b :: c :: d :: w =>
        tail b && tail c && tail d && (a != 0xF0 || 0x90 ≤ b) && (a != 0xF4 || b < 0x90) && utf8Decodes w
      | _ => false
    else false
where
  /-- Bytes after the first. -/
  tail (c : Nat) : Bool := 0x80 ≤ c && c < 0xC0

/-- Bytes as a value (httpolice/syntax/rfc8187.py 29-45). -/
abbrev bytesObj (b : Str) : GVal := .obj (str "bytes") [.text b]

/-- `force_bytes` (util/text.py 110-113), of text in which all characters are below 256. Other arguments cannot occur. -/
def forceBytesF : Func GVal PyComplaint := pureFunc fun
  | [.text w] => bytesObj w
  | _ => .none

/-- `pct_decode` (syntax/rfc8187.py 1). Other arguments cannot occur. -/
def unquoteF : Func GVal PyComplaint := pureFunc fun
  | [.obj _ [.text w]] => bytesObj (unquote w)
  | _ => .none

/-- `_check_ext_value` (syntax/rfc8187.py 28-37). Charsets are compared in lower case (structure.py 153-166). Other arguments
cannot occur. -/
def checkExtValueF : Func GVal PyComplaint
  | [.obj cls [.obj c1 [.text charset], language, .obj c2 [.text bytes]]] =>
    (.val (.obj cls [.obj c1 [.text charset], language, .obj c2 [.text bytes]]),
      if charset.map litLower = str "utf-8" then
        if utf8Decodes bytes then []
        else [(1254, [(str "charset", .other (.obj c1 [.text charset])), (str "error", .unicodeErr (.bytes bytes))])]
      else [(1253, [(str "charset", .other (.obj c1 [.text charset]))])])
  | _ => (.val .none, [])

/-- `attr_char` (syntax/rfc8187.py 12-14). -/
def attrBits : Nat → Bool := fun c =>
  alphaBits c || digitBits c || charBits 33 false c || charBits 35 false c || charBits 36 false c || charBits 38 false c ||
    charBits 43 false c || charBits 45 false c || charBits 46 false c || charBits 94 false c || charBits 95 false c ||
    charBits 96 false c || charBits 124 false c || charBits 126 false c

/-- `mime_charsetc` (syntax/rfc8187.py 18-20). -/
def charsetBits : Nat → Bool := fun c =>
  alphaBits c || digitBits c || charBits 33 false c || charBits 35 false c || charBits 36 false c || charBits 37 false c ||
    charBits 38 false c || charBits 43 false c || charBits 45 false c || charBits 94 false c || charBits 95 false c ||
    charBits 96 false c || charBits 123 false c || charBits 125 false c || charBits 126 false c

/-- `restricted_name_chars` (syntax/rfc6838.py 7-9). -/
def restrictedBits : Nat → Bool := fun c =>
  alphaBits c || digitBits c || charBits 33 false c || charBits 35 false c || charBits 36 false c || charBits 38 false c ||
    charBits 45 false c || charBits 94 false c || charBits 95 false c || charBits 46 false c || charBits 43 false c

/-- `LOALPHA` (syntax/rfc2616.py 6). -/
def loalphaBits : Nat → Bool := fun c => decide (0x61 ≤ c ∧ c ≤ 0x7A)

/-- `LOALPHA | DIGIT | '.' | '-'` (syntax/rfc8288.py 61). -/
def relBits : Nat → Bool := fun c => loalphaBits c || digitBits c || charBits 46 false c || charBits 45 false c

/-- Names in these modules. `rev` is the same as `rel` (httpolice/syntax/rfc8187.py, syntax/rfc6266.py,
syntax/rfc6838.py, syntax/rfc8288.py 51-72). -/
inductive ExtName
  | lang (n : LangName)
  | uri (n : UriName)
  | mimeCharset | charset | pctEncoded | valueChars | extValue
  | value | dispositionType | filenameParm | dispExtParm | dispositionParm | contentDisposition
  | restrictedName | typeName | subtypeName
  | anchor | regRelType | extRelType | relationType | rel | hreflang | linkType
deriving DecidableEq, Repr

/-- A name for strings (httpolice/parse.py 528-533). -/
abbrev GExpr.es (n : StrName) : GExpr ExtName := .ref (.lang (.sem (.hop (.str n))))

/-- `name * skip(OWS * '=' * OWS) * value` (syntax/rfc6266.py 17-20, 27-28). -/
def parmE (name : GExpr ExtName) (result : ExtName) : GExpr ExtName :=
  .seq (.seq (.app (classF (str "CaseInsensitive")) true name)
    (.skip (.seq (.seq (.es .ows) (.lit (str "=") false)) (.es .ows)))) (.ref result)

/-- The modules, one after the other, after what they import. `order` is the order in which Python iterates over a set
(httpolice/syntax/rfc8187.py, syntax/rfc6266.py, syntax/rfc6838.py, syntax/rfc8288.py 51-72). -/
def extDefs (order : List Nat → List Nat) : List (ExtName × Defn ExtName) :=
  importDefs .lang (langDefs order) ++ (importDefs .uri uriDefs ++ [
  -- syntax/rfc8187.py: mime_charset, charset (21-22)
  (.mimeCharset, .named false (.string1 (.chars charsetBits true))),
  (.charset, .named true (.app (classF (str "CaseInsensitive")) true (.ref .mimeCharset))),
  -- pct_encoded, value_chars (24-26)
  (.pctEncoded, .named false (.add (.add (.lit (str "%") false) (.chars hexBits true)) (.chars hexBits true))),
  (.valueChars, .named false (.app unquoteF false (.app forceBytesF false
    (.string (.alt (.ref .pctEncoded) (.chars attrBits true)))))),
  -- ext_value (39-42)
  (.extValue, .named true (.app checkExtValueF false (.app (classF (str "ExtValue")) true (.seq (.seq (.seq (.seq
    (.ref .charset) (.skip (.lit (str "'") false))) (.maybe (.ref (.lang .languageTag)))) (.skip (.lit (str "'") false)))
    (.ref .valueChars))))),
  -- syntax/rfc2616.py: value (8)
  (.value, .named false (.alt (.es .token) (.es .quoted))),
  -- syntax/rfc6266.py: disposition_type (14)
  (.dispositionType, .named true (.app (classF (str "CaseInsensitive")) true (.es .token))),
  -- filename_parm (16-20)
  (.filenameParm, .named true (.alt (parmE (.lit (str "filename") false) .value) (parmE (.lit (str "filename*") false) .extValue))),
  -- disp_ext_parm (26-28)
  (.dispExtParm, .named true (parmE (.tokenExcluding order [str "filename", str "filename*"]) .value)),
  -- disposition_parm (30)
  (.dispositionParm, .named false (.alt (.ref .filenameParm) (.ref .dispExtParm))),
  -- content_disposition (32-34)
  (.contentDisposition, .named true (.app (classF (str "Parametrized")) true (.seq (.ref .dispositionType)
    (.app (classF (str "MultiDict")) true (.many (.seq (.semicolon (.lang (.sem (.hop (.str .ows))))) (.ref .dispositionParm))))))),
  -- syntax/rfc6838.py: restricted_name, type_name, subtype_name (6-14)
  (.restrictedName, .named false (.add (.chars alphanumBits true) (.stringTimes 0 (some 126) (.chars restrictedBits true)))),
  (.typeName, .named false (.ref .restrictedName)),
  (.subtypeName, .named false (.ref .restrictedName)),
  -- syntax/rfc8288.py: anchor (58)
  (.anchor, .named false (.ref (.uri .uriReference))),
  -- reg_rel_type, ext_rel_type, relation_type (60-63)
  (.regRelType, .named false (.app (classF (str "CaseInsensitive")) true (.add (.chars loalphaBits true) (.string (.chars relBits false))))),
  (.extRelType, .named false (.ref (.uri .uri))),
  (.relationType, .named true (.alt (.ref .regRelType) (.ref .extRelType))),
  -- rel, rev (64)
  (.rel, .named false (.mod (.ref .relationType) (.many (.seq (.skip (.string1 (.chars spBits true))) (.ref .relationType))))),
  -- hreflang (66)
  (.hreflang, .named false (.ref (.lang .languageTag))),
  -- type_ (68-69)
  (.linkType, .named false (.app checkMediaTypeF false (.app (classF (str "MediaType")) true
    (.add (.add (.ref .typeName) (.lit (str "/") false)) (.ref .subtypeName)))))])

/-- The names of the symbols in `_process_params` (syntax/rfc8288.py 32-35). -/
def LinkSymbol.name : LinkSymbol → ExtName
  | .uriReference => .uri .uriReference
  | .rel | .rev => .rel
  | .hreflang => .hreflang
  | .type_ => .linkType
  | .extValue => .extValue

end Httpolice.Model
