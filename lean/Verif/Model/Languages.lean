import Verif.Model.Rfc3986
import Verif.Model.Rfc7231Headers

/-!
# Languages: rfc5646.py and rfc4647.py in httpolice/syntax, and the headers in rfc7231.py that have them
-/

namespace Httpolice.Model

/-- Names in these modules. `...s` are the calls of `comma_list1` (httpolice/syntax/rfc5646.py,
syntax/rfc4647.py, syntax/rfc7231.py 180-231). -/
inductive LangName
  | sem (n : SemName)
  | irregular | regular | grandfathered | privateuse | extlang | language | script | region | variant | extension | langtag
  | languageTag | languageRange | acceptLanguages | acceptLanguage | contentLanguages | contentLanguage
deriving DecidableEq, Repr

/-- `singleton` (syntax/rfc5646.py 8-9). -/
def singletonBits : Nat → Bool := fun c =>
  digitBits c || decide (0x41 ≤ c ∧ c ≤ 0x57) || decide (0x59 ≤ c ∧ c ≤ 0x5A) || decide (0x61 ≤ c ∧ c ≤ 0x77) ||
    decide (0x79 ≤ c ∧ c ≤ 0x7A)

/-- `alphanum` (syntax/rfc5646.py 10, syntax/rfc4647.py 7). -/
def alphanumBits : Nat → Bool := fun c => alphaBits c || digitBits c

/-- `literal(s) | t | ...` for the words `t` of a list, from left to right (httpolice/syntax/rfc5646.py 10-66). -/
def oneOfE (s : Str) (l : List Str) : GExpr LangName := l.foldl (fun e t => .alt e (.lit t false)) (.lit s false)

/-- `string_times(min, max, ALPHA)` (httpolice/syntax/rfc5646.py 10-66). -/
def alphasE (min max : Nat) : GExpr LangName := .stringTimes min (some max) (.chars alphaBits true)

/-- `string_times(min, max, alphanum)` (httpolice/syntax/rfc5646.py 10-66). -/
def alphanumsE (min max : Nat) : GExpr LangName := .stringTimes min (some max) (.chars alphanumBits true)

/-- `'-' + e` (httpolice/syntax/rfc5646.py 10-66). -/
def hyphenE (e : GExpr LangName) : GExpr LangName := .add (.lit (str "-") false) e

/-- The modules, one after the other, after syntax/rfc7231.py. (In the code it is syntax/rfc7231.py that imports the others: here
its headers that have languages come last.) `order` is the order in which Python iterates over a set. -/
def langDefs (order : List Nat → List Nat) : List (LangName × Defn LangName) :=
  importDefs .sem (semDefs order) ++ [
  -- syntax/rfc5646.py: irregular (12-28)
  (.irregular, .named false (oneOfE (str "en-GB-oed") [str "i-ami", str "i-bnn", str "i-default", str "i-enochian",
    str "i-hak", str "i-klingon", str "i-lux", str "i-mingo", str "i-navajo", str "i-pwn", str "i-tao", str "i-tay",
    str "i-tsu", str "sgn-BE-FR", str "sgn-BE-NL", str "sgn-CH-DE"])),
  -- regular (30-38)
  (.regular, .named false (oneOfE (str "art-lojban") [str "cel-gaulish", str "no-bok", str "no-nyn", str "zh-guoyu",
    str "zh-hakka", str "zh-min", str "zh-min-nan", str "zh-xiang"])),
  -- grandfathered, privateuse (40-41)
  (.grandfathered, .named true (.alt (.ref .irregular) (.ref .regular))),
  (.privateuse, .named true (.add (.lit (str "x") false) (.string1 (hyphenE (alphanumsE 1 8))))),
  -- extlang (43-44)
  (.extlang, .named true (.add (alphasE 3 3) (.stringTimes 0 (some 2) (hyphenE (alphasE 3 3))))),
  -- language (46-47)
  (.language, .named true (.alt (.alt (.add (alphasE 2 3) (.maybeStr (hyphenE (.ref .extlang)))) (alphasE 4 4)) (alphasE 5 8))),
  -- script, region, variant, extension (48-52)
  (.script, .named true (alphasE 4 4)),
  (.region, .named true (.alt (alphasE 2 2) (.stringTimes 3 (some 3) (.chars digitBits true)))),
  (.variant, .named true (.alt (alphanumsE 5 8) (.add (.chars digitBits true) (alphanumsE 3 3)))),
  (.extension, .named true (.add (.chars singletonBits true) (.string1 (hyphenE (alphanumsE 2 8))))),
  -- langtag (54-59)
  (.langtag, .named true (.add (.add (.add (.add (.add (.ref .language) (.maybeStr (hyphenE (.ref .script))))
    (.maybeStr (hyphenE (.ref .region)))) (.string (hyphenE (.ref .variant)))) (.string (hyphenE (.ref .extension))))
    (.maybeStr (hyphenE (.ref .privateuse))))),
  -- Language_Tag (61-63)
  (.languageTag, .named true (.alt (.alt (.app (classF (str "LanguageTag")) true (.ref .langtag))
    (.app (classF (str "LanguageTag")) true (.ref .privateuse))) (.app (classF (str "LanguageTag")) true (.ref .grandfathered)))),
  -- syntax/rfc4647.py: language_range (8-10)
  (.languageRange, .named true (.app (classF (str "CaseInsensitive")) true (.alt
    (.add (alphasE 1 8) (.string (hyphenE (alphanumsE 1 8)))) (.lit (str "*") false)))),
  -- syntax/rfc7231.py: Accept_Language (213-214)
  (.acceptLanguages, .list1 (.sem (.hop (.str .ows))) (.app (classF (str "Parametrized")) true (.seq (.ref .languageRange)
    (.maybe (.ref (.sem .weight)))))),
  (.acceptLanguage, .named true (.ref .acceptLanguages)),
  -- Content_Language (221)
  (.contentLanguages, .list1 (.sem (.hop (.str .ows))) (.ref .languageTag)),
  (.contentLanguage, .named true (.ref .contentLanguages))]

end Httpolice.Model
