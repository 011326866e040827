import Verif.Spec.Negotiation
import Verif.Spec.Uri

/-!
# Languages
-/

namespace Httpolice.Spec

open Httpolice.Model

/-- From `lo` to `hi` letters. -/
def IsLetters (lo hi : Nat) (w : Str) : Prop := (∀ c ∈ w, IsLetter c) ∧ lo ≤ w.length ∧ w.length ≤ hi

/-- From `lo` to `hi` letters and digits. -/
def IsAlnums (lo hi : Nat) (w : Str) : Prop := (∀ c ∈ w, IsLetter c ∨ IsDigit c) ∧ lo ≤ w.length ∧ w.length ≤ hi

/-- With a hyphen before each. -/
def hyphened (ws : List Str) : Str := ws.flatMap fun w => 45 :: w

/-- `x-...`, for private use. -/
def IsPrivateUse (w : Str) : Prop :=
  ∃ x ps, (x = 120 ∨ x = 88) ∧ ps ≠ [] ∧ (∀ p ∈ ps, IsAlnums 1 8 p) ∧ w = x :: hyphened ps

/-- A tag that is made of subtags (RFC 5646 Section 2.1). -/
structure TagSyn where
  language : Str
  extlangs : List Str
  script : Option Str
  region : Option Str
  variants : List Str
  /-- The letter or digit, and what comes after it. -/
  extensions : List (Nat × List Str)
  privateUse : Option Str

structure TagSyn.Ok (x : TagSyn) : Prop where
  language : IsLetters 2 8 x.language
  extlangs : ∀ w ∈ x.extlangs, IsLetters 3 3 w
  /-- Only after two or three letters, and at most three. -/
  few : x.extlangs ≠ [] → x.language.length ≤ 3 ∧ x.extlangs.length ≤ 3
  script : ∀ w, x.script = some w → IsLetters 4 4 w
  region : ∀ w, x.region = some w → IsLetters 2 2 w ∨ (w.length = 3 ∧ ∀ c ∈ w, IsDigit c)
  /-- With four signs, the first is a digit. -/
  variants : ∀ w ∈ x.variants, IsAlnums 4 8 w ∧ (w.length = 4 → ∃ c, w.head? = some c ∧ IsDigit c)
  extensions : ∀ e ∈ x.extensions, (IsLetter e.1 ∨ IsDigit e.1) ∧ e.1 ≠ 120 ∧ e.1 ≠ 88 ∧ e.2 ≠ [] ∧ ∀ w ∈ e.2, IsAlnums 2 8 w
  privateUse : ∀ w, x.privateUse = some w → IsPrivateUse w

def TagSyn.text (x : TagSyn) : Str :=
  x.language ++ hyphened x.extlangs ++ hyphened x.script.toList ++ hyphened x.region.toList ++ hyphened x.variants ++
    hyphened (x.extensions.map fun e => e.1 :: hyphened e.2) ++ hyphened x.privateUse.toList

/-- Tags registered before there was such a structure. -/
def oldTags : List Str :=
  [str "en-GB-oed", str "i-ami", str "i-bnn", str "i-default", str "i-enochian", str "i-hak", str "i-klingon", str "i-lux",
   str "i-mingo", str "i-navajo", str "i-pwn", str "i-tao", str "i-tay", str "i-tsu", str "sgn-BE-FR", str "sgn-BE-NL",
   str "sgn-CH-DE", str "art-lojban", str "cel-gaulish", str "no-bok", str "no-nyn", str "zh-guoyu", str "zh-hakka",
   str "zh-min", str "zh-min-nan", str "zh-xiang"]

/-- A tag of a language. -/
def IsLanguageTag (w : Str) : Prop :=
  (∃ x : TagSyn, x.Ok ∧ w = x.text) ∨ IsPrivateUse w ∨ ∃ t ∈ oldTags, SameWord w t

/-- A range of languages: letters, and perhaps more after hyphens; or a star. -/
def IsLanguageRange (w : Str) : Prop :=
  w = str "*" ∨ ∃ a ws, IsLetters 1 8 a ∧ (∀ v ∈ ws, IsAlnums 1 8 v) ∧ w = a ++ hyphened ws

/-- An element of Accept-Language. -/
def RankedSyn.LanguageOk (x : RankedSyn) : Prop := IsLanguageRange x.name ∧ ∀ r, x.rank = some r → r.Ok

def RankedSyn.languageRange (x : RankedSyn) : GVal := x.valueWith (nameValue (str "CaseInsensitive") x.name)

end Httpolice.Spec
