import Verif.Spec.Knowledge

/-!
# Specification of saving tables

What a row has to be like for it to come out of the tool as it went in.
-/

namespace Httpolice.Spec

open Httpolice.Model

/-- A row with its cells written the way they are saved: numbers without leading zeros, `True` and
`False` with a capital, one citation at most, and no zero or `False` for a section. -/
structure Tidy (c : KnowClass) (raw : Dict Str) : Prop where
  numbers : ∀ f s n, (f, s) ∈ raw → f ≠ str "key" ∨ c.numeric = true → Numeral s n →
    s = str (toString n)
  flags : ∀ f s b, (f, s) ∈ raw → f ≠ str "key" → YesNo s b → s = if b then str "True" else str "False"
  oneCitation : Silent raw (str "cite_url") ∨ Silent raw (str "rfc")
  sections : ¬ Silent raw (str "rfc") → ∀ f, f = str "rfc_section" ∨ f = str "rfc_appendix" →
    ¬ RowSays c raw f (.num 0) ∧ ¬ RowSays c raw f (.flag false)

/-- A file with these columns, which has everything that is saved: the two columns for the syntax if
the table has one, keys that are not empty, and proper titles if attributes are named after them. -/
structure GoodFile (c : KnowClass) (columns : List Str) (rows : List (Dict Str)) : Prop where
  header : ∀ raw ∈ rows, raw.map Prod.fst = columns
  grammar : c.hasSyntax = true → str "syntax_module" ∈ columns ∧ str "syntax_symbol" ∈ columns
  keys : ∀ raw ∈ rows, (str "key", []) ∉ raw
  titles : c.numeric = true → ∀ raw ∈ rows, ∃ t, RowSays c raw (str "title") (.text t)

/-- The same fields with the same values. -/
def SameFields (d d' : Dict KCell) : Prop := ∀ f, d'.get f = d.get f

end Httpolice.Spec
