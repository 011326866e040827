import Verif.Model.Rfc7233

/-!
# Tokens and quoted strings in httpolice/syntax/rfc7230.py

These are used in many modules. A module imports them; here they are defined anew in each module that needs them
(under names of its own), because where they were defined does not show.
-/

namespace Httpolice.Model

/-- `DQUOTE` (syntax/common.py 11). -/
def dquoteBits : Nat → Bool := fun c => decide (34 ≤ c ∧ c ≤ 34)

/-- `obs_text` (syntax/rfc7230.py 15). -/
def obsTextBits : Nat → Bool := fun c => decide (128 ≤ c ∧ c ≤ 255)

/-- `HTAB | SP | VCHAR | obs_text` (syntax/rfc7230.py 33). -/
def quotableBits : Nat → Bool := fun c => decide (9 ≤ c ∧ c ≤ 9) || spBits c || vcharBits c || obsTextBits c

/-- `qdtext` (syntax/rfc7230.py 36-37). -/
def qdtextBits : Nat → Bool := fun c =>
  decide (9 ≤ c ∧ c ≤ 9) || spBits c || decide (33 ≤ c ∧ c ≤ 33) || decide (35 ≤ c ∧ c ≤ 91) ||
    decide (93 ≤ c ∧ c ≤ 126) || obsTextBits c

/-- `check_sensible` in `quoted_pair(sensible_for)` (syntax/rfc7230.py 28-32); other arguments cannot occur. -/
def sensibleF (sensible : Str) : Func GVal PyComplaint
  | [.text [c]] => (.val (.text [c]), if c ∈ sensible then [] else [(1017, [(str "char", .other (.text [c]))])])
  | _ => (.val .none, [])

/-- `token` (syntax/rfc7230.py 20). -/
def GExpr.token {N : Type} : GExpr N := .string1 (.chars tcharBits true)

/-- `OWS` (syntax/rfc7230.py 53). -/
def GExpr.ows {N : Type} : GExpr N := .string (.chars spHtabBits false)

/-- `quoted_pair(sensible_for=...)` (syntax/rfc7230.py 25-34). -/
def GExpr.quotedPair {N : Type} (sensible : Str) : GExpr N :=
  .app (sensibleF sensible) false (.seq (.skip (.lit (str "\\") false)) (.chars quotableBits false))

/-- `quoted_string` (syntax/rfc7230.py 38-40); `pair` is the name of `quoted_pair(sensible_for=u'"\\')`. -/
def GExpr.quotedString {N : Type} (pair : N) : GExpr N :=
  .seq (.seq (.skip (.chars dquoteBits true)) (.string (.alt (.chars qdtextBits true) (.ref pair))))
    (.skip (.chars dquoteBits true))

/-- `token__excluding(excluding)` (syntax/rfc7230.py 22-23). -/
def GExpr.tokenExcluding {N : Type} (order : List Nat → List Nat) (excluding : List Str) : GExpr N :=
  .excl order tcharBits true ([] :: excluding)

/-- `int << string1(DIGIT)` (syntax/rfc7230.py 164, syntax/rfc7234.py 13). -/
def GExpr.number {N : Type} : GExpr N := .app intF false (.string1 .digit)

end Httpolice.Model
