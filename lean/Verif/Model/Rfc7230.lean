import Verif.Model.Expr

/-!
# Parts of httpolice/syntax/rfc7230.py

Each definition gives the expression, and its name in the module is made with `Expr.define`. Symbols of the
same or another module are parameters.
-/

namespace Httpolice.Model

/-- `SP` (syntax/common.py 14); the `> auto` sets the name only. -/
def spSym : Sym := .term (fun c => decide (32 ≤ c ∧ c ≤ 32)) true

/-- `HTAB` (syntax/common.py 13). -/
def htabSym : Sym := .term (fun c => decide (9 ≤ c ∧ c ≤ 9)) true

/-- `OWS = string(SP | HTAB)` (syntax/rfc7230.py 53). -/
def owsE : Expr := .string (.alt (.sym spSym) (.sym htabSym))

/-- `elem is not None` (syntax/rfc7230.py 73). -/
def notNone : GVal → Bool
  | .none => false
  | _ => true

/-- `_collect_elements` (syntax/rfc7230.py 71-76). An argument other than one list cannot occur here. -/
def collectF : Func GVal PyComplaint
  | [.list xs] =>
    (.val (.list (xs.filter notNone)),
      if (xs.filter notNone).length ≠ xs.length ∧ 1 < xs.length then [(1151, [])] else [])
  | _ => (.val .none, [])

/-- `lambda x: [x]` (syntax/rfc7230.py 88), called with one argument. -/
def singletonF : Func GVal PyComplaint := pureFunc fun args => .list [args.headD .none]

/-- The expression in `comma_list(element)` (syntax/rfc7230.py 78-83). -/
def commaListE (ows element : Sym) : Expr :=
  .app collectF false (.mod
    (.maybe (.seq (.group (.sym element)) (.skip (.sym ows))))
    (.many (.seq (.skip (.seq (.lit [44] false) (.sym ows)))
      (.maybe (.seq (.group (.sym element)) (.skip (.sym ows)))))))

/-- The expression in `comma_list1(element)` (syntax/rfc7230.py 85-90). -/
def commaList1E (ows element : Sym) : Expr :=
  .app collectF false (.add (.add
    (.many (.app (substF .none) false (.seq (.lit [44] false) (.sym ows))))
    (.app singletonF false (.group (.sym element))))
    (.many (.seq (.skip (.seq (.sym ows) (.lit [44] false)))
      (.maybe (.seq (.skip (.sym ows)) (.sym element))))))

end Httpolice.Model
