import Verif.Model.Program

/-!
# Imports between grammar modules

`from httpolice.syntax.rfc7231 import HTTP_date` runs the other module before (unless it has been run), and then uses its
names. So a module with what it imports is one longer list of definitions, where the names of the other module are
embedded by a function `f`.
-/

namespace Httpolice.Model

variable {N M : Type}

/-- The same expression over other names (httpolice/syntax/rfc7232.py 1-12 and the other modules). -/
def GExpr.rename (f : N → M) : GExpr N → GExpr M
  | .ref n => .ref (f n)
  | .chars bits nm => .chars bits nm
  | .empty => .empty
  | .lit s cs => .lit s cs
  | .seq a b => .seq (a.rename f) (b.rename f)
  | .alt a b => .alt (a.rename f) (b.rename f)
  | .app g c a => .app g c (a.rename f)
  | .group a => .group (a.rename f)
  | .times min max a => .times min max (a.rename f)
  | .excl order bits nm xs => .excl order bits nm xs

/-- The same definition over other names (httpolice/syntax/rfc7232.py 1-12 and the other modules). -/
def Defn.rename (f : N → M) : Defn N → Defn M
  | .named p e => .named p (e.rename f)
  | .list ows e => .list (f ows) (e.rename f)
  | .list1 ows e => .list1 (f ows) (e.rename f)
  | .nested first last e => .nested first last (e.rename (Option.map f))

/-- All definitions of another module (httpolice/syntax/rfc7232.py 1-12 and the other modules). -/
def importDefs (f : N → M) (ds : List (N × Defn N)) : List (M × Defn M) := ds.map fun x => (f x.1, x.2.rename f)

end Httpolice.Model
