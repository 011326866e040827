import Verif.Model.FailRun
import Verif.Spec.StreamRun

/-!
# Specification of a whole run on streams and captures, some of which cannot be read
-/

namespace Httpolice.Spec

open Httpolice.Model

/-- There is a path, but no file can be opened there. -/
def Missing (D : Disk) (path : Option Str) : Prop := ∃ p, path = some p ∧ D.contents p = none

/-- A file of the pair cannot be opened. -/
def HalfGone (D : Disk) (pair : PathPair) : Prop := Missing D pair.1 ∨ Missing D pair.2.1

open Classical in
/-- What comes of a pair, and how it fails, if it does: of streams that are not there, nothing; if the analysis fails, the
exchanges before that. -/
inductive Emerges (S : Setup) (D : Disk) (captures : Bool) (pair : PathPair) : List Yield → Option Fate → Prop
  | whole {ys : List Yield} : Conveyed S D captures pair ys → Emerges S D captures pair ys none
  | missing : HalfGone D pair → Emerges S D captures pair [] (some .environment)
  | failed {a b i o : Option Str} {ys : List Yield} {e : Model.Exc} : Contents D pair.1 a → Contents D pair.2.1 b →
      ((captures = true ∧ Flow a b i o) ∨ (captures = false ∧ a = i ∧ b = o)) →
      parseStreams (S.world.frame S.base.lower S.libs) (i.map SS.new) (o.map SS.new) = (ys, .error e) →
      Emerges S D captures pair ((if captures = true ∧ (a = none ∨ b = none) then [.box 1278] else []) ++ ys) (some .other)

end Httpolice.Spec
