import Verif.Spec.Tab

/-!
# Byte ranges, after RFC 7233
-/

namespace Httpolice.Spec

open Httpolice.Model

/-- A number in decimal digits. -/
def IsNumeral (w : Str) : Prop := w ≠ [] ∧ ∀ c ∈ w, 48 ≤ c ∧ c ≤ 57

instance (w : Str) : Decidable (IsNumeral w) := inferInstanceAs (Decidable (_ ∧ _))

/-- The number, digit by digit. -/
def numeral (w : Str) : Nat := w.foldl (fun n c => 10 * n + (c - 48)) 0

/-- A letter, a digit, or one of some others. -/
def IsTchar (c : Nat) : Prop :=
  (65 ≤ c ∧ c ≤ 90) ∨ (97 ≤ c ∧ c ≤ 122) ∨ (48 ≤ c ∧ c ≤ 57) ∨ c ∈ str "!#$%&'*+-.^_`|~"

/-- A token. -/
def IsToken (w : Str) : Prop := w ≠ [] ∧ ∀ c ∈ w, IsTchar c

/-- `bytes`, in whatever case. -/
def IsBytes (w : Str) : Prop := SameWord w (str "bytes")

/-- The unit of ranges. -/
def unitValue (u : Str) : GVal := .obj (str "RangeUnit") [.text u]

/-- A part of a Range: "5-9", "5-" or "-9". -/
inductive ByteSpec
  | between (first last : Str)
  | onwards (first : Str)
  | suffix (length : Str)
deriving DecidableEq, Repr

/-- All numbers are. -/
def ByteSpec.Ok : ByteSpec → Prop
  | .between f l => IsNumeral f ∧ IsNumeral l
  | .onwards f => IsNumeral f
  | .suffix n => IsNumeral n

/-- As it is written. -/
def ByteSpec.text : ByteSpec → Str
  | .between f l => f ++ str "-" ++ l
  | .onwards f => f ++ str "-"
  | .suffix n => str "-" ++ n

/-- As it is understood. -/
def ByteSpec.value : ByteSpec → GVal
  | .between f l => .tuple [.int (numeral f), .int (numeral l)]
  | .onwards f => .tuple [.int (numeral f), .none]
  | .suffix n => .tuple [.none, .int (numeral n)]

/-- The last position is before the first. -/
def ByteSpec.Reversed : ByteSpec → Prop
  | .between f l => numeral l < numeral f
  | _ => False

instance : DecidablePred ByteSpec.Reversed := fun
  | .between f l => inferInstanceAs (Decidable (numeral l < numeral f))
  | .onwards _ => .isFalse id
  | .suffix _ => .isFalse id

/-- 1133. -/
def ByteSpec.notes (x : ByteSpec) : List PyComplaint := if x.Reversed then [(1133, [])] else []

/-- A Range: of bytes, or of something else. -/
inductive RangeSyn
  | bytes (unit : Str) (specs : List1Syn ByteSpec)
  | other (unit ranges : Str)

/-- In order. -/
def RangeSyn.Ok : RangeSyn → Prop
  | .bytes u l => IsBytes u ∧ l.Ok ByteSpec.Ok
  | .other u v => (IsToken u ∧ ¬ IsBytes u) ∧ v ≠ [] ∧ ∀ c ∈ v, 33 ≤ c ∧ c ≤ 126

/-- As it is written. -/
def RangeSyn.text : RangeSyn → Str
  | .bytes u l => u ++ str "=" ++ l.text ByteSpec.text
  | .other u v => u ++ str "=" ++ v

/-- As it is understood. -/
def RangeSyn.value : RangeSyn → GVal
  | .bytes u l => .obj (str "RangeSpecifier") [unitValue u, .list (l.elems.map ByteSpec.value)]
  | .other u v => .obj (str "RangeSpecifier") [unitValue u, .text v]

/-- The complaints. -/
def RangeSyn.notes : RangeSyn → List PyComplaint
  | .bytes _ l => l.elems.flatMap ByteSpec.notes ++ gapNotes l.Gaps
  | .other _ _ => []

/-- A Content-Range: "bytes 5-9/10", "bytes 5-9/*", "bytes */10", or of something else. -/
inductive ContentRangeSyn
  | part (unit first last : Str) (complete : Option Str)
  | unsatisfied (unit complete : Str)
  | other (unit range : Str)

/-- In order. -/
def ContentRangeSyn.Ok : ContentRangeSyn → Prop
  | .part u f l c => IsBytes u ∧ IsNumeral f ∧ IsNumeral l ∧ ∀ n, c = some n → IsNumeral n
  | .unsatisfied u c => IsBytes u ∧ IsNumeral c
  | .other u v => (IsToken u ∧ ¬ IsBytes u) ∧ ∀ c ∈ v, 1 ≤ c ∧ c ≤ 127

/-- As it is written. -/
def ContentRangeSyn.text : ContentRangeSyn → Str
  | .part u f l c => u ++ str " " ++ f ++ str "-" ++ l ++ str "/" ++ c.getD (str "*")
  | .unsatisfied u c => u ++ str " */" ++ c
  | .other u v => u ++ str " " ++ v

/-- The complete length, if it is known. -/
def completeValue : Option Str → GVal
  | some n => .int (numeral n)
  | none => .none

/-- As it is understood. -/
def ContentRangeSyn.value : ContentRangeSyn → GVal
  | .part u f l c => .obj (str "ContentRange")
      [unitValue u, .tuple [.tuple [.int (numeral f), .int (numeral l)], completeValue c]]
  | .unsatisfied u c => .obj (str "ContentRange") [unitValue u, .tuple [.none, .int (numeral c)]]
  | .other u v => .obj (str "ContentRange") [unitValue u, .text v]

/-- The bounds are reversed, or do not fit the complete length. -/
def ContentRangeSyn.Wrong : ContentRangeSyn → Prop
  | .part _ f l c => numeral l < numeral f ∨ ∃ n ∈ c, numeral n ≤ numeral l
  | _ => False

open Classical in
/-- 1148. -/
noncomputable def ContentRangeSyn.notes (x : ContentRangeSyn) : List PyComplaint := if x.Wrong then [(1148, [])] else []

/-- The value of Accept-Ranges: `none`, or units. -/
inductive AcceptRangesSyn
  | none (w : Str)
  | units (l : List1Syn Str)

/-- In order. -/
def AcceptRangesSyn.Ok : AcceptRangesSyn → Prop
  | .none w => SameWord w (str "none")
  | .units l => l.Ok IsToken

/-- As it is written. -/
def AcceptRangesSyn.text : AcceptRangesSyn → Str
  | .none w => w
  | .units l => l.text id

/-- As it is understood. -/
def AcceptRangesSyn.value : AcceptRangesSyn → GVal
  | .none w => .obj (str "CaseInsensitive") [.text w]
  | .units l => .list (l.elems.map unitValue)

/-- The complaints. -/
def AcceptRangesSyn.notes : AcceptRangesSyn → List PyComplaint
  | .none _ => []
  | .units l => gapNotes l.Gaps

end Httpolice.Spec
