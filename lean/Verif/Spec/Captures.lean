import Verif.Model.Captures
import Verif.Spec.Inputs
import Verif.Spec.Wire

/-!
# Specifications for directories of captured streams
-/

namespace Httpolice.Spec

open Httpolice.Model (Str str StreamInfo joinPath CaptureError maxTime)

/-- Digits of Unicode, of which those in ASCII are known. -/
def SaneDigits (digit : Nat → Option Nat) : Prop :=
  ∀ c, c < 128 → digit c = if 48 ≤ c ∧ c ≤ 57 then some (c - 48) else none

/-- The text is a decimal number. -/
def Numeric (digit : Nat → Option Nat) (s : Str) (n : Nat) : Prop :=
  s ≠ [] ∧ (∀ c ∈ s, ∃ d, digit c = some d) ∧ number 10 (fun c => (digit c).getD 0) s = n

/-- The name of a file as tcpick gives it with `-F2`: `tcpick_`, counter, `_`, address, `_`, address, `_`, service, `.`, `serv` or
`clnt`, `.dat`. (Instead of the dot before `serv` there may be another character, and a newline may follow.) -/
def TcpickName (digit : Nat → Option Nat) (name : Str) (n : Nat) (a b : Str) (serv : Bool) : Prop :=
  ∃ ds port c tail, name = str "tcpick_" ++ ds ++ [95] ++ a ++ [95] ++ b ++ [95] ++ port ++ [c] ++
      (if serv then str "serv.dat" else str "clnt.dat") ++ tail ∧
    Numeric digit ds n ∧ a ≠ [] ∧ 95 ∉ a ∧ b ≠ [] ∧ 95 ∉ b ∧ port ≠ [] ∧ 46 ∉ port ∧ c ≠ 10 ∧ (tail = [] ∨ tail = [10])

/-- The name of a file as tcpflow gives it: timestamp, address, port, address, port, number; with hyphens. -/
def TcpflowName (digit : Nat → Option Nat) (name : Str) (n : Nat) (a b : Str) : Prop :=
  ∃ ts x p y q v tail, name = ts ++ [45] ++ a ++ [45] ++ b ++ [45] ++ v ++ tail ∧ Numeric digit ts n ∧
    a = x ++ [45] ++ p ∧ b = y ++ [45] ++ q ∧ x ≠ [] ∧ 45 ∉ x ∧ y ≠ [] ∧ 45 ∉ y ∧
    (∃ k, Numeric digit p k) ∧ (∃ k, Numeric digit q k) ∧ (∃ k, Numeric digit v k) ∧ (tail = [] ∨ tail = [10])

/-- Files of tcpick with the two directions of one connection. -/
def TcpickOpposite (digit : Nat → Option Nat) (f g : Str) : Prop :=
  ∃ n a b s a' b' s', TcpickName digit f n a b s ∧ TcpickName digit g n a' b' s' ∧
    ((a' = a ∧ b' = b ∧ s' = !s) ∨ (a' = b ∧ b' = a ∧ s' = s))

/-- Files of tcpick with the same direction of one connection. -/
def TcpickSame (digit : Nat → Option Nat) (f g : Str) : Prop :=
  ∃ n a b s a' b' s', TcpickName digit f n a b s ∧ TcpickName digit g n a' b' s' ∧
    ((a' = a ∧ b' = b ∧ s' = s) ∨ (a' = b ∧ b' = a ∧ s' = !s))

/-- Not one of the files that tcpflow puts beside the captured streams. -/
def TcpflowStream (name : Str) : Prop := name ≠ str "report.xml" ∧ name ≠ str "alerts.txt"

instance (name : Str) : Decidable (TcpflowStream name) := by unfold TcpflowStream; infer_instance

/-- Files of tcpflow with the same direction of one connection. -/
def TcpflowSame (digit : Nat → Option Nat) (f g : Str) : Prop :=
  ∃ n m a b, TcpflowName digit f n a b ∧ TcpflowName digit g m a b

/-- Files of tcpflow with the two directions of one connection. -/
def TcpflowOpposite (digit : Nat → Option Nat) (f g : Str) : Prop :=
  ∃ n m a b, TcpflowName digit f n a b ∧ TcpflowName digit g m b a

/-- Both files of a pair. -/
def filesOf (p : Str × Option Str) : List Str := p.1 :: p.2.toList

end Httpolice.Spec
