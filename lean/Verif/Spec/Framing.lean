import Verif.Model.Framing

/-!
# Specifications for message framing

Stated over the bytes of the streams and the messages and notices yielded, without the parsing
functions of the model.
-/

namespace Httpolice.Spec

open Httpolice.Model (Str Entry FMsg FReq FResp FNote Yield str asciiLower)

/-- The messages occupy adjacent, non-empty ranges from `a` on, ending by `b`. -/
def Tiles : Nat → List FMsg → Nat → Prop
  | a, [], b => a ≤ b
  | a, m :: ms, b => m.start = a ∧ a < m.stop ∧ Tiles m.stop ms b

/-- The requests among what was yielded, in order. -/
def requests (ys : List Yield) : List FReq :=
  ys.flatMap fun y => match y with
    | .exch (some r) _ => [r]
    | _ => []

/-- The responses among what was yielded, in order. -/
def responses (ys : List Yield) : List FResp :=
  ys.flatMap fun y => match y with
    | .exch _ rs => rs
    | _ => []

/-- How many complaint boxes with this notice were yielded. -/
def boxes (id : Nat) (ys : List Yield) : Nat := ys.count (.box id)

/-- The line notices of a message are about lines within it. -/
def OwnLines (m : FMsg) : Prop :=
  ∀ n ∈ m.notes, ∀ l, n.line = some l → m.start ≤ l ∧ l < m.stop

/-- Some line of the data, other than the first, starts with a minus sign, possibly after white
space. -/
def MinusLine (data : Str) : Prop :=
  ∃ p w l, data = p ++ [10] ++ w ++ [45] ++ l ∧ ∀ c ∈ w, c ∈ [9, 11, 12, 13, 32, 0x85, 0xA0]

/-- An interim response: 1xx other than 101. -/
def Interim (r : FResp) : Prop := 100 ≤ r.status ∧ r.status < 200 ∧ r.status ≠ 101

/-- After this response, nothing on the connection is HTTP: 101, or 2xx to CONNECT. -/
def Ends (req : Option FReq) (r : FResp) : Prop :=
  r.status = 101 ∨ (∃ q, req = some q ∧ q.method = str "CONNECT" ∧ 200 ≤ r.status ∧ r.status < 300)

/-- No message is yielded. -/
def Quiet (ys : List Yield) : Prop := requests ys = [] ∧ responses ys = []

end Httpolice.Spec
