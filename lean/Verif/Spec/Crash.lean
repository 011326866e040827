import Verif.Spec.Wire

/-!
# Chunk sizes below zero

What a chunk-size line looks like that Python's `int(…, 16)` reads as a negative number. No parsing
function of the model is used here.
-/

namespace Httpolice.Spec

open Httpolice.Model (Str str)

/-- The line says that the size is `-n`: white space, a minus sign, perhaps `0x`, digits with
underscores, white space, and perhaps an extension after a semicolon. -/
def SaysMinus (t : Str) (n : Nat) : Prop :=
  ∃ pre px num post ext, t = pre ++ [45] ++ px ++ num ++ post ++ ext ∧ (∀ c ∈ pre, Pad c) ∧
    (∀ c ∈ post, Pad c) ∧ px ∈ [[], str "0x", str "0X", str "0x_", str "0X_"] ∧ Grouped num n ∧
    (ext = [] ∨ ∃ x, ext = 59 :: x)

/-- Some line of the data, other than the first, gives a chunk size of -2 or less. -/
def BelowMinusOne (data : Str) : Prop :=
  ∃ before line after n, data = before ++ [10] ++ line ++ [10] ++ after ∧ 10 ∉ line ∧ 2 ≤ n ∧
    (SaysMinus line n ∨ ∃ l, line = l ++ [13] ∧ SaysMinus l n)

end Httpolice.Spec
