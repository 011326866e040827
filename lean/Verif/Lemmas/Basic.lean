/-!
# General lemmas on lists
-/

namespace Httpolice.Lemmas

/-- Right-end induction on lists. -/
theorem snocInduction {α : Type} {P : List α → Prop} (nil : P [])
    (snoc : ∀ l a, P l → P (l ++ [a])) (l : List α) : P l := by
  have : ∀ l : List α, P l.reverse := by
    intro l
    induction l with
    | nil => exact nil
    | cons a l ih => simpa using snoc _ a ih
  simpa using this l.reverse

end Httpolice.Lemmas
