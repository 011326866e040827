import Verif.Spec.Caches
import Verif.Lemmas.RawMore

/-!
# Directives, preconditions and ranges in terms of raw entries
-/

namespace Httpolice.Lemmas.Check

open Httpolice.Model Httpolice.Spec Httpolice.Props

variable {E : Env}

theorem directiveKeys_ascii : ∀ r ∈ cacheDirectiveRows, ∀ c ∈ str r.1, c < 128 := by decide +kernel

theorem directiveKeys_apart : cacheDirectiveRows.Pairwise fun a b =>
    asciiLower (str a.1) ≠ asciiLower (str b.1) := by decide +kernel

theorem directiveFor_iff (h : Sensible E) (d : Str) (f : Option Bool × Option Bool → Option Bool)
    (hf : f (none, none) ≠ some false) :
    f (cacheDirectiveFor E d) = some false ↔
      ∃ n ∈ (cacheDirectiveRows.filter fun r => f r.2 == some false).map Prod.fst, IsWord E d n := by
  have hc : (cacheDirectiveRows.find? fun r => E.same (str r.1) d) =
      cacheDirectiveRows.find? fun r => asciiLower (str r.1) == E.lower d :=
    find_congr fun r hr => by rw [Env.same, h.lower _ (directiveKeys_ascii r hr)]
  have hf' := fun r => find_of_apart (k := fun r : String × Option Bool × Option Bool =>
    asciiLower (str r.1)) directiveKeys_apart (x := E.lower d) (a := r)
  unfold cacheDirectiveFor
  rw [hc]
  simp only [List.mem_map, List.mem_filter, beq_iff_eq]
  split
  · next r hr =>
    obtain ⟨h1, h2⟩ := (hf' r).1 hr
    constructor
    · intro hff
      exact ⟨_, ⟨r, ⟨h1, hff⟩, rfl⟩, h2.symm⟩
    · rintro ⟨n, ⟨r', ⟨h3, h4⟩, rfl⟩, h5⟩
      have := (hf' r').2 ⟨h3, h5.symm⟩
      rw [hr] at this
      cases this
      exact h4
  · next hr =>
    constructor
    · intro hff
      exact absurd hff hf
    · rintro ⟨n, ⟨r', ⟨h3, h4⟩, rfl⟩, h5⟩
      have := (hf' r').2 ⟨h3, h5.symm⟩
      rw [hr] at this
      cases this

theorem forRequests_iff (h : Sensible E) (d : Str) :
    (cacheDirectiveFor E d).1 = some false ↔ ∃ n ∈ notForRequests, IsWord E d n := by
  rw [directiveFor_iff h d Prod.fst (by simp), show (cacheDirectiveRows.filter fun r =>
    r.2.1 == some false).map Prod.fst = notForRequests by decide +kernel]

theorem forResponses_iff (h : Sensible E) (d : Str) :
    (cacheDirectiveFor E d).2 = some false ↔ ∃ n ∈ notForResponses, IsWord E d n := by
  rw [directiveFor_iff h d Prod.snd (by simp), show (cacheDirectiveRows.filter fun r =>
    r.2.2 == some false).map Prod.fst = notForResponses by decide +kernel]

theorem clearly_all {m : Msg} {p q : Str → Bool} {names among rest : List String}
    (hp : ∀ n, p n = true ↔ OneOf E n names) (hq : ∀ n, q n = true ↔ OneOf E n among)
    (h1 : ∀ a ∈ names, a ∈ rest ∨ ∃ b ∈ among, asciiLower (str b) = asciiLower (str a))
    (h2 : ∀ a ∈ rest, a ∈ names ∧ ∀ b ∈ among, asciiLower (str b) ≠ asciiLower (str a)) :
    (clearly E m p).all q = true ↔ ¬Carries E m rest := by
  rw [← names_oneOf, clearly, List.all_eq_true]
  simp only [List.mem_filter, hp, hq, ← oneOf_diff h1 h2]
  grind

theorem carries_or {m : Msg} {names a b : List String} (h : ∀ n, n ∈ names ↔ n ∈ a ∨ n ∈ b) :
    Carries E m names ↔ Carries E m a ∨ Carries E m b := by
  unfold Carries
  constructor
  · rintro ⟨e, he, n, hn, hc⟩
    rcases (h n).1 hn with h' | h'
    · exact .inl ⟨e, he, n, h', hc⟩
    · exact .inr ⟨e, he, n, h', hc⟩
  · rintro (⟨e, he, n, hn, hc⟩ | ⟨e, he, n, hn, hc⟩)
    · exact ⟨e, he, n, (h n).2 (.inl hn), hc⟩
    · exact ⟨e, he, n, (h n).2 (.inr hn), hc⟩

theorem isMethod_or {req : Request} {a b : String} :
    IsMethod req [a, b] ↔ req.method = str a ∨ req.method = str b := by
  simp [IsMethod]

theorem isMethod_three {req : Request} {a b c : String} : IsMethod req [a, b, c] ↔
    req.method = str a ∨ req.method = str b ∨ req.method = str c := by
  simp [IsMethod]

end Httpolice.Lemmas.Check
