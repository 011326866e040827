import Verif.Model.CaseInsens

/-!
# Property C30: case-insensitive strings
-/

namespace Httpolice.Props

open Httpolice.Model

/-- **C30**: two case-insensitive strings are equal exactly when their lower-case forms are;
this is an equivalence; `!=` is its negation. -/
theorem C30_equivalence (lower : Str → Str) :
    Equivalence (fun a b : Str => PStr.eq lower ⟨true, a⟩ ⟨true, b⟩ = true) ∧
    (∀ a b : Str, PStr.eq lower ⟨true, a⟩ ⟨true, b⟩ = true ↔ lower a = lower b) ∧
    (∀ a b : PStr, PStr.ne lower a b = true ↔ ¬ PStr.eq lower a b = true) := by
  refine ⟨⟨?_, ?_, ?_⟩, ?_, ?_⟩
  · intro a; simp [PStr.eq]
  · intro a b h; simp [PStr.eq] at h ⊢; exact h.symm
  · intro a b c h1 h2; simp [PStr.eq] at h1 h2 ⊢; exact h1.trans h2
  · intro a b; simp [PStr.eq]
  · intro a b; simp [PStr.ne]

/-- **C30**: comparison with a plain string also ignores case and does not depend on the side the
plain string is on. -/
theorem C30_symmetric (lower : Str → Str) (a b : PStr) :
    PStr.eq lower a b = PStr.eq lower b a ∧
    (a.ci = true → (PStr.eq lower a b = true ↔ lower a.s = lower b.s)) := by
  refine ⟨?_, ?_⟩
  · unfold PStr.eq
    rw [Bool.or_comm]
    split
    · rw [Bool.eq_iff_iff, beq_iff_eq, beq_iff_eq]; exact eq_comm
    · rw [Bool.eq_iff_iff, beq_iff_eq, beq_iff_eq]; exact eq_comm
  · intro h; simp [PStr.eq, h]

/-- **C30**: equal case-insensitive strings have equal hashes. -/
theorem C30_hash (lower : Str → Str) (h : Str → Nat) (a b : Str)
    (e : PStr.eq lower ⟨true, a⟩ ⟨true, b⟩ = true) :
    PStr.hash lower h ⟨true, a⟩ = PStr.hash lower h ⟨true, b⟩ := by
  simp [PStr.eq] at e
  simp [PStr.hash, e]

/-- **C30**: a dictionary with case-insensitive keys finds an entry exactly when some key has the
same lower-case form, and cannot distinguish spellings of the key looked up. -/
theorem C30_lookup {V : Type} (lower : Str → Str) (h : Str → Nat) (d : List (PStr × V))
    (hd : ∀ e ∈ d, e.1.ci = true) (k : Str) :
    hashLookup lower h d ⟨true, k⟩ =
      (d.find? fun e => lower e.1.s = lower k).map Prod.snd := by
  unfold hashLookup
  congr 1
  induction d with
  | nil => rfl
  | cons e d ih =>
    have he : e.1.ci = true := hd e (by simp)
    have ih' := ih (fun e' h' => hd e' (by simp [h']))
    have hb : (e.1.hash lower h == PStr.hash lower h ⟨true, k⟩ && e.1.eq lower ⟨true, k⟩) =
        decide (lower e.1.s = lower k) := by
      rw [Bool.eq_iff_iff]
      simp only [PStr.hash, PStr.eq, he, Bool.true_or, if_true, Bool.and_eq_true, beq_iff_eq,
        decide_eq_true_eq]
      constructor
      · exact fun h => h.2
      · intro e; exact ⟨by rw [e], e⟩
    rw [List.find?_cons, List.find?_cons, hb, ih']

/-- **C30**: prefix and suffix tests respect the equivalence. -/
theorem C30_prefix (lower : Str → Str) (a a' b b' : Str)
    (ha : PStr.eq lower ⟨true, a⟩ ⟨true, a'⟩ = true)
    (hb : PStr.eq lower ⟨true, b⟩ ⟨true, b'⟩ = true) :
    PStr.startsWith lower ⟨true, a⟩ ⟨true, b⟩ = PStr.startsWith lower ⟨true, a'⟩ ⟨true, b'⟩ ∧
    PStr.endsWith lower ⟨true, a⟩ ⟨true, b⟩ = PStr.endsWith lower ⟨true, a'⟩ ⟨true, b'⟩ := by
  simp [PStr.eq] at ha hb
  simp [PStr.startsWith, PStr.endsWith, ha, hb]

/-- **C30** does not extend to mixtures with plain strings: there equality is not transitive. -/
theorem C30_mixed_not_transitive :
    ¬ ∀ a b c : PStr, PStr.eq asciiLower a b = true → PStr.eq asciiLower b c = true →
      PStr.eq asciiLower a c = true := by
  intro h
  have := h ⟨false, str "GZIP"⟩ ⟨true, str "Gzip"⟩ ⟨false, str "gzip"⟩ (by decide) (by decide)
  revert this
  decide

example : PStr.eq asciiLower ⟨true, str "Content-Type"⟩ ⟨true, str "content-type"⟩ = true ∧
    hashLookup asciiLower List.sum [(⟨true, str "Host"⟩, 1), (⟨true, str "ETag"⟩, 2)]
      ⟨true, str "etag"⟩ = some 2 := by decide

end Httpolice.Props
