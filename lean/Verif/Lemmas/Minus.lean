import Verif.Lemmas.Loops

/-!
# A negative chunk size starts with a minus sign
-/

namespace Httpolice.Lemmas

open Httpolice.Model
open Httpolice.Spec

theorem dropWhile_split (p : Nat → Bool) (s : Str) :
    ∃ w, s = w ++ s.dropWhile p ∧ ∀ c ∈ w, p c = true := by
  refine ⟨s.takeWhile p, (List.takeWhile_append_dropWhile).symm, ?_⟩
  intro c hc
  exact List.all_eq_true.1 (List.all_takeWhile) c hc

theorem rdropWhile_prefix (p : Nat → Bool) (s : Str) :
    ∃ w, s = (s.reverse.dropWhile p).reverse ++ w := by
  obtain ⟨w, hw, _⟩ := dropWhile_split p s.reverse
  refine ⟨w.reverse, ?_⟩
  have := congrArg List.reverse hw
  rwa [List.reverse_reverse, List.reverse_append] at this

theorem partitionOn_prefix {c : Nat} {s a b : Str} (h : partitionOn c s = some (a, b)) :
    s = a ++ c :: b := by
  induction s generalizing a with
  | nil => cases h
  | cons x s ih =>
    unfold partitionOn at h
    split at h
    · rename_i hx
      cases h; rw [hx]; rfl
    · cases hp : partitionOn c s with
      | none => rw [hp] at h; cases h
      | some p =>
        rw [hp] at h
        simp only [Option.map_some, Option.some.injEq, Prod.mk.injEq] at h
        obtain ⟨rfl, rfl⟩ := h
        rw [ih hp]; rfl

theorem pyIntHex_neg {s : Str} {n : Int} (h : pyIntHex s = some n) (hn : n < 0) :
    ∃ w l, s = w ++ 45 :: l ∧ ∀ c ∈ w, isIntSpace c = true := by
  obtain ⟨w, hw, hws⟩ := dropWhile_split isIntSpace s
  obtain ⟨v, hv⟩ := rdropWhile_prefix isIntSpace (s.dropWhile isIntSpace)
  unfold pyIntHex at h
  simp only at h
  have hneg : (intSign (intStrip s)).1 = true := by
    cases hs : (intSign (intStrip s)).1 with
    | true => rfl
    | false =>
      exfalso
      rw [hs] at h
      cases hg : hexGo 0 false (hexPrefix (intSign (intStrip s)).2) with
      | none => rw [hg] at h; cases h
      | some k =>
        rw [hg] at h
        simp only [Option.map_some, Option.some.injEq] at h
        rw [if_neg (by simp)] at h
        omega
  unfold intSign at hneg
  split at hneg
  · rename_i t ht
    unfold intStrip at ht
    rw [ht] at hv
    exact ⟨w, t ++ v, by rw [hw, hv]; simp, hws⟩
  · cases hneg
  · cases hneg

theorem stripCR_prefix (a : Str) : ∃ v, a = stripCR a ++ v := by
  unfold stripCR
  split
  · rename_i h
    have hne : a ≠ [] := by intro h0; rw [h0] at h; simp at h
    exact ⟨[a.getLast hne], (List.dropLast_concat_getLast hne).symm⟩
  · exact ⟨[], by simp⟩

theorem chunkSize_neg {s : Str} {n : Int} (h : chunkSize s = some n) (hn : n < 0) :
    ∃ w l, s = w ++ 45 :: l ∧ ∀ c ∈ w, isIntSpace c = true := by
  unfold chunkSize at h
  obtain ⟨w, l, hw, hws⟩ := pyIntHex_neg h hn
  have hpre : ∀ z, rstripBlank z = w ++ 45 :: l → ∃ l', z = w ++ 45 :: l' := by
    intro z hz
    obtain ⟨v, hv⟩ := rdropWhile_prefix isBlank z
    unfold rstripBlank at hz
    rw [hz] at hv
    exact ⟨l ++ v, by rw [hv]; simp⟩
  obtain ⟨l', hl'⟩ := hpre _ hw
  cases hp : partitionOn 59 s with
  | none =>
    rw [hp] at hl'
    exact ⟨w, l', hl', hws⟩
  | some ab =>
    obtain ⟨a, b⟩ := ab
    rw [hp] at hl'
    simp only at hl'
    rw [hl'] at hp
    exact ⟨w, l' ++ 59 :: b, by rw [partitionOn_prefix hp]; simp, hws⟩

theorem NegLine'.minus {s : SS} (h : NegLine' s) : MinusLine s.rest := by
  obtain ⟨p, a, q, n, h1, h2, h3, h4⟩ := h
  obtain ⟨w, l, hw, hws⟩ := chunkSize_neg h3 (by omega)
  obtain ⟨v, hv⟩ := stripCR_prefix a
  rw [hw] at hv
  refine ⟨p, w, l ++ v ++ [10] ++ q, by rw [h1, hv]; simp, ?_⟩
  intro c hc
  have h5 := hws c hc
  have h6 : c ≠ 10 := by
    intro h7
    apply h2
    rw [hv, ← h7]
    simp [hc]
  simp only [isIntSpace, Bool.or_eq_true, Bool.and_eq_true, decide_eq_true_eq, beq_iff_eq] at h5
  simp only [List.mem_cons, List.not_mem_nil, or_false]
  omega

end Httpolice.Lemmas
