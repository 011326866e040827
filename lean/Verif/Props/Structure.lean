import Verif.Model.Structure
import Verif.Spec.FirstReports
import Verif.Lemmas.Basic

/-!
# Properties C31 (MultiDict), C32 (entity tags), C44 (duplicates)
-/

namespace Httpolice.Props

open Httpolice.Model Httpolice.Spec Httpolice.Lemmas

variable {K V : Type} [DecidableEq K]

/-! ## C31: MultiDict refines the list of pairs it was built from -/

/-- The values given for `k`, in order: read directly off the list of pairs. -/
def valuesFor (seq : List (K × V)) (k : K) : List V :=
  (seq.filter fun p => p.1 = k).map Prod.snd

theorem dictAppend_get (d : List (K × List V)) (k : K) (v : V) (k' : K) :
    dictGet (dictAppend d k v) k' =
      if k' = k then some ((dictGet d k).getD [] ++ [v]) else dictGet d k' := by
  induction d with
  | nil =>
    by_cases h : k' = k
    · subst h; simp [dictAppend, dictGet]
    · simp [dictAppend, dictGet, h, Ne.symm h]
  | cons p d ih =>
    rcases p with ⟨k0, vs⟩
    by_cases h0 : k0 = k
    · subst h0
      by_cases h : k' = k0
      · subst h; simp [dictAppend, dictGet]
      · simp [dictAppend, dictGet, h, Ne.symm h]
    · by_cases h : k' = k
      · subst h
        simp only [if_true] at ih
        simp only [dictAppend, if_neg h0, if_true]
        simpa [dictGet, h0] using ih
      · simp only [if_neg h] at ih
        simp only [dictAppend, if_neg h0, if_neg h]
        by_cases h1 : k0 = k'
        · simp [dictGet, h1]
        · simpa [dictGet, h1] using ih

theorem dictAppend_keys (d : List (K × List V)) (k : K) (v : V) :
    (dictAppend d k v).map Prod.fst =
      if k ∈ d.map Prod.fst then d.map Prod.fst else d.map Prod.fst ++ [k] := by
  induction d with
  | nil => simp [dictAppend]
  | cons p d ih =>
    rcases p with ⟨k0, vs⟩
    by_cases h0 : k0 = k
    · subst h0; simp [dictAppend]
    · simp only [dictAppend, if_neg h0, List.map_cons, ih, List.mem_cons]
      have : ¬ k = k0 := fun h => h0 h.symm
      simp only [this, false_or]
      split <;> simp

theorem dictionary_snoc (seq : List (K × V)) (kv : K × V) :
    (MultiDict.mk (seq ++ [kv])).dictionary =
      dictAppend (MultiDict.mk seq).dictionary kv.1 kv.2 := by
  simp [MultiDict.dictionary]

theorem dictionary_get (seq : List (K × V)) (k : K) :
    dictGet (MultiDict.mk seq).dictionary k =
      if valuesFor seq k = [] then none else some (valuesFor seq k) := by
  induction seq using snocInduction with
  | nil => simp [MultiDict.dictionary, dictGet, valuesFor]
  | snoc seq kv ih =>
    rw [dictionary_snoc, dictAppend_get]
    by_cases h : k = kv.1
    · subst h
      simp only [if_true, ih]
      by_cases hv : valuesFor seq kv.1 = []
      · have : valuesFor (seq ++ [kv]) kv.1 = [kv.2] := by
          simp [valuesFor] at hv ⊢
          simpa using hv
        simp [hv, this]
      · have : valuesFor (seq ++ [kv]) kv.1 = valuesFor seq kv.1 ++ [kv.2] := by
          simp [valuesFor]
        simp [hv, this]
    · have : valuesFor (seq ++ [kv]) k = valuesFor seq k := by
        simp [valuesFor, Ne.symm h]
      simp [h, ih, this]

theorem dictionary_keys (seq : List (K × V)) :
    FirstReports (seq.map Prod.fst) ((MultiDict.mk seq).dictionary.map Prod.fst) := by
  induction seq using snocInduction with
  | nil => exact ⟨by simp [MultiDict.dictionary], by simp [MultiDict.dictionary],
      by simp [MultiDict.dictionary]⟩
  | snoc seq kv ih =>
    rw [dictionary_snoc, dictAppend_keys]
    simp only [List.map_append, List.map_cons, List.map_nil]
    split
    · next h => exact ih.snoc_old h
    · next h => exact ih.snoc_new h

/-- **C31**: `d[k]` is the first value given for `k`, `KeyError` if there is none. -/
theorem C31_getitem (seq : List (K × V)) (k : K) :
    (MultiDict.mk seq).getItem k = (seq.find? fun p => p.1 = k).map Prod.snd := by
  unfold MultiDict.getItem
  rw [dictionary_get]
  have hh : (valuesFor seq k).head? = (seq.find? fun p => p.1 = k).map Prod.snd := by
    simp [valuesFor]
  by_cases h : valuesFor seq k = []
  · rw [h] at hh
    simp [h, ← hh]
  · simp [h, hh]

/-- **C31**: `getall(k)` are all values given for `k`, in order. -/
theorem C31_getall (seq : List (K × V)) (k : K) :
    (MultiDict.mk seq).getAll k = valuesFor seq k := by
  unfold MultiDict.getAll
  rw [dictionary_get]
  split <;> simp_all

/-- **C31**: iteration lists the distinct keys in order of first appearance. -/
theorem C31_iter (seq : List (K × V)) :
    FirstReports (seq.map Prod.fst) (MultiDict.mk seq).iter :=
  dictionary_keys seq

/-- **C31**: `k in d` exactly if `k` is the key of some pair. -/
theorem C31_contains (seq : List (K × V)) (k : K) :
    (MultiDict.mk seq).contains k = true ↔ ∃ v, (k, v) ∈ seq := by
  unfold MultiDict.contains
  rw [List.contains_iff_mem, (dictionary_keys seq).mem k]
  simp

/-- **C31**: `d.get(k, default)`. -/
theorem C31_get (seq : List (K × V)) (k : K) (dflt : V) :
    (MultiDict.mk seq).get k dflt = ((seq.find? fun p => p.1 = k).map Prod.snd).getD dflt := by
  unfold MultiDict.get
  rw [C31_getitem]
  split
  · rfl
  · next h =>
    rw [C31_contains] at h
    have : seq.find? (fun p => p.1 = k) = none := by
      rw [List.find?_eq_none]
      rintro ⟨k', v⟩ hm hk
      simp only [decide_eq_true_eq] at hk
      subst hk
      exact h ⟨v, hm⟩
    simp [this]

omit [DecidableEq K] in
/-- **C31**: `len(d)` counts pairs, not distinct keys. -/
theorem C31_len (seq : List (K × V)) : (MultiDict.mk seq).len = seq.length := rfl

/-- **C31**: `index(k)` is the position of the first pair with key `k`, an error if there is none. -/
theorem C31_index (seq : List (K × V)) (k : K) (i : Nat) :
    (MultiDict.mk seq).index k = some i ↔
      (∃ v, seq[i]? = some (k, v)) ∧ ∀ j < i, ∀ v, seq[j]? ≠ some (k, v) := by
  unfold MultiDict.index
  rw [List.findIdx?_eq_some_iff_getElem]
  constructor
  · rintro ⟨h, h1, h2⟩
    simp only [List.length_map] at h
    simp only [List.getElem_map, decide_eq_true_eq] at h1
    refine ⟨⟨seq[i].2, ?_⟩, ?_⟩
    · rw [List.getElem?_eq_getElem h]
      simp [← h1]
    · intro j hj v hv
      have := h2 j hj
      simp only [List.getElem_map, decide_eq_true_eq] at this
      rw [List.getElem?_eq_getElem (by omega)] at hv
      simp only [Option.some.injEq] at hv
      exact this (by rw [hv])
  · rintro ⟨⟨v, hv⟩, h2⟩
    obtain ⟨h, hv'⟩ := List.getElem?_eq_some_iff.1 hv
    refine ⟨by simpa using h, by simp [hv'], ?_⟩
    intro j hj
    simp only [List.getElem_map, decide_eq_true_eq]
    intro hk
    apply h2 j hj seq[j].2
    rw [List.getElem?_eq_getElem (by omega)]
    simp [← hk]

/-- **C31**: `duplicates()` are the keys that occur more than once, in order of first appearance. -/
theorem C31_duplicates (seq : List (K × V)) :
    (MultiDict.mk seq).duplicates =
      (MultiDict.mk seq).iter.filter fun k => (seq.map Prod.fst).count k > 1 := by
  unfold MultiDict.duplicates MultiDict.iter
  rw [List.filter_map]
  congr 1
  apply List.filter_congr
  intro p hp
  have hnd := (dictionary_keys seq).nodup
  have hg : dictGet (MultiDict.mk seq).dictionary p.1 = some p.2 := by
    generalize (MultiDict.mk seq).dictionary = d at hp hnd
    induction d with
    | nil => simp at hp
    | cons q d ih =>
      simp only [List.map_cons, List.nodup_cons] at hnd
      rcases List.mem_cons.1 hp with rfl | hp'
      · simp [dictGet]
      · have hne : ¬ q.1 = p.1 := by
          intro he
          exact hnd.1 (he ▸ List.mem_map_of_mem hp')
        have := ih hp' hnd.2
        simpa [dictGet, hne] using this
  rw [dictionary_get] at hg
  split at hg
  · simp at hg
  · simp only [Option.some.injEq] at hg
    have hc : p.2.length = (seq.map Prod.fst).count p.1 := by
      rw [← hg, valuesFor, List.length_map, ← List.countP_eq_length_filter, List.count,
        List.countP_map]
      congr 1
    simp [hc]

example : (MultiDict.mk [(1, 'a'), (2, 'b'), (1, 'c')]).iter = [1, 2] ∧
    (MultiDict.mk [(1, 'a'), (2, 'b'), (1, 'c')]).duplicates = [1] ∧
    (MultiDict.mk [(1, 'a'), (2, 'b'), (1, 'c')]).getItem 1 = some 'a' ∧
    (MultiDict.mk [(1, 'a'), (2, 'b'), (1, 'c')]).getAll 1 = ['a', 'c'] := by decide

/-! ## C44: duplicates -/

theorem counterAdd_keys (d : List (K × Nat)) (k : K) :
    (counterAdd d k).map Prod.fst =
      if k ∈ d.map Prod.fst then d.map Prod.fst else d.map Prod.fst ++ [k] := by
  induction d with
  | nil => simp [counterAdd]
  | cons p d ih =>
    rcases p with ⟨k0, n⟩
    by_cases h0 : k0 = k
    · subst h0; simp [counterAdd]
    · simp only [counterAdd, if_neg h0, List.map_cons, ih, List.mem_cons]
      have : ¬ k = k0 := fun h => h0 h.symm
      simp only [this, false_or]
      split <;> simp

theorem counterAdd_get (d : List (K × Nat)) (k k' : K) :
    dictGet (counterAdd d k) k' =
      if k' = k then some ((dictGet d k).getD 0 + 1) else dictGet d k' := by
  induction d with
  | nil =>
    by_cases h : k' = k
    · subst h; simp [counterAdd, dictGet]
    · simp [counterAdd, dictGet, h, Ne.symm h]
  | cons p d ih =>
    rcases p with ⟨k0, n⟩
    by_cases h0 : k0 = k
    · subst h0
      by_cases h : k' = k0
      · subst h; simp [counterAdd, dictGet]
      · simp [counterAdd, dictGet, h, Ne.symm h]
    · by_cases h : k' = k
      · subst h
        simp only [if_true] at ih
        simp only [counterAdd, if_neg h0, if_true]
        simpa [dictGet, h0] using ih
      · simp only [if_neg h] at ih
        simp only [counterAdd, if_neg h0, if_neg h]
        by_cases h1 : k0 = k'
        · simp [dictGet, h1]
        · simpa [dictGet, h1] using ih

theorem counter_keys (xs : List K) :
    FirstReports xs ((xs.foldl counterAdd []).map Prod.fst) := by
  induction xs using snocInduction with
  | nil => exact ⟨by simp, by simp, by simp⟩
  | snoc xs x ih =>
    rw [List.foldl_append, List.foldl_cons, List.foldl_nil, counterAdd_keys]
    split
    · next h => exact ih.snoc_old h
    · next h => exact ih.snoc_new h

theorem counter_get (xs : List K) (k : K) :
    dictGet (xs.foldl counterAdd []) k = if k ∈ xs then some (xs.count k) else none := by
  induction xs using snocInduction with
  | nil => simp [dictGet]
  | snoc xs x ih =>
    rw [List.foldl_append, List.foldl_cons, List.foldl_nil, counterAdd_get]
    by_cases h : k = x
    · subst h
      by_cases hk : k ∈ xs
      · simp [ih, hk]
      · simp [ih, hk, List.count_eq_zero_of_not_mem hk]
    · simp [h, ih, List.count_append, Ne.symm h]

theorem dictGet_of_mem {W : Type} {d : List (K × W)} (hnd : (d.map Prod.fst).Nodup) {p : K × W}
    (hp : p ∈ d) : dictGet d p.1 = some p.2 := by
  induction d with
  | nil => simp at hp
  | cons q d ih =>
    simp only [List.map_cons, List.nodup_cons] at hnd
    rcases List.mem_cons.1 hp with rfl | hp'
    · simp [dictGet]
    · have hne : ¬ q.1 = p.1 := by
        intro he
        exact hnd.1 (he ▸ List.mem_map_of_mem hp')
      have := ih hnd.2 hp'
      simpa [dictGet, hne] using this

/-- **C44**: `duplicates(xs)` lists exactly the values occurring more than once, each once, in
order of first appearance. -/
theorem C44_duplicates (xs : List K) :
    (∀ x, x ∈ duplicates xs ↔ xs.count x > 1) ∧ (duplicates xs).Nodup ∧
      (duplicates xs).Pairwise fun a b => xs.idxOf a < xs.idxOf b := by
  have hk := counter_keys xs
  have hsub : (duplicates xs).Sublist ((xs.foldl counterAdd []).map Prod.fst) :=
    List.Sublist.map _ List.filter_sublist
  refine ⟨?_, hk.nodup.sublist hsub, hk.order.sublist hsub⟩
  intro x
  simp only [duplicates, List.mem_map, List.mem_filter, decide_eq_true_eq]
  constructor
  · rintro ⟨p, ⟨hp, hc⟩, rfl⟩
    have := dictGet_of_mem hk.nodup hp
    rw [counter_get] at this
    split at this
    · simp only [Option.some.injEq] at this
      omega
    · simp at this
  · intro hc
    have hx : x ∈ xs := by
      rw [← List.count_pos_iff]; omega
    have h1 := (hk.mem x).2 hx
    obtain ⟨p, hp, rfl⟩ := List.mem_map.1 h1
    refine ⟨p, ⟨hp, ?_⟩, rfl⟩
    have := dictGet_of_mem hk.nodup hp
    rw [counter_get, if_pos hx] at this
    simp only [Option.some.injEq] at this
    omega

example : duplicates [1, 2, 3, 1, 4, 5, 2, 6, 4, 7, 8] = [1, 2, 4] := by decide

/-! ## C32: entity tags -/

/-- **C32**: strong comparison holds exactly when neither tag is weak and the opaque parts agree. -/
theorem C32_strong_iff (a b : EntityTag) :
    a.strongEquiv b = true ↔ a.weak = false ∧ b.weak = false ∧ a.opaqueTag = b.opaqueTag := by
  simp [EntityTag.strongEquiv, and_assoc]

/-- **C32**: weak comparison ignores weakness and is an equivalence. -/
theorem C32_weak_equivalence :
    Equivalence (fun a b : EntityTag => a.weakEquiv b = true) ∧
      ∀ a b : EntityTag, a.weakEquiv b = true ↔ a.opaqueTag = b.opaqueTag := by
  refine ⟨⟨?_, ?_, ?_⟩, ?_⟩ <;> simp [EntityTag.weakEquiv]
  · intro a b h; exact h.symm
  · intro a b c h1 h2; exact h1.trans h2

/-- **C32**: strong implies weak; strong comparison is symmetric and transitive, and reflexive
exactly on strong tags. -/
theorem C32_strong_laws :
    (∀ a b : EntityTag, a.strongEquiv b = true → a.weakEquiv b = true) ∧
    (∀ a b : EntityTag, a.strongEquiv b = true → b.strongEquiv a = true) ∧
    (∀ a b c : EntityTag, a.strongEquiv b = true → b.strongEquiv c = true →
      a.strongEquiv c = true) ∧
    (∀ a : EntityTag, a.strongEquiv a = true ↔ a.weak = false) := by
  refine ⟨?_, ?_, ?_, ?_⟩
  · intro a b h; simp_all [EntityTag.strongEquiv, EntityTag.weakEquiv]
  · intro a b h; simp_all [EntityTag.strongEquiv]
  · intro a b c h1 h2; simp_all [EntityTag.strongEquiv]
  · intro a; simp [EntityTag.strongEquiv]

example : (EntityTag.mk true [34, 97, 34]).weakEquiv ⟨false, [34, 97, 34]⟩ = true ∧
    (EntityTag.mk true [34, 97, 34]).strongEquiv ⟨false, [34, 97, 34]⟩ = false := by decide

end Httpolice.Props
