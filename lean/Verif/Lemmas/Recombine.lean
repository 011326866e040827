import Verif.Spec.Inputs

/-!
# Facts about `Model/Inputs.lean`: pairing streams
-/

namespace Httpolice.Lemmas
open Httpolice.Model Httpolice.Spec

/-! ## The sort -/

theorem insertSorted_perm (si : StreamInfo) (l : List StreamInfo) :
    (insertSorted si l).Perm (si :: l) := by
  induction l with
  | nil => exact .refl _
  | cons x l ih =>
    rw [insertSorted]
    split
    · exact .refl _
    · exact (ih.cons x).trans (.swap si x l)

theorem insertSorted_sorted {si : StreamInfo} {l : List StreamInfo}
    (h : l.Pairwise fun a b => a.sortHint ≤ b.sortHint) :
    (insertSorted si l).Pairwise fun a b => a.sortHint ≤ b.sortHint := by
  induction l with
  | nil => simp [insertSorted]
  | cons x l ih =>
    rw [List.pairwise_cons] at h
    rw [insertSorted]
    split
    next hlt =>
      rw [List.pairwise_cons]
      refine ⟨fun b hb => ?_, List.pairwise_cons.2 h⟩
      rcases List.mem_cons.1 hb with rfl | hb
      · omega
      · have := h.1 b hb; omega
    next hge =>
      rw [List.pairwise_cons]
      refine ⟨fun b hb => ?_, ih h.2⟩
      rcases List.mem_cons.1 ((insertSorted_perm si l).mem_iff.1 hb) with rfl | hb
      · omega
      · exact h.1 b hb

theorem sort_from (sis acc : List StreamInfo) :
    (sis.foldl (fun acc si => insertSorted si acc) acc).Perm (acc ++ sis) ∧
      ((acc.Pairwise fun a b => a.sortHint ≤ b.sortHint) →
        (sis.foldl (fun acc si => insertSorted si acc) acc).Pairwise
          fun a b => a.sortHint ≤ b.sortHint) := by
  induction sis generalizing acc with
  | nil => simp
  | cons x sis ih =>
    obtain ⟨h1, h2⟩ := ih (insertSorted x acc)
    refine ⟨h1.trans ?_, fun h => h2 (insertSorted_sorted h)⟩
    exact ((insertSorted_perm x acc).append_right sis).trans (List.perm_middle (a := x)).symm

theorem sortStreams_perm (sis : List StreamInfo) : (sortStreams sis).Perm sis := by
  simpa [sortStreams] using (sort_from sis []).1

theorem sortStreams_sorted (sis : List StreamInfo) :
    (sortStreams sis).Pairwise fun a b => a.sortHint ≤ b.sortHint :=
  (sort_from sis []).2 List.Pairwise.nil

/-! ## The dictionary -/

theorem odSet_new {m : List StreamInfo} {si : StreamInfo} (h : ∀ x ∈ m, x.key ≠ si.key) :
    odSet m si = m ++ [si] := by
  induction m with
  | nil => rfl
  | cons x m ih =>
    rw [odSet, if_neg (h x List.mem_cons_self), ih fun y hy => h y (List.mem_cons_of_mem _ hy)]
    rfl

theorem odSet_old {m : List StreamInfo} {si : StreamInfo} (h : ∃ x ∈ m, x.key = si.key) :
    ∃ x, x.key = si.key ∧ (odSet m si ++ [x]).Perm (m ++ [si]) ∧
      (odSet m si).map (·.key) = m.map (·.key) := by
  induction m with
  | nil => obtain ⟨x, hx, _⟩ := h; cases hx
  | cons y m ih =>
    rw [odSet]
    split
    next hy =>
      refine ⟨y, hy, ?_, by simp [hy]⟩
      have e1 : (si :: m ++ [y]).Perm (y :: si :: m) := List.perm_append_comm (l₂ := [y])
      have e2 : (y :: m ++ [si]).Perm (si :: y :: m) := List.perm_append_comm (l₂ := [si])
      exact (e1.trans (.swap si y m)).trans e2.symm
    next hy =>
      obtain ⟨x, hx, hk⟩ := h
      rcases List.mem_cons.1 hx with rfl | hx
      · exact absurd hk hy
      · obtain ⟨z, h1, h2, h3⟩ := ih ⟨x, hx, hk⟩
        exact ⟨z, h1, h2.cons y, by simp [h3]⟩

theorem od_from (l m : List StreamInfo) (hm : (m.map (·.key)).Nodup) :
    ∃ dropped, (l.foldl odSet m ++ dropped).Perm (m ++ l) ∧
      (∀ d ∈ dropped, ∃ u ∈ l.foldl odSet m, u.key = d.key) ∧
      ((l.foldl odSet m).map (·.key)).Nodup ∧
      (∀ x ∈ m, ∃ u ∈ l.foldl odSet m, u.key = x.key) := by
  induction l generalizing m with
  | nil => exact ⟨[], by simp, by simp, hm, fun x hx => ⟨x, hx, rfl⟩⟩
  | cons si l ih =>
    rw [List.foldl_cons]
    by_cases h : ∃ x ∈ m, x.key = si.key
    · obtain ⟨x, h1, h2, h3⟩ := odSet_old h
      obtain ⟨dropped, d1, d2, d3, d4⟩ := ih (odSet m si) (by rw [h3]; exact hm)
      have keys : ∀ y ∈ m, ∃ u ∈ l.foldl odSet (odSet m si), u.key = y.key := by
        intro y hy
        have : y.key ∈ (odSet m si).map (·.key) := by
          rw [h3]; exact List.mem_map_of_mem hy
        obtain ⟨z, hz, hzy⟩ := List.mem_map.1 this
        obtain ⟨u, hu, huz⟩ := d4 z hz
        exact ⟨u, hu, huz.trans hzy⟩
      refine ⟨x :: dropped, ?_, ?_, d3, keys⟩
      · have e1 : (l.foldl odSet (odSet m si) ++ x :: dropped).Perm
            (x :: (l.foldl odSet (odSet m si) ++ dropped)) := List.perm_middle
        refine e1.trans ((d1.cons x).trans ?_)
        have e2 : (x :: (odSet m si ++ l)).Perm (odSet m si ++ [x] ++ l) := by
          rw [List.append_assoc]
          exact (List.perm_middle (a := x)).symm
        refine e2.trans ((h2.append_right l).trans ?_)
        rw [List.append_assoc]
        exact .refl _
      · intro d hd
        rcases List.mem_cons.1 hd with rfl | hd
        · obtain ⟨y, hy, hyk⟩ := h
          obtain ⟨u, hu, huy⟩ := keys y hy
          exact ⟨u, hu, huy.trans (hyk.trans h1.symm)⟩
        · exact d2 d hd
    · have h' : ∀ x ∈ m, x.key ≠ si.key := fun x hx hk => h ⟨x, hx, hk⟩
      rw [odSet_new h']
      obtain ⟨dropped, d1, d2, d3, d4⟩ := ih (m ++ [si]) (by
        rw [List.map_append, List.nodup_append]
        refine ⟨hm, by simp, ?_⟩
        intro a ha b hb
        obtain ⟨x, hx, rfl⟩ := List.mem_map.1 ha
        simp only [List.map_cons, List.map_nil, List.mem_singleton] at hb
        subst hb
        exact h' x hx)
      exact ⟨dropped, by simpa using d1, d2, d3, fun x hx => d4 x (List.mem_append_left _ hx)⟩

theorem od_distinct (l m : List StreamInfo) (h : ((m ++ l).map (·.key)).Nodup) :
    l.foldl odSet m = m ++ l := by
  induction l generalizing m with
  | nil => simp
  | cons si l ih =>
    have h' : ∀ x ∈ m, x.key ≠ si.key := by
      intro x hx hk
      rw [List.map_append, List.nodup_append] at h
      exact h.2.2 x.key (List.mem_map_of_mem hx) si.key (by simp) hk
    rw [List.foldl_cons, odSet_new h', ih _ (by simpa using h)]
    simp

/-! ## Popping -/

theorem odPop_none {key : Option Nat × Str × Str} {m : List StreamInfo}
    (h : (odPop key m).1 = none) : (∀ x ∈ m, x.key ≠ key) ∧ (odPop key m).2 = m := by
  induction m with
  | nil => exact ⟨(fun x hx => by cases hx), rfl⟩
  | cons x m ih =>
    rw [odPop] at h ⊢
    split at h
    · cases h
    next hx =>
      obtain ⟨h1, h2⟩ := ih h
      rw [if_neg hx]
      refine ⟨fun y hy => ?_, by rw [h2]⟩
      rcases List.mem_cons.1 hy with rfl | hy
      · exact hx
      · exact h1 y hy

theorem odPop_some {key : Option Nat × Str × Str} {m : List StreamInfo} {o : StreamInfo}
    (h : (odPop key m).1 = some o) :
    o.key = key ∧ m.Perm (o :: (odPop key m).2) ∧ ((odPop key m).2).Sublist m := by
  induction m with
  | nil => cases h
  | cons x m ih =>
    rw [odPop] at h ⊢
    split at h
    next hx =>
      cases h
      rw [if_pos hx]
      exact ⟨hx, .refl _, List.sublist_cons_self _ _⟩
    next hx =>
      obtain ⟨h1, h2, h3⟩ := ih h
      rw [if_neg hx]
      exact ⟨h1, (h2.cons x).trans (.swap o x _), h3.cons_cons x⟩

/-! ## The loop -/

/-- The pairs that the loop of `_recombine_streams` makes, as streams. -/
def pairLoop : Nat → List StreamInfo → List (StreamInfo × Option StreamInfo)
  | 0, _ => []
  | _ + 1, [] => []
  | n + 1, si :: m => (si, (odPop si.reverseKey m).1) :: pairLoop n (odPop si.reverseKey m).2

theorem recombineLoop_pairs (n : Nat) (m : List StreamInfo) :
    recombineLoop n m = (pairLoop n m).map fun p => pairOf p.1 p.2 := by
  induction n generalizing m with
  | zero => rfl
  | succ n ih =>
    cases m with
    | nil => rfl
    | cons si m => rw [recombineLoop, pairLoop, List.map_cons, ih]

theorem pairLoop_perm {n : Nat} {m : List StreamInfo} (hn : m.length ≤ n) :
    ((pairLoop n m).flatMap fun p => p.1 :: p.2.toList).Perm m := by
  induction n generalizing m with
  | zero =>
    rw [List.length_eq_zero_iff.1 (Nat.le_zero.1 hn)]
    exact .refl _
  | succ n ih =>
    cases m with
    | nil => exact .refl _
    | cons si m =>
      rw [pairLoop, List.flatMap_cons]
      have hle := odPop_length si.reverseKey m
      rw [List.length_cons] at hn
      have ih := ih (m := (odPop si.reverseKey m).2) (by omega)
      cases ho : (odPop si.reverseKey m).1 with
      | none =>
        rw [(odPop_none ho).2] at ih ⊢
        exact ih.cons si
      | some o => exact ((ih.cons o).trans (odPop_some ho).2.1.symm).cons si

theorem reverse_reverse {a b : StreamInfo} (h : a.key = b.reverseKey) : b.key = a.reverseKey := by
  simp only [StreamInfo.key, StreamInfo.reverseKey, Prod.mk.injEq] at h ⊢
  exact ⟨h.1.symm, h.2.2.symm, h.2.1.symm⟩

theorem pairLoop_sound {n : Nat} {m : List StreamInfo} (hn : m.length ≤ n)
    (hk : (m.map (·.key)).Nodup) {a : StreamInfo} {o : Option StreamInfo}
    (h : (a, o) ∈ pairLoop n m) :
    (∀ b, o = some b → b.key = a.reverseKey) ∧
      (o = none → ∀ x ∈ m, x.key = a.reverseKey → x = a) := by
  induction n generalizing m with
  | zero => cases h
  | succ n ih =>
    cases m with
    | nil => cases h
    | cons si m =>
      rw [pairLoop] at h
      have hle := odPop_length si.reverseKey m
      rw [List.length_cons] at hn
      rw [List.map_cons, List.nodup_cons] at hk
      rcases List.mem_cons.1 h with h | h
      · cases h
        refine ⟨fun b hb => (odPop_some hb).1, fun ho x hx hxk => ?_⟩
        rcases List.mem_cons.1 hx with rfl | hx
        · rfl
        · exact absurd hxk ((odPop_none ho).1 x hx)
      · have hsub : ((odPop si.reverseKey m).2).Sublist m := by
          cases ho : (odPop si.reverseKey m).1 with
          | none => rw [(odPop_none ho).2]; exact List.Sublist.refl _
          | some o => exact (odPop_some ho).2.2
        obtain ⟨h1, h2⟩ := ih (by omega) ((hsub.map _).nodup hk.2) h
        refine ⟨h1, fun ho x hx hxk => ?_⟩
        have ham : a ∈ (odPop si.reverseKey m).2 := by
          refine (pairLoop_perm (n := n) (by omega)).mem_iff.1 ?_
          exact List.mem_flatMap.2 ⟨_, h, List.mem_cons_self⟩
        have hback := reverse_reverse hxk
        have popped : ∀ y ∈ m, y.key = si.reverseKey → y ∉ (odPop si.reverseKey m).2 := by
          intro y hy hyk hmem
          cases hpo : (odPop si.reverseKey m).1 with
          | none => exact (odPop_none hpo).1 y hy hyk
          | some q =>
            obtain ⟨q1, q2, _⟩ := odPop_some hpo
            have := ((q2.map (·.key)).nodup_iff.1 hk.2)
            rw [List.map_cons, List.nodup_cons] at this
            apply this.1
            exact List.mem_map.2 ⟨y, hmem, hyk.trans q1.symm⟩
        rcases List.mem_cons.1 hx with rfl | hx
        · exact absurd ham (popped a (hsub.subset ham) hback)
        · have hx2 : x ∈ (odPop si.reverseKey m).2 := by
            cases hpo : (odPop si.reverseKey m).1 with
            | none => rw [(odPop_none hpo).2]; exact hx
            | some q =>
              obtain ⟨q1, q2, _⟩ := odPop_some hpo
              rcases List.mem_cons.1 (q2.mem_iff.1 hx) with rfl | hx'
              · exfalso
                -- `a` is the reverse of `x`, which is the reverse of `si`
                have : a.key = si.key := by
                  have := reverse_reverse q1
                  rw [hback, ← this]
                exact hk.1 (this ▸ List.mem_map_of_mem (hsub.subset ham))
              · exact hx'
          exact h2 ho x hx2 hxk

theorem pairLoop_sorted {n : Nat} {m : List StreamInfo}
    (hs : m.Pairwise fun a b => a.sortHint ≤ b.sortHint) :
    ((pairLoop n m).Pairwise fun p q => p.1.sortHint ≤ q.1.sortHint) ∧
      (∀ p ∈ pairLoop n m, ∀ b, p.2 = some b → p.1.sortHint ≤ b.sortHint) ∧
      ∀ p ∈ pairLoop n m, p.1 ∈ m := by
  induction n generalizing m with
  | zero => exact ⟨.nil, (fun p hp => by cases hp), fun p hp => by cases hp⟩
  | succ n ih =>
    cases m with
    | nil => exact ⟨.nil, (fun p hp => by cases hp), fun p hp => by cases hp⟩
    | cons si m =>
      rw [pairLoop]
      rw [List.pairwise_cons] at hs
      have hsub : ((odPop si.reverseKey m).2).Sublist m := by
        cases ho : (odPop si.reverseKey m).1 with
        | none => rw [(odPop_none ho).2]; exact List.Sublist.refl _
        | some o => exact (odPop_some ho).2.2
      obtain ⟨h1, h2, h3⟩ := ih (hs.2.sublist hsub)
      refine ⟨List.pairwise_cons.2 ⟨fun q hq => hs.1 _ (hsub.subset (h3 q hq)), h1⟩, ?_, ?_⟩
      · intro p hp b hb
        rcases List.mem_cons.1 hp with rfl | hp
        · exact hs.1 b ((odPop_some hb).2.1.symm.subset List.mem_cons_self)
        · exact h2 p hp b hb
      · intro p hp
        rcases List.mem_cons.1 hp with rfl | hp
        · exact List.mem_cons_self
        · exact List.mem_cons_of_mem _ (hsub.subset (h3 p hp))

end Httpolice.Lemmas
