import Verif.Lemmas.Denote

/-!
# Repetition and strings, in terms of denotations
-/

namespace Httpolice.Lemmas

open Httpolice.Model Httpolice.Spec

/-- Always one argument. -/
def Single (D : Den) : Prop := ∀ w vs cs, D w vs cs → ∃ v, vs = [v]

/-- Always the text itself, and no complaints. -/
def Echo (D : Den) : Prop := ∀ w vs cs, D w vs cs → vs = [.text w] ∧ cs = []

theorem Echo.single {D : Den} (h : Echo D) : Single D := fun w vs cs hd => ⟨_, (h w vs cs hd).1⟩

theorem Single.few {D : Den} (h : Single D) : Few D := by
  intro w vs cs hd
  obtain ⟨v, rfl⟩ := h w vs cs hd
  simp

theorem single_oneD {D : Den} (h : Single D) : oneD D = D := by
  funext w vs cs
  exact propext (few_one h.few)

theorem single_app {f : Func GVal PyComplaint} {D : Den} (h : ∀ xs, (f xs).1 ≠ .skip) : Single (appD f D) := by
  rintro w vs cs ⟨xs, c, _, rfl, _⟩
  cases hf : (f xs).1 with
  | skip => exact absurd hf (h xs)
  | val v => exact ⟨v, rfl⟩

theorem each_append {A : Den} {u v : Str} {l m : List GVal} {c d : List PyComplaint} (h1 : EachD A u l c)
    (h2 : EachD A v m d) : EachD A (u ++ v) (l ++ m) (c ++ d) := by
  induction h1 with
  | nil => exact h2
  | cons k _ ih =>
    rw [List.append_assoc, List.append_assoc]
    exact .cons k ih

theorem each_split {A : Den} {w : Str} {l m : List GVal} {cs : List PyComplaint} (h : EachD A w (l ++ m) cs) :
    ∃ u v c d, w = u ++ v ∧ cs = c ++ d ∧ EachD A u l c ∧ EachD A v m d := by
  induction l generalizing w cs with
  | nil => exact ⟨[], w, [], cs, rfl, rfl, .nil, h⟩
  | cons x l ih =>
    cases h with
    | cons k h =>
      obtain ⟨u, v, c, d, rfl, rfl, h1, h2⟩ := ih h
      exact ⟨_, v, _, d, (List.append_assoc ..).symm, (List.append_assoc ..).symm, .cons k h1, h2⟩

theorem each_one {A : Den} (hA : Single A) {w : Str} {v : GVal} {cs : List PyComplaint} :
    EachD A w [v] cs ↔ A w [v] cs := by
  constructor
  · intro h
    generalize hl : [v] = l at h
    cases h with
    | nil => cases hl
    | cons k h =>
      cases hl
      cases h
      obtain ⟨v, rfl⟩ := hA _ _ _ k
      simpa [elementOf] using k
  · intro h
    have := EachD.cons h .nil
    simpa [elementOf] using this

theorem upTo_single {A : Den} (hA : Single A) (k : Nat) {w : Str} {vs : List GVal} {cs : List PyComplaint} :
    upToD A A k w vs cs ↔ ∃ l, l.length ≤ k + 1 ∧ EachD A w l cs ∧ vs = [.list l] := by
  induction k generalizing w vs cs with
  | zero =>
    constructor
    · rintro (⟨rfl, rfl, rfl⟩ | ⟨xs, c, h1, rfl, rfl⟩)
      · exact ⟨[], by simp, .nil, rfl⟩
      · obtain ⟨v, rfl⟩ := hA _ _ _ h1
        exact ⟨[v], by simp, by simpa [beginListF, pureFunc] using (each_one hA).mpr h1, rfl⟩
    · rintro ⟨l, hl, h1, rfl⟩
      match l, hl with
      | [], _ => cases h1; exact .inl ⟨rfl, rfl, rfl⟩
      | [v], _ => exact .inr ⟨[v], cs, (each_one hA).mp h1, rfl, by simp [beginListF, pureFunc]⟩
  | succ k ih =>
    constructor
    · rintro (⟨rfl, rfl, rfl⟩ | ⟨xs, c, ⟨u, v, x1, x2, c1, c2, rfl, rfl, rfl, h1, h2⟩, rfl, rfl⟩)
      · exact ⟨[], by simp, .nil, rfl⟩
      · obtain ⟨l, hl, h3, rfl⟩ := ih.mp h2
        obtain ⟨x, rfl⟩ := hA _ _ _ h1
        refine ⟨x :: l, by simp; omega, ?_, rfl⟩
        have := EachD.cons h1 h3
        simpa [continueRightListF, pureFunc, elementOf] using this
    · rintro ⟨l, hl, h1, rfl⟩
      match l with
      | [] => cases h1; exact .inl ⟨rfl, rfl, rfl⟩
      | x :: l =>
        obtain ⟨u, v, c, d, rfl, rfl, h2, h3⟩ := each_split (l := [x]) h1
        refine .inr ⟨[x, .list l], c ++ d, ⟨u, v, [x], [.list l], c, d, rfl, rfl, rfl, (each_one hA).mp h2,
          ih.mpr ⟨l, ?_, h3, rfl⟩⟩, rfl, ?_⟩
        · simp only [List.length_cons] at hl; omega
        · simp [continueRightListF, pureFunc]

theorem copies_single {A R : Den} (hA : Single A) (k : Nat) {w : Str} {vs : List GVal} {cs : List PyComplaint} :
    copiesD A R k w vs cs ↔ thenD R (fun w vs cs => vs.length = k ∧ EachD A w vs cs) w vs cs := by
  induction k generalizing R w vs cs with
  | zero =>
    constructor
    · intro h
      exact ⟨w, [], vs, [], cs, [], by simp, by simp, by simp, h, rfl, .nil⟩
    · rintro ⟨u, v, x, y, c, d, rfl, rfl, rfl, h1, h2, h3⟩
      rw [List.length_eq_zero_iff] at h2
      subst h2
      cases h3
      simpa [copiesD] using h1
  | succ k ih =>
    rw [copiesD, ih, single_oneD hA]
    constructor
    · rintro ⟨_, v, _, y, _, d, rfl, rfl, rfl, ⟨u1, u2, x1, x2, c1, c2, rfl, rfl, rfl, h1, h2⟩, h3, h4⟩
      obtain ⟨x, rfl⟩ := hA _ _ _ h2
      exact ⟨u1, u2 ++ v, x1, x :: y, c1, c2 ++ d, by simp, by simp, by simp, h1, by simp [h3],
        EachD.cons h2 h4⟩
    · rintro ⟨u, v, x, y, c, d, rfl, rfl, rfl, h1, h2, h3⟩
      match y, h2 with
      | a :: y, h2 =>
        obtain ⟨u', v', c', d', rfl, rfl, k1, k2⟩ := each_split (l := [a]) h3
        exact ⟨u ++ u', v', x ++ [a], y, c ++ c', d', by simp, by simp, by simp,
          ⟨u, u', x, [a], c, c', rfl, rfl, rfl, h1, (each_one hA).mp k1⟩, by simpa using h2, k2⟩

theorem repeated_single {A : Den} (hA : Single A) (max : Option Int) (hm : ∀ k, max = some k → 1 ≤ k) {w : Str}
    {vs : List GVal} {cs : List PyComplaint} :
    repeatedD A A max w vs cs ↔
      ∃ l : List GVal, (∀ k, max = some k → (l.length : Int) ≤ k) ∧ EachD A w l cs ∧ vs = [.list l] := by
  cases max with
  | none => simp [repeatedD, manyD]
  | some k =>
    have := hm k rfl
    rw [repeatedD, upTo_single hA]
    simp only [Option.some.injEq, forall_eq']
    constructor
    · rintro ⟨l, h1, h2⟩
      exact ⟨l, by omega, h2⟩
    · rintro ⟨l, h1, h2⟩
      exact ⟨l, by omega, h2⟩

/-- Values of `times`. -/
theorem times_single {A : Den} (hA : Single A) (min : Nat) (max : Option Nat)
    (hm : ∀ k, max = some k → min ≤ k ∧ 1 ≤ k) {w : Str} {vs : List GVal} {cs : List PyComplaint} :
    timesD A A min max w vs cs ↔ ∃ l : List GVal, min ≤ l.length ∧ (∀ k, max = some k → l.length ≤ k) ∧
      EachD A w l cs ∧ vs = [.list l] := by
  unfold timesD
  by_cases h0 : min = 0
  · rw [if_pos h0, repeated_single hA]
    · cases max with
      | none => simp [h0]
      | some k =>
        simp only [Option.map_some, Option.some.injEq, forall_eq', h0, Nat.zero_le, true_and,
          Int.ofNat_eq_natCast, Int.ofNat_le]
    · intro k hk
      cases max with
      | none => cases hk
      | some k' =>
        have := (hm k' rfl).2
        simp only [Option.map_some, Option.some.injEq, Int.ofNat_eq_natCast] at hk
        omega
  · rw [if_neg h0]
    have lang : ∀ {w vs cs}, appD asListF (copiesD A nothingD min) w vs cs ↔
        ∃ l : List GVal, l.length = min ∧ EachD A w l cs ∧ vs = [.list l] := by
      intro w vs cs
      unfold appD
      simp only [copies_single hA]
      constructor
      · rintro ⟨xs, c, ⟨u, v, x, y, c1, c2, rfl, rfl, rfl, ⟨rfl, rfl, rfl⟩, h1, h2⟩, rfl, rfl⟩
        exact ⟨y, h1, by simpa [asListF, pureFunc] using h2, rfl⟩
      · rintro ⟨l, h1, h2, rfl⟩
        exact ⟨l, cs, ⟨[], w, [], l, [], cs, rfl, rfl, rfl, ⟨rfl, rfl, rfl⟩, h1, h2⟩, rfl,
          by simp [asListF, pureFunc]⟩
    by_cases hmax : max = some min
    · rw [if_pos hmax, lang]
      constructor
      · rintro ⟨l, h1, h2⟩
        refine ⟨l, by omega, ?_, h2⟩
        intro k hk
        rw [hmax] at hk
        cases hk
        omega
      · rintro ⟨l, h1, h2, h3⟩
        have := h2 min hmax
        exact ⟨l, by omega, h3⟩
    · rw [if_neg hmax]
      have hpos : ∀ k : Int, max.map (fun k : Nat => (k : Int) - (min : Int)) = some k → 1 ≤ k := by
        intro k hk
        cases max with
        | none => cases hk
        | some k' =>
          have := (hm k' rfl).1
          have hk := Option.some.inj hk
          simp only at hk
          have : k' ≠ min := fun h => hmax (by rw [h])
          omega
      constructor
      · rintro ⟨xs, c, ⟨u, v, x, y, c1, c2, rfl, rfl, rfl, h1, h2⟩, rfl, rfl⟩
        obtain ⟨l1, k1, k2, rfl⟩ := lang.mp h1
        obtain ⟨l2, j1, j2, rfl⟩ := (repeated_single hA _ hpos).mp h2
        refine ⟨l1 ++ l2, by simp; omega, ?_, ?_, rfl⟩
        · intro k hk
          subst hk
          have : ((l2.length : Nat) : Int) ≤ (k : Int) - (min : Int) := j1 _ rfl
          rw [List.length_append]
          omega
        · simpa [addF, pureFunc] using each_append k2 j2
      · rintro ⟨l, h1, h2, h3, rfl⟩
        have hl : l = l.take min ++ l.drop min := (List.take_append_drop min l).symm
        rw [hl] at h3
        obtain ⟨u, v, c, d, rfl, rfl, k1, k2⟩ := each_split h3
        refine ⟨[.list (l.take min), .list (l.drop min)], c ++ d, ⟨u, v, [.list (l.take min)], [.list (l.drop min)],
          c, d, rfl, rfl, rfl, lang.mpr ⟨_, ?_, k1, rfl⟩, (repeated_single hA _ hpos).mpr ⟨_, ?_, k2, rfl⟩⟩, ?_, ?_⟩
        · rw [List.length_take]; omega
        · intro k hk
          cases max with
          | none => cases hk
          | some k' =>
            have := h2 k' rfl
            have hk := Option.some.inj hk
            simp only at hk
            rw [List.length_drop]
            omega
        · simp [addF, pureFunc, argsOf, List.take_append_drop]
        · simp [addF, pureFunc]

/-- The texts that something may come from. -/
def langD (A : Den) (w : Str) : Prop := ∃ vs cs, A w vs cs

theorem each_echo {A : Den} (hA : Echo A) {w : Str} {l : List GVal} {cs : List PyComplaint} (h : EachD A w l cs) :
    joinTexts l = w ∧ cs = [] ∧ Rep (langD A) l.length w := by
  induction h with
  | nil => exact ⟨rfl, rfl, rep_zero.mpr rfl⟩
  | @cons u v xs l c d h1 h2 ih =>
    obtain ⟨rfl, rfl⟩ := hA _ _ _ h1
    obtain ⟨rfl, rfl, k⟩ := ih
    refine ⟨rfl, rfl, ?_⟩
    exact rep_succ.mpr ⟨u, _, rfl, ⟨_, _, h1⟩, k⟩

theorem rep_each {A : Den} (hA : Echo A) {k : Nat} {w : Str} (h : Rep (langD A) k w) :
    ∃ l : List GVal, l.length = k ∧ EachD A w l [] := by
  induction k generalizing w with
  | zero => rw [rep_zero.mp h]; exact ⟨[], rfl, .nil⟩
  | succ k ih =>
    obtain ⟨u, v, rfl, ⟨vs, cs, h1⟩, h2⟩ := rep_succ.mp h
    obtain ⟨l, hl, h3⟩ := ih h2
    obtain ⟨rfl, rfl⟩ := hA _ _ _ h1
    exact ⟨_, by simp [hl], EachD.cons h1 h3⟩

/-- Values of `string_times`. -/
theorem stringTimes_echo {A : Den} (hA : Echo A) (min : Nat) (max : Option Nat)
    (hm : ∀ k, max = some k → min ≤ k ∧ 1 ≤ k) {w : Str} {vs : List GVal} {cs : List PyComplaint} :
    appD joinF (timesD A A min max) w vs cs ↔
      (∃ j, min ≤ j ∧ (∀ k, max = some k → j ≤ k) ∧ Rep (langD A) j w) ∧ vs = [.text w] ∧ cs = [] := by
  unfold appD
  simp only [times_single hA.single min max hm]
  constructor
  · rintro ⟨_, c, ⟨l, h1, h2, h3, rfl⟩, rfl, rfl⟩
    obtain ⟨k1, rfl, k2⟩ := each_echo hA h3
    refine ⟨⟨_, h1, h2, k2⟩, ?_, rfl⟩
    simp only [joinF, pureFunc, argsOf, k1]
  · rintro ⟨⟨j, h1, h2, h3⟩, rfl, rfl⟩
    obtain ⟨l, rfl, h4⟩ := rep_each hA h3
    refine ⟨[.list l], [], ⟨l, h1, h2, h4, rfl⟩, ?_, rfl⟩
    simp only [joinF, pureFunc, argsOf, (each_echo hA h4).1]

theorem part_same {σ : Sym → Den} {e : Expr} (he : Single (e.den σ σ)) : e.part σ (e.den σ σ) = e.den σ σ := by
  cases e with
  | alt a c => exact single_oneD he
  | _ => rfl

end Httpolice.Lemmas
