import Verif.Spec.Grammar

/-! # Derivations over spans of the data; `is_nullable` -/

namespace Httpolice.Lemmas

open Httpolice.Model Httpolice.Spec

variable {V C : Type}

/-! ## Rules by accessors -/

theorem rulesOf_of {g : Grammar V C} {n : Nat} {x : Nonterm} (h : g.nts[n]? = some x) :
    g.rulesOf n = x.rules := by
  simp [Grammar.rulesOf, h]

theorem symbolsOf_of {g : Grammar V C} {r : Nat} {ru : GRule V C} (h : g.rls[r]? = some ru) :
    g.symbolsOf r = ru.symbols := by
  simp [Grammar.symbolsOf, h]

theorem actionOf_of {g : Grammar V C} {r : Nat} {ru : GRule V C} (h : g.rls[r]? = some ru) :
    g.actionOf r = ru.action := by
  simp [Grammar.actionOf, h]

theorem isRepeated_of {g : Grammar V C} {n : Nat} {x : Nonterm} (h : g.nts[n]? = some x) :
    g.isRepeated n = x.repeated := by
  simp [Grammar.isRepeated, h]

theorem nt_of_rule {g : Grammar V C} {n r : Nat} (h : r ∈ g.rulesOf n) :
    ∃ x : Nonterm, g.nts[n]? = some x ∧ r ∈ x.rules := by
  unfold Grammar.rulesOf at h
  split at h
  · exact ⟨_, by assumption, h⟩
  · cases h

theorem rule_of {g : Grammar V C} (hs : Sane g) {n r : Nat} (h : r ∈ g.rulesOf n) :
    ∃ (x : Nonterm) (ru : GRule V C), g.nts[n]? = some x ∧ r ∈ x.rules ∧ g.rls[r]? = some ru := by
  obtain ⟨x, hx, hr⟩ := nt_of_rule h
  obtain ⟨ru, hru⟩ := hs.rules_exist n x r hx hr
  exact ⟨x, ru, hx, hr, hru⟩

/-- A nonterminal by accessors. -/
theorem GenSeq.nt' {g : Grammar V C} (hs : Sane g) {n r : Nat} {l : List GSym} {u w : Str}
    (h : r ∈ g.rulesOf n) (hu : GenSeq g (g.symbolsOf r) u) (hw : GenSeq g l w) :
    GenSeq g (.nt n :: l) (u ++ w) := by
  obtain ⟨x, ru, hx, hr, hru⟩ := rule_of hs h
  rw [symbolsOf_of hru] at hu
  exact .nt hx hr hru hu hw

theorem genSeq_append {g : Grammar V C} {l l' : List GSym} {u w : Str}
    (h : GenSeq g l u) (h' : GenSeq g l' w) : GenSeq g (l ++ l') (u ++ w) := by
  induction h with
  | nil => exact h'
  | term hb _ ih => exact .term hb ih
  | nt hx hr hru hu _ _ ih => rw [List.append_assoc]; exact .nt hx hr hru hu ih

theorem genSeq_split {g : Grammar V C} {l l' : List GSym} {w : Str} (h : GenSeq g (l ++ l') w) :
    ∃ u v, w = u ++ v ∧ GenSeq g l u ∧ GenSeq g l' v := by
  induction l generalizing w with
  | nil => exact ⟨[], w, rfl, .nil, h⟩
  | cons a l ih =>
    cases h with
    | term hb hw =>
      obtain ⟨u, v, rfl, hu, hv⟩ := ih hw
      exact ⟨_ :: u, v, rfl, .term hb hu, hv⟩
    | nt hx hr hru hu hw =>
      obtain ⟨u', v, rfl, hu', hv⟩ := ih hw
      exact ⟨_ ++ u', v, (List.append_assoc ..).symm, .nt hx hr hru hu hu', hv⟩

theorem genSeq_cons {g : Grammar V C} {x : GSym} {l : List GSym} {w : Str}
    (h : GenSeq g (x :: l) w) : ∃ u v, w = u ++ v ∧ Gen g x u ∧ GenSeq g l v :=
  genSeq_split (l := [x]) h

theorem genSeq_cons' {g : Grammar V C} {x : GSym} {l : List GSym} {u v : Str}
    (h : Gen g x u) (h' : GenSeq g l v) : GenSeq g (x :: l) (u ++ v) :=
  genSeq_append (l := [x]) h h'

theorem gen_nt_inv {g : Grammar V C} {n : Nat} {w : Str} (h : Gen g (.nt n) w) :
    ∃ r, r ∈ g.rulesOf n ∧ GenSeq g (g.symbolsOf r) w := by
  cases h with
  | nt hx hr hru hu hw =>
    cases hw
    rw [List.append_nil]
    exact ⟨_, (rulesOf_of hx).symm ▸ hr, (symbolsOf_of hru).symm ▸ hu⟩

theorem gen_nt {g : Grammar V C} (hs : Sane g) {n r : Nat} {w : Str} (h : r ∈ g.rulesOf n)
    (hu : GenSeq g (g.symbolsOf r) w) : Gen g (.nt n) w := by
  have := GenSeq.nt' hs h hu .nil
  rwa [List.append_nil] at this

theorem gen_term_inv {g : Grammar V C} {bits : Nat → Bool} {w : Str} (h : Gen g (.term bits) w) :
    ∃ c, w = [c] ∧ bits c = true := by
  cases h with
  | term hb hw => cases hw; exact ⟨_, rfl, hb⟩

/-! ## `is_nullable` -/

theorem allNullable_true {g : Grammar V C} {f : Nat → Option Bool}
    (hf : ∀ n, f n = some true → Gen g (.nt n) []) {l : List GSym}
    (h : allNullable f l = some true) : GenSeq g l [] := by
  induction l with
  | nil => exact .nil
  | cons a l ih =>
    cases a with
    | term b => simp [allNullable] at h
    | nt n =>
      unfold allNullable at h
      split at h
      · cases h
      · cases h
      · rename_i hn; exact genSeq_cons' (hf n hn) (ih h)

theorem allNullable_false {g : Grammar V C} {f : Nat → Option Bool}
    (hf : ∀ n, f n = some false → ¬ Gen g (.nt n) []) {l : List GSym}
    (h : allNullable f l = some false) : ¬ GenSeq g l [] := by
  induction l with
  | nil => cases h
  | cons a l ih =>
    intro hg
    obtain ⟨u, v, huv, hu, hv⟩ := genSeq_cons hg
    obtain ⟨rfl, rfl⟩ := List.append_eq_nil_iff.mp huv.symm
    cases a with
    | term b => obtain ⟨c, hc, _⟩ := gen_term_inv hu; cases hc
    | nt n =>
      unfold allNullable at h
      split at h
      · cases h
      · rename_i hn; exact hf n hn hu
      · exact ih h hv

theorem nullableTo_true {g : Grammar V C} (hs : Sane g) {fuel n : Nat}
    (h : nullableTo g fuel n = some true) : Gen g (.nt n) [] := by
  induction fuel generalizing n with
  | zero => cases h
  | succ fuel ih =>
    unfold nullableTo at h
    have key : ∀ rs, (∀ r ∈ rs, r ∈ g.rulesOf n) →
        anyNullable g (nullableTo g fuel) rs = some true → Gen g (.nt n) [] := by
      intro rs
      induction rs with
      | nil => intro _ h; cases h
      | cons r rs ih' =>
        intro hr h
        unfold anyNullable at h
        split at h
        · cases h
        · rename_i ha
          exact gen_nt hs (hr r List.mem_cons_self) (allNullable_true (fun m hm => ih hm) ha)
        · exact ih' (fun r' h' => hr r' (List.mem_cons_of_mem _ h')) h
    exact key _ (fun _ h => h) h

theorem nullableTo_false {g : Grammar V C} {fuel n : Nat}
    (h : nullableTo g fuel n = some false) : ¬ Gen g (.nt n) [] := by
  induction fuel generalizing n with
  | zero => cases h
  | succ fuel ih =>
    unfold nullableTo at h
    have key : ∀ rs, anyNullable g (nullableTo g fuel) rs = some false →
        ∀ r ∈ rs, ¬ GenSeq g (g.symbolsOf r) [] := by
      intro rs
      induction rs with
      | nil => intro _ r h; cases h
      | cons r rs ih' =>
        intro h r' hr'
        unfold anyNullable at h
        split at h
        · cases h
        · cases h
        · rename_i ha
          rcases List.mem_cons.mp hr' with rfl | hr'
          · exact allNullable_false (fun m hm => ih hm) ha
          · exact ih' h r' hr'
    intro hg
    obtain ⟨r, hr, hw⟩ := gen_nt_inv hg
    exact key _ h r hr hw

/-- When `is_nullable` returns, it is right. -/
theorem nullable_iff {g : Grammar V C} (hs : Sane g) {n : Nat} {b : Bool}
    (h : g.nullable n = some b) : b = true ↔ Gen g (.nt n) [] := by
  cases b with
  | true => exact ⟨fun _ => nullableTo_true hs h, fun _ => rfl⟩
  | false => exact ⟨(by intro h'; cases h'), fun h' => absurd h' (nullableTo_false h)⟩

/-! ## The bound on the depth is no restriction -/

theorem allNullable_mono {f f' : Nat → Option Bool} (hf : ∀ n b, f n = some b → f' n = some b)
    {l : List GSym} {b : Bool} (h : allNullable f l = some b) : allNullable f' l = some b := by
  induction l with
  | nil => exact h
  | cons a l ih =>
    cases a with
    | term b => exact h
    | nt n =>
      unfold allNullable at h ⊢
      split at h
      · cases h
      · rename_i hn; rw [hf n _ hn]; exact h
      · rename_i hn; rw [hf n _ hn]; exact ih h

theorem anyNullable_mono {g : Grammar V C} {f f' : Nat → Option Bool}
    (hf : ∀ n b, f n = some b → f' n = some b)
    {l : List Nat} {b : Bool} (h : anyNullable g f l = some b) : anyNullable g f' l = some b := by
  induction l with
  | nil => exact h
  | cons r l ih =>
    unfold anyNullable at h ⊢
    split at h
    · cases h
    · rename_i hn; rw [allNullable_mono hf hn]; exact h
    · rename_i hn; rw [allNullable_mono hf hn]; exact ih h

theorem nullableTo_succ {g : Grammar V C} {fuel n : Nat} {b : Bool}
    (h : nullableTo g fuel n = some b) : nullableTo g (fuel + 1) n = some b := by
  induction fuel generalizing n b with
  | zero => cases h
  | succ fuel ih => exact anyNullable_mono (fun m b hm => ih hm) h

/-- How many nonterminals are settled within this depth. -/
def settled (g : Grammar V C) (k : Nat) : Nat :=
  (List.range g.nts.length).countP fun n => (nullableTo g k n).isSome

theorem settled_le (g : Grammar V C) (k : Nat) : settled g k ≤ g.nts.length := by
  unfold settled
  exact Nat.le_trans List.countP_le_length (by simp)

theorem countP_lt {α : Type} {p q : α → Bool} {l : List α} (h : ∀ a ∈ l, p a = true → q a = true)
    {a : α} (ha : a ∈ l) (hp : p a = false) (hq : q a = true) : l.countP p < l.countP q := by
  induction l with
  | nil => cases ha
  | cons x l ih =>
    have hle : l.countP p ≤ l.countP q :=
      List.countP_mono_left (fun a h' => h a (List.mem_cons_of_mem _ h'))
    rcases List.mem_cons.mp ha with rfl | ha
    · simp [hp, hq]; omega
    · have := ih (fun a h' => h a (List.mem_cons_of_mem _ h')) ha
      have hx := h x List.mem_cons_self
      simp only [List.countP_cons]
      split
      · rename_i hpx; simp [hx hpx]; omega
      · split <;> omega

/-- Nothing new between depth `k` and depth `k + 1`. -/
def Stable (g : Grammar V C) (k : Nat) : Prop := ∀ n, nullableTo g (k + 1) n = nullableTo g k n

theorem stable_succ {g : Grammar V C} {k : Nat} (h : Stable g k) : Stable g (k + 1) := by
  intro n
  have hf : nullableTo g (k + 1) = nullableTo g k := funext h
  show anyNullable g (nullableTo g (k + 1)) _ = anyNullable g (nullableTo g k) _
  rw [hf]

theorem stable_add {g : Grammar V C} {k : Nat} (h : Stable g k) (d : Nat) : Stable g (k + d) := by
  induction d with
  | zero => exact h
  | succ d ih => exact stable_succ ih

theorem stable_eq {g : Grammar V C} {k : Nat} (h : Stable g k) (d n : Nat) :
    nullableTo g (k + d) n = nullableTo g k n := by
  induction d with
  | zero => rfl
  | succ d ih => exact (stable_add h d n).trans ih

theorem nullableTo_outside {g : Grammar V C} {k n : Nat} (h : g.nts.length ≤ n) :
    nullableTo g (k + 1) n = some false := by
  have : g.rulesOf n = [] := by simp [Grammar.rulesOf, List.getElem?_eq_none h]
  simp [nullableTo, this, anyNullable]

theorem stable_or (g : Grammar V C) (k : Nat) : Stable g (k + 1) ∨ k ≤ settled g (k + 1) := by
  induction k with
  | zero => exact .inr (Nat.zero_le _)
  | succ k ih =>
    rcases ih with h | h
    · exact .inl (stable_succ h)
    · by_cases hst : Stable g (k + 1)
      · exact .inl (stable_succ hst)
      · right
        have : ∃ n, nullableTo g (k + 1 + 1) n ≠ nullableTo g (k + 1) n := by
          refine Classical.byContradiction fun hn => hst fun n => ?_
          exact Classical.byContradiction fun h' => hn ⟨n, h'⟩
        obtain ⟨n, hn⟩ := this
        have h1 : nullableTo g (k + 1) n = none := by
          cases hc : nullableTo g (k + 1) n with
          | none => rfl
          | some b => exact absurd ((nullableTo_succ hc).trans hc.symm) hn
        have h2 : (nullableTo g (k + 1 + 1) n).isSome = true := by
          cases hc : nullableTo g (k + 1 + 1) n with
          | none => exact absurd (hc.trans h1.symm) hn
          | some b => rfl
        have hlt : n < g.nts.length := by
          refine Classical.byContradiction fun hge => ?_
          rw [nullableTo_outside (Nat.le_of_not_lt hge)] at h1
          cases h1
        have : settled g (k + 1) < settled g (k + 1 + 1) := by
          unfold settled
          refine countP_lt (a := n) ?_ (List.mem_range.mpr hlt) (by simp [h1]) h2
          intro m _ hm
          obtain ⟨b, hb⟩ := Option.isSome_iff_exists.mp hm
          simp [nullableTo_succ hb]
        omega

/-- The bound that the model uses is enough: if the recursion of `is_nullable` ends at all,
at whatever depth, it ends within the bound. -/
theorem nullable_adequate {g : Grammar V C} {k n : Nat} {b : Bool} (h : nullableTo g k n = some b) :
    g.nullable n = some b := by
  have hst : Stable g (g.nts.length + 1) := by
    rcases stable_or g g.nts.length with h | h
    · exact h
    · intro n
      by_cases hn : n < g.nts.length
      · have hall : ∀ m ∈ List.range g.nts.length,
            (nullableTo g (g.nts.length + 1) m).isSome = true := by
          have hlen : settled g (g.nts.length + 1) = (List.range g.nts.length).length := by
            have := settled_le g (g.nts.length + 1)
            simp; omega
          exact List.countP_eq_length.mp hlen
        obtain ⟨b, hb⟩ := Option.isSome_iff_exists.mp (hall n (List.mem_range.mpr hn))
        rw [hb, nullableTo_succ hb]
      · rw [nullableTo_outside (Nat.le_of_not_lt hn), nullableTo_outside (Nat.le_of_not_lt hn)]
  have hadd : nullableTo g (k + (g.nts.length + 1)) n = some b := by
    generalize g.nts.length + 1 = d
    induction d with
    | zero => exact h
    | succ d ih => exact nullableTo_succ ih
  rw [Nat.add_comm, stable_eq hst] at hadd
  exact hadd

end Httpolice.Lemmas
