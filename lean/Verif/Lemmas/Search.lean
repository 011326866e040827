import Verif.Lemmas.Results

/-! # `_find_results` finds something if there is anything to find -/

namespace Httpolice.Lemmas

open Httpolice.Model Httpolice.Spec

variable {V C : Type}

theorem exists_min {P : Nat → Prop} {a : Nat} (h : P a) : ∃ m, m ≤ a ∧ P m ∧ ∀ b, P b → m ≤ b := by
  induction a using Nat.strongRecOn with
  | ind a ih =>
    by_cases hx : ∃ b, b < a ∧ P b
    · obtain ⟨b, hb, hpb⟩ := hx
      obtain ⟨m, h1, h2, h3⟩ := ih b hb hpb
      exact ⟨m, by omega, h2, h3⟩
    · refine ⟨a, Nat.le_refl _, h, fun b hb => ?_⟩
      refine Classical.byContradiction fun hn => hx ⟨b, by omega, hb⟩

/-- Every derivation for every excluded item is at least this large: so the items do not
occur within a derivation smaller than that. -/
def Clear (g : Grammar V C) (data : Str) (parents : List Item) (e N : Nat) : Prop :=
  ∀ p ∈ parents, ∀ a, Der g data (g.symbolsOf p.rule) p.start e a → N ≤ a

theorem Clear.mono {g : Grammar V C} {data : Str} {parents : List Item} {e N M : Nat}
    (h : Clear g data parents e N) (hM : M ≤ N) : Clear g data parents e M :=
  fun p hp a ha => Nat.le_trans hM (h p hp a ha)

theorem clear_nil (g : Grammar V C) (data : Str) (e N : Nat) : Clear g data [] e N := by
  intro p hp; cases hp

/-- `find` finds derivations of size at most `N`. -/
def Finds (g : Grammar V C) (data : Str) (chart : List (List Item)) (N : Nat)
    (find : GSym → Nat → List Item → Option (List (PRes V C))) : Prop :=
  ∀ y j k c parents, c ≤ N → Der g data [y] j k c → (∀ m, y = .nt m → Predicted g chart m j) →
    Clear g data parents k c → ∀ rs, find y k parents = some rs → ∃ r ∈ rs, r.start = j

theorem findSeq_finds {g : Grammar V C} {data : Str} {chart : List (List Item)} {N : Nat}
    {find : GSym → Nat → List Item → Option (List (PRes V C))} (hf : Finds g data chart N find)
    {start : Nat} {ys : List GSym} : ∀ {i c : Nat} {parents : List Item} {acc : List (PRes V C)}
    {lss : List (List (PRes V C))}, c ≤ N → Der g data ys.reverse start i c →
    (∀ l m l' j c', ys.reverse = l ++ .nt m :: l' → Der g data l start j c' → Predicted g chart m j) →
    Clear g data parents i N → findSeq find start ys i parents acc = some lss → lss ≠ [] := by
  induction ys with
  | nil =>
    intro i c parents acc lss _ hd _ _ h
    cases hd
    simp only [findSeq, if_pos, Option.some.injEq] at h
    subst h
    simp
  | cons y ys ih =>
    intro i c parents acc lss hc hd hp hcl h
    rw [List.reverse_cons] at hd
    obtain ⟨j, a, b, h1, h2, h3⟩ := der_split hd
    unfold findSeq at h
    split at h
    · cases h
    · rename_i rs hrs
      obtain ⟨r, hr, hrj⟩ := hf y j i b parents (by omega) h2 (by
        intro m hm
        exact hp ys.reverse m [] j a (by rw [List.reverse_cons, hm]) h1)
        (hcl.mono (by omega)) rs hrs
      obtain ⟨x, hx, hxl⟩ := mem_collect h hr
      have hle := der_le h1
      rw [if_neg (by omega), hrj] at hx
      have hne := ih (by omega) h1 (by
        intro l m l' j' c' hl hd'
        exact hp l m (l' ++ [y]) j' c' (by rw [List.reverse_cons, hl]; simp) hd') (by
        have hle2 := der_le h2
        split
        · exact clear_nil _ _ _ _
        · have : j = i := by omega
          rw [this]; exact hcl) hx
      intro hnil
      cases x with
      | nil => exact hne rfl
      | cons q x =>
        have := hxl q List.mem_cons_self
        rw [hnil] at this
        cases this

theorem findRepeat_finds {g : Grammar V C} {data : Str} {chart : List (List Item)} {N : Nat}
    {find : GSym → Nat → List Item → Option (List (PRes V C))} (hf : Finds g data chart N find)
    {start n : Nat} {y : GSym}
    (hshape : ∀ r ∈ g.rulesOf n, g.symbolsOf r = [] ∨ g.symbolsOf r = [.nt n, y])
    (hp : ∀ m j c, y = .nt m → Der g data [.nt n] start j c → Predicted g chart m j) {c : Nat} :
    ∀ {fuel i : Nat} {parents : List Item} {acc : List (PRes V C)} {lss : List (List (PRes V C))},
    c ≤ N + 1 → Der g data [.nt n] start i c → start < i → Clear g data parents i N →
    findRepeat find start y fuel i parents acc = some lss → lss ≠ [] := by
  induction c using Nat.strongRecOn with
  | ind c ih =>
    intro fuel i parents acc lss hc hd hlt hcl h
    cases hd with
    | @nt _ r _ j _ a b _ hr h1 h2 =>
      cases h2
      rcases hshape r hr with hsy | hsy
      · rw [hsy] at h1
        cases h1
        omega
      · rw [hsy] at h1
        obtain ⟨j', a1, a2, d1, d2, h3⟩ := der_cons h1
        have hle1 := der_le d1
        have hle2 := der_le d2
        by_cases hji : j' = i
        · subst hji
          exact ih a1 (by omega) (by omega) d1 hlt hcl h
        · cases fuel with
          | zero => cases h
          | succ fuel =>
            unfold findRepeat at h
            split at h
            · cases h
            · rename_i rs hrs
              obtain ⟨r, hr, hrj⟩ := hf y j' i a2 parents (by omega) d2
                (fun m hm => hp m j' a1 hm d1) (hcl.mono (by omega)) rs hrs
              obtain ⟨x, hx, hxl⟩ := mem_collect h hr
              rw [hrj, if_neg (show ¬ j' < start by omega), if_pos (show j' < i by omega)] at hx
              split at hx
              · cases hx
              · rename_i more hmore
                cases hx
                have hne : (if j' = start then [r :: acc] else []) ++ more ≠ [] := by
                  by_cases hjs : j' = start
                  · rw [if_pos hjs]; simp
                  · have := ih a1 (by omega) (by omega) d1 (by omega) (clear_nil _ _ _ _) hmore
                    rw [if_neg hjs]
                    simpa using this
                intro hnil
                generalize hz : (if j' = start then [r :: acc] else []) ++ more = z at hne hxl
                cases z with
                | nil => exact hne rfl
                | cons q z =>
                  have := hxl q List.mem_cons_self
                  rw [hnil] at this
                  cases this

/-- A repetition over no data at all. -/
theorem findRepeat_finds_empty {g : Grammar V C} {data : Str} {chart : List (List Item)} {N : Nat}
    {find : GSym → Nat → List Item → Option (List (PRes V C))} (hf : Finds g data chart N find)
    {start b : Nat} {y : GSym} (hb : b ≤ N) (hd : Der g data [y] start start b)
    (hp : ∀ m, y = .nt m → Predicted g chart m start)
    {fuel : Nat} {parents : List Item} {acc : List (PRes V C)} {lss : List (List (PRes V C))}
    (hcl : Clear g data parents start N)
    (h : findRepeat find start y fuel start parents acc = some lss) : lss ≠ [] := by
  cases fuel with
  | zero => cases h
  | succ fuel =>
    unfold findRepeat at h
    split at h
    · cases h
    · rename_i rs hrs
      obtain ⟨r, hr, hrj⟩ := hf y start start b parents hb hd hp (hcl.mono hb) rs hrs
      obtain ⟨x, hx, hxl⟩ := mem_collect h hr
      split at hx
      · cases hx
      · cases hx
        intro hnil
        have := hxl (r :: acc) (by simp [hrj])
        rw [hnil] at this
        cases this

theorem findResults_finds {g : Grammar V C} (hs : Sane g) {ops : ParseOps V} {data : Str}
    {target : Nat} {chart : List (List Item)} (hch : ChartOk g data target chart) (N : Nat) :
    ∀ fuel, Finds g data chart N (findResults g ops data chart fuel) := by
  induction N using Nat.strongRecOn with
  | ind N ih =>
    intro fuel y s e n parents hnN hd hp hcl rs h
    cases fuel with
    | zero => cases h
    | succ fuel =>
      cases y with
      | term bits =>
        simp only [findResults, Option.some.injEq] at h
        subst h
        cases hd with
        | @term _ c _ _ _ _ hc hb hd =>
          cases hd
          refine ⟨⟨s, none, .val (ops.char c), [], []⟩, ?_, rfl⟩
          simp [termResults, hc, hb]
      | nt m =>
        have hp := hp m rfl
        cases hd with
        | @nt _ r _ j _ a b _ hr h1 h2 =>
          cases h2
          obtain ⟨a', ha', hda, hmin⟩ := exists_min (P := fun a => Der g data (g.symbolsOf r) s e a) h1
          have hq : ⟨m, r, (g.symbolsOf r).length, s⟩ ∉ parents := by
            intro hq
            have := hcl _ hq a h1
            omega
          have hmem := chart_completed hs hch hp hr hda
          unfold findResults at h
          have hfil : (⟨m, r, (g.symbolsOf r).length, s⟩ : Item) ∈
              (chart.getD e []).filter fun it => g.completed it && it.sym == m := by
            rw [List.mem_filter]
            refine ⟨hmem, ?_⟩
            simp [Grammar.completed, Grammar.next]
          obtain ⟨x, hx, hxl⟩ := mem_collect h hfil
          rw [if_neg hq] at hx
          have hcl' : Clear g data (parents ++ [⟨m, r, (g.symbolsOf r).length, s⟩]) e a' := by
            intro p hp' b hb
            rcases List.mem_append.mp hp' with hp' | hp'
            · have := hcl p hp' b hb; omega
            · rw [List.mem_singleton] at hp'
              subst hp'
              exact hmin b hb
          have hfind := ih a' (by omega) fuel
          split at hx
          · rename_i hun
            obtain ⟨xn, ru, y, hxn, hxr, hru, hrep, hsy, hemp, hall⟩ := unrolled_shape hs hr hun
            rw [symbolsOf_of hru, hsy] at hda hx
            simp only [List.getLast?_cons_cons, List.getLast?_singleton] at hx
            rw [Option.map_eq_some_iff] at hx
            obtain ⟨ls, hls, rfl⟩ := hx
            have hfol : ∀ m' j c, y = .nt m' → Der g data [.nt m] s j c → Predicted g chart m' j := by
              intro m' j c hy hdj
              exact chart_follows hs hch hp hr (l := [.nt m]) (l' := [])
                (by rw [symbolsOf_of hru, hsy, hy]; rfl) hdj
            have hne : ls ≠ [] := by
              rw [symbolsOf_of hru, hsy] at hcl'
              rcases Nat.lt_or_ge s e with hlt | hge
              · have hd' : Der g data [.nt m] s e (a' + 0 + 1) := by
                  refine .nt hr ?_ .nil
                  rw [symbolsOf_of hru, hsy]; exact hda
                refine findRepeat_finds hfind (n := m) ?_ hfol (by omega) hd' hlt hcl' hls
                intro r' hr'
                obtain ⟨x', ru', hx', hxr', hru'⟩ := rule_of hs hr'
                rw [hxn] at hx'
                cases hx'
                rw [symbolsOf_of hru']
                exact hall r' hxr' ru' hru'
              · have hse : s = e := by have := der_le hda; omega
                subst hse
                obtain ⟨j, a1, a2, hd1, hd2, hsum⟩ := der_cons hda
                have hjs : j = s := by
                  have := der_le hd1; have := der_le hd2; omega
                subst hjs
                exact findRepeat_finds_empty hfind (by omega) hd2
                  (fun m' hm' => hfol m' _ a1 hm' hd1) hcl' hls
            cases ls with
            | nil => exact absurd rfl hne
            | cons q ls => exact ⟨_, hxl _ (List.mem_cons_self), rfl⟩
          · rw [Option.map_eq_some_iff] at hx
            obtain ⟨ls, hls, rfl⟩ := hx
            have hne : ls ≠ [] := by
              refine findSeq_finds hfind (Nat.le_refl a') ?_ ?_ hcl' hls
              · rw [List.reverse_reverse]; exact hda
              · intro l m' l' j c' hl hdl
                rw [List.reverse_reverse] at hl
                exact chart_follows hs hch hp hr hl hdl
            cases ls with
            | nil => exact absurd rfl hne
            | cons q ls => exact ⟨_, hxl _ (List.mem_cons_self), rfl⟩

end Httpolice.Lemmas
