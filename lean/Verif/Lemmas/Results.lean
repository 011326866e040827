import Verif.Lemmas.Complete

/-! # `_find_results`: it ends, what it yields is right, and it yields something if there is anything -/

namespace Httpolice.Lemmas

open Httpolice.Model Httpolice.Spec

variable {V C : Type}

/-! ## `collect` -/

theorem collect_mem {α β : Type} {f : α → Option (List β)} {l : List α} {res : List β}
    (h : collect f l = some res) {b : β} (hb : b ∈ res) : ∃ a ∈ l, ∃ x, f a = some x ∧ b ∈ x := by
  induction l generalizing res with
  | nil => cases h; cases hb
  | cons a l ih =>
    unfold collect at h
    split at h
    · cases h
    · rename_i x hx
      split at h
      · cases h
      · rename_i y hy
        cases h
        rcases List.mem_append.mp hb with hb | hb
        · exact ⟨a, List.mem_cons_self, x, hx, hb⟩
        · obtain ⟨a', ha', x', hx', hb'⟩ := ih hy hb
          exact ⟨a', List.mem_cons_of_mem _ ha', x', hx', hb'⟩

theorem mem_collect {α β : Type} {f : α → Option (List β)} {l : List α} {res : List β}
    (h : collect f l = some res) {a : α} (ha : a ∈ l) :
    ∃ x, f a = some x ∧ ∀ b ∈ x, b ∈ res := by
  induction l generalizing res with
  | nil => cases ha
  | cons a' l ih =>
    unfold collect at h
    split at h
    · cases h
    · rename_i x hx
      split at h
      · cases h
      · rename_i y hy
        cases h
        rcases List.mem_cons.mp ha with rfl | ha
        · exact ⟨x, hx, fun b hb => List.mem_append_left _ hb⟩
        · obtain ⟨x', hx', hb'⟩ := ih hy ha
          exact ⟨x', hx', fun b hb => List.mem_append_right _ (hb' b hb)⟩

theorem collect_total {α β : Type} {f : α → Option (List β)} {l : List α}
    (h : ∀ a ∈ l, f a ≠ none) : collect f l ≠ none := by
  induction l with
  | nil => simp [collect]
  | cons a l ih =>
    unfold collect
    split
    · rename_i hx; exact absurd hx (h a List.mem_cons_self)
    · split
      · rename_i hy; exact absurd hy (ih fun b hb => h b (List.mem_cons_of_mem _ hb))
      · simp

/-! ## Where results start -/

/-- Results go to the left; those that stay come with an item that is not in `parents`. -/
def FindSpec (chart : List (List Item)) (find : GSym → Nat → List Item → Option (List (PRes V C))) :
    Prop :=
  ∀ y e parents rs, find y e parents = some rs → ∀ r ∈ rs, r.start ≤ e ∧
    (r.start = e → ∃ item, r.item = some item ∧ item ∈ chart.getD e [] ∧ item ∉ parents)

theorem findResults_spec {g : Grammar V C} {ops : ParseOps V} {data : Str}
    {chart : List (List Item)} (hst : ∀ e, ∀ it ∈ chart.getD e [], it.start ≤ e) (fuel : Nat) :
    FindSpec chart (findResults g ops data chart fuel) := by
  intro y e parents rs h r hr
  cases fuel with
  | zero => cases h
  | succ fuel =>
    cases y with
    | term bits =>
      simp only [findResults, Option.some.injEq] at h
      subst h
      cases e with
      | zero => cases hr
      | succ i =>
        simp only [termResults] at hr
        split at hr
        · cases hr
        · split at hr
          · rw [List.mem_singleton] at hr
            subst hr
            refine ⟨Nat.le_succ _, ?_⟩
            intro h; exact absurd (show i = i + 1 from h) (by omega)
          · cases hr
    | nt n =>
      unfold findResults at h
      obtain ⟨item, hitem, x, hx, hrx⟩ := collect_mem h hr
      rw [List.mem_filter] at hitem
      have key : item ∉ parents → r.start = item.start → r.item = some item → r.start ≤ e ∧
          (r.start = e → ∃ item, r.item = some item ∧ item ∈ chart.getD e [] ∧ item ∉ parents) := by
        intro h1 h2 h3
        exact ⟨h2 ▸ hst e item hitem.1, fun _ => ⟨item, h3, hitem.1, h1⟩⟩
      split at hx
      · cases hx; cases hrx
      · rename_i hnp
        split at hx
        · split at hx
          · cases hx; cases hrx
          · rw [Option.map_eq_some_iff] at hx
            obtain ⟨ls, _, rfl⟩ := hx
            obtain ⟨rs, _, rfl⟩ := List.mem_map.mp hrx
            exact key hnp rfl rfl
        · rw [Option.map_eq_some_iff] at hx
          obtain ⟨ls, _, rfl⟩ := hx
          obtain ⟨rs, _, rfl⟩ := List.mem_map.mp hrx
          exact key hnp rfl rfl

/-! ## The search ends -/

/-- How many items at `e` are not excluded. -/
def unvisited (chart : List (List Item)) (e : Nat) (parents : List Item) : Nat :=
  (chart.getD e []).countP fun it => !decide (it ∈ parents)

theorem unvisited_lt {chart : List (List Item)} {e : Nat} {parents : List Item} {item : Item}
    (h : item ∈ chart.getD e []) (hn : item ∉ parents) :
    unvisited chart e (parents ++ [item]) < unvisited chart e parents := by
  unfold unvisited
  refine countP_lt (a := item) ?_ h (by simp) (by simpa using hn)
  intro a _ ha
  simp only [List.mem_append, List.mem_singleton, not_or, Bool.not_eq_eq_eq_not, Bool.not_true,
    decide_eq_false_iff_not] at ha ⊢
  exact ha.1

/-- The measure that decreases. -/
def meas (chart : List (List Item)) (K e : Nat) (parents : List Item) : Nat :=
  e * (K + 2) + unvisited chart e parents

theorem meas_left {chart : List (List Item)} {K : Nat} (hK : ∀ e, (chart.getD e []).length ≤ K)
    {i e : Nat} (h : i < e) (parents parents' : List Item) :
    meas chart K i parents < meas chart K e parents' := by
  unfold meas
  have h1 : unvisited chart i parents ≤ K := Nat.le_trans List.countP_le_length (hK i)
  have h2 : (i + 1) * (K + 2) ≤ e * (K + 2) := Nat.mul_le_mul_right _ h
  rw [Nat.succ_mul] at h2
  omega

/-- `find` ends whenever the measure is less than `M`. -/
def TotalBelow (chart : List (List Item)) (K M : Nat)
    (find : GSym → Nat → List Item → Option (List (PRes V C))) : Prop :=
  ∀ y e parents, meas chart K e parents < M → find y e parents ≠ none

theorem findSeq_total {chart : List (List Item)} {K M : Nat}
    (hK : ∀ e, (chart.getD e []).length ≤ K)
    {find : GSym → Nat → List Item → Option (List (PRes V C))} (hf : FindSpec chart find)
    (ht : TotalBelow chart K M find) {start : Nat} {ys : List GSym} :
    ∀ {i : Nat} {parents : List Item} {acc : List (PRes V C)}, meas chart K i parents < M →
    findSeq find start ys i parents acc ≠ none := by
  induction ys with
  | nil => intro i parents acc _; simp [findSeq]
  | cons y ys ih =>
    intro i parents acc hm
    unfold findSeq
    split
    · rename_i hn; exact absurd hn (ht y i parents hm)
    · rename_i rs hrs
      refine collect_total ?_
      intro r hr
      split
      · simp
      · refine ih ?_
        split
        · rename_i hlt
          exact Nat.lt_trans (meas_left hK hlt _ _) hm
        · rename_i hlt
          have := (hf y i parents rs hrs r hr).1
          have : r.start = i := by omega
          rw [this]; exact hm

theorem findRepeat_total {chart : List (List Item)} {K M : Nat}
    (hK : ∀ e, (chart.getD e []).length ≤ K)
    {find : GSym → Nat → List Item → Option (List (PRes V C))} (hf : FindSpec chart find)
    (ht : TotalBelow chart K M find) {start : Nat} {y : GSym} {fuel : Nat} :
    ∀ {i : Nat} {parents : List Item} {acc : List (PRes V C)}, meas chart K i parents < M →
    meas chart K i parents < fuel → findRepeat find start y fuel i parents acc ≠ none := by
  induction fuel with
  | zero => intro i parents acc _ h; exact absurd h (Nat.not_lt_zero _)
  | succ fuel ih =>
    intro i parents acc hm hfu
    unfold findRepeat
    split
    · rename_i hn; exact absurd hn (ht y i parents hm)
    · rename_i rs hrs
      refine collect_total ?_
      intro r hr
      have hdec : meas chart K r.start (if r.start < i then [] else parents ++ r.item.toList)
          < meas chart K i parents := by
        split
        · rename_i hlt; exact meas_left hK hlt _ _
        · rename_i hlt
          obtain ⟨h1, h2⟩ := hf y i parents rs hrs r hr
          have he : r.start = i := by omega
          obtain ⟨item, h3, h4, h5⟩ := h2 he
          rw [h3, he]
          exact Nat.add_lt_add_left (unvisited_lt h4 h5) _
      have hne : (if r.start < start then some []
          else findRepeat find start y fuel r.start
            (if r.start < i then [] else parents ++ r.item.toList) (r :: acc)) ≠ none := by
        split
        · simp
        · exact ih (by omega) (by omega)
      split
      · rename_i hn; exact absurd hn hne
      · simp

theorem findResults_total {g : Grammar V C} {ops : ParseOps V} {data : Str}
    {chart : List (List Item)} {K : Nat} (hst : ∀ e, ∀ it ∈ chart.getD e [], it.start ≤ e)
    (hK : ∀ e, (chart.getD e []).length ≤ K) (fuel : Nat) :
    TotalBelow chart K fuel (findResults g ops data chart fuel) := by
  induction fuel with
  | zero => intro y e parents h; exact absurd h (Nat.not_lt_zero _)
  | succ fuel ih =>
    intro y e parents hm
    cases y with
    | term bits => simp [findResults]
    | nt n =>
      unfold findResults
      refine collect_total ?_
      intro item hitem
      rw [List.mem_filter] at hitem
      split
      · simp
      · rename_i hnp
        have hlt : meas chart K e (parents ++ [item]) < fuel := by
          have : meas chart K e (parents ++ [item]) < meas chart K e parents :=
            Nat.add_lt_add_left (unvisited_lt hitem.1 hnp) _
          omega
        have hsp := findResults_spec (g := g) (ops := ops) (data := data) hst fuel
        split
        · split
          · simp
          · rename_i x _
            have := findRepeat_total hK hsp ih (start := item.start) (y := x) (acc := []) hlt hlt
            simpa using this
        · have := findSeq_total hK hsp ih (start := item.start) (ys := (g.symbolsOf item.rule).reverse)
            (acc := []) hlt
          simpa using this

/-! ## Results are values of derivations -/

theorem evalSeq_append {g : Grammar V C} {ops : ParseOps V} {i : Nat} {l l' : List GSym} {u w : Str}
    {ns ns' : List (Node V)} {cs cs' : List C} {as as' : List (Annot V)}
    (h : EvalSeq g ops i l u ns cs as) (h' : EvalSeq g ops (i + u.length) l' w ns' cs' as') :
    EvalSeq g ops i (l ++ l') (u ++ w) (ns ++ ns') (cs ++ cs') (as ++ as') := by
  induction h with
  | nil => exact h'
  | term hb _ ih =>
    refine .term hb (ih ?_)
    rw [List.length_cons] at h'
    rw [show ∀ a b : Nat, a + 1 + b = a + (b + 1) from fun a b => by omega]
    exact h'
  | rule hx hr hru hnr h1 ha hc hb _ _ ih =>
    have := ih (by rwa [List.length_append, ← Nat.add_assoc] at h')
    have := EvalSeq.rule hx hr hru hnr h1 ha hc hb this
    simpa only [List.append_assoc, List.cons_append] using this
  | repetition hx hr hru hrep hy h1 _ _ ih =>
    have := ih (by rwa [List.length_append, ← Nat.add_assoc] at h')
    have := EvalSeq.repetition hx hr hru hrep hy h1 this
    simpa only [List.append_assoc, List.cons_append] using this

theorem kept_eq (ns : List (Node V)) : noSkips ns = kept ns := by
  induction ns with
  | nil => rfl
  | cons n ns ih =>
    cases n with
    | skip => simpa [kept, noSkips] using ih
    | val v => simpa [kept, noSkips] using ih

theorem collapses_pack (ops : ParseOps V) (ns : List (Node V)) :
    Collapses ops ns (packNodes ops ns) := by
  unfold packNodes
  split
  · rename_i h; exact .nothing (by rw [← kept_eq, h])
  · rename_i v h; exact .single (by rw [← kept_eq, h])
  · rename_i h1 h2
    match hv : noSkips ns with
    | [] => exact absurd hv h1
    | [v] => exact absurd hv (h2 v)
    | v :: v' :: vs => exact .several (by rw [← kept_eq, hv])

theorem annotates_node (ops : ParseOps V) (i j : Nat) (n : Node V) :
    Annotates ops i j n (annotateNode ops i j n) := by
  cases n with
  | skip => exact .skip
  | val v =>
    simp only [annotateNode]
    split
    · rename_i h; exact .yes h
    · rename_i h; exact .no (by simpa using h)

theorem acts_run (action : Option (Action V C)) (ns : List (Node V)) :
    Acts action ns (runAction action ns).1 (runAction action ns).2 := by
  cases action with
  | none => exact .none
  | some f => exact .some

/-- A result is right. -/
structure ResOk (g : Grammar V C) (ops : ParseOps V) (data : Str) (y : GSym) (e : Nat)
    (r : PRes V C) : Prop where
  le : r.start ≤ e
  bound : e ≤ data.length
  eval : EvalSeq g ops r.start [y] (seg data r.start e) [r.node] r.complaints r.annots

/-- All results of `find` are right. -/
def Right (g : Grammar V C) (ops : ParseOps V) (data : Str)
    (find : GSym → Nat → List Item → Option (List (PRes V C))) : Prop :=
  ∀ y e parents rs, find y e parents = some rs → ∀ r ∈ rs, ResOk g ops data y e r

theorem seg_length {data : Str} {i k : Nat} (h : k ≤ data.length) :
    (seg data i k).length = k - i := by
  simp [seg]; omega

theorem eval_snoc {g : Grammar V C} {ops : ParseOps V} {data : Str} {start i j : Nat} {y : GSym}
    {l : List GSym} {ns : List (Node V)} {cs : List C} {as : List (Annot V)} {r : PRes V C}
    (hle : start ≤ j) (hr : ResOk g ops data y i r) (hj : r.start = j)
    (h : EvalSeq g ops start l (seg data start j) ns cs as) :
    EvalSeq g ops start (l ++ [y]) (seg data start i) (ns ++ [r.node]) (cs ++ r.complaints)
      (as ++ r.annots) := by
  subst hj
  rw [← seg_append hle hr.le]
  refine evalSeq_append h ?_
  rw [seg_length (Nat.le_trans hr.le hr.bound)]
  rw [show start + (r.start - start) = r.start by omega]
  exact hr.eval

theorem findSeq_right {g : Grammar V C} {ops : ParseOps V} {data : Str}
    {find : GSym → Nat → List Item → Option (List (PRes V C))} (hf : Right g ops data find)
    {start : Nat} {ys : List GSym} : ∀ {i : Nat} {parents : List Item} {acc : List (PRes V C)}
    {lss : List (List (PRes V C))}, findSeq find start ys i parents acc = some lss →
    ∀ ls ∈ lss, ∃ pre, ls = pre ++ acc ∧ EvalSeq g ops start ys.reverse (seg data start i)
      (pre.map (·.node)) (pre.flatMap (·.complaints)) (pre.flatMap (·.annots)) := by
  induction ys with
  | nil =>
    intro i parents acc lss h ls hls
    simp only [findSeq, Option.some.injEq] at h
    subst h
    split at hls
    · rename_i hi
      rw [List.mem_singleton] at hls
      subst hi hls
      refine ⟨[], rfl, ?_⟩
      rw [seg_self]
      exact .nil
    · cases hls
  | cons y ys ih =>
    intro i parents acc lss h ls hls
    unfold findSeq at h
    split at h
    · cases h
    · rename_i rs hrs
      obtain ⟨r, hr, x, hx, hlx⟩ := collect_mem h hls
      split at hx
      · cases hx; cases hlx
      · rename_i hge
        obtain ⟨pre, rfl, hpre⟩ := ih hx ls hlx
        refine ⟨pre ++ [r], by simp, ?_⟩
        have := eval_snoc (Nat.le_of_not_lt hge) (hf y i parents rs hrs r hr) rfl hpre
        simpa using this

theorem findRepeat_right {g : Grammar V C} {ops : ParseOps V} {data : Str}
    {find : GSym → Nat → List Item → Option (List (PRes V C))} (hf : Right g ops data find)
    {start : Nat} {y : GSym} {fuel : Nat} : ∀ {i : Nat} {parents : List Item} {acc : List (PRes V C)}
    {lss : List (List (PRes V C))}, findRepeat find start y fuel i parents acc = some lss →
    ∀ ls ∈ lss, ∃ pre m, ls = pre ++ acc ∧ EvalSeq g ops start (List.replicate (m + 1) y)
      (seg data start i) (pre.map (·.node)) (pre.flatMap (·.complaints))
      (pre.flatMap (·.annots)) := by
  induction fuel with
  | zero => intro i parents acc lss h; cases h
  | succ fuel ih =>
    intro i parents acc lss h ls hls
    unfold findRepeat at h
    split at h
    · cases h
    · rename_i rs hrs
      obtain ⟨r, hr, x, hx, hlx⟩ := collect_mem h hls
      have hok := hf y i parents rs hrs r hr
      split at hx
      · cases hx
      · rename_i more hmore
        cases hx
        rcases List.mem_append.mp hlx with hlx | hlx
        · split at hlx
          · rename_i hst
            rw [List.mem_singleton] at hlx
            refine ⟨[r], 0, by simp [hlx], ?_⟩
            rw [← hst]
            simpa using hok.eval
          · cases hlx
        · split at hmore
          · cases hmore; cases hlx
          · rename_i hge
            obtain ⟨pre, m, rfl, hpre⟩ := ih hmore ls hlx
            refine ⟨pre ++ [r], m + 1, by simp, ?_⟩
            have := eval_snoc (Nat.le_of_not_lt hge) hok rfl hpre
            rw [List.replicate_succ']
            simpa using this

/-- An unrolled item is for a rule `self y`. -/
theorem unrolled_shape {g : Grammar V C} (hs : Sane g) {item : Item}
    (hr : item.rule ∈ g.rulesOf item.sym) (h : g.unrolled item = true) :
    ∃ (x : Nonterm) (ru : GRule V C) (y : GSym), g.nts[item.sym]? = some x ∧ item.rule ∈ x.rules ∧
      g.rls[item.rule]? = some ru ∧ x.repeated = true ∧ ru.symbols = [.nt item.sym, y] ∧
      (∃ r ∈ x.rules, ∃ ru, g.rls[r]? = some ru ∧ ru.symbols = []) ∧
      ∀ r ∈ x.rules, ∀ ru : GRule V C, g.rls[r]? = some ru →
        ru.symbols = [] ∨ ru.symbols = [.nt item.sym, y] := by
  obtain ⟨x, ru, hx, hxr, hru⟩ := rule_of hs hr
  unfold Grammar.unrolled at h
  rw [Bool.and_eq_true, isRepeated_of hx, symbolsOf_of hru] at h
  obtain ⟨hrep, hh⟩ := h
  have hhead : ru.symbols.head? = some (.nt item.sym) := by
    split at hh
    · rename_i m hm
      rw [beq_iff_eq] at hh
      rw [hm, hh]
    · cases hh
  rcases hs.repeated_shape _ x hx hrep with h' | ⟨y, he, hall⟩
  · exact absurd hhead (h' _ hxr ru hru)
  · refine ⟨x, ru, y, hx, hxr, hru, hrep, ?_, he, hall⟩
    rcases hall _ hxr ru hru with h' | h'
    · rw [h'] at hhead; cases hhead
    · exact h'

theorem not_unrolled {g : Grammar V C} {item : Item} {x : Nonterm} {ru : GRule V C}
    (hx : g.nts[item.sym]? = some x) (hru : g.rls[item.rule]? = some ru)
    (h : ¬ g.unrolled item = true) :
    ¬ (x.repeated = true ∧ ru.symbols.head? = some (.nt item.sym)) := by
  rintro ⟨h1, h2⟩
  refine h ?_
  unfold Grammar.unrolled
  rw [isRepeated_of hx, symbolsOf_of hru, h1, h2]
  simp

theorem findResults_right {g : Grammar V C} (hs : Sane g) (ops : ParseOps V) {data : Str}
    {chart : List (List Item)} (hok : ∀ e, ∀ it ∈ chart.getD e [], ItemOk g data e it) (fuel : Nat) :
    Right g ops data (findResults g ops data chart fuel) := by
  induction fuel with
  | zero => intro y e parents rs h; cases h
  | succ fuel ih =>
    intro y e parents rs h r hr
    cases y with
    | term bits =>
      simp only [findResults, Option.some.injEq] at h
      subst h
      cases e with
      | zero => cases hr
      | succ i =>
        simp only [termResults] at hr
        split at hr
        · cases hr
        · rename_i c hc
          split at hr
          · rename_i hb
            rw [List.mem_singleton] at hr
            subst hr
            refine ⟨Nat.le_succ _, (List.getElem?_eq_some_iff.mp hc).1, ?_⟩
            rw [seg_cons hc]
            exact .term hb .nil
          · cases hr
    | nt n =>
      unfold findResults at h
      obtain ⟨item, hitem, x, hx, hrx⟩ := collect_mem h hr
      rw [List.mem_filter, Bool.and_eq_true, beq_iff_eq] at hitem
      obtain ⟨hmem, hcomp, hsym⟩ := hitem
      have hio := hok e item hmem
      split at hx
      · cases hx; cases hrx
      · split at hx
        · rename_i hun
          obtain ⟨xn, ru, y, hxn, hxr, hru, hrep, hsy, _⟩ := unrolled_shape hs hio.rule hun
          rw [symbolsOf_of hru, hsy] at hx
          simp only [List.getLast?_cons_cons, List.getLast?_singleton] at hx
          rw [Option.map_eq_some_iff] at hx
          obtain ⟨ls, hls, rfl⟩ := hx
          obtain ⟨rs', hrs', rfl⟩ := List.mem_map.mp hrx
          obtain ⟨pre, m, he, hev⟩ := findRepeat_right ih hls rs' hrs'
          rw [List.append_nil] at he
          subst he
          refine ⟨hio.start, hio.bound, ?_⟩
          have := EvalSeq.repetition (l := []) (w := []) (ns' := []) (cs' := []) (as' := [])
            hxn hxr hru hrep hsy hev .nil
          subst hsym
          simpa [repeatResult] using this
        · rename_i hun
          obtain ⟨xn, ru, hxn, hxr, hru⟩ := rule_of hs hio.rule
          rw [Option.map_eq_some_iff] at hx
          obtain ⟨ls, hls, rfl⟩ := hx
          obtain ⟨rs', hrs', rfl⟩ := List.mem_map.mp hrx
          obtain ⟨pre, he, hev⟩ := findSeq_right ih hls rs' hrs'
          rw [List.append_nil] at he
          subst he
          refine ⟨hio.start, hio.bound, ?_⟩
          rw [List.reverse_reverse, symbolsOf_of hru] at hev
          have hlen : item.start + (seg data item.start e).length = e := by
            rw [seg_length hio.bound]; have := hio.start; omega
          have := EvalSeq.rule (l := []) (w := []) (ns' := []) (cs' := []) (as' := [])
            hxn hxr hru (not_unrolled hxn hru hun) hev (acts_run ..) (collapses_pack ops _)
            (annotates_node ..) .nil
          rw [hlen] at this
          subst hsym
          simpa [ruleResult, actionOf_of hru] using this

end Httpolice.Lemmas
