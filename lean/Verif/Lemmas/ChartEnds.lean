import Verif.Lemmas.Chart

/-! # Building the chart ends, and gives a closed chart of valid items -/

namespace Httpolice.Lemmas

open Httpolice.Model Httpolice.Spec

variable {V C : Type}

/-! ## How many items there can be -/

/-- All items for one nonterminal and rule. -/
def univRule (g : Grammar V C) (i n r : Nat) : List Item :=
  (List.range (i + 1)).flatMap fun s =>
    (List.range ((g.symbolsOf r).length + 1)).map fun p => ⟨n, r, p, s⟩

/-- All items for the nonterminals `xs`, the first of which is `n`. -/
def univFrom (g : Grammar V C) (i : Nat) : Nat → List Nonterm → List Item
  | _, [] => []
  | n, x :: xs => x.rules.flatMap (univRule g i n) ++ univFrom g i (n + 1) xs

theorem length_flatMap_const {α β : Type} {f : α → List β} {k : Nat} {l : List α}
    (h : ∀ a ∈ l, (f a).length = k) : (l.flatMap f).length = l.length * k := by
  induction l with
  | nil => simp
  | cons a l ih =>
    rw [List.flatMap_cons, List.length_append, h a List.mem_cons_self,
      ih fun b hb => h b (List.mem_cons_of_mem _ hb), List.length_cons, Nat.succ_mul, Nat.add_comm]

theorem length_univRule (g : Grammar V C) (i n r : Nat) :
    (univRule g i n r).length = (i + 1) * ((g.symbolsOf r).length + 1) := by
  unfold univRule
  rw [length_flatMap_const (k := (g.symbolsOf r).length + 1) (by intro a _; simp)]
  simp

theorem length_univRules (g : Grammar V C) (i n : Nat) (rs : List Nat) :
    (rs.flatMap (univRule g i n)).length
      = (i + 1) * (rs.map fun r => (g.symbolsOf r).length + 1).sum := by
  induction rs with
  | nil => simp
  | cons r rs ih =>
    rw [List.flatMap_cons, List.length_append, ih, length_univRule, List.map_cons, List.sum_cons,
      ← Nat.mul_add]

theorem length_univFrom (g : Grammar V C) (i n : Nat) (xs : List Nonterm) :
    (univFrom g i n xs).length = (i + 1) * (xs.map fun x =>
      (x.rules.map fun r => (g.symbolsOf r).length + 1).sum).sum := by
  induction xs generalizing n with
  | nil => simp [univFrom]
  | cons x xs ih =>
    rw [univFrom, List.length_append, ih, length_univRules, List.map_cons, List.sum_cons,
      Nat.mul_add]

/-- All items at position `i`. -/
def univ (g : Grammar V C) (i : Nat) : List Item := univFrom g i 0 g.nts

theorem length_univ (g : Grammar V C) (i : Nat) : (univ g i).length = colBound g i :=
  length_univFrom ..

theorem mem_univFrom {g : Grammar V C} {i n m : Nat} {xs : List Nonterm} {x : Nonterm} {it : Item}
    (hx : xs[m]? = some x) (hsym : it.sym = n + m) (hr : it.rule ∈ x.rules)
    (hp : it.pos ≤ (g.symbolsOf it.rule).length) (hs : it.start ≤ i) : it ∈ univFrom g i n xs := by
  induction xs generalizing n m with
  | nil => cases hx
  | cons y xs ih =>
    unfold univFrom
    rw [List.mem_append]
    cases m with
    | zero =>
      cases hx
      left
      rw [List.mem_flatMap]
      refine ⟨it.rule, hr, ?_⟩
      unfold univRule
      rw [List.mem_flatMap]
      refine ⟨it.start, List.mem_range.mpr (by omega), ?_⟩
      rw [List.mem_map]
      refine ⟨it.pos, List.mem_range.mpr (by omega), ?_⟩
      cases it
      simp_all
    | succ m =>
      right
      exact ih (m := m) (by simpa using hx) (by omega)

theorem mem_univ {g : Grammar V C} {data : Str} {i : Nat} {it : Item} (h : ItemOk g data i it) :
    it ∈ univ g i := by
  obtain ⟨x, hx, hr⟩ := nt_of_rule h.rule
  exact mem_univFrom hx (by omega) hr h.pos h.start

theorem nodup_length_le {α : Type} [DecidableEq α] {l u : List α} (hd : l.Nodup)
    (h : ∀ a ∈ l, a ∈ u) : l.length ≤ u.length := by
  induction l generalizing u with
  | nil => simp
  | cons a l ih =>
    rw [List.nodup_cons] at hd
    have ha : a ∈ u := h a List.mem_cons_self
    have := ih (u := u.erase a) hd.2 (by
      intro b hb
      refine (List.mem_erase_of_ne ?_).mpr (h b (List.mem_cons_of_mem _ hb))
      rintro rfl
      exact hd.1 hb)
    rw [List.length_erase_of_mem ha] at this
    have hpos : 0 < u.length := List.length_pos_of_mem ha
    simp only [List.length_cons]
    omega

/-! ## The loops end -/

theorem completeLive_total {g : Grammar V C} {n : Nat} {P : Item → Prop} {u : List Item}
    (hP : ∀ x, P x → g.next x = some (.nt n) → P x.advance) (hu : ∀ x, P x → x ∈ u)
    {fuel k : Nat} {cur : List Item} (hc : ∀ x ∈ cur, P x) (hd : cur.Nodup)
    (hk : k ≤ (candidates g cur n).length) (hf : u.length < fuel + k) :
    ∃ cur', completeLive g n fuel k cur = .ok cur' := by
  induction fuel generalizing k cur with
  | zero =>
    have h1 : (candidates g cur n).length ≤ cur.length := List.length_filter_le ..
    have h2 := nodup_length_le hd (fun x hx => hu x (hc x hx))
    omega
  | succ fuel ih =>
    unfold completeLive
    split
    · exact ⟨cur, rfl⟩
    · rename_i x hx
      have hx' := mem_candidates.mp (List.mem_of_getElem? hx)
      refine ih ?_ (addItem_nodup hd) ?_ (by omega)
      · intro y hy
        rcases mem_addItem.mp hy with hy | rfl
        · exact hc y hy
        · exact hP x (hc x hx'.1) hx'.2
      · have h1 : k < (candidates g cur n).length := (List.getElem?_eq_some_iff.mp hx).1
        obtain ⟨e, he⟩ := addItem_prefix cur x.advance
        rw [he]
        unfold candidates at h1 ⊢
        rw [List.filter_append, List.length_append]
        omega

theorem stepItem_total {g : Grammar V C} {fuel : Nat} {done : List (List Item)} {token : Option Nat}
    {it : Item} {cur nxt : List Item} {P Q : Item → Prop} {u : List Item}
    (hk : Keeps g done token P Q) (hu : ∀ x, P x → x ∈ u)
    (hi : ColInv P Q cur nxt) (hit : P it) (hf : u.length < fuel) :
    (∃ res, stepItem g fuel done token it cur nxt = .ok res) ∨
    (stepItem g fuel done token it cur nxt = .error .recursion ∧ ∃ n, g.nullable n = none) := by
  unfold stepItem
  split
  · rename_i hn
    split
    · rename_i hst
      obtain ⟨c, hc⟩ := completeLive_total (P := P) (k := 0)
        (fun x hx hx' => hk.live it x hit hn hst hx hx') hu hi.curs hi.nodup (Nat.zero_le _)
        (by simpa using hf)
      rw [hc]
      exact .inl ⟨_, rfl⟩
    · exact .inl ⟨_, rfl⟩
  · rename_i n hn
    split
    · rename_i hnul
      exact .inr ⟨rfl, n, hnul⟩
    · exact .inl ⟨_, rfl⟩
  · split
    · exact .inl ⟨_, rfl⟩
    · exact .inl ⟨_, rfl⟩

theorem colLoop_total {g : Grammar V C} {bound : Nat} {done : List (List Item)} {token : Option Nat}
    {P Q : Item → Prop} {u : List Item} (hk : Keeps g done token P Q) (hu : ∀ x, P x → x ∈ u)
    (hb : u.length < bound) {fuel j : Nat} {cur nxt : List Item} (hi : ColInv P Q cur nxt)
    (hj : j ≤ cur.length) (hf : u.length < fuel + j) :
    (∃ res, colLoop g bound done token fuel j cur nxt = .ok res) ∨
    (colLoop g bound done token fuel j cur nxt = .error .recursion ∧ ∃ n, g.nullable n = none) := by
  induction fuel generalizing j cur nxt with
  | zero =>
    have h2 := nodup_length_le hi.nodup (fun x hx => hu x (hi.curs x hx))
    omega
  | succ fuel ih =>
    unfold colLoop
    split
    · exact .inl ⟨_, rfl⟩
    · rename_i it hj'
      have hit := hi.curs it (List.mem_of_getElem? hj')
      rcases stepItem_total hk hu hi hit hb with ⟨⟨c, n⟩, hr⟩ | ⟨hr, hn⟩
      · rw [hr]
        obtain ⟨h1, _, ⟨e, he⟩, _⟩ := stepItem_ok hk hi hit hr
        refine ih h1 ?_ (by omega)
        have := (List.getElem?_eq_some_iff.mp hj').1
        rw [he, List.length_append]
        omega
      · rw [hr]
        exact .inr ⟨rfl, hn⟩

/-! ## The whole chart -/

/-- Column `i` is closed. -/
def ColClosed (g : Grammar V C) (data : Str) (cols : List (List Item)) (i : Nat) : Prop :=
  ∀ it ∈ cols.getD i [], StepDone g (cols.take i) data[i]? it (cols.getD i []) (cols.getD (i + 1) [])

/-- What is known about a chart when the loop ends. -/
structure ChartOk (g : Grammar V C) (data : Str) (target : Nat) (chart : List (List Item)) :
    Prop where
  valid : ∀ i, ∀ it ∈ chart.getD i [], Valid g data target i it
  nodup : ∀ i, (chart.getD i []).Nodup
  closed : ∀ i, ColClosed g data chart i
  seed : ∀ r ∈ g.rulesOf target, ⟨target, r, 0, 0⟩ ∈ chart.getD 0 []
  stop : chart.length = data.length + 2 ∨
    (chart.length < data.length + 2 ∧ chart.getD data.length [] = [])

theorem getD_append_lt {α : Type} {l l' : List α} {i : Nat} {d : α} (h : i < l.length) :
    (l ++ l').getD i d = l.getD i d := by
  simp [List.getD_eq_getElem?_getD, List.getElem?_append_left h]

theorem getD_append_ge {α : Type} {l l' : List α} {i : Nat} {d : α} (h : l.length ≤ i) :
    (l ++ l').getD i d = l'.getD (i - l.length) d := by
  simp [List.getD_eq_getElem?_getD, List.getElem?_append_right h]

theorem getD_beyond {α : Type} {l : List α} {i : Nat} {d : α} (h : l.length ≤ i) :
    l.getD i d = d := by
  simp [List.getD_eq_getElem?_getD, List.getElem?_eq_none h]

/-- Before the loop comes to position `done.length`. -/
structure Before (g : Grammar V C) (data : Str) (target : Nat) (done : List (List Item))
    (cur : List Item) : Prop where
  valid : ∀ i, ∀ it ∈ (done ++ [cur]).getD i [], Valid g data target i it
  nodup : ∀ i, ((done ++ [cur]).getD i []).Nodup
  closed : ∀ i < done.length, ColClosed g data (done ++ [cur]) i
  seed : ∀ r ∈ g.rulesOf target, ⟨target, r, 0, 0⟩ ∈ (done ++ [cur]).getD 0 []

theorem cur_eq {done : List (List Item)} {cur : List Item} {rest : List (List Item)} :
    (done ++ cur :: rest).getD done.length [] = cur := by
  rw [getD_append_ge (Nat.le_refl _)]; simp

theorem valid_keeps {g : Grammar V C} {data : Str} {target : Nat} {done : List (List Item)}
    (hv : ∀ i < done.length, ∀ it ∈ done.getD i [], Valid g data target i it) :
    Keeps g done data[done.length]? (Valid g data target done.length)
      (Valid g data target (done.length + 1)) where
  live it x h1 h2 h3 h4 h5 := .complete h1 h2 (h3.symm ▸ h4) h5
  complete it x h1 h2 h3 h4 h5 := by
    refine .complete h1 h2 ?_ h5
    by_cases hlt : it.start < done.length
    · exact hv _ hlt x h4
    · rw [getD_beyond (Nat.le_of_not_lt hlt)] at h4; cases h4
  null it n h1 h2 h3 := .skip h1 h2 h3
  predict it n r h1 h2 h3 := .predict h1 h2 h3
  scan it bits c h1 h2 h3 h4 := .scan h1 h2 h3 h4

theorem Before.dones {g : Grammar V C} {data : Str} {target : Nat} {done : List (List Item)}
    {cur : List Item} (h : Before g data target done cur) :
    ∀ i < done.length, ∀ it ∈ done.getD i [], Valid g data target i it := by
  intro i hi it hit
  refine h.valid i it ?_
  rwa [getD_append_lt hi]

theorem Before.inv {g : Grammar V C} {data : Str} {target : Nat} {done : List (List Item)}
    {cur : List Item} (h : Before g data target done cur) :
    ColInv (Valid g data target done.length) (Valid g data target (done.length + 1)) cur [] where
  nodup := by have := h.nodup done.length; rwa [cur_eq] at this
  nodup' := .nil
  curs := by have := h.valid done.length; rwa [cur_eq] at this
  nxts := by intro x h; cases h

/-- The chart after the inner loop at position `done.length`. -/
theorem after_column {g : Grammar V C} {data : Str} {target : Nat}
    {done : List (List Item)} {cur cur' nxt : List Item} {bound fuel : Nat}
    (h : Before g data target done cur)
    (hr : colLoop g bound done data[done.length]? fuel 0 cur [] = .ok (cur', nxt)) :
    Before g data target (done ++ [cur']) nxt := by
  obtain ⟨h1, h2, e, he⟩ := colLoop_ok (valid_keeps h.dones) h.inv
    (by intro k it hk; exact absurd hk (Nat.not_lt_zero _)) hr
  have hcol : ∀ i < done.length, (done ++ [cur'] ++ [nxt]).getD i [] = (done ++ [cur]).getD i [] := by
    intro i hi
    rw [List.append_assoc, getD_append_lt hi, getD_append_lt hi]
  have hcur : (done ++ [cur'] ++ [nxt]).getD done.length [] = cur' := by
    rw [List.append_assoc]; exact cur_eq
  have hnxt : (done ++ [cur'] ++ [nxt]).getD (done.length + 1) [] = nxt := by
    simp
  have hcase : ∀ i, i < done.length ∨ i = done.length ∨ i = done.length + 1 ∨
      (done ++ [cur'] ++ [nxt]).getD i [] = [] := by
    intro i
    by_cases h1 : i < done.length
    · exact .inl h1
    · by_cases h2 : i = done.length
      · exact .inr (.inl h2)
      · by_cases h3 : i = done.length + 1
        · exact .inr (.inr (.inl h3))
        · refine .inr (.inr (.inr (getD_beyond ?_)))
          simp; omega
  have hsub : ∀ x ∈ cur, x ∈ cur' := fun x hx => by rw [he]; exact List.mem_append_left _ hx
  refine ⟨?_, ?_, ?_, ?_⟩
  · intro i it hit
    rcases hcase i with h' | rfl | rfl | h'
    · rw [hcol i h'] at hit; exact h.valid i it hit
    · rw [hcur] at hit; exact h1.curs it hit
    · rw [hnxt] at hit; exact h1.nxts it hit
    · rw [h'] at hit; cases hit
  · intro i
    rcases hcase i with h' | rfl | rfl | h'
    · rw [hcol i h']; exact h.nodup i
    · rw [hcur]; exact h1.nodup
    · rw [hnxt]; exact h1.nodup'
    · rw [h']; exact .nil
  · intro i hi
    have hi : i < done.length + 1 := by simpa using hi
    rcases Nat.lt_succ_iff_lt_or_eq.mp hi with hi | rfl
    · intro it hit
      rw [hcol i hi] at hit ⊢
      have htake : (done ++ [cur'] ++ [nxt]).take i = (done ++ [cur]).take i := by
        rw [List.append_assoc, List.take_append_of_le_length (Nat.le_of_lt hi),
          List.take_append_of_le_length (Nat.le_of_lt hi)]
      rw [htake]
      refine (h.closed i hi it hit).mono (fun _ h => h) ?_
      intro x hx
      by_cases hi' : i + 1 < done.length
      · rwa [hcol _ hi']
      · have : i + 1 = done.length := by omega
        rw [this, cur_eq] at hx
        rw [this, hcur]
        exact hsub x hx
    · intro it hit
      rw [hcur] at hit ⊢
      rw [hnxt]
      have htake : (done ++ [cur'] ++ [nxt]).take done.length = done := by
        rw [List.append_assoc, List.take_left']; rfl
      rw [htake]
      exact h2 it hit
  · intro r hr
    have := h.seed r hr
    by_cases h0 : 0 < done.length
    · rw [hcol 0 h0]; exact this
    · have h0' : done.length = 0 := by omega
      have e1 := cur_eq (done := done) (cur := cur) (rest := [])
      rw [h0'] at e1 hcur
      rw [e1] at this
      rw [hcur]
      exact hsub _ this

theorem take_getD {α : Type} {l : List α} {i k : Nat} {d : α} (h : i < k) :
    (l.take k).getD i d = l.getD i d := by
  simp [List.getD_eq_getElem?_getD, h]

theorem chart_of_before {g : Grammar V C} {data : Str} {target : Nat}
    {done : List (List Item)} {cur : List Item} (h : Before g data target done cur)
    (hc : cur = []) (hl : done.length ≤ data.length + 1) :
    ChartOk g data target (done ++ [cur] ++ List.replicate (min 1 (data.length + 1 - done.length)) []) := by
  subst hc
  have hcol : ∀ i, (done ++ [[]] ++ List.replicate (min 1 (data.length + 1 - done.length)) []).getD i []
      = (done ++ [[]]).getD i ([] : List Item) := by
    intro i
    by_cases hi : i < (done ++ [([] : List Item)]).length
    · rw [getD_append_lt hi]
    · rw [getD_append_ge (Nat.le_of_not_lt hi), getD_beyond (Nat.le_of_not_lt hi)]
      simp only [List.getD_eq_getElem?_getD, List.getElem?_replicate]
      split <;> rfl
  refine ⟨?_, ?_, ?_, ?_, ?_⟩
  · intro i; rw [hcol]; exact h.valid i
  · intro i; rw [hcol]; exact h.nodup i
  · intro i it hit
    rw [hcol] at hit
    have hi : i < done.length := by
      refine Classical.byContradiction fun hn => ?_
      rw [getD_append_ge (Nat.le_of_not_lt hn)] at hit
      cases hd : i - done.length with
      | zero => rw [hd] at hit; cases hit
      | succ k => rw [hd] at hit; cases hit
    rw [hcol, hcol]
    have htake : (done ++ [[]] ++ List.replicate (min 1 (data.length + 1 - done.length)) []).take i
        = (done ++ [([] : List Item)]).take i := by
      rw [List.take_append_of_le_length (by simp; omega)]
    rw [htake]
    exact h.closed i hi it hit
  · intro r hr; rw [hcol]; exact h.seed r hr
  · rcases Nat.lt_or_ge done.length (data.length + 1) with h1 | h1
    · have hm : min 1 (data.length + 1 - done.length) = 1 := by omega
      rcases Nat.lt_or_ge done.length data.length with h2 | h2
      · right
        refine ⟨by simp [hm]; omega, ?_⟩
        rw [hcol, getD_append_ge (by omega)]
        cases hd : data.length - done.length with
        | zero => omega
        | succ k => rfl
      · left; simp [hm]; omega
    · left
      have hm : min 1 (data.length + 1 - done.length) = 0 := by omega
      simp [hm]; omega

theorem chartLoop_ok {g : Grammar V C} (hs : Sane g) {data rest : Str} {target : Nat}
    {done : List (List Item)} {cur : List Item} (h : Before g data target done cur)
    (hd : data.drop done.length = rest) (hl : done.length ≤ data.length) :
    (∃ chart, chartLoop g done cur rest = .ok chart ∧ ChartOk g data target chart) ∨
    (chartLoop g done cur rest = .error .recursion ∧ ∃ n, g.nullable n = none) := by
  have hbreak : cur = [] → ChartOk g data target (done ++ [cur, []]) := by
    intro hc
    have := chart_of_before h hc (by omega)
    rw [show min 1 (data.length + 1 - done.length) = 1 by omega] at this
    simpa using this
  have hin : ∀ x, Valid g data target done.length x → x ∈ univ g done.length :=
    fun x hx => mem_univ (valid_ok hs hx)
  induction rest generalizing done cur with
  | nil =>
    have hlen : done.length = data.length := by
      have := congrArg List.length hd
      simp at this; omega
    unfold chartLoop
    split
    · rename_i hc
      exact .inl ⟨_, rfl, hbreak (List.isEmpty_iff.mp hc)⟩
    · have htok : data[done.length]? = none := List.getElem?_eq_none (by omega)
      have := colLoop_total (bound := colBound g done.length + 1) (fuel := colBound g done.length + 1)
        (j := 0) (valid_keeps h.dones) hin (by rw [length_univ]; omega) h.inv (Nat.zero_le _)
        (by rw [length_univ]; omega)
      rw [htok] at this
      rcases this with ⟨⟨c, n⟩, hr⟩ | ⟨hr, hn⟩
      · rw [hr]
        have hb := after_column h (by rw [htok]; exact hr)
        have hn : n = [] := by
          cases n with
          | nil => rfl
          | cons a n =>
            have hv : Valid g data target (done.length + 1) a := by
              have := hb.valid (done.length + 1) a
              have e1 := cur_eq (done := done ++ [c]) (cur := a :: n) (rest := [])
              simp only [List.length_append, List.length_singleton] at e1
              rw [e1] at this
              exact this List.mem_cons_self
            have := (valid_ok hs hv).bound
            omega
        refine .inl ⟨_, rfl, ?_⟩
        have := chart_of_before hb hn (by simp; omega)
        rw [show min 1 (data.length + 1 - (done ++ [c]).length) = 0 by simp; omega] at this
        simpa using this
      · rw [hr]; exact .inr ⟨rfl, hn⟩
  | cons b rest ih =>
    have hlt : done.length < data.length := by
      have := congrArg List.length hd
      simp at this; omega
    have htok : data[done.length]? = some b := by
      have := congrArg (·[0]?) hd
      simpa using this
    unfold chartLoop
    split
    · rename_i hc
      exact .inl ⟨_, rfl, hbreak (List.isEmpty_iff.mp hc)⟩
    · have := colLoop_total (bound := colBound g done.length + 1) (fuel := colBound g done.length + 1)
        (j := 0) (valid_keeps h.dones) hin (by rw [length_univ]; omega) h.inv (Nat.zero_le _)
        (by rw [length_univ]; omega)
      rw [htok] at this
      rcases this with ⟨⟨c, n⟩, hr⟩ | ⟨hr, hn⟩
      · rw [hr]
        have hb := after_column h (by rw [htok]; exact hr)
        refine ih hb ?_ (by simp; omega) ?_ (fun x hx => mem_univ (valid_ok hs hx))
        · have := congrArg (List.drop 1) hd
          simpa [List.drop_drop, Nat.add_comm] using this
        · intro hc
          have := chart_of_before hb hc (by simp; omega)
          rw [show min 1 (data.length + 1 - (done ++ [c]).length) = 1 by simp; omega] at this
          simpa using this
      · rw [hr]; exact .inr ⟨rfl, hn⟩

/-- The chart for some data and target. -/
def theChart (g : Grammar V C) (data : Str) (target : Nat) : Except PErr (List (List Item)) :=
  chartLoop g [] (addItems [] ((g.rulesOf target).map fun r => ⟨target, r, 0, 0⟩)) data

theorem chart_ok {g : Grammar V C} (hs : Sane g) (data : Str) (target : Nat) :
    (∃ chart, theChart g data target = .ok chart ∧ ChartOk g data target chart) ∨
    (theChart g data target = .error .recursion ∧ ∃ n, g.nullable n = none) := by
  refine chartLoop_ok hs ⟨?_, ?_, ?_, ?_⟩ rfl (Nat.zero_le _)
  · intro i it hit
    cases i with
    | zero =>
      rcases mem_addItems.mp hit with h | h
      · cases h
      · obtain ⟨r, hr, rfl⟩ := List.mem_map.mp h
        exact .seed hr
    | succ i => cases hit
  · intro i
    cases i with
    | zero => exact addItems_nodup (l := []) .nil
    | succ i => exact .nil
  · intro i hi; exact absurd hi (Nat.not_lt_zero _)
  · intro r hr
    exact mem_addItems.mpr (.inr (List.mem_map.mpr ⟨r, hr, rfl⟩))

end Httpolice.Lemmas
