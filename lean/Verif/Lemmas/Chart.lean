import Verif.Lemmas.Nullable

/-! # The chart: what is in it (soundness), that building it ends, and that it is closed -/

namespace Httpolice.Lemmas

open Httpolice.Model Httpolice.Spec

variable {V C : Type}

/-! ## Derivations over spans of the data, with sizes -/

/-- `Der g data l i k n`: a derivation of size `n` of `data[i:k]` from `l`. -/
inductive Der (g : Grammar V C) (data : Str) : List GSym → Nat → Nat → Nat → Prop
  | nil {i : Nat} : Der g data [] i i 0
  | term {bits : Nat → Bool} {c i k n : Nat} {l : List GSym} :
      data[i]? = some c → bits c = true → Der g data l (i + 1) k n →
      Der g data (.term bits :: l) i k (n + 1)
  | nt {m r i j k a b : Nat} {l : List GSym} :
      r ∈ g.rulesOf m → Der g data (g.symbolsOf r) i j a → Der g data l j k b →
      Der g data (.nt m :: l) i k (a + b + 1)

/-- `data[i:k]`. -/
def seg (data : Str) (i k : Nat) : Str := (data.take k).drop i

theorem seg_self (data : Str) (i : Nat) : seg data i i = [] := by
  simp [seg]

theorem seg_append {data : Str} {i j k : Nat} (hij : i ≤ j) (hjk : j ≤ k) :
    seg data i j ++ seg data j k = seg data i k := by
  unfold seg
  have h1 : data.take j = (data.take k).take j := by rw [List.take_take, Nat.min_eq_left hjk]
  have h2 : (data.take k).drop i
      = ((data.take k).take j ++ (data.take k).drop j).drop i := by rw [List.take_append_drop]
  rw [h1, h2]
  by_cases hl : i ≤ ((data.take k).take j).length
  · rw [List.drop_append_of_le_length hl]
  · have hl' : (data.take k).length < j := by
      simp only [List.length_take] at hl ⊢; omega
    have h3 : (data.take k).drop j = [] := List.drop_eq_nil_of_le (Nat.le_of_lt hl')
    rw [h3, List.append_nil, List.append_nil, List.drop_take]

theorem seg_cons {data : Str} {i c : Nat} (h : data[i]? = some c) : seg data i (i + 1) = [c] := by
  unfold seg
  rw [List.take_add_one, h]
  obtain ⟨hi, _⟩ := List.getElem?_eq_some_iff.mp h
  simp [List.length_take, Nat.min_eq_left (Nat.le_of_lt hi)]

theorem der_le {g : Grammar V C} {data : Str} {l : List GSym} {i k n : Nat}
    (h : Der g data l i k n) : i ≤ k := by
  induction h with
  | nil => exact Nat.le_refl _
  | term _ _ _ ih => omega
  | nt _ _ _ ih1 ih2 => omega

theorem der_gen {g : Grammar V C} (hs : Sane g) {data : Str} {l : List GSym} {i k n : Nat}
    (h : Der g data l i k n) : GenSeq g l (seg data i k) := by
  induction h with
  | nil => rw [seg_self]; exact .nil
  | term hc hb hd ih =>
    rw [← seg_append (Nat.le_succ _) (der_le hd), seg_cons hc]
    exact .term hb ih
  | nt hr h1 h2 ih1 ih2 =>
    rw [← seg_append (der_le h1) (der_le h2)]
    exact GenSeq.nt' hs hr ih1 ih2

theorem gen_der {g : Grammar V C} {data : Str} {l : List GSym} {w : Str} (h : GenSeq g l w) :
    ∀ {i : Nat} {rest : Str}, data.drop i = w ++ rest → ∃ n, Der g data l i (i + w.length) n := by
  induction h with
  | nil => intro i _ _; exact ⟨0, .nil⟩
  | @term bits c l w hb hw ih =>
    intro i rest hi
    have hc : data[i]? = some c := by
      have := congrArg (·[0]?) hi
      simpa using this
    have hd : data.drop (i + 1) = w ++ rest := by
      have := congrArg (List.drop 1) hi
      simpa [List.drop_drop, Nat.add_comm] using this
    obtain ⟨n, hn⟩ := ih hd
    refine ⟨n + 1, .term hc hb ?_⟩
    have : i + (c :: w).length = i + 1 + w.length := by simp; omega
    rw [this]; exact hn
  | @nt n x r ru l u w hx hr hru hu hw ih1 ih2 =>
    intro i rest hi
    rw [List.append_assoc] at hi
    obtain ⟨a, ha⟩ := ih1 hi
    have hd : data.drop (i + u.length) = w ++ rest := by
      rw [← List.drop_drop, hi, List.drop_left']; rfl
    obtain ⟨b, hb⟩ := ih2 hd
    have : i + (u ++ w).length = i + u.length + w.length := by simp; omega
    rw [this]
    refine ⟨a + b + 1, .nt ((rulesOf_of hx).symm ▸ hr) ?_ hb⟩
    rw [symbolsOf_of hru]; exact ha

theorem gen_der_seg {g : Grammar V C} {data : Str} {l : List GSym} {i k : Nat} (hik : i ≤ k)
    (hk : k ≤ data.length) (h : GenSeq g l (seg data i k)) : ∃ n, Der g data l i k n := by
  have h1 : data.drop i = seg data i k ++ data.drop k := by
    have h2 : data.drop i = (data.take k ++ data.drop k).drop i := by rw [List.take_append_drop]
    rw [h2, List.drop_append_of_le_length (by simp; omega)]; rfl
  obtain ⟨n, hn⟩ := gen_der h h1
  have h2 : i + (seg data i k).length = k := by simp [seg]; omega
  rw [h2] at hn
  exact ⟨n, hn⟩

theorem der_append {g : Grammar V C} {data : Str} {l l' : List GSym} {i j k a b : Nat}
    (h : Der g data l i j a) (h' : Der g data l' j k b) : Der g data (l ++ l') i k (a + b) := by
  induction h with
  | nil => rw [Nat.zero_add]; exact h'
  | term hc hb _ ih =>
    rw [show ∀ n, n + 1 + b = (n + b) + 1 from fun n => by omega]
    exact .term hc hb (ih h')
  | nt hr h1 _ _ ih =>
    rw [show ∀ x y, x + y + 1 + b = x + (y + b) + 1 from fun x y => by omega]
    exact .nt hr h1 (ih h')

theorem der_split {g : Grammar V C} {data : Str} {l l' : List GSym} {i k n : Nat}
    (h : Der g data (l ++ l') i k n) :
    ∃ j a b, Der g data l i j a ∧ Der g data l' j k b ∧ n = a + b := by
  induction l generalizing i n with
  | nil => exact ⟨i, 0, n, .nil, h, by omega⟩
  | cons x l ih =>
    cases h with
    | term hc hb hd =>
      obtain ⟨j, a, b, h1, h2, h3⟩ := ih hd
      exact ⟨j, a + 1, b, .term hc hb h1, h2, by omega⟩
    | nt hr hd1 hd2 =>
      obtain ⟨j, a, b, h1, h2, h3⟩ := ih hd2
      exact ⟨j, _, b, .nt hr hd1 h1, h2, by omega⟩

theorem der_cons {g : Grammar V C} {data : Str} {x : GSym} {l : List GSym} {i k n : Nat}
    (h : Der g data (x :: l) i k n) :
    ∃ j a b, Der g data [x] i j a ∧ Der g data l j k b ∧ n = a + b :=
  der_split (l := [x]) h

theorem der_bound {g : Grammar V C} {data : Str} {l : List GSym} {i k n : Nat}
    (h : Der g data l i k n) (hi : i ≤ data.length) : k ≤ data.length := by
  induction h with
  | nil => exact hi
  | term hc _ _ ih =>
    obtain ⟨h', _⟩ := List.getElem?_eq_some_iff.mp hc
    exact ih h'
  | nt _ _ _ ih1 ih2 => exact ih2 (ih1 hi)

/-! ## Which items may appear -/

/-- The items that the parser's steps can produce at a position. -/
inductive Valid (g : Grammar V C) (data : Str) (target : Nat) : Nat → Item → Prop
  | seed {r : Nat} : r ∈ g.rulesOf target → Valid g data target 0 ⟨target, r, 0, 0⟩
  | predict {i n r : Nat} {it : Item} : Valid g data target i it → g.next it = some (.nt n) →
      r ∈ g.rulesOf n → Valid g data target i ⟨n, r, 0, i⟩
  | skip {i n : Nat} {it : Item} : Valid g data target i it → g.next it = some (.nt n) →
      g.nullable n = some true → Valid g data target i it.advance
  | scan {i c : Nat} {bits : Nat → Bool} {it : Item} : Valid g data target i it →
      g.next it = some (.term bits) → data[i]? = some c → bits c = true →
      Valid g data target (i + 1) it.advance
  | complete {i : Nat} {it x : Item} : Valid g data target i it → g.next it = none →
      Valid g data target it.start x → g.next x = some (.nt it.sym) → Valid g data target i x.advance

theorem take_next {l : List GSym} {p : Nat} {x : GSym} (h : l[p]? = some x) :
    l.take (p + 1) = l.take p ++ [x] := by
  rw [List.take_add_one, h]; rfl

/-- What a valid item says. -/
structure ItemOk (g : Grammar V C) (data : Str) (i : Nat) (it : Item) : Prop where
  rule : it.rule ∈ g.rulesOf it.sym
  pos : it.pos ≤ (g.symbolsOf it.rule).length
  start : it.start ≤ i
  bound : i ≤ data.length
  der : ∃ n, Der g data ((g.symbolsOf it.rule).take it.pos) it.start i n

theorem itemOk_advance {g : Grammar V C} {data : Str} {i k a : Nat} {it : Item} {x : GSym}
    (h : ItemOk g data i it) (hn : g.next it = some x) (hd : Der g data [x] i k a) :
    ItemOk g data k it.advance where
  rule := h.rule
  pos := (List.getElem?_eq_some_iff.mp hn).1
  start := Nat.le_trans h.start (der_le hd)
  bound := der_bound hd h.bound
  der := by
    obtain ⟨n, hn'⟩ := h.der
    refine ⟨n + a, ?_⟩
    show Der g data ((g.symbolsOf it.rule).take (it.pos + 1)) it.start k (n + a)
    rw [take_next hn]
    exact der_append hn' hd

theorem take_completed {g : Grammar V C} {it : Item} (h : g.next it = none) :
    (g.symbolsOf it.rule).take it.pos = g.symbolsOf it.rule :=
  List.take_of_length_le (List.getElem?_eq_none_iff.mp h)

theorem valid_ok {g : Grammar V C} (hs : Sane g) {data : Str} {target i : Nat} {it : Item}
    (h : Valid g data target i it) : ItemOk g data i it := by
  induction h with
  | seed hr => exact ⟨hr, Nat.zero_le _, Nat.le_refl _, Nat.zero_le _, 0, .nil⟩
  | predict _ _ hr ih => exact ⟨hr, Nat.zero_le _, Nat.le_refl _, ih.bound, 0, .nil⟩
  | @skip i n it _ hn hnul ih =>
    have hg : GenSeq g [.nt n] (seg data i i) := by
      rw [seg_self]; exact (nullable_iff hs hnul).mp rfl
    obtain ⟨a, ha⟩ := gen_der_seg (Nat.le_refl i) ih.bound hg
    exact itemOk_advance ih hn ha
  | scan _ hn hc hb ih => exact itemOk_advance ih hn (.term hc hb .nil)
  | complete _ hn1 _ hn2 ih1 ih2 =>
    obtain ⟨a, ha⟩ := ih1.der
    rw [take_completed hn1] at ha
    exact itemOk_advance ih2 hn2 (.nt ih1.rule ha .nil)

/-! ## Adding items -/

theorem mem_addItem {l : List Item} {it x : Item} : x ∈ addItem l it ↔ x ∈ l ∨ x = it := by
  unfold addItem
  split
  · constructor
    · exact .inl
    · rintro (h | rfl) <;> assumption
  · simp

theorem addItem_prefix (l : List Item) (it : Item) : ∃ e, addItem l it = l ++ e := by
  unfold addItem
  split
  · exact ⟨[], by simp⟩
  · exact ⟨[it], rfl⟩

theorem addItem_nodup {l : List Item} {it : Item} (h : l.Nodup) : (addItem l it).Nodup := by
  unfold addItem
  split
  · exact h
  · rename_i hn
    rw [List.nodup_append]
    refine ⟨h, by simp, ?_⟩
    intro a ha b hb
    rw [List.mem_singleton] at hb
    rintro rfl
    exact hn (hb ▸ ha)

theorem mem_addItems {l new : List Item} {x : Item} : x ∈ addItems l new ↔ x ∈ l ∨ x ∈ new := by
  unfold addItems
  induction new generalizing l with
  | nil => simp
  | cons a new ih => rw [List.foldl_cons, ih, mem_addItem]; simp [or_assoc]

theorem addItems_prefix (l new : List Item) : ∃ e, addItems l new = l ++ e := by
  unfold addItems
  induction new generalizing l with
  | nil => exact ⟨[], by simp⟩
  | cons a new ih =>
    obtain ⟨e, he⟩ := addItem_prefix l a
    obtain ⟨e', he'⟩ := ih (addItem l a)
    exact ⟨e ++ e', by rw [List.foldl_cons, he', he, List.append_assoc]⟩

theorem addItems_nodup {l new : List Item} (h : l.Nodup) : (addItems l new).Nodup := by
  unfold addItems
  induction new generalizing l with
  | nil => exact h
  | cons a new ih => rw [List.foldl_cons]; exact ih (addItem_nodup h)

theorem nextIs_iff {g : Grammar V C} {n : Nat} {it : Item} :
    g.nextIs n it = true ↔ g.next it = some (.nt n) := by
  unfold Grammar.nextIs
  split
  · rename_i m h; rw [h]; simp
  · rename_i h
    constructor
    · intro h'; cases h'
    · intro h'; exact absurd h' (h n)

theorem mem_candidates {g : Grammar V C} {l : List Item} {n : Nat} {x : Item} :
    x ∈ candidates g l n ↔ x ∈ l ∧ g.next x = some (.nt n) := by
  simp [candidates, nextIs_iff]

/-! ## One step -/

/-- What processing an item must have achieved. -/
structure StepDone (g : Grammar V C) (done : List (List Item)) (token : Option Nat) (it : Item)
    (cur nxt : List Item) : Prop where
  complete : g.next it = none → it.start ≠ done.length → ∀ x ∈ done.getD it.start [],
    g.next x = some (.nt it.sym) → x.advance ∈ cur
  null : ∀ n, g.next it = some (.nt n) → g.nullable n = some true → it.advance ∈ cur
  total : ∀ n, g.next it = some (.nt n) → g.nullable n ≠ none
  predict : ∀ n, g.next it = some (.nt n) → ∀ r ∈ g.rulesOf n, ⟨n, r, 0, done.length⟩ ∈ cur
  scan : ∀ bits c, g.next it = some (.term bits) → token = some c → bits c = true →
    it.advance ∈ nxt

theorem StepDone.mono {g : Grammar V C} {done : List (List Item)} {token : Option Nat} {it : Item}
    {cur nxt cur' nxt' : List Item} (h : StepDone g done token it cur nxt)
    (hc : ∀ x ∈ cur, x ∈ cur') (hn : ∀ x ∈ nxt, x ∈ nxt') : StepDone g done token it cur' nxt' where
  complete h1 h2 x h3 h4 := hc _ (h.complete h1 h2 x h3 h4)
  null n h1 h2 := hc _ (h.null n h1 h2)
  total := h.total
  predict n h1 r h2 := hc _ (h.predict n h1 r h2)
  scan b c h1 h2 h3 := hn _ (h.scan b c h1 h2 h3)

/-- Items at this position satisfy `P`, at the next one `Q`, none is repeated. -/
structure ColInv (P Q : Item → Prop) (cur nxt : List Item) : Prop where
  nodup : cur.Nodup
  nodup' : nxt.Nodup
  curs : ∀ x ∈ cur, P x
  nxts : ∀ x ∈ nxt, Q x

/-- The steps keep `P` and `Q`. -/
structure Keeps (g : Grammar V C) (done : List (List Item)) (token : Option Nat) (P Q : Item → Prop) :
    Prop where
  live : ∀ it x, P it → g.next it = none → it.start = done.length → P x →
    g.next x = some (.nt it.sym) → P x.advance
  complete : ∀ it x, P it → g.next it = none → it.start ≠ done.length →
    x ∈ done.getD it.start [] → g.next x = some (.nt it.sym) → P x.advance
  null : ∀ it n, P it → g.next it = some (.nt n) → g.nullable n = some true → P it.advance
  predict : ∀ it n r, P it → g.next it = some (.nt n) → r ∈ g.rulesOf n → P ⟨n, r, 0, done.length⟩
  scan : ∀ it bits c, P it → g.next it = some (.term bits) → token = some c → bits c = true →
    Q it.advance

theorem completeLive_ok {g : Grammar V C} {n fuel k : Nat} {cur cur' : List Item} {P : Item → Prop}
    (hP : ∀ x, P x → g.next x = some (.nt n) → P x.advance) (hc : ∀ x ∈ cur, P x) (hd : cur.Nodup)
    (h : completeLive g n fuel k cur = .ok cur') :
    (∀ x ∈ cur', P x) ∧ cur'.Nodup ∧ ∃ e, cur' = cur ++ e := by
  induction fuel generalizing k cur with
  | zero => cases h
  | succ fuel ih =>
    unfold completeLive at h
    split at h
    · cases h; exact ⟨hc, hd, [], by simp⟩
    · rename_i x hx
      have hx' := mem_candidates.mp (List.mem_of_getElem? hx)
      have hc' : ∀ y ∈ addItem cur x.advance, P y := by
        intro y hy
        rcases mem_addItem.mp hy with hy | rfl
        · exact hc y hy
        · exact hP x (hc x hx'.1) hx'.2
      obtain ⟨h1, h2, e, h3⟩ := ih hc' (addItem_nodup hd) h
      obtain ⟨e', he'⟩ := addItem_prefix cur x.advance
      exact ⟨h1, h2, e' ++ e, by rw [h3, he', List.append_assoc]⟩

theorem stepItem_ok {g : Grammar V C} {fuel : Nat} {done : List (List Item)} {token : Option Nat}
    {it : Item} {cur nxt cur' nxt' : List Item} {P Q : Item → Prop} (hk : Keeps g done token P Q)
    (hi : ColInv P Q cur nxt) (hit : P it)
    (h : stepItem g fuel done token it cur nxt = .ok (cur', nxt')) :
    ColInv P Q cur' nxt' ∧ StepDone g done token it cur' nxt' ∧ (∃ e, cur' = cur ++ e) ∧
    ∀ x ∈ nxt, x ∈ nxt' := by
  unfold stepItem at h
  split at h
  · rename_i hn
    split at h
    · rename_i hst
      split at h
      · cases h
      · rename_i c hc
        cases h
        obtain ⟨h1, h2, h3⟩ := completeLive_ok (P := P)
          (fun x hx hx' => hk.live it x hit hn hst hx hx') hi.curs hi.nodup hc
        refine ⟨⟨h2, hi.nodup', h1, hi.nxts⟩, ?_, h3, fun _ h => h⟩
        exact ⟨fun _ h' => absurd hst h', fun n h' => (nomatch hn.symm.trans h'),
          fun n h' => (nomatch hn.symm.trans h'), fun n h' => (nomatch hn.symm.trans h'),
          fun b c h' => (nomatch hn.symm.trans h')⟩
    · rename_i hst
      cases h
      refine ⟨⟨addItems_nodup hi.nodup, hi.nodup', ?_, hi.nxts⟩, ?_, addItems_prefix .., fun _ h => h⟩
      · intro x hx
        rcases mem_addItems.mp hx with hx | hx
        · exact hi.curs x hx
        · obtain ⟨y, hy, rfl⟩ := List.mem_map.mp hx
          obtain ⟨hy1, hy2⟩ := mem_candidates.mp hy
          exact hk.complete it y hit hn hst hy1 hy2
      · refine ⟨fun _ _ x hx hx' => ?_, fun n h' => (nomatch hn.symm.trans h'),
          fun n h' => (nomatch hn.symm.trans h'), fun n h' => (nomatch hn.symm.trans h'),
          fun b c h' => (nomatch hn.symm.trans h')⟩
        exact mem_addItems.mpr (.inr (List.mem_map.mpr ⟨x, mem_candidates.mpr ⟨hx, hx'⟩, rfl⟩))
  · rename_i n hn
    split at h
    · cases h
    · rename_i b hb
      cases h
      have hcur : ∀ x ∈ (if b = true then addItem cur it.advance else cur), P x := by
        intro x hx
        split at hx
        · rename_i hbt
          rcases mem_addItem.mp hx with hx | rfl
          · exact hi.curs x hx
          · exact hk.null it n hit hn (hbt ▸ hb)
        · exact hi.curs x hx
      have hpre : ∃ e, (if b = true then addItem cur it.advance else cur) = cur ++ e := by
        split
        · exact addItem_prefix ..
        · exact ⟨[], by simp⟩
      have hnd : (if b = true then addItem cur it.advance else cur).Nodup := by
        split
        · exact addItem_nodup hi.nodup
        · exact hi.nodup
      refine ⟨⟨addItems_nodup hnd, hi.nodup', ?_, hi.nxts⟩, ?_, ?_, fun _ h => h⟩
      · intro x hx
        rcases mem_addItems.mp hx with hx | hx
        · exact hcur x hx
        · obtain ⟨r, hr, rfl⟩ := List.mem_map.mp hx
          exact hk.predict it n r hit hn hr
      · refine ⟨fun h' => (nomatch hn.symm.trans h'), fun m h' hm => ?_, fun m h' => ?_,
          fun m h' r hr => ?_, fun b c h' => (nomatch hn.symm.trans h')⟩
        · rw [hn] at h'; cases h'
          rw [hb] at hm; cases hm
          exact mem_addItems.mpr (.inl (by simp [mem_addItem]))
        · rw [hn] at h'; cases h'; rw [hb]; simp
        · rw [hn] at h'; cases h'
          exact mem_addItems.mpr (.inr (List.mem_map.mpr ⟨r, hr, rfl⟩))
      · obtain ⟨e, he⟩ := hpre
        obtain ⟨e', he'⟩ := addItems_prefix (if b = true then addItem cur it.advance else cur)
          ((g.rulesOf n).map fun r => (⟨n, r, 0, done.length⟩ : Item))
        exact ⟨e ++ e', by rw [he', he, List.append_assoc]⟩
  · rename_i bits hn
    have hsd : ∀ nxt'' : List Item,
        (∀ c, token = some c → bits c = true → it.advance ∈ nxt'') →
        StepDone g done token it cur nxt'' := by
      intro nxt'' hsc
      refine ⟨fun h' => (nomatch hn.symm.trans h'), fun m h' => (nomatch hn.symm.trans h'),
        fun m h' => (nomatch hn.symm.trans h'), fun m h' => (nomatch hn.symm.trans h'),
        fun b c h' hc hb => ?_⟩
      rw [hn] at h'; cases h'
      exact hsc c hc hb
    split at h
    · cases h
      exact ⟨hi, hsd _ (by intro c hc; cases hc), ⟨[], by simp⟩, fun _ h => h⟩
    · rename_i c
      cases h
      refine ⟨⟨hi.nodup, ?_, hi.curs, ?_⟩, hsd _ ?_, ⟨[], by simp⟩, ?_⟩
      · split
        · exact addItem_nodup hi.nodup'
        · exact hi.nodup'
      · intro x hx
        split at hx
        · rename_i hb
          rcases mem_addItem.mp hx with hx | rfl
          · exact hi.nxts x hx
          · exact hk.scan it bits c hit hn rfl hb
        · exact hi.nxts x hx
      · intro c' hc' hb
        cases hc'
        simp [hb, mem_addItem]
      · intro x hx
        split
        · exact mem_addItem.mpr (.inl hx)
        · exact hx

theorem colLoop_ok {g : Grammar V C} {bound : Nat} {done : List (List Item)} {token : Option Nat}
    {P Q : Item → Prop} (hk : Keeps g done token P Q) {fuel j : Nat} {cur nxt cur' nxt' : List Item}
    (hi : ColInv P Q cur nxt)
    (hd : ∀ k it, k < j → cur[k]? = some it → StepDone g done token it cur nxt)
    (h : colLoop g bound done token fuel j cur nxt = .ok (cur', nxt')) :
    ColInv P Q cur' nxt' ∧ (∀ it ∈ cur', StepDone g done token it cur' nxt') ∧
    (∃ e, cur' = cur ++ e) := by
  induction fuel generalizing j cur nxt with
  | zero => cases h
  | succ fuel ih =>
    unfold colLoop at h
    split at h
    · rename_i hj
      cases h
      refine ⟨hi, ?_, [], by simp⟩
      intro it hit
      obtain ⟨k, hk', hk''⟩ := List.getElem_of_mem hit
      refine hd k it ?_ (by rw [List.getElem?_eq_getElem hk', hk''])
      have := List.getElem?_eq_none_iff.mp hj
      omega
    · rename_i it hj
      split at h
      · cases h
      · rename_i c n hst
        obtain ⟨h1, h2, ⟨e, he⟩, h4⟩ := stepItem_ok hk hi (hi.curs it (List.mem_of_getElem? hj)) hst
        have hmono : ∀ x ∈ cur, x ∈ c := fun x hx => by rw [he]; exact List.mem_append_left _ hx
        have := ih h1 (by
          intro k x hkj hx
          by_cases hkj' : k < j
          · refine (hd k x hkj' ?_).mono hmono h4
            rw [he] at hx
            have hlt : k < cur.length :=
              Nat.lt_trans hkj' (List.getElem?_eq_some_iff.mp hj).1
            rwa [List.getElem?_append_left hlt] at hx
          · have : k = j := by omega
            subst this
            have hlt := (List.getElem?_eq_some_iff.mp hj).1
            rw [he, List.getElem?_append_left hlt, hj] at hx
            cases hx
            exact h2) h
        obtain ⟨h5, h6, e', he'⟩ := this
        exact ⟨h5, h6, e ++ e', by rw [he', he, List.append_assoc]⟩

end Httpolice.Lemmas
