import Verif.Lemmas.Combinators

/-!
# `string_excluding`, and construction histories
-/

namespace Httpolice.Lemmas

open Httpolice.Model Httpolice.Spec

variable {V C : Type}

/-! ## Histories keep the invariants -/

theorem builds_good {b : Bool} {h h' : PyHeap} (hb : Builds b h h') (hg : Good b h) :
    Good b h' ∧ Ext h h' := by
  induction hb with
  | refl => exact ⟨hg, Ext.refl _⟩
  | or _ ha hb ih =>
    have m := or_makes ih.1 ha hb
    exact ⟨m.good, ih.2.trans m.ext⟩
  | mul _ ha hb ih =>
    have m := mul_makes ih.1 ha hb
    exact ⟨m.good, ih.2.trans m.ext⟩
  | wrap _ ha ih =>
    exact ⟨(wrap_makes ih.1 ha _ _).good, ih.2.trans (wrap_makes ih.1 ha _ _).ext⟩
  | «seal» _ ih =>
    exact ⟨(seal_step ih.1 _ _).1, ih.2.trans (seal_step ih.1 _ _).2.1⟩
  | group _ ha ih =>
    obtain ⟨h1, h2, _⟩ := group_step ih.1 ha
    exact ⟨h1, ih.2.trans h2⟩
  | repeatAll _ ha ih =>
    have m := repeatAll_made ih.1 ha
    exact ⟨m.good, ih.2.trans m.ext⟩
  | repeatUpTo _ ha ih =>
    exact ⟨(repeatUpTo_makes ih.1 ha _).good, ih.2.trans (repeatUpTo_makes ih.1 ha _).ext⟩
  | recursive _ ih =>
    obtain ⟨h1, h2⟩ := recursive_step ih.1
    exact ⟨h1, ih.2.trans h2⟩
  | define _ hn hm hgd ih =>
    obtain ⟨x, hx, hh, hr⟩ := hn
    obtain ⟨y, hy, hyh⟩ := hm
    obtain ⟨h1, h2, _⟩ := setRules_step ih.1 hx hh hy hyh (by rw [hr]; nofun) (by
      intro hb
      left
      intro r hr ru hru m hm
      obtain ⟨bits, l, hl⟩ := hgd hb y hy r hr ru hru
      rw [hl] at hm
      cases hm)
    exact ⟨h1, ih.2.trans h2⟩

theorem define_lang {b : Bool} {h : PyHeap} (hg : Good b h) {n m : Nat} (hn : Undefined h n)
    (hm : Defined h m) (hgd : b = true → StartsWithTerminals h m) :
    ∀ h', Ext (h.setRules n (.nt m)) h' → WF h' → ∀ w, Accepts h' (.nt n) w ↔ Accepts h' (.nt m) w := by
  obtain ⟨x, hx, hh, hr⟩ := hn
  obtain ⟨y, hy, hyh⟩ := hm
  obtain ⟨_, _, _, h3⟩ := setRules_step hg hx hh hy hyh (by rw [hr]; nofun) (by
    intro hb
    left
    intro r hr ru hru m hm
    obtain ⟨bits, l, hl⟩ := hgd hb y hy r hr ru hru
    rw [hl] at hm
    cases hm)
  exact h3

/-! ## `is_nullable` returns -/

theorem allNullable_returns {f : Nat → Option Bool} {l : List GSym}
    (h : ∀ m ∈ leading l, ∃ b, f m = some b) : ∃ b, allNullable f l = some b := by
  induction l with
  | nil => exact ⟨_, rfl⟩
  | cons a l ih =>
    cases a with
    | term bits => exact ⟨_, rfl⟩
    | nt n =>
      obtain ⟨b, hb⟩ := h n List.mem_cons_self
      simp only [allNullable, hb]
      cases b with
      | true => exact ih fun m hm => h m (List.mem_cons_of_mem _ hm)
      | false => exact ⟨_, rfl⟩

theorem anyNullable_returns {g : Grammar V C} {f : Nat → Option Bool} {rs : List Nat}
    (h : ∀ r ∈ rs, ∀ m ∈ leading (g.symbolsOf r), ∃ b, f m = some b) :
    ∃ b, anyNullable g f rs = some b := by
  induction rs with
  | nil => exact ⟨_, rfl⟩
  | cons r rs ih =>
    obtain ⟨b, hb⟩ := allNullable_returns (h r List.mem_cons_self)
    simp only [anyNullable, hb]
    cases b with
    | true => exact ⟨_, rfl⟩
    | false => exact ih fun r hr => h r (List.mem_cons_of_mem _ hr)

theorem nullableTo_le {g : Grammar V C} {k k' n : Nat} {b : Bool} (hk : k ≤ k')
    (h : nullableTo g k n = some b) : nullableTo g k' n = some b := by
  induction hk with
  | refl => exact h
  | step _ ih => exact nullableTo_succ ih

theorem ord_nullable {h : Heap V C} (ho : Ord h) (n : Nat) :
    ∃ b, nullableTo h.grammar (n + 1) n = some b := by
  induction n using Nat.strongRecOn with
  | _ n ih =>
    cases hx : h.nts[n]? with
    | none =>
      have : h.grammar.rulesOf n = [] := by
        unfold Grammar.rulesOf
        simp [Heap.grammar, hx]
      simp only [nullableTo, this]
      exact ⟨_, rfl⟩
    | some x =>
      have hr : h.grammar.rulesOf n = x.rules := rulesOf_of (grammar_nt hx)
      simp only [nullableTo, hr]
      rcases ho n x hx with h1 | ⟨e, rest, ru, h1, h2, h3⟩
      · refine anyNullable_returns fun r hr m hm => ?_
        unfold Grammar.symbolsOf at hm
        split at hm
        · rename_i ru hru
          have hlt := h1 r hr ru hru m hm
          obtain ⟨b, hb⟩ := ih m hlt
          exact ⟨b, nullableTo_le hlt hb⟩
        · cases hm
      · rw [h1]
        simp only [anyNullable]
        rw [symbolsOf_of (g := h.grammar) h2, h3]
        exact ⟨true, rfl⟩

/-! ## `string_excluding` -/

theorem sameLetter_symm {a b : Nat} (h : SameLetter a b) : SameLetter b a := by
  rw [sameLetter_iff] at h ⊢
  exact h.symm

theorem sameLetter_trans {a b c : Nat} (h : SameLetter a b) (h' : SameLetter b c) : SameLetter a c := by
  rw [sameLetter_iff] at h h' ⊢
  exact h.trans h'

theorem lower_lower (c : Nat) : litLower (litLower c) = litLower c := by
  unfold litLower
  repeat' split
  all_goals omega

theorem mem_initials {xs : List Str} {c : Nat} :
    c ∈ initialsOf xs ↔ ∃ d s, (d :: s) ∈ xs ∧ litLower d = c := by
  induction xs with
  | nil => simp [initialsOf]
  | cons x xs ih =>
    cases x with
    | nil => simp [initialsOf, ih]
    | cons d s =>
      simp only [initialsOf, List.mem_cons, ih]
      constructor
      · rintro (rfl | ⟨d', s', h1, h2⟩)
        · exact ⟨d, s, .inl rfl, rfl⟩
        · exact ⟨d', s', .inr h1, h2⟩
      · rintro ⟨d', s', h1 | h1, h2⟩
        · cases h1; exact .inl h2.symm
        · exact .inr ⟨d', s', h1, h2⟩

theorem mem_continuations {xs : List Str} {c : Nat} {s : Str} :
    s ∈ continuations c xs ↔ ∃ d, (d :: s) ∈ xs ∧ litLower d = c := by
  induction xs with
  | nil => simp [continuations]
  | cons x xs ih =>
    cases x with
    | nil => simp [continuations, ih]
    | cons d t =>
      simp only [continuations]
      split
      · rename_i hd
        simp only [List.mem_cons, ih]
        constructor
        · rintro (rfl | ⟨d', h1, h2⟩)
          · exact ⟨d, .inl rfl, hd⟩
          · exact ⟨d', .inr h1, h2⟩
        · rintro ⟨d', h1 | h1, h2⟩
          · cases h1; exact .inl rfl
          · exact .inr ⟨d', h1, h2⟩
      · rename_i hd
        simp only [List.mem_cons, ih]
        constructor
        · rintro ⟨d', h1, h2⟩
          exact ⟨d', .inr h1, h2⟩
        · rintro ⟨d', h1 | h1, h2⟩
          · cases h1; exact absurd h2 hd
          · exact ⟨d', h1, h2⟩

theorem le_maxLength {xs : List Str} {x : Str} (h : x ∈ xs) : x.length ≤ maxLength xs := by
  induction xs with
  | nil => cases h
  | cons y xs ih =>
    simp only [maxLength]
    rcases List.mem_cons.mp h with rfl | h
    · omega
    · have := ih h
      omega

theorem maxLength_le {xs : List Str} {n : Nat} (h : ∀ x ∈ xs, x.length ≤ n) : maxLength xs ≤ n := by
  induction xs with
  | nil => exact Nat.zero_le _
  | cons y xs ih =>
    simp only [maxLength]
    have h1 := h y List.mem_cons_self
    have h2 := ih fun x hx => h x (List.mem_cons_of_mem _ hx)
    omega

theorem freeBits_iff {bits : Nat → Bool} {cs : List Nat} {d : Nat} :
    freeBits bits cs d = true ↔ bits d = true ∧ ∀ c ∈ cs, ¬ SameLetter d c := by
  induction cs generalizing bits with
  | nil => simp [freeBits]
  | cons c cs ih =>
    simp only [freeBits, ih, termMinus, List.mem_cons, forall_eq_or_imp]
    have h1 := charBits_iff c d
    cases hb : bits d <;> cases hc : charBits c false d <;> simp_all

/-- What `string_excluding` is to accept. -/
def Excluded (bits : Nat → Bool) (xs : List Str) (w : Str) : Prop :=
  (∀ c ∈ w, bits c = true) ∧ ¬ ∃ x ∈ xs, SameWord w x

theorem rep_term {h : PyHeap} {bits : Nat → Bool} {nm : Bool} {w : Str} :
    (∃ j, Rep (Accepts h (.term bits nm)) j w) ↔ ∀ c ∈ w, bits c = true := by
  constructor
  · rintro ⟨j, ws, _, hws, rfl⟩ c hc
    obtain ⟨u, hu, hc⟩ := List.mem_flatten.mp hc
    obtain ⟨d, hd, rfl⟩ := accepts_term.mp (hws u hu)
    rw [List.mem_singleton.mp hc]
    exact hd
  · intro hw
    refine ⟨_, w.map fun c => [c], rfl, ?_, ?_⟩
    · intro u hu
      obtain ⟨c, hc, rfl⟩ := List.mem_map.mp hu
      exact accepts_term.mpr ⟨c, hw c hc, rfl⟩
    · induction w with
      | nil => rfl
      | cons c w ih =>
        simp only [List.map_cons, List.flatten_cons, List.singleton_append]
        rw [← ih fun d hd => hw d (List.mem_cons_of_mem _ hd)]

theorem add_string_made {b : Bool} {h : PyHeap} (hg : Good b h) (bits bits' : Nat → Bool) (nm nm' : Bool) :
    Made b h ((h.string (.term bits nm)).2.add (.term bits' nm') (h.string (.term bits nm)).1)
      (fun _ w => ∃ d v, w = d :: v ∧ bits' d = true ∧ ∀ c ∈ v, bits c = true) := by
  have m1 := string_made hg (s := .term bits nm) trivial
  have m2 := add_made m1.good (s := .term bits' nm') trivial m1.usable
  refine (m1.then m2).conv fun h' e hw w => ?_
  rw [cat_congr (fun _ => accepts_term) (m1.lang h' (m2.ext.trans e) hw)]
  simp only [Cat, rep_term]
  constructor
  · rintro ⟨u, v, rfl, ⟨d, hd, rfl⟩, hv⟩
    exact ⟨d, v, rfl, hd, hv⟩
  · rintro ⟨d, v, rfl, hd, hv⟩
    exact ⟨[d], v, rfl, ⟨d, hd, rfl⟩, hv⟩

theorem excludeEnd_made {b : Bool} {h : PyHeap} (hg : Good b h) {r : Sym} (hr : Usable h r)
    (hd : ∀ n, r = .nt n → Defined h n) (xs : List Str) :
    Made b h (h.excludeEnd xs r) (fun h' w => Accepts h' r w ∨ (w = [] ∧ [] ∉ xs)) := by
  unfold Heap.excludeEnd
  by_cases hx : [] ∈ xs
  · rw [if_pos hx]
    exact ⟨⟨hg, Ext.refl _, hr, hd, fun h' e hw w => by simp [hx]⟩, .refl⟩
  · rw [if_neg hx]
    have m1 := substEmpty_made hg (.text [])
    have m2 := or_made m1.good (m1.ext.usable hr) m1.usable
    refine (m1.then m2).conv fun h' e hw w => ?_
    rw [m1.lang h' (m2.ext.trans e) hw]
    simp [hx]

theorem excludeLoop_made {b : Bool} {h : PyHeap} (hg : Good b h) {r : Sym} (hr : Usable h r)
    (hd : ∀ n, r = .nt n → Defined h n) {bits : Nat → Bool} {xs : List Str}
    {rec : PyHeap → List Str → Sym × PyHeap} (cs : List Nat)
    (hrec : ∀ c ∈ cs, ∀ h1 : PyHeap, Good b h1 →
      Made b h1 (rec h1 (continuations c xs)) (fun _ => Excluded bits (continuations c xs))) :
    Made b h (Heap.excludeLoop rec xs h r cs) (fun h' w => Accepts h' r w ∨
      ∃ c ∈ cs, ∃ d v, w = d :: v ∧ SameLetter d c ∧ Excluded bits (continuations c xs) v) := by
  induction cs generalizing h r with
  | nil => exact ⟨⟨hg, Ext.refl _, hr, hd, fun h' e hw w => by simp [Heap.excludeLoop]⟩, .refl⟩
  | cons c cs ih =>
    have m1 := hrec c List.mem_cons_self h hg
    have m2 := add_made m1.good (s := .term (charBits c false) false) trivial m1.usable
    have m3 := or_made m2.good (m2.ext.usable (m1.ext.usable hr)) m2.usable
    have m4 := ih m3.good m3.usable m3.defined fun c hc => hrec c (List.mem_cons_of_mem _ hc)
    refine (((m1.then m2).then m3).then m4).conv fun h' e hw w => ?_
    have e3 := m4.ext.trans e
    have e2 := m3.ext.trans e3
    rw [m3.lang h' e3 hw, m2.lang h' e2 hw,
      cat_congr (fun _ => accepts_term) (m1.lang h' (m2.ext.trans e2) hw)]
    have hcat : Cat (OneOf (charBits c false)) (Excluded bits (continuations c xs)) w ↔
        ∃ d v, w = d :: v ∧ SameLetter d c ∧ Excluded bits (continuations c xs) v := by
      constructor
      · rintro ⟨u, v, rfl, ⟨d, hd, rfl⟩, hv⟩
        exact ⟨d, v, rfl, (charBits_iff c d).mp hd, hv⟩
      · rintro ⟨d, v, rfl, hd, hv⟩
        exact ⟨[d], v, rfl, ⟨d, (charBits_iff c d).mpr hd, rfl⟩, hv⟩
    rw [hcat]
    simp only [List.mem_cons, exists_eq_or_imp, or_assoc]

theorem stringExcludingTo_made {b : Bool} {order : List Nat → List Nat}
    (horder : ∀ l c, c ∈ order l ↔ c ∈ l) (bits : Nat → Bool) (nm : Bool) (n : Nat) {h : PyHeap}
    (hg : Good b h) (xs : List Str) (hn : maxLength xs ≤ n)
    (hxs : ∀ x ∈ xs, ∀ c ∈ x, ∀ d, SameLetter d c → bits d = true) :
    Made b h (stringExcludingTo order bits nm n h xs) (fun _ => Excluded bits xs) := by
  induction n generalizing h xs with
  | zero =>
    have m1 := add_string_made hg bits bits nm nm
    have m2 := excludeEnd_made m1.good m1.usable m1.defined xs
    refine (m1.then m2).conv fun h' e hw w => ?_
    rw [m1.lang h' (m2.ext.trans e) hw]
    have hnil : ∀ x ∈ xs, x = [] := fun x hx =>
      List.eq_nil_of_length_eq_zero (Nat.le_zero.mp (Nat.le_trans (le_maxLength hx) hn))
    constructor
    · rintro (⟨d, v, rfl, hd, hv⟩ | ⟨rfl, h⟩)
      · refine ⟨?_, ?_⟩
        · intro c hc
          rcases List.mem_cons.mp hc with rfl | hc
          · exact hd
          · exact hv c hc
        · rintro ⟨x, hx, hs⟩
          rw [hnil x hx] at hs
          cases hs
      · refine ⟨nofun, ?_⟩
        rintro ⟨x, hx, hs⟩
        cases hs
        exact h hx
    · rintro ⟨h1, h2⟩
      cases w with
      | nil => exact .inr ⟨rfl, fun hx => h2 ⟨[], hx, .nil⟩⟩
      | cons d v =>
        exact .inl ⟨d, v, rfl, h1 d List.mem_cons_self, fun c hc => h1 c (List.mem_cons_of_mem _ hc)⟩
  | succ n ih =>
    have m1 := add_string_made hg bits (freeBits bits (order (initialsOf xs))) nm
      (nm && (initialsOf xs).isEmpty)
    have m2 := excludeLoop_made m1.good m1.usable m1.defined (bits := bits) (xs := xs)
      (rec := stringExcludingTo order bits nm n) (order (initialsOf xs)) (by
        intro c hc h1 hg1
        refine ih hg1 (continuations c xs) (maxLength_le ?_) ?_
        · intro s hs
          obtain ⟨d, hd, _⟩ := mem_continuations.mp hs
          have := Nat.le_trans (le_maxLength hd) hn
          simpa using this
        · intro s hs
          obtain ⟨d, hd, _⟩ := mem_continuations.mp hs
          exact fun c hc => hxs _ hd c (List.mem_cons_of_mem _ hc))
    have m3 := excludeEnd_made m2.good m2.usable m2.defined xs
    refine ((m1.then m2).then m3).conv fun h' e hw w => ?_
    have e2 := m3.ext.trans e
    rw [m2.lang h' e2 hw, m1.lang h' (m2.ext.trans e2) hw]
    simp only [freeBits_iff, horder]
    constructor
    · rintro ((⟨d, v, rfl, ⟨hd, hfree⟩, hv⟩ | ⟨c, hc, d, v, rfl, hd, hv1, hv2⟩) | ⟨rfl, h⟩)
      · refine ⟨?_, ?_⟩
        · intro c hc
          rcases List.mem_cons.mp hc with rfl | hc
          · exact hd
          · exact hv c hc
        · rintro ⟨x, hx, hs⟩
          cases hs with
          | @cons _ b _ t h1 h2 =>
            refine hfree (litLower b) (mem_initials.mpr ⟨b, t, hx, rfl⟩) ?_
            rw [sameLetter_iff] at h1 ⊢
            rw [h1, lower_lower]
      · refine ⟨?_, ?_⟩
        · intro c' hc'
          rcases List.mem_cons.mp hc' with rfl | hc'
          · obtain ⟨b, s, hb, rfl⟩ := mem_initials.mp hc
            refine hxs _ hb b List.mem_cons_self _ ?_
            rw [sameLetter_iff] at hd ⊢
            rw [hd, lower_lower]
          · exact hv1 c' hc'
        · rintro ⟨x, hx, hs⟩
          cases hs with
          | @cons _ b _ t h1 h2 =>
            refine hv2 ⟨t, mem_continuations.mpr ⟨b, hx, ?_⟩, h2⟩
            obtain ⟨b', s, hb', rfl⟩ := mem_initials.mp hc
            rw [sameLetter_iff] at hd h1
            rw [← h1, hd, lower_lower]
      · refine ⟨nofun, ?_⟩
        rintro ⟨x, hx, hs⟩
        cases hs
        exact h hx
    · rintro ⟨h1, h2⟩
      cases w with
      | nil => exact .inr ⟨rfl, fun hx => h2 ⟨[], hx, .nil⟩⟩
      | cons d v =>
        left
        have hv : ∀ c ∈ v, bits c = true := fun c hc => h1 c (List.mem_cons_of_mem _ hc)
        by_cases hc : ∃ c ∈ initialsOf xs, SameLetter d c
        · obtain ⟨c, hc, hd⟩ := hc
          refine .inr ⟨c, hc, d, v, rfl, hd, hv, ?_⟩
          rintro ⟨s, hs, hvs⟩
          obtain ⟨b, hb, rfl⟩ := mem_continuations.mp hs
          refine h2 ⟨b :: s, hb, .cons ?_ hvs⟩
          rw [sameLetter_iff] at hd ⊢
          rw [hd, lower_lower]
        · exact .inl ⟨d, v, rfl, ⟨h1 d List.mem_cons_self, fun c hc' hs => hc ⟨c, hc', hs⟩⟩, hv⟩

theorem stringExcluding_made {b : Bool} {order : List Nat → List Nat}
    (horder : ∀ l c, c ∈ order l ↔ c ∈ l) (bits : Nat → Bool) (nm : Bool) {h : PyHeap}
    (hg : Good b h) (xs : List Str) (hxs : ∀ x ∈ xs, ∀ c ∈ x, ∀ d, SameLetter d c → bits d = true) :
    Made b h (h.stringExcluding order bits nm xs) (fun _ => Excluded bits xs) :=
  stringExcludingTo_made horder bits nm _ hg xs (Nat.le_refl _) hxs

/-! ## Defined symbols have rules -/

/-- Every symbol that has been defined has a rule, repetitions are never inlined, and what is always inlined
has a name. -/
def Full (h : Heap V C) : Prop := ∀ (n : Nat) (x : NtObj), h.nts[n]? = some x →
  (x.hole = false → x.rules ≠ []) ∧ (x.repeated = true → x.eph = some false) ∧
    (x.eph = some true → x.named = true)

theorem newRule_full {h : Heap V C} (hf : Full h) (ru : GRule V C) : Full (h.newRule ru).2 := hf

theorem newNt_full {h : Heap V C} (hf : Full h) {x : NtObj} (hx : x.hole = false → x.rules ≠ [])
    (hr : x.repeated = true → x.eph = some false := by first | exact fun _ => rfl | exact nofun)
    (he : x.eph = some true → x.named = true := by first | exact fun _ => rfl | exact nofun) :
    Full (h.newNt x).2 := by
  intro n y hy
  rcases newNt_inv hy with hy | ⟨_, rfl⟩
  · exact hf n y hy
  · exact ⟨hx, hr, he⟩

theorem usable_rules {h : Heap V C} (hf : Full h) {n : Nat} (hu : Usable h (.nt n)) {x : NtObj}
    (hx : h.nts[n]? = some x) (he : x.ephemeral = true) : x.rules ≠ [] := by
  obtain ⟨y, hy, hh⟩ := hu
  rw [hx] at hy
  cases hy
  refine (hf n x hx).1 ?_
  cases hxh : x.hole with
  | false => rfl
  | true => rw [hh hxh] at he; cases he

theorem asRules_full {h : Heap V C} (hf : Full h) {s : Sym} (hu : Usable h s) :
    Full (h.asRules s).2 ∧ (h.asRules s).1 ≠ [] := by
  cases s with
  | term bits nm => exact ⟨hf, by simp [Heap.asRules]⟩
  | nt n =>
    obtain ⟨x, hx, hh⟩ := id hu
    simp only [Heap.asRules, hx]
    cases he : x.ephemeral with
    | true => simpa using ⟨hf, usable_rules hf hu hx he⟩
    | false => simpa using newRule_full hf _

theorem asRule_full {h : Heap V C} (hf : Full h) (s : Sym) : Full (h.asRule s).2 := by
  unfold Heap.asRule
  repeat' split
  all_goals exact hf

theorem wrapAll_full {h : Heap V C} (hf : Full h) (f : Func V C) (rs : List Nat) :
    Full (h.wrapAll f rs).2 := by
  induction rs generalizing h with
  | nil => exact hf
  | cons r rs ih => exact ih (newRule_full hf _)

theorem wrapAll_ne {h : Heap V C} {f : Func V C} {rs : List Nat} (hr : rs ≠ []) :
    (h.wrapAll f rs).1 ≠ [] := by
  cases rs with
  | nil => exact absurd rfl hr
  | cons r rs => simp [Heap.wrapAll]

theorem mul_full {h : Heap V C} (hf : Full h) (s t : Sym) : Full (h.mul s t).2 :=
  newNt_full (newRule_full (asRule_full (asRule_full hf s) t) _) (fun _ => by simp)

theorem asRules_ext (h : Heap V C) (s : Sym) : Ext h (h.asRules s).2 := by
  unfold Heap.asRules
  repeat' split
  all_goals first | exact newRule_ext .. | exact Ext.refl _

theorem or_full {h : Heap V C} (hf : Full h) {s t : Sym} (hs : Usable h s) (ht : Usable h t) :
    Full (h.or s t).2 := by
  obtain ⟨f1, n1⟩ := asRules_full hf hs
  obtain ⟨f2, _⟩ := asRules_full f1 ((asRules_ext h s).usable ht)
  have key : Full (((h.asRules s).2.asRules t).2.simple
      ((h.asRules s).1 ++ ((h.asRules s).2.asRules t).1) none).2 :=
    newNt_full f2 (fun _ => by simp [n1])
  cases s with
  | nt n => exact key
  | term b nm =>
    cases t with
    | nt n => exact key
    | term b' nm' => exact hf

theorem wrap_full {h : Heap V C} (hf : Full h) {s : Sym} (hs : Usable h s) (f : Func V C) (c : Bool) :
    Full (h.wrap f s c).2 := by
  obtain ⟨f1, n1⟩ := asRules_full hf hs
  exact newNt_full (wrapAll_full f1 f _) (fun _ => wrapAll_ne n1) (he := by cases c <;> simp)

theorem group_full {h : Heap V C} (hf : Full h) {s : Sym} (hs : Usable h s) : Full (h.group s).2 := by
  cases s with
  | term b nm => exact hf
  | nt n =>
    obtain ⟨x, hx, hh⟩ := id hs
    simp only [Heap.group, hx]
    cases he : x.ephemeral with
    | true =>
      simp only [if_true]
      have hr := usable_rules hf hs hx he
      exact newNt_full hf (fun _ => hr)
    | false => simpa using hf

theorem set_full {h : Heap V C} (hf : Full h) {n : Nat} {x : NtObj}
    (hx : (x.hole = false → x.rules ≠ []) ∧ (x.repeated = true → x.eph = some false) ∧
      (x.eph = some true → x.named = true)) :
    Full { h with nts := h.nts.set n x } := by
  intro k y hy
  simp only [List.getElem?_set] at hy
  split at hy
  · split at hy
    · cases hy; exact hx
    · cases hy
  · exact hf k y hy

theorem seal_full {h : Heap V C} (hf : Full h) (s : Sym) (p : Bool) : Full (h.seal s p).2 := by
  cases s with
  | term b nm =>
    cases nm with
    | false => exact hf
    | true => exact newNt_full (newRule_full hf _) (fun _ => by simp)
  | nt n =>
    cases hx : h.nts[n]? with
    | none => simp only [Heap.seal, hx]; exact hf
    | some x =>
      simp only [Heap.seal, hx]
      split
      · exact newNt_full (newRule_full hf _) (fun _ => by simp)
      · exact set_full hf ⟨(hf n x hx).1, (hf n x hx).2.1, fun _ => rfl⟩

theorem setRules_full {h : Heap V C} (hf : Full h) {n : Nat} {s : Sym} (hr : h.rulesOf s ≠ []) :
    Full (h.setRules n s) := by
  unfold Heap.setRules
  split
  · exact hf
  · rename_i x hx
    exact set_full hf ⟨fun _ => hr, (hf n x hx).2⟩

theorem substEmpty_full {b : Bool} {h : PyHeap} (hg : Good b h) (hf : Full h) (v : GVal) :
    Full (h.substEmpty v).2 := wrap_full hf (empty_usable hg) _ _

theorem rulesOf_full {h : Heap V C} (hf : Full h) {s : Sym} (hs : ∃ n, s = .nt n ∧ Defined h n) :
    h.rulesOf s ≠ [] := by
  obtain ⟨n, rfl, x, hx, hh⟩ := hs
  simp only [Heap.rulesOf, hx]
  exact (hf n x hx).1 hh

theorem or_substEmpty_nt {h h' : PyHeap} {v : GVal} {t : Sym} :
    ∃ n, (h'.or (h.substEmpty v).1 t).1 = .nt n := ⟨_, rfl⟩

theorem repeatAll_full {b : Bool} {h : PyHeap} (hg : Good b h) (hf : Full h) {s : Sym}
    (hs : Usable h s) : Full (h.repeatAll s).2 := by
  have g0 : Good b (h.newNt { rules := [], repeated := true, pivot := false, named := false, eph := some false, hole := true }).2 :=
    newNt_good hg nofun
  have e0 := newNt_ext h { rules := [], repeated := true, pivot := false, named := false, eph := some false, hole := true }
  have f0 := newNt_full hf (x := { rules := [], repeated := true, pivot := false, named := false, eph := some false, hole := true }) nofun
  have u0 : Usable (h.newNt { rules := [], repeated := true, pivot := false, named := false, eph := some false, hole := true }).2
      (.nt h.nts.length) := ⟨_, newNt_get .., fun _ => rfl⟩
  have m1 := substEmpty_made g0 (.list [])
  have f1 := substEmpty_full g0 f0 (.list [])
  obtain ⟨g2, e2, u2, _⟩ := group_step m1.good (m1.ext.usable (e0.usable hs))
  have f2 := group_full f1 (m1.ext.usable (e0.usable hs))
  have m3 := mul_makes g2 (e2.usable (m1.ext.usable u0)) u2
  have f3 := fun t => mul_full f2 (.nt h.nts.length) t
  have u1 := m3.ext.usable (e2.usable m1.usable)
  have m4 := or_makes m3.good u1 m3.usable
  have f4 := or_full (f3 _) u1 m3.usable
  obtain ⟨n, hn⟩ := or_substEmpty_nt
  exact setRules_full f4 (rulesOf_full f4 ⟨n, hn, m4.defined n hn⟩)

theorem repeatUpTo_full {b : Bool} {h : PyHeap} (hg : Good b h) (hf : Full h) {s : Sym}
    (hs : Usable h s) (k : Nat) : Full (h.repeatUpTo s k).2 := by
  induction k with
  | zero =>
    have m1 := substEmpty_made hg (.list [])
    have m2 := wrap_made m1.good (m1.ext.usable hs) beginListF false
    have f2 := wrap_full (substEmpty_full hg hf (.list [])) (m1.ext.usable hs) beginListF false
    have m3 := or_made m2.good (m2.ext.usable m1.usable) m2.usable
    have f3 := or_full f2 (m2.ext.usable m1.usable) m2.usable
    obtain ⟨n, hn⟩ := or_substEmpty_nt
    refine newNt_full f3 (fun _ => ?_)
    exact rulesOf_full f3 ⟨n, hn, m3.defined n hn⟩
  | succ k ih =>
    have m0 := repeatUpTo_makes hg hs k
    have m1 := substEmpty_made m0.good (.list [])
    have f1 := substEmpty_full m0.good ih (.list [])
    have m2 := mul_made m1.good (m1.ext.usable (m0.ext.usable hs)) (m1.ext.usable m0.usable)
    have f2 := mul_full f1 s (h.repeatUpTo s k).1
    have m3 := wrap_made m2.good m2.usable continueRightListF false
    have f3 := wrap_full f2 m2.usable continueRightListF false
    have u := m3.ext.usable (m2.ext.usable m1.usable)
    have m4 := or_made m3.good u m3.usable
    have f4 := or_full f3 u m3.usable
    obtain ⟨n, hn⟩ := or_substEmpty_nt
    refine newNt_full f4 (fun _ => ?_)
    exact rulesOf_full f4 ⟨n, hn, m4.defined n hn⟩

theorem init_full : Full (Heap.init : Heap V C) := by
  intro n x hx
  match n, hx with
  | 0, hx => cases hx; exact ⟨by simp, nofun, fun _ => rfl⟩

theorem builds_full {b : Bool} {h h' : PyHeap} (hb : Builds b h h') (hg : Good b h) (hf : Full h) :
    Full h' := by
  induction hb with
  | refl => exact hf
  | or _ ha hb ih => exact or_full ih ha hb
  | mul _ ha hb ih => exact mul_full ih _ _
  | wrap _ ha ih => exact wrap_full ih ha _ _
  | «seal» _ ih => exact seal_full ih _ _
  | group _ ha ih => exact group_full ih ha
  | repeatAll hb ha ih => exact repeatAll_full (builds_good hb hg).1 ih ha
  | repeatUpTo hb ha ih => exact repeatUpTo_full (builds_good hb hg).1 ih ha _
  | recursive _ ih => exact newNt_full ih nofun
  | define _ _ hm _ ih => exact setRules_full ih (rulesOf_full ih ⟨_, rfl, hm⟩)

end Httpolice.Lemmas
