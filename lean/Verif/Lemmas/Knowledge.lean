import Verif.Spec.Knowledge

/-!
# Lemmas about the tables of known things
-/

namespace Httpolice.Lemmas

open Httpolice.Model Httpolice.Spec

/-! ## Dictionaries -/

theorem dict_get_set {V : Type} (d : Dict V) (k : Str) (v : V) (j : Str) :
    (d.set k v).get j = if j = k then some v else d.get j := by
  induction d with
  | nil =>
    simp only [Dict.set, Dict.get]
    by_cases h : k = j
    · subst h; simp
    · rw [if_neg h, if_neg (Ne.symm h)]
  | cons e d ih =>
    obtain ⟨k', v'⟩ := e
    simp only [Dict.set]
    by_cases h : k' = k
    · subst h
      simp only [if_true, Dict.get]
      by_cases hj : k' = j
      · subst hj; simp
      · rw [if_neg hj, if_neg hj, if_neg (Ne.symm hj)]
    · rw [if_neg h]
      simp only [Dict.get, ih]
      by_cases hj : k' = j
      · subst hj; rw [if_pos rfl, if_pos rfl, if_neg h]
      · rw [if_neg hj, if_neg hj]

theorem dict_get_drop {V : Type} (d : Dict V) (k j : Str) :
    (d.drop k).get j = if j = k then none else d.get j := by
  induction d with
  | nil => simp [Dict.drop, Dict.get]
  | cons e d ih =>
    obtain ⟨k', v'⟩ := e
    simp only [Dict.drop, List.filter_cons] at ih ⊢
    by_cases h : k' = k
    · subst h
      simp only [ne_eq, not_true_eq_false, decide_false, Bool.false_eq_true, if_false, ih, Dict.get]
      by_cases hj : j = k'
      · simp [hj]
      · rw [if_neg hj, if_neg hj, if_neg (Ne.symm hj)]
    · simp only [ne_eq, h, not_false_eq_true, decide_true, if_true, Dict.get, ih]
      by_cases hj : k' = j
      · subst hj; rw [if_pos rfl, if_pos rfl, if_neg h]
      · rw [if_neg hj, if_neg hj]

theorem dict_get_mem {V : Type} {d : Dict V} {k : Str} {v : V} (h : d.get k = some v) :
    (k, v) ∈ d := by
  induction d with
  | nil => simp [Dict.get] at h
  | cons e d ih =>
    obtain ⟨k', v'⟩ := e
    simp only [Dict.get] at h
    split at h
    · rename_i hk; subst hk; cases h; exact List.mem_cons_self
    · exact List.mem_cons_of_mem _ (ih h)

theorem dict_get_none {V : Type} {d : Dict V} {k : Str} :
    d.get k = none ↔ ∀ v, (k, v) ∉ d := by
  induction d with
  | nil => simp [Dict.get]
  | cons e d ih =>
    obtain ⟨k', v'⟩ := e
    simp only [Dict.get]
    by_cases h : k' = k
    · subst h
      simp only [if_true, reduceCtorEq, List.mem_cons, not_or, false_iff]
      intro hv
      exact (hv v').1 rfl
    · rw [if_neg h, ih]
      simp only [List.mem_cons, not_or, Prod.mk.injEq]
      exact ⟨fun hv v => ⟨fun hk => h hk.1.symm, hv v⟩, fun hv v => (hv v).2⟩

theorem dict_mem_get {V : Type} {d : Dict V} {k : Str} {v : V} (hn : (d.map Prod.fst).Nodup)
    (h : (k, v) ∈ d) : d.get k = some v := by
  induction d with
  | nil => cases h
  | cons e d ih =>
    obtain ⟨k', v'⟩ := e
    simp only [List.map_cons, List.nodup_cons] at hn
    simp only [Dict.get]
    rcases List.mem_cons.1 h with he | hm
    · cases he; rw [if_pos rfl]
    · have : k' ≠ k := by
        rintro rfl
        exact hn.1 (List.mem_map.2 ⟨_, hm, rfl⟩)
      rw [if_neg this]
      exact ih hn.2 hm

theorem lookup_pair_mem {V : Type} {d : List (Str × V)} {k : Str} {v : V} (h : d.lookup k = some v) :
    (k, v) ∈ d := by
  induction d with
  | nil => simp [List.lookup] at h
  | cons e d ih =>
    obtain ⟨k', v'⟩ := e
    rw [List.lookup_cons] at h
    split at h
    · rename_i hk
      rw [beq_iff_eq] at hk
      subst hk; cases h; exact List.mem_cons_self
    · exact List.mem_cons_of_mem _ (ih h)

theorem lookup_none_iff {V : Type} {d : List (Str × V)} {k : Str} :
    d.lookup k = none ↔ ∀ v, (k, v) ∉ d := by
  induction d with
  | nil => simp [List.lookup]
  | cons e d ih =>
    obtain ⟨k', v'⟩ := e
    rw [List.lookup_cons]
    by_cases h : k = k'
    · subst h
      simp only [beq_self_eq_true, reduceCtorEq, List.mem_cons, not_or, false_iff]
      intro hv
      exact (hv v').1 rfl
    · have hb : (k == k') = false := by simpa using h
      rw [hb]
      simp only [ih, List.mem_cons, not_or, Prod.mk.injEq]
      exact ⟨fun hv v => ⟨fun hk => h hk.1, hv v⟩, fun hv v => (hv v).2⟩

theorem mem_lookup {V : Type} {d : List (Str × V)} {k : Str} {v : V} (hn : (d.map Prod.fst).Nodup)
    (h : (k, v) ∈ d) : d.lookup k = some v := by
  induction d with
  | nil => cases h
  | cons e d ih =>
    obtain ⟨k', v'⟩ := e
    simp only [List.map_cons, List.nodup_cons] at hn
    rw [List.lookup_cons]
    rcases List.mem_cons.1 h with he | hm
    · cases he; simp
    · have : (k == k') = false := by
        simp only [beq_eq_false_iff_ne, ne_eq]
        rintro rfl
        exact hn.1 (List.mem_map.2 ⟨_, hm, rfl⟩)
      rw [this]
      exact ih hn.2 hm

/-! ## Numbers -/

theorem isDec_iff {c : Nat} : isDigit c = true ↔ IsDec c := by simp [isDigit, IsDec]

theorem intBody_go {s : Str} (hs : ∀ c ∈ s, IsDec c) (acc : Nat) (b : Bool) (hb : b = true ∨ s ≠ []) :
    intBody.go acc b s = some (s.foldl (fun n c => 10 * n + (c - 48)) acc) := by
  induction s generalizing acc b with
  | nil =>
    rcases hb with hb | hb
    · subst hb; simp [intBody.go]
    · exact absurd rfl hb
  | cons c s ih =>
    rw [intBody.go, if_pos (isDec_iff.2 (hs c List.mem_cons_self))]
    rw [ih (fun x hx => hs x (List.mem_cons_of_mem _ hx)) _ _ (.inl rfl), List.foldl_cons,
      Nat.mul_comm acc 10]

theorem intBody_numeral {s : Str} {n : Nat} (h : Numeral s n) : intBody s = some n := by
  rw [intBody, intBody_go h.2.1 0 false (.inr h.1), h.2.2, numberOf]

theorem dec_not_space {c : Nat} (h : IsDec c) : isSpaceChar c = false := by
  obtain ⟨h1, h2⟩ := h
  simp only [isSpaceChar, Bool.or_eq_false_iff, Bool.and_eq_false_iff, decide_eq_false_iff_not]
  omega

theorem dropWhile_nothing {p : Nat → Bool} {s : Str} (h : ∀ c ∈ s, p c = false) :
    s.dropWhile p = s := by
  cases s with
  | nil => rfl
  | cons c s => rw [List.dropWhile_cons, h c List.mem_cons_self]; rfl

theorem strip_digits {s : Str} (h : ∀ c ∈ s, IsDec c) : stripText s = s := by
  rw [stripText, dropWhile_nothing fun c hc => dec_not_space (h c hc), dropWhile_nothing, List.reverse_reverse]
  intro c hc
  exact dec_not_space (h c (List.mem_reverse.1 hc))

theorem pyInt_numeral {s : Str} {n : Nat} (h : Numeral s n) : pyInt s = some (n : Int) := by
  have hb := intBody_numeral h
  rw [pyInt, strip_digits h.2.1]
  cases s with
  | nil => exact absurd rfl h.1
  | cons c s =>
    have hc := h.2.1 c List.mem_cons_self
    obtain ⟨h1, h2⟩ := hc
    split
    · rename_i t heq; injection heq with h3 h4; omega
    · rename_i t heq; injection heq with h3 h4; omega
    · rw [hb]; rfl

theorem toDigits_numeral (n : Nat) : Numeral (decimalText n) n := by
  have e : (toString n).toList = Nat.toDigits 10 n := by
    rw [show toString n = n.repr from rfl, Nat.repr]; simp
  have hd : ∀ c ∈ decimalText n, IsDec c := by
    intro c hc
    rw [decimalText, str, List.mem_map] at hc
    obtain ⟨ch, hm, rfl⟩ := hc
    rw [e] at hm
    have := Nat.isDigit_of_mem_toDigits (by decide) (by decide) hm
    simp only [Char.isDigit, Bool.and_eq_true, decide_eq_true_eq] at this
    exact this
  refine ⟨?_, hd, ?_⟩
  · rw [decimalText, str, e]
    intro h
    have : (Nat.toDigits 10 n).length = 0 := by
      rw [List.map_eq_nil_iff] at h; rw [h]; rfl
    have h2 := Nat.length_toDigits_pos (b := 10) (n := n)
    omega
  · rw [numberOf, decimalText, str, e, List.foldl_map]
    have := Nat.ofDigitChars_ten_toDigits (n := n)
    rw [Nat.ofDigitChars_eq_foldl] at this
    exact this.symm

/-! ## Cells -/

theorem digits_all {s : Str} : s.all isDigit = true ↔ ∀ c ∈ s, IsDec c := by
  rw [List.all_eq_true]
  exact ⟨fun h c hc => isDec_iff.1 (h c hc), fun h c hc => isDec_iff.2 (h c hc)⟩

theorem yesNo_iff {s : Str} :
    (∃ b, YesNo s b) ↔ asciiLower s = str "true" ∨ asciiLower s = str "false" := by
  constructor
  · rintro ⟨b, hb⟩
    cases b with
    | true => exact .inl hb
    | false => exact .inr hb
  · rintro (h | h)
    · exact ⟨true, h⟩
    · exact ⟨false, h⟩

theorem yesNo_not_digits {s : Str} {b : Bool} (h : YesNo s b) : ¬ ∀ c ∈ s, IsDec c := by
  intro hd
  have : ∃ c ∈ s, 97 ≤ lowerChar c := by
    have hm : ∃ c ∈ asciiLower s, 97 ≤ c := by
      rw [YesNo] at h
      cases b with
      | true => exact ⟨116, by rw [h]; decide, by decide⟩
      | false => exact ⟨102, by rw [h]; decide, by decide⟩
    obtain ⟨c, hc, h97⟩ := hm
    rw [asciiLower, List.mem_map] at hc
    obtain ⟨d, hd', rfl⟩ := hc
    exact ⟨d, hd', h97⟩
  obtain ⟨c, hc, h97⟩ := this
  obtain ⟨h1, h2⟩ := hd c hc
  rw [lowerChar] at h97
  split at h97 <;> omega

theorem cellSays_field {c : KnowClass} (hc : Orderly c) {field s : Str} {v : Scalar}
    (_ : s ≠ []) (h : CellSays c field s v) : processField c field s = .ok v := by
  cases h with
  | name _ hn => rw [processField, if_pos rfl, mkKey, hn]; rfl
  | code _ n hn hd => rw [processField, if_pos rfl, mkKey, if_pos hn, pyInt_numeral hd]; rfl
  | number _ _ n hf hd =>
    rw [processField, if_neg hf, if_pos (digits_all.2 hd.2.1), intBody_numeral hd]
  | yesNo _ _ b hf hy =>
    rw [processField, if_neg hf, if_neg (fun h => yesNo_not_digits hy (digits_all.1 h)),
      if_pos (yesNo_iff.1 ⟨b, hy⟩)]
    rw [YesNo] at hy
    cases b with
    | true => simp [hy]
    | false => rw [hy]; rfl
  | member _ _ members hf hd hy hm hin =>
    rw [processField, if_neg hf, if_neg (fun h => hd (digits_all.1 h)),
      if_neg (fun h => by obtain ⟨b, hb⟩ := yesNo_iff.2 h; exact hy b hb), mem_lookup hc.once hm]
    simp [hin]
  | text _ _ hf hd hy hm =>
    rw [processField, if_neg hf, if_neg (fun h => hd (digits_all.1 h)),
      if_neg (fun h => by obtain ⟨b, hb⟩ := yesNo_iff.2 h; exact hy b hb), lookup_none_iff.2 hm]

/-- The converse, for reading off what a given cell says. -/
theorem field_cellSays {c : KnowClass} {field s : Str} {v : Scalar} (hs : s ≠ [])
    (hf : field = str "key" → c.numeric = false ∨ s.all isDigit = true)
    (h : processField c field s = .ok v) : CellSays c field s v := by
  rw [processField] at h
  split at h
  · rename_i hk
    subst hk
    rw [mkKey] at h
    cases hn : c.numeric with
    | false => rw [hn] at h; cases h; exact .name s hn
    | true =>
      have hd := digits_all.1 ((hf rfl).resolve_left (by rw [hn]; decide))
      have hnum : Numeral s (numberOf s) := ⟨hs, hd, rfl⟩
      rw [if_pos hn, pyInt_numeral hnum] at h
      cases h
      exact .code s _ hn hnum
  · rename_i hk
    split at h
    · rename_i hd
      have hnum : Numeral s (numberOf s) := ⟨hs, digits_all.1 hd, rfl⟩
      rw [intBody_numeral hnum] at h
      cases h
      exact .number _ _ _ hk hnum
    · rename_i hd
      have hd : ¬ ∀ c ∈ s, IsDec c := fun h' => hd (digits_all.2 h')
      split at h
      · rename_i hy
        cases h
        refine .yesNo _ _ _ hk ?_
        rw [YesNo]
        rcases hy with hy | hy
        · simp [hy]
        · rw [hy]; rfl
      · rename_i hy
        have hy : ∀ b, ¬ YesNo s b := fun b hb => hy (yesNo_iff.1 ⟨b, hb⟩)
        split at h
        · rename_i members hm
          split at h
          · rename_i hin
            cases h
            exact .member _ _ members hk hd hy (lookup_pair_mem hm) (by simpa using hin)
          · cases h
        · rename_i hm
          cases h
          exact .text _ _ hk hd hy (lookup_none_iff.1 hm)

/-- What a row has in a column, computed. -/
def rowVal (c : KnowClass) (raw : Dict Str) (field : Str) : Option Scalar :=
  match raw.get field with
  | none => none
  | some s => if s = [] then none else (processField c field s).toOption

theorem rowVal_some {c : KnowClass} (hc : Orderly c) {raw : Dict Str}
    (hn : (raw.map Prod.fst).Nodup) {field : Str} {v : Scalar} (h : RowSays c raw field v) :
    rowVal c raw field = some v := by
  obtain ⟨s, hm, hs, hv⟩ := h
  rw [rowVal, dict_mem_get hn hm]
  simp only [hs, if_false, cellSays_field hc hs hv]
  rfl

theorem rowVal_none {c : KnowClass} {raw : Dict Str} {field : Str} (h : Silent raw field) :
    rowVal c raw field = none := by
  rw [rowVal]
  split
  · rfl
  · rename_i s hs
    rw [if_pos (h s (dict_get_mem hs))]

/-- Every column says something or nothing. -/
theorem says_rowVal {c : KnowClass} (hc : Orderly c) {raw : Dict Str}
    (hn : (raw.map Prod.fst).Nodup)
    (hcells : ∀ field s, (field, s) ∈ raw → s ≠ [] → ∃ v, CellSays c field s v) (field : Str) :
    Says c raw field (rowVal c raw field) := by
  by_cases h : Silent raw field
  · rw [rowVal_none h]; exact h
  · have : ∃ s, (field, s) ∈ raw ∧ s ≠ [] := by
      apply Classical.byContradiction
      intro hno
      apply h
      intro s hs
      apply Classical.byContradiction
      intro hne
      exact hno ⟨s, hs, hne⟩
    obtain ⟨s, hs, hne⟩ := this
    obtain ⟨v, hv⟩ := hcells field s hs hne
    have hr : RowSays c raw field v := ⟨s, hs, hne, hv⟩
    rw [rowVal_some hc hn hr]
    exact hr

theorem processFields_get {c : KnowClass} (hc : Orderly c) (p : Dict KCell) (raw : Dict Str)
    (hn : (raw.map Prod.fst).Nodup)
    (hcells : ∀ field s, (field, s) ∈ raw → s ≠ [] → ∃ v, CellSays c field s v) :
    ∃ q, processFields c p raw = .ok q ∧ ∀ field, q.get field =
      match rowVal c raw field with
      | some v => some (.plain v)
      | none => p.get field := by
  induction raw generalizing p with
  | nil => exact ⟨p, rfl, fun field => rfl⟩
  | cons e raw ih =>
    obtain ⟨f, s⟩ := e
    simp only [List.map_cons, List.nodup_cons] at hn
    have hcells' : ∀ field s, (field, s) ∈ raw → s ≠ [] → ∃ v, CellSays c field s v :=
      fun field s hm => hcells field s (List.mem_cons_of_mem _ hm)
    have hf : Dict.get raw f = none :=
      dict_get_none.2 fun v hv => hn.1 (List.mem_map.2 ⟨_, hv, rfl⟩)
    have hval : ∀ field, rowVal c ((f, s) :: raw) field =
        if f = field then (if s = [] then none else (processField c f s).toOption)
        else rowVal c raw field := by
      intro field
      rw [rowVal, Dict.get]
      by_cases hff : f = field
      · subst hff; simp
      · rw [if_neg hff, if_neg hff]; rfl
    by_cases hs : s = []
    · obtain ⟨q, hq, hg⟩ := ih p hn.2 hcells'
      refine ⟨q, ?_, ?_⟩
      · rw [processFields, hs]; exact hq
      · intro field
        rw [hg, hval]
        by_cases hff : f = field
        · subst hff
          rw [if_pos rfl, if_pos hs]
          simp only [rowVal, hf]
        · rw [if_neg hff]
    · obtain ⟨v, hv⟩ := hcells f s List.mem_cons_self hs
      have hp := cellSays_field hc hs hv
      obtain ⟨q, hq, hg⟩ := ih (p.set f (.plain v)) hn.2 hcells'
      refine ⟨q, ?_, ?_⟩
      · rw [processFields]
        have : s.isEmpty = false := by simpa using hs
        rw [this, hp]
        exact hq
      · intro field
        rw [hg, hval, dict_get_set]
        by_cases hff : f = field
        · subst hff
          rw [if_pos rfl, if_neg hs, hp, if_pos rfl]
          simp only [rowVal, hf]
          rfl
        · rw [if_neg hff, if_neg (Ne.symm hff)]

/-! ## Citations -/

theorem rowSays_kind {c : KnowClass} {raw : Dict Str} {field : Str} (hf : field ≠ str "key")
    (he : ∀ members, (field, members) ∉ c.enums) {v : Scalar} (h : RowSays c raw field v) :
    (∃ n : Nat, v = .num n) ∨ (∃ b, v = .flag b) ∨ ∃ s, s ≠ [] ∧ v = .text s := by
  obtain ⟨s, hm, hs, hv⟩ := h
  cases hv with
  | name => exact absurd rfl hf
  | code => exact absurd rfl hf
  | number _ _ n => exact .inl ⟨n, rfl⟩
  | yesNo _ _ b => exact .inr (.inl ⟨b, rfl⟩)
  | member _ _ members _ _ _ hm' => exact absurd hm' (he members)
  | text => exact .inr (.inr ⟨s, hs, rfl⟩)

theorem rowSays_unique {c : KnowClass} (hc : Orderly c) {raw : Dict Str}
    (hn : (raw.map Prod.fst).Nodup) {field : Str} {v w : Scalar} (hv : RowSays c raw field v)
    (hw : RowSays c raw field w) : v = w :=
  Option.some.inj ((rowVal_some hc hn hv).symm.trans (rowVal_some hc hn hw))

theorem shownIf_num {n : Nat} (h : n ≠ 0) :
    shownIf (some (.num (n : Int))) = some (str (toString n)) := by
  have : (Scalar.num (n : Int)).truthy = true := by simpa [Scalar.truthy] using h
  rw [shownIf, if_pos this]
  rfl

theorem part_shown {c : KnowClass} (hc : Orderly c) {raw : Dict Str}
    (hn : (raw.map Prod.fst).Nodup) {field : Str} {o : Option Str} (h : Part c raw field o) :
    o = shownIf (rowVal c raw field) := by
  cases h with
  | none hs => rw [rowVal_none hs]; rfl
  | zero hr => rw [rowVal_some hc hn hr]; rfl
  | no hr => rw [rowVal_some hc hn hr]; rfl
  | number n h0 hr =>
    rw [rowVal_some hc hn hr, shownIf_num h0]
  | yes hr => rw [rowVal_some hc hn hr]; rfl
  | text s hr =>
    rw [rowVal_some hc hn hr]
    obtain ⟨t, _, ht, hv⟩ := hr
    have : s = t := by cases hv; rfl
    subst this
    have : s.isEmpty = false := by simpa using ht
    simp [shownIf, Scalar.truthy, Scalar.show, ht]

theorem shown_part {c : KnowClass} (hc : Orderly c) {raw : Dict Str}
    (hn : (raw.map Prod.fst).Nodup) {field : Str} (hf : field ≠ str "key")
    (he : ∀ members, (field, members) ∉ c.enums)
    (hcells : ∀ field s, (field, s) ∈ raw → s ≠ [] → ∃ v, CellSays c field s v) :
    Part c raw field (shownIf (rowVal c raw field)) := by
  have h := says_rowVal hc hn hcells field
  cases hr : rowVal c raw field with
  | none => rw [hr] at h; exact .none h
  | some v =>
    rw [hr] at h
    rcases rowSays_kind hf he h with ⟨n, rfl⟩ | ⟨b, rfl⟩ | ⟨s, hs, rfl⟩
    · by_cases h0 : n = 0
      · subst h0; exact .zero h
      · rw [shownIf_num h0]
        exact .number n h0 h
    · cases b with
      | true => exact .yes h
      | false => exact .no h
    · have : shownIf (some (Scalar.text s)) = some s := by
        simp [shownIf, Scalar.truthy, Scalar.show, hs]
      rw [this]
      exact .text s h

theorem optTrue_shown (x : Option Scalar) : optTrue x = (shownIf x).isSome := by
  cases x with
  | none => rfl
  | some v =>
    simp only [optTrue, shownIf]
    cases v.truthy <;> rfl

theorem mkRfc_ok {n : Int} {s a : Option Scalar} (h : shownIf s = none ∨ shownIf a = none) :
    mkRfc (.num n) s a none = .ok (.rfc n (shownIf s) (shownIf a) none) := by
  have he : optTrue none = false := rfl
  have : (optTrue s && optTrue a) = false := by
    rw [optTrue_shown, optTrue_shown]
    rcases h with h | h <;> simp [h]
  rw [mkRfc, he, this]
  simp [Scalar.toInt]

theorem orderly_part {c : KnowClass} (hc : Orderly c) {field : Str}
    (h : field = str "rfc" ∨ field = str "rfc_section" ∨ field = str "rfc_appendix") :
    field ≠ str "key" ∧ ∀ members, (field, members) ∉ c.enums := by
  constructor
  · rcases h with rfl | rfl | rfl <;> decide
  · intro members hm
    obtain ⟨h1, h2, h3⟩ := hc.plain field (List.mem_map.2 ⟨_, hm, rfl⟩)
    rcases h with h | h | h
    · exact h1 h
    · exact h2 h
    · exact h3 h

theorem silent_iff {c : KnowClass} (hc : Orderly c) {raw : Dict Str}
    (hn : (raw.map Prod.fst).Nodup)
    (hcells : ∀ field s, (field, s) ∈ raw → s ≠ [] → ∃ v, CellSays c field s v) {field : Str} :
    Silent raw field ↔ rowVal c raw field = none := by
  constructor
  · exact rowVal_none
  · intro h
    have := says_rowVal hc hn hcells field
    rw [h] at this
    exact this

theorem rowSays_iff {c : KnowClass} (hc : Orderly c) {raw : Dict Str}
    (hn : (raw.map Prod.fst).Nodup)
    (hcells : ∀ field s, (field, s) ∈ raw → s ≠ [] → ∃ v, CellSays c field s v) {field : Str}
    {v : Scalar} : RowSays c raw field v ↔ rowVal c raw field = some v := by
  constructor
  · exact rowVal_some hc hn
  · intro h
    have := says_rowVal hc hn hcells field
    rw [h] at this
    exact this

/-- The citation of a row, computed. -/
def citeVal (c : KnowClass) (raw : Dict Str) : Option Citation :=
  match rowVal c raw (str "cite_url") with
  | some u => some (.doc (rowVal c raw (str "cite_title")) u)
  | none =>
    match rowVal c raw (str "rfc") with
    | some (.num n) => some (.rfc n (shownIf (rowVal c raw (str "rfc_section")))
        (shownIf (rowVal c raw (str "rfc_appendix"))) none)
    | _ => none

theorem cites_val {c : KnowClass} (hc : Orderly c) {raw : Dict Str}
    (hn : (raw.map Prod.fst).Nodup) {o : Option Citation} (h : Cites c raw o) :
    o = citeVal c raw := by
  cases h with
  | url title u hu ht =>
    rw [citeVal, rowVal_some hc hn hu]
    cases title with
    | none => rw [rowVal_none ht]
    | some t => rw [rowVal_some hc hn ht]
  | rfc n s a hu hr hs ha =>
    rw [citeVal, rowVal_none hu, rowVal_some hc hn hr, part_shown hc hn hs, part_shown hc hn ha]
  | nothing hu hr => rw [citeVal, rowVal_none hu, rowVal_none hr]

theorem val_cites {find : Str → Str → Except KnowErr Nat} {c : KnowClass} (hc : Orderly c)
    {raw : Dict Str} (hn : (raw.map Prod.fst).Nodup) (hu : Understood find c raw) :
    Cites c raw (citeVal c raw) := by
  rw [citeVal]
  cases h : rowVal c raw (str "cite_url") with
  | some u => exact .url _ _ ((rowSays_iff hc hn hu.cells).2 h) (says_rowVal hc hn hu.cells _)
  | none =>
    have hs := (silent_iff hc hn hu.cells).2 h
    cases hr : rowVal c raw (str "rfc") with
    | none => exact .nothing hs ((silent_iff hc hn hu.cells).2 hr)
    | some v =>
      have : ¬ Silent raw (str "rfc") := by
        rw [silent_iff hc hn hu.cells, hr]; simp
      obtain ⟨n, hrow⟩ := hu.rfc this
      have hv : v = .num n := Option.some.inj (hr.symm.trans (rowVal_some hc hn hrow))
      subst hv
      exact .rfc n _ _ hs hrow
        (shown_part hc hn (orderly_part hc (.inr (.inl rfl))).1 (orderly_part hc (.inr (.inl rfl))).2
          hu.cells)
        (shown_part hc hn (orderly_part hc (.inr (.inr rfl))).1 (orderly_part hc (.inr (.inr rfl))).2
          hu.cells)

/-- The fields that `citeRfc` and `citeUrl` leave. -/
theorem cite_fields {find : Str → Str → Except KnowErr Nat} {c : KnowClass} (hc : Orderly c)
    {raw : Dict Str} (hcol : Columns raw) (hu : Understood find c raw) {q : Dict KCell}
    (hq : ∀ field, q.get field = (rowVal c raw field).map .plain) :
    ∃ p, citeRfc q = .ok p ∧ ∀ field, (citeUrl p).get field =
      if field = str "citation" then (citeVal c raw).map .cite
      else if (field = str "rfc" ∨ field = str "rfc_section" ∨ field = str "rfc_appendix") ∧
          (rowVal c raw (str "rfc")).isSome then none
      else if (field = str "cite_url" ∨ field = str "cite_title") ∧
          (rowVal c raw (str "cite_url")).isSome then none
      else (rowVal c raw field).map .plain := by
  have hn := hcol.once
  have hcit : rowVal c raw (str "citation") = none :=
    rowVal_none fun s hs => absurd hs (hcol.citation s)
  have first : ∃ p, citeRfc q = .ok p ∧ ∀ field, p.get field =
      if field = str "citation" ∧ (rowVal c raw (str "rfc")).isSome then
        (match rowVal c raw (str "rfc") with
          | some (.num n) => some (.cite (.rfc n (shownIf (rowVal c raw (str "rfc_section")))
              (shownIf (rowVal c raw (str "rfc_appendix"))) none))
          | _ => none)
      else if (field = str "rfc" ∨ field = str "rfc_section" ∨ field = str "rfc_appendix") ∧
          (rowVal c raw (str "rfc")).isSome then none
      else (rowVal c raw field).map .plain := by
    rw [citeRfc, hq (str "rfc")]
    cases hr : rowVal c raw (str "rfc") with
    | none =>
      refine ⟨q, rfl, fun field => ?_⟩
      rw [hq]
      simp
    | some v =>
      have hns : ¬ Silent raw (str "rfc") := by
        rw [silent_iff hc hn hu.cells, hr]; simp
      obtain ⟨n, hrow⟩ := hu.rfc hns
      have hv : v = .num n := Option.some.inj (hr.symm.trans (rowVal_some hc hn hrow))
      subst hv
      have hone : shownIf (rowVal c raw (str "rfc_section")) = none ∨
          shownIf (rowVal c raw (str "rfc_appendix")) = none := by
        rcases hu.onePart hns with h | h
        · exact .inl (part_shown hc hn h).symm
        · exact .inr (part_shown hc hn h).symm
      have hsc : ∀ f, scalarOf (q.get f) = rowVal c raw f := by
        intro f
        rw [hq]
        cases rowVal c raw f <;> rfl
      simp only [Option.map_some, hsc]
      rw [show scalarOf (some (KCell.plain (.num (n : Int)))) = some (.num n) from rfl]
      simp only [mkRfc_ok hone]
      refine ⟨_, rfl, fun field => ?_⟩
      rw [dict_get_set, dict_get_drop, dict_get_drop, dict_get_drop, hq]
      by_cases h0 : field = str "citation"
      · simp [h0]
      · simp only [h0, if_false, Option.isSome_some, and_true]
        by_cases h1 : field = str "rfc_appendix"
        · simp [h1]
        · by_cases h2 : field = str "rfc_section"
          · simp [h2]
          · by_cases h3 : field = str "rfc"
            · simp [h3]
            · simp [h1, h2, h3]
  obtain ⟨p, hp, hg⟩ := first
  refine ⟨p, hp, fun field => ?_⟩
  have hurl : p.get (str "cite_url") = (rowVal c raw (str "cite_url")).map .plain := by
    rw [hg, if_neg (by simp (decide := true)), if_neg (by simp (decide := true))]
  have htit : p.get (str "cite_title") = (rowVal c raw (str "cite_title")).map .plain := by
    rw [hg, if_neg (by simp (decide := true)), if_neg (by simp (decide := true))]
  have hsome : ∀ o : Option Scalar, scalarOf (o.map KCell.plain) = o := by
    intro o; cases o <;> rfl
  rw [citeUrl, hurl, htit, hsome, hsome]
  cases hr : rowVal c raw (str "cite_url") with
  | none =>
    simp only [hg, Option.isSome_none, Bool.false_eq_true, and_false, if_false]
    by_cases h0 : field = str "citation"
    · subst h0
      simp only [true_and, if_true, citeVal, hr, hcit]
      cases hrfc : rowVal c raw (str "rfc") with
      | none =>
        simp (decide := true)
      | some v =>
        simp only [Option.isSome_some, if_true]
        cases v <;> rfl
    · simp [h0]
  | some u =>
    rw [dict_get_set, dict_get_drop, dict_get_drop, hg]
    by_cases h0 : field = str "citation"
    · subst h0
      simp [citeVal, hr]
    · simp only [h0, if_false, false_and, Option.isSome_some, and_true]
      by_cases h1 : field = str "cite_url"
      · subst h1
        simp
      · by_cases h2 : field = str "cite_title"
        · subst h2
          simp
        · simp [h1, h2]

end Httpolice.Lemmas
