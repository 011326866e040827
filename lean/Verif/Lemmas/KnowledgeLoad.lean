import Verif.Lemmas.Knowledge

/-!
# Lemmas about loading the tables and looking things up
-/

namespace Httpolice.Lemmas

open Httpolice.Model Httpolice.Spec

theorem used_iff {find : Str → Str → Except KnowErr Nat} {c : KnowClass} (hc : Orderly c)
    {raw : Dict Str} (hcol : Columns raw) (hu : Understood find c raw) {field : Str} :
    Used c raw field ↔
      (field = str "rfc" ∨ field = str "rfc_section" ∨ field = str "rfc_appendix") ∧
        (rowVal c raw (str "rfc")).isSome = true ∨
      (field = str "cite_url" ∨ field = str "cite_title") ∧
        (rowVal c raw (str "cite_url")).isSome = true ∨
      c.hasSyntax = true ∧ (field = str "syntax_module" ∨ field = str "syntax_symbol") ∧
        (rowVal c raw (str "syntax_module")).isSome = true := by
  have : ∀ f, ¬ Silent raw f ↔ (rowVal c raw f).isSome = true := by
    intro f
    rw [silent_iff hc hcol.once hu.cells]
    cases rowVal c raw f <;> simp
  rw [Used, this, this, this]

theorem process_describes {find : Str → Str → Except KnowErr Nat} {c : KnowClass} (hc : Orderly c)
    {raw : Dict Str} (hcol : Columns raw) (hu : Understood find c raw) :
    ∃ d, process find c raw = .ok d ∧ Describes find c raw d := by
  have hn := hcol.once
  obtain ⟨q, hq, hg⟩ := processFields_get hc [] raw hn hu.cells
  have hg' : ∀ field, q.get field = (rowVal c raw field).map .plain := by
    intro field
    rw [hg]
    cases rowVal c raw field <;> rfl
  obtain ⟨p, hp, hf⟩ := cite_fields hc hcol hu hg'
  have hsyn : rowVal c raw (str "syntax") = none :=
    rowVal_none fun s hs => absurd hs (hcol.grammar s)
  have hsome : ∀ o : Option Scalar, scalarOf (o.map KCell.plain) = o := by
    intro o; cases o <;> rfl
  -- what is common to all cases
  have finish : ∀ d : Dict KCell,
      (∀ field, field ≠ str "syntax" → ¬ (c.hasSyntax = true ∧
          (field = str "syntax_module" ∨ field = str "syntax_symbol") ∧
          (rowVal c raw (str "syntax_module")).isSome = true) →
        d.get field = (citeUrl p).get field) →
      (∀ field, (c.hasSyntax = true ∧ (field = str "syntax_module" ∨ field = str "syntax_symbol") ∧
          (rowVal c raw (str "syntax_module")).isSome = true) → d.get field = none) →
      (∀ m s n, c.hasSyntax = true → RowSays c raw (str "syntax_module") (.text m) →
        RowSays c raw (str "syntax_symbol") (.text s) → find m s = .ok n →
          d.get (str "syntax") = some (.symbol n)) →
      (c.hasSyntax = false ∨ Silent raw (str "syntax_module") → d.get (str "syntax") = none) →
      Describes find c raw d := by
    intro d h1 h2 h3 h4
    refine ⟨?_, ⟨_, val_cites hc hn hu⟩, h3, h4, ?_⟩
    · intro cite hcite
      rw [cites_val hc hn hcite, h1 _ (by decide) (by simp (decide := true)), hf, if_pos rfl]
    · intro field hne1 hne2
      rw [used_iff hc hcol hu]
      constructor
      · rintro (h | h | h)
        · have hns : ¬ (c.hasSyntax = true ∧
              (field = str "syntax_module" ∨ field = str "syntax_symbol") ∧
              (rowVal c raw (str "syntax_module")).isSome = true) := by
            rintro ⟨_, hx, _⟩
            rcases h.1 with rfl | rfl | rfl <;> revert hx <;> decide
          rw [h1 field hne2 hns, hf, if_neg hne1, if_pos h]
        · have hns : ¬ (c.hasSyntax = true ∧
              (field = str "syntax_module" ∨ field = str "syntax_symbol") ∧
              (rowVal c raw (str "syntax_module")).isSome = true) := by
            rintro ⟨_, hx, _⟩
            rcases h.1 with rfl | rfl <;> revert hx <;> decide
          rw [h1 field hne2 hns, hf, if_neg hne1, if_neg, if_pos h]
          rintro ⟨hx, _⟩
          rcases h.1 with rfl | rfl <;> revert hx <;> decide
        · exact h2 field h
      · intro h
        rw [not_or, not_or] at h
        refine ⟨_, says_rowVal hc hn hu.cells field, ?_⟩
        rw [h1 field hne2 h.2.2, hf, if_neg hne1, if_neg h.1, if_neg h.2.1]
  simp only [process, hq, hp]
  have hmod : (citeUrl p).get (str "syntax_module") = (rowVal c raw (str "syntax_module")).map .plain := by
    rw [hf, if_neg (by decide), if_neg (by simp (decide := true)), if_neg (by simp (decide := true))]
  have hsym : (citeUrl p).get (str "syntax_symbol") = (rowVal c raw (str "syntax_symbol")).map .plain := by
    rw [hf, if_neg (by decide), if_neg (by simp (decide := true)), if_neg (by simp (decide := true))]
  have hnos : (citeUrl p).get (str "syntax") = none := by
    rw [hf, if_neg (by decide), if_neg (by simp (decide := true)), if_neg (by simp (decide := true)),
      hsyn]
    rfl
  cases hb : c.hasSyntax with
  | false =>
    refine ⟨_, rfl, finish _ (fun _ _ _ => rfl) ?_ ?_ fun _ => hnos⟩
    · rintro field ⟨h, _⟩; rw [hb] at h; exact absurd h (by decide)
    · intro m s n h; rw [hb] at h; exact absurd h (by decide)
  | true =>
    rw [if_pos rfl, findSyntax, hmod, hsym, hsome, hsome]
    cases hm : rowVal c raw (str "syntax_module") with
    | none =>
      refine ⟨_, rfl, finish _ (fun _ _ _ => rfl) ?_ ?_ fun _ => hnos⟩
      · rintro field ⟨_, _, h⟩; rw [hm] at h; exact absurd h (by decide)
      · intro m s n _ h
        rw [rowSays_iff hc hn hu.cells, hm] at h
        exact absurd h (by simp)
    | some v =>
      have : ¬ Silent raw (str "syntax_module") := by
        rw [silent_iff hc hn hu.cells, hm]; simp
      obtain ⟨m, s, n, h1, h2, h3⟩ := hu.grammar hb this
      have hv : v = .text m := Option.some.inj (hm.symm.trans (rowVal_some hc hn h1))
      subst hv
      rw [rowVal_some hc hn h2]
      simp only [Scalar.show, h3]
      refine ⟨_, rfl, finish _ ?_ ?_ ?_ ?_⟩
      · intro field hne hnot
        rw [hm] at hnot
        have hx : field ≠ str "syntax_module" ∧ field ≠ str "syntax_symbol" := by
          constructor
          · intro h; exact hnot ⟨hb, .inl h, rfl⟩
          · intro h; exact hnot ⟨hb, .inr h, rfl⟩
        rw [dict_get_set, if_neg hne, dict_get_drop, if_neg hx.2, dict_get_drop, if_neg hx.1]
      · rintro field ⟨_, hx, _⟩
        rw [dict_get_set, dict_get_drop, dict_get_drop]
        rcases hx with rfl | rfl <;> simp (decide := true)
      · intro m' s' n' _ hm' hs' hf'
        have e1 := rowSays_unique hc hn hm' h1
        have e2 := rowSays_unique hc hn hs' h2
        cases e1; cases e2
        rw [h3] at hf'
        cases hf'
        rw [dict_get_set, if_pos rfl]
      · rintro (h | h)
        · rw [hb] at h; exact absurd h (by decide)
        · exact absurd h this

/-! ## Keys -/

theorem sameKey_iff {lower : Str → Str} {c : KnowClass} {a b : KeyVal} :
    sameKey lower c a b = true ↔ Alike lower c a b := by
  cases a with
  | word s =>
    cases b with
    | word t =>
      simp only [sameKey, Alike]
      cases c.ci with
      | true =>
        simp only [if_true, beq_iff_eq, true_and]
        exact ⟨.inr, fun h => h.elim (fun h => h ▸ rfl) id⟩
      | false => simp
    | num n => simp [sameKey, Alike]
  | num m =>
    cases b with
    | word t => simp [sameKey, Alike]
    | num n => simp [sameKey, Alike]

theorem alike_symm {lower : Str → Str} {c : KnowClass} {a b : KeyVal} (h : Alike lower c a b) :
    Alike lower c b a := by
  cases a <;> cases b <;> simp only [Alike] at h ⊢
  · exact h.imp Eq.symm fun h => ⟨h.1, h.2.symm⟩
  · exact h.symm

theorem alike_trans {lower : Str → Str} {c : KnowClass} {a b d : KeyVal} (h : Alike lower c a b)
    (h' : Alike lower c b d) : Alike lower c a d := by
  cases a <;> cases b <;> cases d <;> simp only [Alike] at h h' ⊢
  · rcases h with rfl | ⟨h1, h2⟩
    · exact h'
    · rcases h' with rfl | ⟨h3, h4⟩
      · exact .inr ⟨h1, h2⟩
      · exact .inr ⟨h1, h2.trans h4⟩
  · exact h.trans h'

theorem keyLookup_alike {V : Type} {lower : Str → Str} {c : KnowClass} {a b : KeyVal}
    (h : Alike lower c a b) (d : List (KeyVal × V)) :
    keyLookup lower c a d = keyLookup lower c b d := by
  induction d with
  | nil => rfl
  | cons e d ih =>
    obtain ⟨k, v⟩ := e
    have : sameKey lower c k a = sameKey lower c k b := by
      rw [Bool.eq_iff_iff, sameKey_iff, sameKey_iff]
      exact ⟨fun h' => alike_trans h' h, fun h' => alike_trans h' (alike_symm h)⟩
    simp only [keyLookup, this, ih]

theorem keyLookup_some {V : Type} {lower : Str → Str} {c : KnowClass} {k : KeyVal}
    {d : List (KeyVal × V)} {v : V} (h : keyLookup lower c k d = some v) :
    ∃ k', (k', v) ∈ d ∧ Alike lower c k' k := by
  induction d with
  | nil => simp [keyLookup] at h
  | cons e d ih =>
    obtain ⟨k', v'⟩ := e
    rw [keyLookup] at h
    split at h
    · rename_i hs
      cases h
      exact ⟨k', List.mem_cons_self, sameKey_iff.1 hs⟩
    · obtain ⟨k'', hm, ha⟩ := ih h
      exact ⟨k'', List.mem_cons_of_mem _ hm, ha⟩

theorem keyLookup_none {V : Type} {lower : Str → Str} {c : KnowClass} {k : KeyVal}
    {d : List (KeyVal × V)} :
    keyLookup lower c k d = none ↔ ∀ k' v, (k', v) ∈ d → ¬ Alike lower c k' k := by
  induction d with
  | nil => simp [keyLookup]
  | cons e d ih =>
    obtain ⟨k', v'⟩ := e
    rw [keyLookup]
    by_cases hs : sameKey lower c k' k = true
    · rw [if_pos hs]
      simp only [reduceCtorEq, false_iff]
      intro h
      exact h k' v' List.mem_cons_self (sameKey_iff.1 hs)
    · rw [if_neg hs, ih]
      constructor
      · intro h k'' v'' hm
        rcases List.mem_cons.1 hm with he | hm
        · cases he; exact fun ha => hs (sameKey_iff.2 ha)
        · exact h k'' v'' hm
      · intro h k'' v'' hm
        exact h k'' v'' (List.mem_cons_of_mem _ hm)

theorem keyLookup_append {V : Type} {lower : Str → Str} {c : KnowClass} {k : KeyVal}
    {d e : List (KeyVal × V)} :
    keyLookup lower c k (d ++ e) = (keyLookup lower c k d).or (keyLookup lower c k e) := by
  induction d with
  | nil => simp [keyLookup]
  | cons x d ih =>
    obtain ⟨k', v'⟩ := x
    simp only [List.cons_append, keyLookup]
    split
    · rfl
    · exact ih

/-! ## Names -/

theorem mapped_chars (s : Str) :
    asciiLower (swapChar 46 95 (swapChar 43 95 (swapChar 47 95 (swapChar 32 95 (swapChar 45 32 s))))) =
      s.map nameChar := by
  simp only [asciiLower, swapChar, List.map_map]
  apply List.map_congr_left
  intro c _
  simp only [Function.comp, nameChar, lowerChar]
  by_cases h1 : c = 45
  · subst h1; decide
  · by_cases h2 : c = 32
    · subst h2; decide
    · by_cases h3 : c = 47
      · subst h3; decide
      · by_cases h4 : c = 43
        · subst h4; decide
        · by_cases h5 : c = 46
          · subst h5; decide
          · simp [h1, h2, h3, h4, h5]

theorem plainName_eq (s : Str) : plainName s = attrName s := by
  simp only [plainName, mapped_chars, attrName]
  split
  · rename_i h
    rw [if_pos]
    simpa using h
  · rename_i h
    rw [if_neg, List.append_nil]
    simpa using h

theorem upperName_eq (s : Str) : asciiUpper (plainName s) = bigName s := by
  rw [plainName_eq, asciiUpper, bigName]
  rfl

theorem hasName_iff {c : KnowClass} {raw : Dict Str} (hn : (raw.map Prod.fst).Nodup) {key : KeyVal}
    {name : Str} : NamedAs c raw key name ↔ nameFromRaw c key raw = .ok name := by
  constructor
  · intro h
    cases h with
    | key s hp => simp [nameFromRaw, hp, plainName_eq]
    | title n t hp ht => simp [nameFromRaw, hp, dict_mem_get hn ht, plainName_eq]
    | big s hp => simp [nameFromRaw, hp, upperName_eq]
    | bigTitle n t hp ht => simp [nameFromRaw, hp, dict_mem_get hn ht, upperName_eq]
    | same s hp => simp [nameFromRaw, hp]
  · intro h
    cases hp : c.naming with
    | plain =>
      cases key with
      | word s =>
        simp [nameFromRaw, hp, plainName_eq] at h
        subst h; exact .key s hp
      | num n =>
        cases ht : raw.get (str "title") with
        | none => simp [nameFromRaw, hp, ht] at h
        | some t =>
          simp [nameFromRaw, hp, ht, plainName_eq] at h
          subst h; exact .title n t hp (dict_get_mem ht)
    | upper =>
      cases key with
      | word s =>
        simp [nameFromRaw, hp, upperName_eq] at h
        subst h; exact .big s hp
      | num n =>
        cases ht : raw.get (str "title") with
        | none => simp [nameFromRaw, hp, ht] at h
        | some t =>
          simp [nameFromRaw, hp, ht, upperName_eq] at h
          subst h; exact .bigTitle n t hp (dict_get_mem ht)
    | same =>
      cases key with
      | word s =>
        simp [nameFromRaw, hp] at h
        subst h; exact .same s hp
      | num n => simp [nameFromRaw, hp] at h

/-! ## Loading -/

theorem hasKey_get {c : KnowClass} {raw : Dict Str} (hn : (raw.map Prod.fst).Nodup) {key : KeyVal}
    (h : HasKey c raw key) : ∃ s, raw.get (str "key") = some s ∧ mkKey c s = .ok key := by
  obtain ⟨s, hm, hv⟩ := h
  refine ⟨s, dict_mem_get hn hm, ?_⟩
  cases hv with
  | name _ h0 => rw [mkKey, h0]; rfl
  | code _ n h0 hd => rw [mkKey, if_pos h0, pyInt_numeral hd]

theorem hasKey_unique {c : KnowClass} {raw : Dict Str} (hn : (raw.map Prod.fst).Nodup)
    {key key' : KeyVal} (h : HasKey c raw key) (h' : HasKey c raw key') : key = key' := by
  obtain ⟨s, h1, h2⟩ := hasKey_get hn h
  obtain ⟨t, h3, h4⟩ := hasKey_get hn h'
  rw [h1] at h3
  cases h3
  rw [h2] at h4
  cases h4
  rfl

/-- The table as it is after the rows. -/
def tableOf (k : Knowledge) (rows : List (Dict Str)) (kn : List (KeyVal × Str)) : Knowledge :=
  { k with rawByKey := k.rawByKey ++ (kn.map Prod.fst).zip rows,
           keysByName := k.keysByName ++ kn.map fun e => (e.2, e.1) }

theorem dict_get_isSome {V : Type} {d : Dict V} {k : Str} :
    (d.get k).isSome = true ↔ k ∈ d.map Prod.fst := by
  cases h : d.get k with
  | none =>
    simp only [Option.isSome_none, Bool.false_eq_true, List.mem_map, false_iff]
    rintro ⟨⟨k', v⟩, hm, rfl⟩
    exact dict_get_none.1 h v hm
  | some v => simp only [Option.isSome_some, true_iff]; exact List.mem_map.2 ⟨_, dict_get_mem h, rfl⟩

theorem keyLookup_isSome {V : Type} {lower : Str → Str} {c : KnowClass} {k : KeyVal}
    {d : List (KeyVal × V)} :
    (keyLookup lower c k d).isSome = true ↔ ∃ k' ∈ d.map Prod.fst, Alike lower c k' k := by
  cases h : keyLookup lower c k d with
  | none =>
    simp only [Option.isSome_none, Bool.false_eq_true, false_iff]
    rintro ⟨k', hm, ha⟩
    obtain ⟨⟨k'', v⟩, hm', rfl⟩ := List.mem_map.1 hm
    exact keyLookup_none.1 h _ v hm' ha
  | some v =>
    obtain ⟨k', hm, ha⟩ := keyLookup_some h
    simp only [Option.isSome_some, true_iff]
    exact ⟨k', List.mem_map.2 ⟨_, hm, rfl⟩, ha⟩

theorem loadRows_ok {lower : Str → Str} {c : KnowClass} {k : Knowledge} {rows : List (Dict Str)}
    {kn : List (KeyVal × Str)} (hcol : ∀ raw ∈ rows, (raw.map Prod.fst).Nodup)
    (hl : TableOf c rows kn)
    (hk : NoneAlike (Alike lower c) (k.rawByKey.map Prod.fst ++ kn.map Prod.fst))
    (hnm : (k.keysByName.map Prod.fst ++ kn.map Prod.snd).Nodup) :
    loadRows lower c k rows = .ok (tableOf k rows kn) := by
  induction hl generalizing k with
  | nil => simp [loadRows, tableOf]
  | cons raw rows key name rest h1 h2 _ ih =>
    have hn := hcol raw List.mem_cons_self
    obtain ⟨s, hs, hkey⟩ := hasKey_get hn h1
    have hno : ¬ (keyLookup lower c key k.rawByKey).isSome = true := by
      rw [keyLookup_isSome]
      rintro ⟨k', hm, ha⟩
      rw [NoneAlike, List.pairwise_append] at hk
      exact hk.2.2 k' hm key (by simp) ha
    have hnn : ¬ (k.keysByName.get name).isSome = true := by
      rw [dict_get_isSome]
      intro hm
      rw [List.nodup_append] at hnm
      exact hnm.2.2 name hm name (by simp) rfl
    rw [loadRows, hs]
    simp only [hkey, if_neg hno, (hasName_iff hn).1 h2, if_neg hnn]
    rw [ih (fun raw hm => hcol raw (List.mem_cons_of_mem _ hm))]
    · simp [tableOf, List.append_assoc]
    · simpa [List.append_assoc] using hk
    · simpa [List.append_assoc] using hnm

theorem loadRows_listed {lower : Str → Str} {c : KnowClass} {k k' : Knowledge}
    {rows : List (Dict Str)} (hcol : ∀ raw ∈ rows, (raw.map Prod.fst).Nodup)
    (hkeys : ∀ raw ∈ rows, ∃ key, HasKey c raw key)
    (hk0 : NoneAlike (Alike lower c) (k.rawByKey.map Prod.fst))
    (hn0 : (k.keysByName.map Prod.fst).Nodup)
    (h : loadRows lower c k rows = .ok k') :
    ∃ kn, TableOf c rows kn ∧ NoneAlike (Alike lower c) (k.rawByKey.map Prod.fst ++ kn.map Prod.fst) ∧
      (k.keysByName.map Prod.fst ++ kn.map Prod.snd).Nodup := by
  induction rows generalizing k with
  | nil => exact ⟨[], .nil, by simpa using hk0, by simpa using hn0⟩
  | cons raw rows ih =>
    have hn := hcol raw List.mem_cons_self
    obtain ⟨key, hkey⟩ := hkeys raw List.mem_cons_self
    obtain ⟨s, hs, hmk⟩ := hasKey_get hn hkey
    rw [loadRows, hs] at h
    simp only [hmk] at h
    split at h
    · cases h
    · rename_i hno
      cases hname : nameFromRaw c key raw with
      | error e => rw [hname] at h; cases h
      | ok name =>
        rw [hname] at h
        simp only at h
        split at h
        · cases h
        · rename_i hnn
          rw [keyLookup_isSome] at hno
          rw [dict_get_isSome] at hnn
          obtain ⟨kn, hl, ha, hd⟩ := ih (fun raw hm => hcol raw (List.mem_cons_of_mem _ hm))
            (fun raw hm => hkeys raw (List.mem_cons_of_mem _ hm))
            (k := { k with rawByKey := k.rawByKey ++ [(key, raw)],
                           keysByName := k.keysByName ++ [(name, key)] })
            (by
              simp only [List.map_append, List.map_cons, List.map_nil, NoneAlike, List.pairwise_append]
              refine ⟨hk0, by simp, ?_⟩
              intro a hm b hb hab
              simp only [List.mem_singleton] at hb
              subst hb
              exact hno ⟨a, hm, hab⟩)
            (by
              simp only [List.map_append, List.map_cons, List.map_nil, List.nodup_append]
              refine ⟨hn0, by simp, ?_⟩
              intro a hm b hb hab
              simp only [List.mem_singleton] at hb
              subst hb hab
              exact hnn hm)
            h
          refine ⟨(key, name) :: kn, .cons raw rows key name kn hkey ((hasName_iff hn).2 hname) hl, ?_, ?_⟩
          · simpa [List.append_assoc] using ha
          · simpa [List.append_assoc] using hd

theorem listed_mem {c : KnowClass} {rows : List (Dict Str)} {kn : List (KeyVal × Str)}
    (h : TableOf c rows kn) {key : KeyVal} {raw : Dict Str}
    (hm : (key, raw) ∈ (kn.map Prod.fst).zip rows) : raw ∈ rows ∧ HasKey c raw key := by
  induction h with
  | nil => simp at hm
  | cons raw' rows key' name rest h1 _ _ ih =>
    simp only [List.map_cons, List.zip_cons_cons, List.mem_cons, Prod.mk.injEq] at hm
    rcases hm with ⟨rfl, rfl⟩ | hm
    · exact ⟨List.mem_cons_self, h1⟩
    · exact ⟨List.mem_cons_of_mem _ (ih hm).1, (ih hm).2⟩

theorem mem_listed {c : KnowClass} {rows : List (Dict Str)} {kn : List (KeyVal × Str)}
    (h : TableOf c rows kn) {raw : Dict Str} (hm : raw ∈ rows) :
    ∃ key name, HasKey c raw key ∧ NamedAs c raw key name ∧ (key, name) ∈ kn ∧
      (key, raw) ∈ (kn.map Prod.fst).zip rows := by
  induction h with
  | nil => cases hm
  | cons raw' rows key' name rest h1 h2 _ ih =>
    rcases List.mem_cons.1 hm with rfl | hm
    · exact ⟨key', name, h1, h2, List.mem_cons_self, by simp⟩
    · obtain ⟨key, nm, ha, hb, hc, hd⟩ := ih hm
      exact ⟨key, nm, ha, hb, List.mem_cons_of_mem _ hc, by simp [hd]⟩

theorem listed_name {c : KnowClass} {rows : List (Dict Str)} {kn : List (KeyVal × Str)}
    (h : TableOf c rows kn) {key : KeyVal} {name : Str} (hm : (key, name) ∈ kn) :
    ∃ raw ∈ rows, HasKey c raw key ∧ NamedAs c raw key name := by
  induction h with
  | nil => cases hm
  | cons raw rows key' name' rest h1 h2 _ ih =>
    rcases List.mem_cons.1 hm with he | hm
    · cases he; exact ⟨raw, List.mem_cons_self, h1, h2⟩
    · obtain ⟨raw', hr, ha, hb⟩ := ih hm
      exact ⟨raw', List.mem_cons_of_mem _ hr, ha, hb⟩

theorem zip_apart {lower : Str → Str} {c : KnowClass} {keys : List KeyVal}
    {rows : List (Dict Str)} (hap : NoneAlike (Alike lower c) keys) {a b : KeyVal} {x y : Dict Str}
    (hx : (a, x) ∈ keys.zip rows) (hy : (b, y) ∈ keys.zip rows) (h : Alike lower c a b) : x = y := by
  induction keys generalizing rows with
  | nil => simp at hx
  | cons k0 keys ih =>
    cases rows with
    | nil => simp at hx
    | cons r0 rows =>
      rw [NoneAlike, List.pairwise_cons] at hap
      simp only [List.zip_cons_cons, List.mem_cons, Prod.mk.injEq] at hx hy
      rcases hx with ⟨rfl, rfl⟩ | hx
      · rcases hy with ⟨_, rfl⟩ | hy
        · rfl
        · exact absurd h (hap.1 b (List.of_mem_zip hy).1)
      · rcases hy with ⟨rfl, rfl⟩ | hy
        · exact absurd (alike_symm h) (hap.1 a (List.of_mem_zip hx).1)
        · exact ih hap.2 hx hy

/-! ## Lookups -/

/-- `get` without the cache. -/
def pureGet (lower : Str → Str) (find : Str → Str → Except KnowErr Nat) (c : KnowClass)
    (rows : List (KeyVal × Dict Str)) (key : KeyVal) : Except KnowErr (Dict KCell) :=
  match keyLookup lower c key rows with
  | none => .ok []
  | some raw => process find c raw

/-- The cache has nothing but results. -/
def CacheSound (lower : Str → Str) (find : Str → Str → Except KnowErr Nat) (c : KnowClass)
    (k : Knowledge) : Prop :=
  ∀ key p, (key, p) ∈ k.processedByKey → pureGet lower find c k.rawByKey key = .ok p

theorem get_pure {lower : Str → Str} {find : Str → Str → Except KnowErr Nat} {c : KnowClass}
    {k : Knowledge} (h : CacheSound lower find c k) (key : KeyVal) :
    (k.get lower find c key).1 = pureGet lower find c k.rawByKey key ∧
      (k.get lower find c key).2.rawByKey = k.rawByKey ∧
      (k.get lower find c key).2.keysByName = k.keysByName ∧
      CacheSound lower find c (k.get lower find c key).2 := by
  rw [Knowledge.get]
  cases hp : keyLookup lower c key k.processedByKey with
  | some p =>
    obtain ⟨k', hm, ha⟩ := keyLookup_some hp
    have := h k' p hm
    refine ⟨?_, rfl, rfl, h⟩
    rw [pureGet, ← keyLookup_alike ha]
    rw [pureGet] at this
    exact this.symm
  | none =>
    cases hr : keyLookup lower c key k.rawByKey with
    | none =>
      refine ⟨by simp [pureGet, hr], rfl, rfl, ?_⟩
      intro key' p hm
      rcases List.mem_append.1 hm with hm | hm
      · exact h key' p hm
      · simp only [List.mem_singleton, Prod.mk.injEq] at hm
        obtain ⟨rfl, rfl⟩ := hm
        simp [pureGet, hr]
    | some raw =>
      simp only
      cases hpr : process find c raw with
      | error e => exact ⟨by simp [pureGet, hr, hpr], rfl, rfl, h⟩
      | ok p =>
        refine ⟨by simp [pureGet, hr, hpr], rfl, rfl, ?_⟩
        intro key' p' hm
        rcases List.mem_append.1 hm with hm | hm
        · exact h key' p' hm
        · simp only [List.mem_singleton, Prod.mk.injEq] at hm
          obtain ⟨rfl, rfl⟩ := hm
          simp [pureGet, hr, hpr]

theorem gets_pure {lower : Str → Str} {find : Str → Str → Except KnowErr Nat} {c : KnowClass}
    {k : Knowledge} (h : CacheSound lower find c k) (keys : List KeyVal) :
    (k.gets lower find c keys).1 = keys.map (pureGet lower find c k.rawByKey) ∧
      (k.gets lower find c keys).2.keysByName = k.keysByName := by
  induction keys generalizing k with
  | nil => exact ⟨rfl, rfl⟩
  | cons key keys ih =>
    obtain ⟨h1, h2, h3, h4⟩ := get_pure h key
    obtain ⟨h5, h6⟩ := ih h4
    simp only [Knowledge.gets, List.map_cons, h1, h5, h2, h6, h3, and_self]

end Httpolice.Lemmas
