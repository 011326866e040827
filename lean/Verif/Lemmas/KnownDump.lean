import Verif.Model.KnownDump
import Verif.Lemmas.KnowledgeLoad

/-! # Lemmas on saving tables -/

namespace Httpolice.Lemmas

open Httpolice.Model Httpolice.Spec

/-! ## Dictionaries -/

theorem dict_get_put {V : Type} (d : Dict V) (k : Str) (v : Option V) (j : Str) :
    (d.put k v).get j = if j = k then v else d.get j := by
  cases v with
  | none => exact dict_get_drop d k j
  | some v => exact dict_get_set d k v j

theorem dict_set_keys {V : Type} (d : Dict V) (k : Str) (v : V) :
    (d.set k v).map Prod.fst = if k ∈ d.map Prod.fst then d.map Prod.fst else d.map Prod.fst ++ [k] := by
  induction d with
  | nil => simp [Dict.set]
  | cons e d ih =>
    obtain ⟨k', v'⟩ := e
    simp only [Dict.set]
    by_cases h : k' = k
    · subst h; simp
    · rw [if_neg h]
      simp only [List.map_cons, ih, List.mem_cons]
      by_cases hm : k ∈ d.map Prod.fst
      · simp [hm]
      · simp [hm, Ne.symm h]

theorem dict_set_nodup {V : Type} {d : Dict V} (h : (d.map Prod.fst).Nodup) (k : Str) (v : V) :
    ((d.set k v).map Prod.fst).Nodup := by
  rw [dict_set_keys]
  split
  · exact h
  · rename_i hk
    rw [List.nodup_append]
    refine ⟨h, by simp, ?_⟩
    intro a ha b hb
    rw [List.mem_singleton] at hb
    subst hb
    intro e
    exact hk (e ▸ ha)

theorem dict_drop_nodup {V : Type} {d : Dict V} (h : (d.map Prod.fst).Nodup) (k : Str) :
    ((d.drop k).map Prod.fst).Nodup :=
  List.Sublist.nodup (List.Sublist.map _ List.filter_sublist) h

theorem dict_put_nodup {V : Type} {d : Dict V} (h : (d.map Prod.fst).Nodup) (k : Str) (v : Option V) :
    ((d.put k v).map Prod.fst).Nodup := by
  cases v with
  | none => exact dict_drop_nodup h k
  | some v => exact dict_set_nodup h k v

theorem processFields_nodup {c : KnowClass} {p q : Dict KCell} {raw : Dict Str}
    (hp : (p.map Prod.fst).Nodup) (h : processFields c p raw = .ok q) : (q.map Prod.fst).Nodup := by
  induction raw generalizing p with
  | nil => rw [processFields] at h; cases h; exact hp
  | cons e raw ih =>
    obtain ⟨f, s⟩ := e
    rw [processFields] at h
    split at h
    · exact ih hp h
    · split at h
      · cases h
      · exact ih (dict_set_nodup hp _ _) h

theorem citeRfc_nodup {p q : Dict KCell} (hp : (p.map Prod.fst).Nodup) (h : citeRfc p = .ok q) :
    (q.map Prod.fst).Nodup := by
  rw [citeRfc] at h
  split at h
  · cases h; exact hp
  · split at h
    · cases h
    · split at h
      · cases h
      · cases h
        exact dict_set_nodup (dict_drop_nodup (dict_drop_nodup (dict_drop_nodup hp _) _) _) _ _

theorem citeUrl_nodup {p : Dict KCell} (hp : (p.map Prod.fst).Nodup) :
    ((citeUrl p).map Prod.fst).Nodup := by
  rw [citeUrl]
  split
  · exact hp
  · exact dict_set_nodup (dict_drop_nodup (dict_drop_nodup hp _) _) _ _

theorem process_nodup {find : Str → Str → Except KnowErr Nat} {c : KnowClass} {raw : Dict Str}
    {p : Dict KCell} (h : process find c raw = .ok p) : (p.map Prod.fst).Nodup := by
  rw [process] at h
  split at h
  · cases h
  · rename_i q hq
    have h1 := processFields_nodup (by simp) hq
    split at h
    · cases h
    · rename_i r hr
      have h2 := citeUrl_nodup (citeRfc_nodup h1 hr)
      split at h
      · rw [findSyntax] at h
        split at h
        · cases h; exact h2
        · split at h
          · cases h
          · split at h
            · cases h
            · cases h
              exact dict_set_nodup (dict_drop_nodup (dict_drop_nodup h2 _) _) _ _
          · cases h
      · cases h; exact h2

theorem filterMap_get {V W : Type} (g : V → Option W) (d : Dict V) (h : (d.map Prod.fst).Nodup)
    (f : Str) :
    Dict.get (d.filterMap fun e => (g e.2).map fun s => (e.1, s)) f = (d.get f).bind g := by
  induction d with
  | nil => rfl
  | cons e d ih =>
    obtain ⟨k, v⟩ := e
    simp only [List.map_cons, List.nodup_cons] at h
    rw [List.filterMap_cons]
    simp only [Dict.get]
    by_cases hk : k = f
    · subst hk
      have hn : Dict.get d k = none := dict_get_none.2 fun v hv => h.1 (List.mem_map.2 ⟨_, hv, rfl⟩)
      cases hg : g v with
      | none =>
        simp only [Option.map_none, if_true, Option.bind_some, hg]
        rw [ih h.2, hn]; rfl
      | some w => simp [Dict.get, hg]
    · cases hg : g v with
      | none => simp only [Option.map_none, if_neg hk]; exact ih h.2
      | some w =>
        simp only [Option.map_some, Dict.get, if_neg hk]
        exact ih h.2

theorem filterMap_nodup {V W : Type} (g : V → Option W) (d : Dict V) (h : (d.map Prod.fst).Nodup) :
    ((d.filterMap fun e => (g e.2).map fun s => (e.1, s)).map Prod.fst).Nodup := by
  induction d with
  | nil => simp
  | cons e d ih =>
    obtain ⟨k, v⟩ := e
    simp only [List.map_cons, List.nodup_cons] at h
    rw [List.filterMap_cons]
    cases hg : g v with
    | none => simpa using ih h.2
    | some w =>
      simp only [Option.map_some, List.map_cons, List.nodup_cons]
      refine ⟨?_, ih h.2⟩
      intro hm
      obtain ⟨⟨k', w'⟩, hm1, rfl⟩ := List.mem_map.1 hm
      obtain ⟨⟨k2, v2⟩, hm2, he⟩ := List.mem_filterMap.1 hm1
      cases hg2 : g v2 with
      | none => simp [hg2] at he
      | some w2 =>
        simp only [hg2, Option.map_some, Option.some.injEq, Prod.mk.injEq] at he
        exact h.1 (List.mem_map.2 ⟨_, hm2, he.1⟩)

/-! ## The row that is saved -/

theorem keepSyntax_nodup {p : Dict KCell} {orig : Dict Str} (h : (p.map Prod.fst).Nodup) :
    ((keepSyntax p orig).map Prod.fst).Nodup :=
  dict_set_nodup (dict_set_nodup (dict_drop_nodup h _) _ _) _ _

theorem uncite_nodup {p : Dict KCell} (h : (p.map Prod.fst).Nodup) :
    ((unciteRow p).map Prod.fst).Nodup := by
  rw [unciteRow]
  split
  · exact dict_put_nodup (dict_put_nodup (dict_put_nodup (dict_drop_nodup h _) _ _) _ _) _ _
  · exact dict_put_nodup (dict_put_nodup (dict_drop_nodup h _) _ _) _ _
  · exact dict_drop_nodup h _

/-- What is kept of the fields before the citation is taken apart. -/
theorem keepSyntax_get (p : Dict KCell) (orig : Dict Str) (f : Str) :
    (keepSyntax p orig).get f =
      if f = str "syntax_symbol" then some (.plain (.text ((orig.get (str "syntax_symbol")).getD [])))
      else if f = str "syntax_module" then
        some (.plain (.text ((orig.get (str "syntax_module")).getD [])))
      else if f = str "syntax" then none else p.get f := by
  rw [keepSyntax, dict_get_set, dict_get_set, dict_get_drop]

/-- What the citation comes to. -/
def citeCells (o : Option KCell) (f : Str) (other : Option KCell) : Option KCell :=
  if f = str "citation" then none
  else
    match o with
    | some (.cite (.rfc n sect appendix _)) =>
      if f = str "rfc_appendix" then appendix.map fun s => .plain (.text s)
      else if f = str "rfc_section" then sect.map fun s => .plain (.text s)
      else if f = str "rfc" then some (.plain (.num n))
      else other
    | some (.cite (.doc title url)) =>
      if f = str "cite_title" then title.map .plain
      else if f = str "cite_url" then some (.plain url)
      else other
    | _ => other

theorem uncite_get (p : Dict KCell) (f : Str) :
    (unciteRow p).get f = citeCells (p.get (str "citation")) f (p.get f) := by
  unfold unciteRow citeCells
  by_cases h0 : f = str "citation"
  · subst h0
    rw [if_pos rfl]
    split
    · rw [dict_get_put, if_neg (by decide), dict_get_put, if_neg (by decide), dict_get_put,
        if_neg (by decide), dict_get_drop, if_pos rfl]
    · rw [dict_get_put, if_neg (by decide), dict_get_put, if_neg (by decide), dict_get_drop, if_pos rfl]
    · rw [dict_get_drop, if_pos rfl]
  · rw [if_neg h0]
    cases p.get (str "citation") with
    | none => simp only; rw [dict_get_drop, if_neg h0]
    | some x =>
      cases x with
      | plain v => simp only; rw [dict_get_drop, if_neg h0]
      | symbol n => simp only; rw [dict_get_drop, if_neg h0]
      | cite ct =>
        cases ct with
        | doc t u => simp only; rw [dict_get_put, dict_get_put, dict_get_drop, if_neg h0]
        | rfc n s a e =>
          simp only; rw [dict_get_put, dict_get_put, dict_get_put, dict_get_drop, if_neg h0]

theorem unprocess_get (code : Int → Str) (c : KnowClass) {p : Dict KCell} (orig : Dict Str)
    (h : (p.map Prod.fst).Nodup) (f : Str) :
    (unprocess code c p orig).get f =
      (citeCells (p.get (str "citation")) f
        (if c.hasSyntax = true then (keepSyntax p orig).get f else p.get f)).bind (savedCell code) := by
  rw [unprocess]
  cases hb : c.hasSyntax with
  | false =>
    simp only [Bool.false_eq_true, if_false]
    rw [filterMap_get (savedCell code) _ (uncite_nodup h), uncite_get]
  | true =>
    simp only [if_true]
    rw [filterMap_get (savedCell code) _ (uncite_nodup (keepSyntax_nodup h)), uncite_get]
    rw [keepSyntax_get p orig (str "citation"), if_neg (by decide), if_neg (by decide),
      if_neg (by decide)]

theorem unprocess_nodup (code : Int → Str) (c : KnowClass) {p : Dict KCell} (orig : Dict Str)
    (h : (p.map Prod.fst).Nodup) : ((unprocess code c p orig).map Prod.fst).Nodup := by
  rw [unprocess]
  apply filterMap_nodup
  apply uncite_nodup
  split
  · exact keepSyntax_nodup h
  · exact h

/-! ## Cells -/

theorem intText_nat (n : Nat) : intText (n : Int) = decimalText n := rfl

/-- What a value is saved as says the same. -/
theorem saved_says {code : Int → Str} {c : KnowClass} {field s : Str} {v : Scalar}
    (hcode : c.numeric = true → ∀ n : Nat, code n = decimalText n) (hs : s ≠ []) (h : CellSays c field s v) :
    CellSays c field (v.saved code) v ∧ v.saved code ≠ [] := by
  cases h with
  | name _ hn => exact ⟨.name _ hn, hs⟩
  | code _ n hn hd =>
    have e : Scalar.saved code (.key (.num (n : Int))) = decimalText n := hcode hn n
    rw [e]
    exact ⟨.code _ _ hn (toDigits_numeral n), (toDigits_numeral n).1⟩
  | number _ _ n hf hd =>
    have e : Scalar.saved code (.num (n : Int)) = decimalText n := rfl
    rw [e]
    exact ⟨.number _ _ _ hf (toDigits_numeral n), (toDigits_numeral n).1⟩
  | yesNo _ _ b hf hy =>
    cases b with
    | true => exact ⟨.yesNo _ (str "True") _ hf (by rw [YesNo]; decide), show str "True" ≠ [] by decide⟩
    | false =>
      exact ⟨.yesNo _ (str "False") _ hf (by rw [YesNo]; decide), show str "False" ≠ [] by decide⟩
  | member _ _ members hf h1 h2 h3 h4 => exact ⟨.member _ _ members hf h1 h2 h3 h4, hs⟩
  | text _ _ hf h1 h2 h3 => exact ⟨.text _ _ hf h1 h2 h3, hs⟩

/-! ## What the saved row says -/

/-- The columns for an RFC. -/
def IsPart (f : Str) : Prop := f = str "rfc" ∨ f = str "rfc_section" ∨ f = str "rfc_appendix"

instance (f : Str) : Decidable (IsPart f) := by rw [IsPart]; infer_instance

/-- The cell that is saved, from the row. -/
def savedText (code : Int → Str) (c : KnowClass) (raw : Dict Str) (f : Str) : Option Str :=
  if f = str "citation" ∨ f = str "syntax" then none
  else if c.hasSyntax = true ∧ (f = str "syntax_module" ∨ f = str "syntax_symbol") then
    some ((raw.get f).getD [])
  else if IsPart f ∧ (rowVal c raw (str "rfc")).isSome = true then
    if (rowVal c raw (str "cite_url")).isSome = true then none
    else if f = str "rfc" then (rowVal c raw f).map (Scalar.saved code)
    else shownIf (rowVal c raw f)
  else (rowVal c raw f).map (Scalar.saved code)

section Saved

variable {code : Int → Str} {find : Str → Str → Except KnowErr Nat} {c : KnowClass}
  {raw new : Dict Str} {p : Dict KCell}

theorem describes_get (hc : Orderly c) (hcol : Columns raw)
    (hd : Describes find c raw p) {f : Str} (h1 : f ≠ str "citation") (h2 : f ≠ str "syntax") :
    (Used c raw f → p.get f = none) ∧ (¬ Used c raw f → p.get f = (rowVal c raw f).map .plain) := by
  obtain ⟨ha, hb⟩ := hd.2.2.2.2 f h1 h2
  refine ⟨ha, fun h => ?_⟩
  obtain ⟨r, hr, hg⟩ := hb h
  rw [hg]
  cases r with
  | none => rw [rowVal_none hr]
  | some v => rw [rowVal_some hc hcol.once hr]

/-- How far two rows agree. -/
structure Resaved (c : KnowClass) (raw new : Dict Str) : Prop where
  other : ∀ f, ¬ IsPart f → rowVal c new f = rowVal c raw f
  noRfc : rowVal c raw (str "rfc") = none → ∀ f, IsPart f → rowVal c new f = rowVal c raw f
  both : (rowVal c raw (str "cite_url")).isSome = true → (rowVal c raw (str "rfc")).isSome = true →
    ∀ f, IsPart f → rowVal c new f = none
  rfc : rowVal c raw (str "cite_url") = none → (rowVal c raw (str "rfc")).isSome = true →
    rowVal c new (str "rfc") = rowVal c raw (str "rfc") ∧
      shownIf (rowVal c new (str "rfc_section")) = shownIf (rowVal c raw (str "rfc_section")) ∧
      shownIf (rowVal c new (str "rfc_appendix")) = shownIf (rowVal c raw (str "rfc_appendix"))

theorem cell_same (hcode : c.numeric = true → ∀ n : Nat, code n = decimalText n) (hc : Orderly c) (hcol : Columns raw)
    (hu : Understood find c raw) {f : Str}
    (h : new.get f = (rowVal c raw f).map (Scalar.saved code)) :
    rowVal c new f = rowVal c raw f ∧ ∀ s, new.get f = some s → s ≠ [] → ∃ v, CellSays c f s v := by
  cases hv : rowVal c raw f with
  | none =>
    rw [hv] at h
    have h : new.get f = none := h
    refine ⟨by rw [rowVal, h], ?_⟩
    intro s hs
    rw [h] at hs
    cases hs
  | some v =>
    obtain ⟨s0, _, hs0, hsay⟩ := (rowSays_iff hc hcol.once hu.cells).2 hv
    obtain ⟨h1, h2⟩ := saved_says hcode hs0 hsay
    rw [hv] at h
    have h : new.get f = some (v.saved code) := h
    constructor
    · rw [rowVal, h]
      simp only [h2, if_false, cellSays_field hc h2 h1]
      rfl
    · intro s hs _
      rw [h] at hs
      cases hs
      exact ⟨v, h1⟩

theorem cell_none {f : Str} (h : new.get f = none) :
    rowVal c new f = none ∧ ∀ s, new.get f = some s → s ≠ [] → ∃ v, CellSays c f s v := by
  refine ⟨by rw [rowVal, h], ?_⟩
  intro s hs
  rw [h] at hs
  cases hs

theorem cell_kept (hu : Understood find c raw) {f : Str}
    (h : new.get f = some ((raw.get f).getD [])) :
    rowVal c new f = rowVal c raw f ∧ ∀ s, new.get f = some s → s ≠ [] → ∃ v, CellSays c f s v := by
  cases hr : raw.get f with
  | none =>
    rw [hr] at h
    have h : new.get f = some [] := h
    refine ⟨by rw [rowVal, rowVal, h, hr]; simp, ?_⟩
    intro s hs h0
    rw [h] at hs
    cases hs
    exact absurd rfl h0
  | some t =>
    rw [hr] at h
    have h : new.get f = some t := h
    refine ⟨by rw [rowVal, rowVal, h, hr], ?_⟩
    intro s hs h0
    rw [h] at hs
    cases hs
    exact hu.cells f _ (dict_get_mem hr) h0

theorem cell_part (hc : Orderly c) (hcol : Columns raw) (hu : Understood find c raw) {f : Str}
    (hf : IsPart f) (h : new.get f = shownIf (rowVal c raw f)) :
    shownIf (rowVal c new f) = shownIf (rowVal c raw f) ∧
      ∀ s, new.get f = some s → s ≠ [] → ∃ v, CellSays c f s v := by
  obtain ⟨hk, he⟩ := orderly_part hc hf
  have key : ∀ v : Scalar, ∀ s : Str, new.get f = some s → s ≠ [] → CellSays c f s v →
      rowVal c new f = some v := by
    intro v s h1 h2 h3
    rw [rowVal, h1]
    simp only [h2, if_false, cellSays_field hc h2 h3]
    rfl
  have fin : ∀ v : Scalar, ∀ s : Str, new.get f = some s → s ≠ [] → CellSays c f s v →
      shownIf (rowVal c raw f) = shownIf (some v) →
      shownIf (rowVal c new f) = shownIf (rowVal c raw f) ∧
        ∀ s, new.get f = some s → s ≠ [] → ∃ v, CellSays c f s v := by
    intro v s h1 h2 h3 h4
    rw [key v s h1 h2 h3, h4]
    refine ⟨rfl, fun s' hs' _ => ?_⟩
    rw [h1] at hs'
    cases hs'
    exact ⟨v, h3⟩
  have nothing : shownIf (rowVal c raw f) = none →
      shownIf (rowVal c new f) = shownIf (rowVal c raw f) ∧
        ∀ s, new.get f = some s → s ≠ [] → ∃ v, CellSays c f s v := by
    intro h0
    rw [h0] at h
    obtain ⟨h1, h2⟩ := cell_none (c := c) h
    rw [h1, h0]
    exact ⟨rfl, h2⟩
  cases hv : rowVal c raw f with
  | none => rw [hv] at nothing; exact nothing rfl
  | some v =>
    have hrow := (rowSays_iff hc hcol.once hu.cells).2 hv
    rw [hv] at fin nothing h
    rcases rowSays_kind hk he hrow with ⟨n, rfl⟩ | ⟨b, rfl⟩ | ⟨s, hs, rfl⟩
    · by_cases h0 : n = 0
      · subst h0; exact nothing rfl
      · rw [shownIf_num h0] at h
        exact fin (.num n) _ h (toDigits_numeral n).1 (.number _ _ _ hk (toDigits_numeral n)) rfl
    · cases b with
      | false => exact nothing rfl
      | true =>
        exact fin (.flag true) (str "True") h (by decide) (.yesNo _ _ _ hk (by rw [YesNo]; decide)) rfl
    · have e : shownIf (some (.text s)) = some s := by
        have : (Scalar.text s).truthy = true := by simpa [Scalar.truthy] using hs
        rw [shownIf, if_pos this]
        rfl
      rw [e] at h
      obtain ⟨s', _, _, hcs⟩ := hrow
      have hcs' : CellSays c f s (.text s) := by
        cases hcs with
        | text _ _ h1 h2 h3 h4 => exact .text _ _ h1 h2 h3 h4
      exact fin (.text s) s h hs hcs' rfl

/-- The cells that are saved. -/
theorem saved_get (hc : Orderly c) (hcol : Columns raw) (hu : Understood find c raw)
    (hd : Describes find c raw p) (hp : (p.map Prod.fst).Nodup) (f : Str) :
    (unprocess code c p raw).get f = savedText code c raw f := by
  have hn := hcol.once
  have hcite : p.get (str "citation") = (citeVal c raw).map .cite := hd.1 _ (val_cites hc hn hu)
  have hplain : ∀ o : Option Scalar, (o.map KCell.plain).bind (savedCell code) =
      o.map (Scalar.saved code) := by
    intro o; cases o <;> rfl
  have htext : ∀ o : Option Str, (o.map fun s => KCell.plain (.text s)).bind (savedCell code) = o := by
    intro o; cases o <;> rfl
  rw [unprocess_get code c raw hp]
  by_cases h0 : f = str "citation"
  · unfold citeCells
    rw [if_pos h0, savedText, if_pos (.inl h0)]; rfl
  by_cases h1 : f = str "syntax"
  · subst h1
    have e : savedText code c raw (str "syntax") = none := by rw [savedText, if_pos (.inr rfl)]
    rw [e]
    have : (if c.hasSyntax = true then (keepSyntax p raw).get (str "syntax")
        else p.get (str "syntax")) = none := by
      cases hb : c.hasSyntax with
      | true =>
        rw [if_pos rfl, keepSyntax_get, if_neg (by decide), if_neg (by decide), if_pos rfl]
      | false => rw [if_neg (by decide)]; exact hd.2.2.2.1 (.inl hb)
    rw [this]
    unfold citeCells
    rw [if_neg (by decide)]
    split
    · rw [if_neg (by decide), if_neg (by decide), if_neg (by decide)]; rfl
    · rw [if_neg (by decide), if_neg (by decide)]; rfl
    · rfl
  have h01 : ¬ (f = str "citation" ∨ f = str "syntax") := fun h => h.elim h0 h1
  by_cases h2 : c.hasSyntax = true ∧ (f = str "syntax_module" ∨ f = str "syntax_symbol")
  · rw [if_pos h2.1]
    have e : savedText code c raw f = some ((raw.get f).getD []) := by
      rw [savedText, if_neg h01, if_pos h2]
    rw [e]
    have : (keepSyntax p raw).get f = some (.plain (.text ((raw.get f).getD []))) := by
      rw [keepSyntax_get]
      rcases h2.2 with rfl | rfl
      · rw [if_neg (by decide), if_pos rfl]
      · rw [if_pos rfl]
    rw [this]
    unfold citeCells
    rw [if_neg h0]
    have hne : f ≠ str "rfc_appendix" ∧ f ≠ str "rfc_section" ∧ f ≠ str "rfc" ∧
        f ≠ str "cite_title" ∧ f ≠ str "cite_url" := by
      rcases h2.2 with rfl | rfl <;> decide
    split
    · rw [if_neg hne.1, if_neg hne.2.1, if_neg hne.2.2.1]; rfl
    · rw [if_neg hne.2.2.2.1, if_neg hne.2.2.2.2]; rfl
    · rfl
  have hkeep : (if c.hasSyntax = true then (keepSyntax p raw).get f else p.get f) = p.get f := by
    cases hb : c.hasSyntax with
    | false => rw [if_neg (by decide)]
    | true =>
      rw [if_pos rfl, keepSyntax_get, if_neg fun h => h2 ⟨hb, .inr h⟩, if_neg fun h => h2 ⟨hb, .inl h⟩,
        if_neg h1]
  rw [hkeep, hcite]
  unfold citeCells
  rw [if_neg h0, savedText, if_neg h01, if_neg h2]
  obtain ⟨hused, hfree⟩ := describes_get hc hcol hd h0 h1
  rw [used_iff hc hcol hu] at hused hfree
  cases hurl : rowVal c raw (str "cite_url") with
  | some u =>
    rw [hurl] at hused hfree
    rw [citeVal, hurl]
    simp only [Option.map_some, Option.isSome_some, if_true]
    by_cases h3 : f = str "cite_title"
    · subst h3
      rw [if_pos rfl, if_neg (by rw [IsPart]; simp (decide := true))]
      exact hplain _
    rw [if_neg h3]
    by_cases h4 : f = str "cite_url"
    · subst h4
      rw [if_pos rfl, if_neg (by rw [IsPart]; simp (decide := true)), hurl]
      rfl
    rw [if_neg h4]
    by_cases h5 : IsPart f ∧ (rowVal c raw (str "rfc")).isSome = true
    · rw [if_pos h5, hused (.inl h5)]; rfl
    · rw [if_neg h5, hfree, hplain]
      rintro (h | h | h)
      · exact h5 h
      · rcases h.1 with h | h
        · exact h4 h
        · exact h3 h
      · exact h2 ⟨h.1, h.2.1⟩
  | none =>
    rw [hurl] at hused hfree
    cases hr : rowVal c raw (str "rfc") with
    | none =>
      rw [hr] at hused hfree
      rw [citeVal, hurl, hr]
      simp only [Option.map_none, Option.isSome_none, Bool.false_eq_true, and_false, if_false]
      rw [hfree, hplain]
      rintro (h | h | h)
      · exact absurd h.2 (by decide)
      · exact absurd h.2 (by decide)
      · exact h2 ⟨h.1, h.2.1⟩
    | some v =>
      have hns : ¬ Silent raw (str "rfc") := by
        rw [silent_iff hc hn hu.cells, hr]; simp
      obtain ⟨n, hrow⟩ := hu.rfc hns
      have hv : v = .num n := Option.some.inj (hr.symm.trans (rowVal_some hc hn hrow))
      subst hv
      rw [hr] at hused hfree
      rw [citeVal, hurl, hr]
      simp only [Option.map_some, Option.isSome_some, and_true, Option.isSome_none, Bool.false_eq_true,
        if_false]
      by_cases h3 : f = str "rfc_appendix"
      · subst h3
        rw [if_pos rfl, if_pos (by rw [IsPart]; simp), if_neg (by decide)]
        exact htext _
      rw [if_neg h3]
      by_cases h4 : f = str "rfc_section"
      · subst h4
        rw [if_pos rfl, if_pos (by rw [IsPart]; simp), if_neg (by decide)]
        exact htext _
      rw [if_neg h4]
      by_cases h5 : f = str "rfc"
      · subst h5
        rw [if_pos rfl, if_pos (by rw [IsPart]; simp), if_pos rfl, hr]
        rfl
      rw [if_neg h5, if_neg (by rw [IsPart]; simp [h3, h4, h5]), hfree, hplain]
      rintro (h | h | h)
      · rcases h.1 with h | h | h
        · exact h5 h
        · exact h4 h
        · exact h3 h
      · exact absurd h.2 (by decide)
      · exact h2 ⟨h.1, h.2.1⟩

theorem rowVal_getD {new' : Dict Str} {f : Str} (h : (new.get f).getD [] = (new'.get f).getD []) :
    rowVal c new f = rowVal c new' f := by
  rw [rowVal, rowVal]
  cases h1 : new.get f <;> cases h2 : new'.get f <;> simp only [h1, h2, Option.getD_none, Option.getD_some] at h
  · rfl
  · subst h; simp
  · subst h; simp
  · subst h; rfl

/-- The saved row agrees with the row. -/
theorem saved_resaved (hcode : c.numeric = true → ∀ n : Nat, code n = decimalText n) (hc : Orderly c)
    (hcol : Columns raw) (hu : Understood find c raw)
    (hsame : ∀ f, (new.get f).getD [] = (savedText code c raw f).getD []) :
    Resaved c raw new ∧ ∀ f s, new.get f = some s → s ≠ [] → ∃ v, CellSays c f s v := by
  have hcit : rowVal c raw (str "citation") = none :=
    rowVal_none fun s hs => absurd hs (hcol.citation s)
  have hsyn : rowVal c raw (str "syntax") = none :=
    rowVal_none fun s hs => absurd hs (hcol.grammar s)
  -- one column at a time
  let one (f : Str) : Dict Str := match savedText code c raw f with | some s => [(f, s)] | none => []
  have hone : ∀ f, (one f).get f = savedText code c raw f := by
    intro f
    simp only [one]
    split
    · rename_i s h; rw [h]; simp [Dict.get]
    · rename_i h; rw [h]; rfl
  have hval : ∀ f, rowVal c new f = rowVal c (one f) f := fun f => rowVal_getD (by rw [hsame, hone])
  have hcell : ∀ f, (∀ s, (one f).get f = some s → s ≠ [] → ∃ v, CellSays c f s v) →
      ∀ s, new.get f = some s → s ≠ [] → ∃ v, CellSays c f s v := by
    intro f h s hs h0
    refine h s ?_ h0
    have := hsame f
    rw [hs] at this
    rw [hone]
    cases ht : savedText code c raw f with
    | none => rw [ht] at this; exact absurd this h0
    | some t => rw [ht] at this; rw [show t = s from this.symm]
  -- what each column comes to
  have cols : ∀ f,
      (¬ IsPart f → rowVal c (one f) f = rowVal c raw f) ∧
      (IsPart f → rowVal c raw (str "rfc") = none → rowVal c (one f) f = rowVal c raw f) ∧
      (IsPart f → (rowVal c raw (str "rfc")).isSome = true →
        (rowVal c raw (str "cite_url")).isSome = true → rowVal c (one f) f = none) ∧
      (IsPart f → (rowVal c raw (str "rfc")).isSome = true → rowVal c raw (str "cite_url") = none →
        (f = str "rfc" → rowVal c (one f) f = rowVal c raw f) ∧
        shownIf (rowVal c (one f) f) = shownIf (rowVal c raw f)) ∧
      ∀ s, (one f).get f = some s → s ≠ [] → ∃ v, CellSays c f s v := by
    intro f
    have hget := hone f
    rw [savedText] at hget
    by_cases h0 : f = str "citation" ∨ f = str "syntax"
    · rw [if_pos h0] at hget
      obtain ⟨h1, h2⟩ := cell_none (c := c) hget
      have hnp : ¬ IsPart f := by rcases h0 with rfl | rfl <;> decide
      refine ⟨fun _ => ?_, fun h => absurd h hnp, fun h => absurd h hnp, fun h => absurd h hnp, h2⟩
      rw [h1]
      rcases h0 with rfl | rfl
      · exact hcit.symm
      · exact hsyn.symm
    rw [if_neg h0] at hget
    by_cases h3 : c.hasSyntax = true ∧ (f = str "syntax_module" ∨ f = str "syntax_symbol")
    · rw [if_pos h3] at hget
      obtain ⟨h1, h2⟩ := cell_kept hu hget
      have hnp : ¬ IsPart f := by rcases h3.2 with rfl | rfl <;> decide
      exact ⟨fun _ => h1, fun h => absurd h hnp, fun h => absurd h hnp, fun h => absurd h hnp, h2⟩
    rw [if_neg h3] at hget
    by_cases h4 : IsPart f ∧ (rowVal c raw (str "rfc")).isSome = true
    · rw [if_pos h4] at hget
      have hrs : rowVal c raw (str "rfc") ≠ none := by
        intro h; rw [h] at h4; exact absurd h4.2 (by decide)
      by_cases h5 : (rowVal c raw (str "cite_url")).isSome = true
      · rw [if_pos h5] at hget
        obtain ⟨h1, h2⟩ := cell_none (c := c) hget
        refine ⟨fun h => absurd h4.1 h, fun _ h => absurd h hrs, fun _ _ _ => h1, ?_, h2⟩
        intro _ _ h
        rw [h] at h5
        exact absurd h5 (by decide)
      · rw [if_neg h5] at hget
        by_cases h6 : f = str "rfc"
        · rw [if_pos h6] at hget
          obtain ⟨h1, h2⟩ := cell_same hcode hc hcol hu hget
          exact ⟨fun h => absurd h4.1 h, fun _ h => absurd h hrs, fun _ _ h => absurd h h5,
            fun _ _ _ => ⟨fun _ => h1, by rw [h1]⟩, h2⟩
        · rw [if_neg h6] at hget
          obtain ⟨h1, h2⟩ := cell_part hc hcol hu h4.1 hget
          exact ⟨fun h => absurd h4.1 h, fun _ h => absurd h hrs, fun _ _ h => absurd h h5,
            fun _ _ _ => ⟨fun h => absurd h h6, h1⟩, h2⟩
    · rw [if_neg h4] at hget
      obtain ⟨h1, h2⟩ := cell_same hcode hc hcol hu hget
      exact ⟨fun _ => h1, fun _ _ => h1, fun h h' => absurd ⟨h, h'⟩ h4,
        fun h h' => absurd ⟨h, h'⟩ h4, h2⟩
  refine ⟨⟨?_, ?_, ?_, ?_⟩, fun f => hcell f (cols f).2.2.2.2⟩
  · intro f h; rw [hval]; exact (cols f).1 h
  · intro h f hf; rw [hval]; exact (cols f).2.1 hf h
  · intro h h' f hf; rw [hval]; exact (cols f).2.2.1 hf h' h
  · intro h h'
    refine ⟨?_, ?_, ?_⟩
    · rw [hval]; exact ((cols _).2.2.2.1 (.inl rfl) h' h).1 rfl
    · rw [hval]; exact ((cols _).2.2.2.1 (.inr (.inl rfl)) h' h).2
    · rw [hval]; exact ((cols _).2.2.2.1 (.inr (.inr rfl)) h' h).2

/-- A row that agrees can be understood as well. -/
theorem resaved_understood (hc : Orderly c) (hcol : Columns raw) (hcol' : Columns new)
    (hu : Understood find c raw) (h : Resaved c raw new)
    (hcells : ∀ f s, new.get f = some s → s ≠ [] → ∃ v, CellSays c f s v) :
    Understood find c new := by
  have hn := hcol.once
  have hn' := hcol'.once
  have hcells' : ∀ f s, (f, s) ∈ new → s ≠ [] → ∃ v, CellSays c f s v :=
    fun f s hm h0 => hcells f s (dict_mem_get hn' hm) h0
  have hsays : ∀ f, ¬ IsPart f → ∀ v, RowSays c new f v ↔ RowSays c raw f v := by
    intro f hf v
    rw [rowSays_iff hc hn' hcells', rowSays_iff hc hn hu.cells, h.other f hf]
  -- the number of the RFC, if the saved row has one
  have hrfc : ¬ Silent new (str "rfc") → rowVal c raw (str "cite_url") = none ∧
      (rowVal c raw (str "rfc")).isSome = true ∧
      rowVal c new (str "rfc") = rowVal c raw (str "rfc") := by
    intro hs
    rw [silent_iff hc hn' hcells'] at hs
    cases hr : rowVal c raw (str "rfc") with
    | none => rw [h.noRfc hr _ (.inl rfl), hr] at hs; exact absurd rfl hs
    | some v =>
      have hi : (rowVal c raw (str "rfc")).isSome = true := by rw [hr]; rfl
      cases hurl : rowVal c raw (str "cite_url") with
      | some u =>
        exact absurd (h.both (by rw [hurl]; rfl) hi _ (.inl rfl)) hs
      | none =>
        have := (h.rfc hurl hi).1
        rw [hr] at this
        exact ⟨rfl, rfl, this⟩
  refine ⟨hcells', ?_, ?_, ?_⟩
  · intro hs
    obtain ⟨_, h2, h3⟩ := hrfc hs
    have : ¬ Silent raw (str "rfc") := by
      rw [silent_iff hc hn hu.cells]
      intro h; rw [h] at h2; exact absurd h2 (by decide)
    obtain ⟨n, hrow⟩ := hu.rfc this
    refine ⟨n, ?_⟩
    rw [rowSays_iff hc hn' hcells', h3]
    exact rowVal_some hc hn hrow
  · intro hs
    obtain ⟨h1, h2, _⟩ := hrfc hs
    have : ¬ Silent raw (str "rfc") := by
      rw [silent_iff hc hn hu.cells]
      intro h; rw [h] at h2; exact absurd h2 (by decide)
    obtain ⟨_, h4, h5⟩ := h.rfc h1 h2
    rcases hu.onePart this with hp | hp
    · left
      have := shown_part hc hn' (orderly_part hc (.inr (.inl rfl))).1
        (orderly_part hc (.inr (.inl rfl))).2 hcells'
      rw [h4, ← part_shown hc hn hp] at this
      exact this
    · right
      have := shown_part hc hn' (orderly_part hc (.inr (.inr rfl))).1
        (orderly_part hc (.inr (.inr rfl))).2 hcells'
      rw [h5, ← part_shown hc hn hp] at this
      exact this
  · intro hb hs
    have hs' : ¬ Silent raw (str "syntax_module") := by
      rw [silent_iff hc hn hu.cells, ← h.other _ (by decide), ← silent_iff hc hn' hcells']
      exact hs
    obtain ⟨m, s, n, h1, h2, h3⟩ := hu.grammar hb hs'
    exact ⟨m, s, n, (hsays _ (by decide) _).2 h1, (hsays _ (by decide) _).2 h2, h3⟩

/-- Rows that agree tell the same. -/
theorem resaved_same {q : Dict KCell} (hc : Orderly c) (hcol : Columns raw) (hcol' : Columns new)
    (hu : Understood find c raw) (hu' : Understood find c new) (h : Resaved c raw new)
    (hd : Describes find c raw p) (hd' : Describes find c new q) (f : Str) : q.get f = p.get f := by
  have hn := hcol.once
  have hn' := hcol'.once
  by_cases h0 : f = str "citation"
  · subst h0
    rw [hd.1 _ (val_cites hc hn hu), hd'.1 _ (val_cites hc hn' hu')]
    congr 1
    rw [citeVal, citeVal, h.other (str "cite_url") (by decide), h.other (str "cite_title") (by decide)]
    cases hurl : rowVal c raw (str "cite_url") with
    | some u => rfl
    | none =>
      cases hr : rowVal c raw (str "rfc") with
      | none => rw [h.noRfc hr _ (.inl rfl), hr]
      | some v =>
        obtain ⟨h1, h2, h3⟩ := h.rfc hurl (by rw [hr]; rfl)
        rw [h1, h2, h3, hr]
  by_cases h1 : f = str "syntax"
  · subst h1
    by_cases hs : c.hasSyntax = true ∧ ¬ Silent raw (str "syntax_module")
    · obtain ⟨m, s, n, g1, g2, g3⟩ := hu.grammar hs.1 hs.2
      rw [hd.2.2.1 m s n hs.1 g1 g2 g3]
      apply hd'.2.2.1 m s n hs.1 _ _ g3
      · rw [rowSays_iff hc hn' hu'.cells, h.other _ (by decide)]
        exact rowVal_some hc hn g1
      · rw [rowSays_iff hc hn' hu'.cells, h.other _ (by decide)]
        exact rowVal_some hc hn g2
    · have hs1 : c.hasSyntax = false ∨ Silent raw (str "syntax_module") := by
        cases hb : c.hasSyntax with
        | false => exact .inl rfl
        | true => right; exact Classical.byContradiction fun hx => hs ⟨hb, hx⟩
      rw [hd.2.2.2.1 hs1, hd'.2.2.2.1]
      refine hs1.imp id fun hx => ?_
      rw [silent_iff hc hn' hu'.cells, h.other _ (by decide)]
      exact rowVal_none hx
  obtain ⟨a1, a2⟩ := describes_get hc hcol hd h0 h1
  obtain ⟨b1, b2⟩ := describes_get hc hcol' hd' h0 h1
  by_cases hp : IsPart f
  · have nu : ∀ {r : Dict Str}, Columns r → Understood find c r → (Used c r f ↔
        (rowVal c r (str "rfc")).isSome = true) := by
      intro r hcr hur
      rw [used_iff hc hcr hur]
      constructor
      · rintro (hx | hx | hx)
        · exact hx.2
        · exact absurd hx.1 (by rcases hp with rfl | rfl | rfl <;> decide)
        · exact absurd hx.2.1 (by rcases hp with rfl | rfl | rfl <;> decide)
      · exact fun hx => .inl ⟨hp, hx⟩
    cases hr : rowVal c raw (str "rfc") with
    | none =>
      have hr' : rowVal c new (str "rfc") = none := by rw [h.noRfc hr _ (.inl rfl), hr]
      rw [a2 (by rw [nu hcol hu, hr]; decide), b2 (by rw [nu hcol' hu', hr']; decide),
        h.noRfc hr f hp]
    | some v =>
      rw [a1 (by rw [nu hcol hu, hr]; rfl)]
      cases hurl : rowVal c raw (str "cite_url") with
      | none =>
        have := (h.rfc hurl (by rw [hr]; rfl)).1
        exact b1 (by rw [nu hcol' hu', this, hr]; rfl)
      | some u =>
        have hall := h.both (by rw [hurl]; rfl) (by rw [hr]; rfl)
        rw [b2 (by rw [nu hcol' hu', hall _ (.inl rfl)]; decide), hall f hp]
        rfl
  · have hus : Used c new f ↔ Used c raw f := by
      rw [used_iff hc hcol hu, used_iff hc hcol' hu', h.other (str "cite_url") (by decide),
        h.other (str "syntax_module") (by decide)]
      constructor
      · rintro (hx | hx)
        · exact absurd hx.1 hp
        · exact .inr hx
      · rintro (hx | hx)
        · exact absurd hx.1 hp
        · exact .inr hx
    by_cases hx : Used c raw f
    · rw [a1 hx, b1 (hus.2 hx)]
    · rw [a2 hx, b2 (fun hy => hx (hus.1 hy)), h.other f hp]

end Saved

end Httpolice.Lemmas
