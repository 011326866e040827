import Verif.Lemmas.Challenges

/-!
# Texts of challenges and credentials

The text of credentials determines what is written. That of a list of challenges does not quite: commas may belong to the
list of challenges, or to that of the parameters of a challenge. But what is between the commas can be told (`Item`), and
then also the challenges, and whether there are gaps.
-/

namespace Httpolice.Lemmas

open Httpolice.Model Httpolice.Spec

theorem blank_broken {c : Nat} (h : Unbroken c) : ¬ Blank c := fun k => by
  rcases k with rfl | rfl
  · exact h.2.1 rfl
  · exact h.2.2 rfl

theorem atEnd_unlike {s w l : Str} (hs : IsOws s) (hw : Begins Unbroken w) : ¬ AtEnd (s ++ (w ++ l)) := by
  rintro ⟨s', r, hs', hr, e⟩
  have hr' : Stops Blank r := by
    rcases hr with rfl | hr
    · exact .nil
    · exact hr.stops fun c hc => by subst hc; unfold Blank; decide
  obtain ⟨_, rfl⟩ := span_unique (Q := Blank) hs hs' (hw.append.stops fun c hc => blank_broken hc) hr' e
  obtain ⟨c, w', rfl, hc⟩ := hw
  rcases hr with h | ⟨d, l', h, rfl⟩
  · cases h
  · cases h
    exact hc.1 rfl

theorem end_atEnd : AtEnd [] := ⟨[], [], nofun, .inl rfl, rfl⟩

theorem spaces_ows {s : Str} (h : IsSpaces s) : IsOws s := fun c hc => .inl (h.2 c hc)

theorem token68_ne {c : Nat} (h : IsToken68Char c) : c ≠ 61 ∧ c ≠ 32 ∧ c ≠ 9 ∧ c ≠ 44 := by
  unfold IsToken68Char at h
  rw [token68_signs] at h
  simp only [List.mem_cons, List.not_mem_nil, or_false] at h
  omega

theorem token68_begins {x : Token68} (h : x.Ok) : Begins IsToken68Char x.text := (begins_of_all h.1 h.2).append

theorem token68_unbroken {c : Nat} (h : IsToken68Char c) : Unbroken c :=
  ⟨(token68_ne h).2.2.2, (token68_ne h).2.1, (token68_ne h).2.2.1⟩

theorem uniq_token68 : Uniq Token68.Ok Token68.text (Stops fun c => IsToken68Char c ∨ c = 61) := by
  have pad : Uniq (fun _ : Nat => True) (fun n => List.replicate n 61) (Stops fun c => c = 61) :=
    (uniq_span (R := fun c => c = 61)).map (fun n => List.replicate n 61) (fun n _ c hc => List.eq_of_mem_replicate hc)
      (fun _ _ => rfl) (fun a b _ _ e => by simpa using congrArg List.length e)
  have := Uniq.seq (uniq_span (R := IsToken68Char)) (pad.mono (G := Stops fun c => IsToken68Char c ∨ c = 61) (fun _ h => h)
    (fun _ h => h.mono fun c hc => .inr hc)) ?_
  · exact this.map (fun x : Token68 => (x.body, x.pad)) (fun x h => ⟨h.2, trivial⟩) (fun _ _ => rfl)
      (fun a b _ _ e => by cases a; cases b; simp only [Prod.mk.injEq] at e; rw [e.1, e.2])
  · intro n l _ hl
    cases n with
    | zero => exact hl.mono fun c hc => .inl hc
    | succ n => exact .cons fun k => (token68_ne k).1 rfl

theorem end_token68 {l : Str} (h : AtEnd l) : Stops (fun c => IsToken68Char c ∨ c = 61) l := h.stops.mono fun c hc => by
  rcases hc with hc | rfl
  · exact token68_unbroken hc
  · unfold Unbroken; decide

theorem word_begins {w : Word} (h : w.Ok) : Begins (fun c => IsTchar c ∨ c = 34) w.text := by
  cases w with
  | token w => exact (token_begins h).mono fun c => .inl
  | quoted q => exact (quoted_begins q).mono fun c => .inr

theorem word_unbroken {c : Nat} (h : IsTchar c ∨ c = 34) : Unbroken c := by
  rcases h with h | rfl
  · exact tchar_unbroken h
  · unfold Unbroken; decide

theorem equals_unbroken : Unbroken 61 := by unfold Unbroken; decide

/-- Before an equals sign. -/
theorem stops_equals {s l : Str} {Q : Nat → Prop} (hs : IsOws s) (hq : ∀ c, Q c → Unbroken c ∧ c ≠ 61) : Stops Q (s ++ 61 :: l) :=
  .append (fun c hc k => blank_broken (hq c k).1 (hs c hc)) (.cons fun k => (hq _ k).2 rfl)

theorem token68_not_param {x : Token68} {p : Param} {l l' : Str} (hx : x.Ok) (hp : p.Ok IsToken) (hl : AtEnd l) :
    x.text ++ l ≠ p.text ++ l' := by
  obtain ⟨h1, h2, h3, h4⟩ := hp
  intro e
  have e : x.body ++ (List.replicate x.pad 61 ++ l) = p.name ++ (p.before ++ 61 :: (p.after ++ (p.value.text ++ l'))) := by
    simpa [Token68.text, Param.text, equals_eq] using e
  have s1 : Stops (fun c => Unbroken c ∧ c ≠ 61) (List.replicate x.pad 61 ++ l) := by
    cases x.pad with
    | zero => exact hl.stops.mono fun c hc => hc.1
    | succ n => exact .cons fun k => k.2 rfl
  obtain ⟨_, e⟩ := span_unique (Q := fun c => Unbroken c ∧ c ≠ 61) (fun c hc => ⟨token68_unbroken (hx.2 c hc), (token68_ne (hx.2 c hc)).1⟩)
    (fun c hc => ⟨tchar_unbroken (h1.2 c hc), (tchar_ne (h1.2 c hc)).2.2.2.2.1⟩) s1 (stops_equals h2 fun c hc => hc) e
  have hv : Begins Unbroken (p.value.text ++ l') := ((word_begins h4).mono fun _ => word_unbroken).append
  have no : ∀ {n : Nat}, List.replicate n 61 ++ l ≠ p.after ++ (p.value.text ++ l') := by
    rintro (_ | n) e
    · have e : l = p.after ++ (p.value.text ++ l') := e
      exact atEnd_unlike h3 ((word_begins h4).mono fun _ => word_unbroken) (e ▸ hl)
    · refine (Stops.append (Q := (· = 61)) (fun c hc k => ?_) ((word_begins h4).append.stops fun c hc k => ?_)) 61 _ (Eq.symm e) rfl
      · exact blank_broken (k ▸ equals_unbroken) (h3 c hc)
      · subst k
        rcases hc with hc | hc
        · exact (tchar_ne hc).2.2.2.2.1 rfl
        · cases hc
  cases hn : x.pad with
  | zero =>
    rw [hn] at e
    have e : l = p.before ++ ([61] ++ (p.after ++ (p.value.text ++ l'))) := e
    exact atEnd_unlike h2 ⟨61, [], rfl, equals_unbroken⟩ (e ▸ hl)
  | succ n =>
    rw [hn] at e
    obtain ⟨_, e⟩ := span_unique (Q := Blank) (a := []) (b := p.before) nofun h2 (.cons (blank_broken equals_unbroken))
      (.cons (blank_broken equals_unbroken)) e
    exact no (List.cons.inj e).2

theorem spaces_uniq : Uniq IsSpaces (fun s => s) (Stops (· = 32)) := uniq_span.mono (fun _ h => h.2) (fun _ h => h)

theorem unbroken_space {w l : Str} (h : Begins Unbroken w) : Stops (· = 32) (w ++ l) :=
  h.append.stops fun c hc k => hc.2.1 k

theorem param_begins {p : Param} (h : p.Ok IsToken) : Begins Unbroken p.text := by
  have := ((token_begins h.1).mono fun _ => tchar_unbroken).append (l := p.before ++ (str "=" ++ (p.after ++ p.value.text)))
  simpa [Param.text] using this

/-! ## Credentials -/

theorem uniq_params : Uniq (ListSyn.Ok (Param.Ok IsToken)) (ListSyn.text Param.text) (fun l => l = []) :=
  uniq_list (uniq_param fun _ h => h) (fun _ h => stops_token h.stops) (fun _ => param_begins)

theorem list_unlike {x : Token68} {l : ListSyn Param} (hx : x.Ok) (hl : l.Ok (Param.Ok IsToken)) : x.text ≠ l.text Param.text := by
  intro e
  obtain ⟨_ | ⟨p, s⟩, rest⟩ := l
  · cases rest with
    | nil =>
      obtain ⟨c, w, e', _⟩ := token68_begins hx
      rw [e'] at e
      cases e
    | cons y rest =>
      obtain ⟨c, w, e', hc⟩ := token68_begins hx
      rw [e'] at e
      exact (token68_ne hc).2.2.2 (List.cons.inj e).1
  · refine token68_not_param (l := []) (p := p) (l' := s ++ rest.flatMap fun x => 44 :: x.1 ++ placeText Param.text x.2)
      hx hl.1.1 end_atEnd ?_
    rw [List.append_nil, e]
    show p.text ++ s ++ _ = _
    rw [List.append_assoc]

theorem auth_inj (x y : AuthSyn) (hx : x.Ok) (hy : y.Ok) (e : x.text = y.text) : x = y := by
  have details : Uniq (Sum.elim Token68.Ok (ListSyn.Ok (Param.Ok IsToken))) (Sum.elim Token68.text (ListSyn.text Param.text))
      (fun l => l = []) := by
    refine (uniq_token68.mono (fun _ h => h) fun l h => ?_).sum uniq_params ?_
    · subst h
      exact .nil
    · rintro a b l l' ha hb rfl rfl e
      simp only [List.append_nil] at e
      exact list_unlike ha hb e
  have begins : ∀ (b : Token68 ⊕ ListSyn Param) l, Sum.elim Token68.Ok (ListSyn.Ok (Param.Ok IsToken)) b → l = [] →
      Stops (· = 32) (Sum.elim Token68.text (ListSyn.text Param.text) b ++ l) := by
    rintro (x | ⟨_ | ⟨p, s⟩, rest⟩) l hb rfl
    · exact unbroken_space ((token68_begins hb).mono fun _ => token68_unbroken)
    · cases rest with
      | nil => exact .nil
      | cons y rest => exact .cons (by decide)
    · show Stops _ (p.text ++ s ++ _ ++ [])
      rw [List.append_assoc, List.append_assoc]
      exact unbroken_space (param_begins hb.1.1)
  have spaced := Uniq.seq spaces_uniq details begins
  have opt := spaced.opt fun a l l' ha _ hl' e => by
    subst hl'
    have := ha.1.1
    simp at e
    exact this e.1
  have all := Uniq.seq uniq_token opt ?_
  · have := all.map (β := AuthSyn) (Q := AuthSyn.Ok) (t' := AuthSyn.text) (fun x => (x.scheme, match x.details with
      | .nothing => none
      | .token s x => some (s, .inl x)
      | .params s l => some (s, .inr l))) ?_ ?_ ?_
    · exact this.inj rfl hx hy e
    · rintro ⟨n, _ | _ | _⟩ h <;> exact h
    · rintro ⟨n, _ | _ | _⟩ h <;> rfl
    · rintro ⟨n, _ | _ | _⟩ ⟨n', _ | _ | _⟩ _ _ e <;> simp_all
  · rintro (_ | ⟨s, b⟩) l hb rfl
    · exact .nil
    · show Stops _ (s ++ _ ++ [])
      rw [List.append_assoc]
      obtain ⟨c, s', rfl, hc⟩ := begins_of_all hb.1.1 hb.1.2
      exact .cons fun k => (tchar_ne k).2.2.1 hc

/-! ## Between commas -/

/-- A token; after a space, another token or a parameter; or the rest of a parameter. -/
abbrev Item := Str × Option ((Str × (Token68 ⊕ Param)) ⊕ (Str × (Str × Word)))

/-- What comes after a space. -/
abbrev innerOk : Token68 ⊕ Param → Prop := Sum.elim Token68.Ok (Param.Ok IsToken)
abbrev innerText : Token68 ⊕ Param → Str := Sum.elim Token68.text Param.text
abbrev afterOk (x : Str × (Token68 ⊕ Param)) : Prop := IsSpaces x.1 ∧ innerOk x.2
abbrev afterText (x : Str × (Token68 ⊕ Param)) : Str := x.1 ++ innerText x.2
abbrev restOk (x : Str × (Str × Word)) : Prop := IsOws x.1 ∧ IsOws x.2.1 ∧ x.2.2.Ok
abbrev restText (x : Str × (Str × Word)) : Str := x.1 ++ ([61] ++ (x.2.1 ++ x.2.2.text))
abbrev itemOk (x : Item) : Prop := IsToken x.1 ∧ optT True (Sum.elim afterOk restOk) x.2
abbrev itemText (x : Item) : Str := x.1 ++ optT [] (Sum.elim afterText restText) x.2

theorem inner_begins {x : Token68 ⊕ Param} (h : innerOk x) : Begins (fun c => Unbroken c ∧ c ≠ 61) (innerText x) := by
  cases x with
  | inl x => exact (token68_begins h).mono fun c hc => ⟨token68_unbroken hc, (token68_ne hc).1⟩
  | inr p =>
    have := ((token_begins h.1).mono fun c hc => (⟨tchar_unbroken hc, (tchar_ne hc).2.2.2.2.1⟩ : Unbroken c ∧ c ≠ 61)).append
      (l := p.before ++ (str "=" ++ (p.after ++ p.value.text)))
    simpa [Param.text] using this

theorem uniq_item : Uniq itemOk itemText AtEnd := by
  have inner : Uniq innerOk innerText AtEnd :=
    (uniq_token68.mono (fun _ h => h) fun _ h => end_token68 h).sum
      ((uniq_param fun _ h => h).mono (fun _ h => h) fun _ h => stops_token h.stops)
      fun a b l l' ha hb hl _ => token68_not_param ha hb hl
  have after : Uniq afterOk afterText AtEnd :=
    Uniq.seq spaces_uniq inner fun b l hb _ => unbroken_space ((inner_begins hb).mono fun _ h => h.1)
  have rest : Uniq restOk restText AtEnd := by
    have tail : Uniq (fun x : Str × Word => IsOws x.1 ∧ x.2.Ok) (fun x => x.1 ++ x.2.text) AtEnd :=
      Uniq.seq uniq_ows (uniq_word.mono (fun _ h => h) fun _ h => stops_token h.stops)
        fun b l hb _ => (word_begins hb).append.stops fun c hc => blank_broken (word_unbroken hc)
    exact Uniq.seq uniq_ows (tail.after [61]) fun b l _ _ => .cons (blank_broken equals_unbroken)
  have either := after.sum rest fun a b l l' ha hb _ _ e => by
    have e : a.1 ++ (innerText a.2 ++ l) = b.1 ++ (61 :: (b.2.1 ++ (b.2.2.text ++ l'))) := by
      simpa [List.append_assoc] using e
    obtain ⟨_, e⟩ := span_unique (Q := Blank) (spaces_ows ha.1) hb.1
      ((inner_begins ha.2).append.stops fun c hc => blank_broken hc.1) (.cons (blank_broken equals_unbroken)) e
    obtain ⟨c, w, e', hc⟩ := inner_begins ha.2
    rw [e'] at e
    exact hc.2 (List.cons.inj e).1
  have opt := either.opt fun a l l' ha _ hl' e => by
    subst e
    rcases a with a | b
    · refine atEnd_unlike (s := a.1) (w := innerText a.2) (l := l) (spaces_ows ha.1) ((inner_begins ha.2).mono fun _ h => h.1) ?_
      simpa using hl'
    · refine atEnd_unlike (s := b.1) (w := [61]) (l := b.2.1 ++ (b.2.2.text ++ l)) ha.1 ⟨61, [], rfl, equals_unbroken⟩ ?_
      simpa using hl'
  refine Uniq.seq uniq_token opt ?_
  rintro (_ | a | b) l hb hl
  · exact stops_token hl.stops
  · obtain ⟨c, s', e, hc⟩ := begins_of_all hb.1.1 hb.1.2
    show Stops _ (a.1 ++ innerText a.2 ++ l)
    rw [e]
    exact .cons fun k => (tchar_ne k).2.2.1 hc
  · show Stops _ (b.1 ++ ([61] ++ (b.2.1 ++ b.2.2.text)) ++ l)
    rw [List.append_assoc]
    exact stops_equals hb.1 fun c hc => ⟨tchar_unbroken hc, (tchar_ne hc).2.2.2.2.1⟩

theorem item_begins {x : Item} (h : itemOk x) : Begins Unbroken (itemText x) :=
  ((token_begins h.1).mono fun _ => tchar_unbroken).append

/-- The parameter by itself. -/
def paramItem (p : Param) : Item := (p.name, some (.inr (p.before, p.after, p.value)))

theorem paramItem_ok {p : Param} (h : p.Ok IsToken) : itemOk (paramItem p) := h

theorem paramItem_text (p : Param) : itemText (paramItem p) = p.text := by
  simp [paramItem, itemText, restText, optT, Param.text, equals_eq]

/-- What comes first in a challenge. -/
def headItem (a : AuthSyn) : Item := (a.scheme, match a.details with
  | .nothing => none
  | .token s x => some (.inl (s, .inl x))
  | .params s l => match l.first with
    | none => none
    | some (p, _) => some (.inl (s, .inr p)))

/-- What comes after the commas in a challenge. -/
def laterItems (a : AuthSyn) : List (Option Item) := match a.details with
  | .nothing => []
  | .token _ _ => []
  | .params _ l => l.rest.map fun x => x.2.map fun y => paramItem y.1

/-- What comes after the commas in a list of challenges. -/
def tailItems (tl : List (Str × Option (Str × AuthSyn))) : List (Option Item) := tl.flatMap fun x => match x.2 with
  | none => [none]
  | some (_, a) => some (headItem a) :: laterItems a

/-- What comes between the commas. -/
def allItems (l : List1Syn AuthSyn) : List (Option Item) :=
  (l.lead.map fun _ => none) ++ some (headItem l.head) :: (laterItems l.head ++ tailItems l.tail)

/-- After commas. -/
abbrev Places := List (Str × Option (Item × Str))
abbrev placesOk (r : Places) : Prop := ∀ x ∈ r, IsOws x.1 ∧ placeOk itemOk x.2
abbrev placesText (r : Places) : Str := r.flatMap fun x => 44 :: x.1 ++ placeText itemText x.2
abbrev placesItems (r : Places) : List (Option Item) := r.map fun x => x.2.map Prod.fst

theorem ows_append {s s' : Str} (h : IsOws s) (h' : IsOws s') : IsOws (s ++ s') := fun c hc => by
  rcases List.mem_append.mp hc with hc | hc
  · exact h c hc
  · exact h' c hc

/-- Whitespace at the end. -/
theorem extend_places {s : Str} (hs : IsOws s) : (r : Places) → placesOk r → r ≠ [] →
    ∃ r', placesOk r' ∧ placesText r' = placesText r ++ s ∧ placesItems r' = placesItems r
  | [], _, h => absurd rfl h
  | [(t, none)], h, _ => by
    refine ⟨[(t ++ s, none)], ?_, ?_, rfl⟩
    · intro x hx
      obtain rfl := List.mem_singleton.mp hx
      exact ⟨ows_append (h _ (.head _)).1 hs, trivial⟩
    · simp [placesText, placeText]
  | [(t, some (i, u))], h, _ => by
    refine ⟨[(t, some (i, u ++ s))], ?_, ?_, rfl⟩
    · intro x hx
      obtain rfl := List.mem_singleton.mp hx
      have := h _ (.head _)
      exact ⟨this.1, this.2.1, ows_append this.2.2 hs⟩
    · simp [placesText, placeText]
  | x :: y :: r, h, _ => by
    obtain ⟨h1, h2⟩ := List.forall_mem_cons.mp h
    obtain ⟨r', k1, k2, k3⟩ := extend_places hs (y :: r) h2 (List.cons_ne_nil _ _)
    refine ⟨x :: r', List.forall_mem_cons.mpr ⟨h1, k1⟩, ?_, ?_⟩
    · show _ ++ placesText r' = _ ++ placesText (y :: r) ++ s
      rw [k2, ← List.append_assoc]
    · show _ :: placesItems r' = _ :: placesItems (y :: r)
      rw [k3]

/-- A challenge by its items. -/
theorem auth_places {a : AuthSyn} (ha : a.Ok) {s : Str} (hs : IsOws s) : ∃ post r, IsOws post ∧ placesOk r ∧
    a.text ++ s = itemText (headItem a) ++ post ++ placesText r ∧ placesItems r = laterItems a ∧ itemOk (headItem a) := by
  obtain ⟨n, _ | ⟨sp, x⟩ | ⟨sp, ⟨first, rest⟩⟩⟩ := a
  · exact ⟨s, [], hs, nofun, by simp [AuthSyn.text, Details.text, headItem, optT], rfl, ha.1, trivial⟩
  · refine ⟨s, [], hs, nofun, ?_, rfl, ha⟩
    simp [AuthSyn.text, Details.text, headItem, optT]
  · obtain ⟨hn, hsp, hf, hr⟩ := ha
    -- without the whitespace at the end
    have inner : ∃ post r, IsOws post ∧ placesOk r ∧
        n ++ (sp ++ ListSyn.text Param.text ⟨first, rest⟩) =
          itemText (headItem ⟨n, .params sp ⟨first, rest⟩⟩) ++ post ++ placesText r ∧
        placesItems r = laterItems ⟨n, .params sp ⟨first, rest⟩⟩ := by
      have places : placesText (rest.map fun x => (x.1, x.2.map fun y => (paramItem y.1, y.2))) =
          rest.flatMap fun x => 44 :: x.1 ++ placeText Param.text x.2 := by
        clear hr hf hn
        induction rest with
        | nil => rfl
        | cons x rest ih =>
          rw [List.map_cons]
          show _ ++ placesText _ = _ ++ _
          rw [ih]
          congr 1
          obtain ⟨t, _ | ⟨p, u⟩⟩ := x
          · rfl
          · show 44 :: t ++ (itemText (paramItem p) ++ u) = 44 :: t ++ (p.text ++ u)
            rw [paramItem_text]
      refine ⟨match first with | none => sp | some (_, u) => u, rest.map fun x => (x.1, x.2.map fun y => (paramItem y.1, y.2)),
        ?_, ?_, ?_, ?_⟩
      · cases first with
        | none => exact spaces_ows hsp
        | some y => exact hf.2
      · intro x hx
        obtain ⟨y, hy, rfl⟩ := List.mem_map.mp hx
        obtain ⟨h1, h2⟩ := hr y hy
        refine ⟨h1, ?_⟩
        obtain ⟨t, _ | ⟨p, u⟩⟩ := y
        · trivial
        · exact ⟨paramItem_ok h2.1, h2.2⟩
      · rw [places]
        cases first with
        | none => simp [ListSyn.text, placeText, headItem, optT]
        | some y => simp [ListSyn.text, placeText, headItem, optT, afterText, innerText]
      · show List.map _ (List.map _ rest) = List.map _ rest
        rw [List.map_map]
        refine List.map_congr_left fun x _ => ?_
        obtain ⟨t, _ | ⟨p, u⟩⟩ := x <;> rfl
    have ok : itemOk (headItem ⟨n, .params sp ⟨first, rest⟩⟩) := by
      refine ⟨hn, ?_⟩
      cases first with
      | none => trivial
      | some y => exact ⟨hsp, hf.1⟩
    obtain ⟨post, r, h1, h2, h3, h4⟩ := inner
    have e : AuthSyn.text ⟨n, .params sp ⟨first, rest⟩⟩ = n ++ (sp ++ ListSyn.text Param.text ⟨first, rest⟩) := rfl
    rw [e, h3]
    cases r with
    | nil =>
      refine ⟨post ++ s, [], ows_append h1 hs, nofun, ?_, h4, ok⟩
      simp [placesText]
    | cons x r =>
      obtain ⟨r', k1, k2, k3⟩ := extend_places hs (x :: r) h2 (List.cons_ne_nil _ _)
      refine ⟨post, r', h1, k1, ?_, k3.trans h4, ok⟩
      rw [k2]
      simp

theorem tail_places : (tl : List (Str × Option (Str × AuthSyn))) → (∀ x ∈ tl, IsOws x.1 ∧ slotOk AuthSyn.Ok x.2) →
    ∃ s r, IsOws s ∧ placesOk r ∧ tl.flatMap (fun x => x.1 ++ 44 :: slotText AuthSyn.text x.2) = s ++ placesText r ∧
      placesItems r = tailItems tl
  | [], _ => ⟨[], [], nofun, nofun, rfl, rfl⟩
  | (s, none) :: tl, h => by
    obtain ⟨h1, h2⟩ := List.forall_mem_cons.mp h
    obtain ⟨s', r, k1, k2, k3, k4⟩ := tail_places tl h2
    refine ⟨s, (s', none) :: r, h1.1, List.forall_mem_cons.mpr ⟨⟨k1, trivial⟩, k2⟩, ?_, ?_⟩
    · rw [List.flatMap_cons, k3]
      simp [slotText, placesText, placeText]
    · show none :: placesItems r = none :: tailItems tl
      rw [k4]
  | (s, some (t, a)) :: tl, h => by
    obtain ⟨h1, h2⟩ := List.forall_mem_cons.mp h
    obtain ⟨s', r, k1, k2, k3, k4⟩ := tail_places tl h2
    obtain ⟨post, r', m1, m2, m3, m4, m5⟩ := auth_places h1.2.2 k1
    refine ⟨s, (t, some (headItem a, post)) :: (r' ++ r), h1.1, ?_, ?_, ?_⟩
    · refine List.forall_mem_cons.mpr ⟨⟨h1.2.1, m5, m1⟩, fun x hx => ?_⟩
      rcases List.mem_append.mp hx with hx | hx
      · exact m2 x hx
      · exact k2 x hx
    · rw [List.flatMap_cons, k3]
      have : s ++ 44 :: slotText AuthSyn.text (some (t, a)) ++ (s' ++ placesText r) =
          s ++ 44 :: (t ++ ((a.text ++ s') ++ placesText r)) := by simp [slotText]
      rw [this, m3]
      simp [placesText, placeText]
    · show some (headItem a) :: placesItems (r' ++ r) = some (headItem a) :: laterItems a ++ tailItems tl
      rw [placesItems, List.map_append]
      show _ :: (placesItems r' ++ placesItems r) = _
      rw [m4, k4]
      rfl

theorem lead_places : (ld : List Str) → (∀ s ∈ ld, IsOws s) → {i : Item} → {post : Str} → {r : Places} → itemOk i → IsOws post →
    placesOk r → ∃ f : ListSyn Item, f.Ok itemOk ∧
      f.text itemText = ld.flatMap (fun s => 44 :: s) ++ (itemText i ++ post ++ placesText r) ∧
      f.first.map Prod.fst :: placesItems f.rest = (ld.map fun _ => none) ++ some i :: placesItems r := by
  have key : (ld : List Str) → (∀ s ∈ ld, IsOws s) → {i : Item} → {post : Str} → {r : Places} → itemOk i → IsOws post →
      placesOk r → (s : Str) → IsOws s → ∃ r', placesOk r' ∧
        placesText r' = (s :: ld).flatMap (fun s => 44 :: s) ++ (itemText i ++ post ++ placesText r) ∧
        placesItems r' = (ld.map fun _ => none) ++ some i :: placesItems r := by
    intro ld
    induction ld with
    | nil =>
      intro _ i post r hi hp hr s hs
      refine ⟨(s, some (i, post)) :: r, List.forall_mem_cons.mpr ⟨⟨hs, hi, hp⟩, hr⟩, ?_, rfl⟩
      simp [placesText, placeText]
    | cons s' ld ih =>
      intro h i post r hi hp hr s hs
      obtain ⟨h1, h2⟩ := List.forall_mem_cons.mp h
      obtain ⟨r', k1, k2, k3⟩ := ih h2 hi hp hr s' h1
      refine ⟨(s, none) :: r', List.forall_mem_cons.mpr ⟨⟨hs, trivial⟩, k1⟩, ?_, ?_⟩
      · show _ ++ placesText r' = _
        rw [k2, List.flatMap_cons (x := s)]
        simp [placeText]
      · show none :: placesItems r' = _
        rw [k3]
        rfl
  intro ld h i post r hi hp hr
  cases ld with
  | nil => exact ⟨⟨some (i, post), r⟩, ⟨⟨hi, hp⟩, hr⟩, rfl, rfl⟩
  | cons s ld =>
    obtain ⟨h1, h2⟩ := List.forall_mem_cons.mp h
    obtain ⟨r', k1, k2, k3⟩ := key ld h2 hi hp hr s h1
    refine ⟨⟨none, r'⟩, ⟨trivial, k1⟩, k2, ?_⟩
    show none :: placesItems r' = _
    rw [k3]
    rfl

/-- The text of a list of challenges determines what is between the commas. -/
theorem items_unique {l m : List1Syn AuthSyn} (hl : l.Ok AuthSyn.Ok) (hm : m.Ok AuthSyn.Ok)
    (e : l.text AuthSyn.text = m.text AuthSyn.text) : allItems l = allItems m := by
  have key : ∀ l : List1Syn AuthSyn, l.Ok AuthSyn.Ok → ∃ f : ListSyn Item, f.Ok itemOk ∧
      f.text itemText = l.text AuthSyn.text ∧ f.first.map Prod.fst :: placesItems f.rest = allItems l := by
    rintro ⟨lead, head, tail⟩ ⟨h1, h2, h3⟩
    obtain ⟨s, r, k1, k2, k3, k4⟩ := tail_places tail h3
    obtain ⟨post, r', m1, m2, m3, m4, m5⟩ := auth_places h2 k1
    obtain ⟨f, n1, n2, n3⟩ := lead_places lead h1 (r := r' ++ r) m5 m1 (fun x hx => by
      rcases List.mem_append.mp hx with hx | hx
      · exact m2 x hx
      · exact k2 x hx)
    refine ⟨f, n1, ?_, ?_⟩
    · rw [n2]
      show _ = lead.flatMap _ ++ head.text ++ tail.flatMap _
      rw [k3]
      have : lead.flatMap (fun s => 44 :: s) ++ head.text ++ (s ++ placesText r) =
          lead.flatMap (fun s => 44 :: s) ++ ((head.text ++ s) ++ placesText r) := by simp
      rw [this, m3]
      simp [placesText]
    · rw [n3]
      show _ = _ ++ _ :: (laterItems head ++ tailItems tail)
      rw [← m4, ← k4]
      simp [placesItems]
  obtain ⟨f, h1, h2, h3⟩ := key l hl
  obtain ⟨g, k1, k2, k3⟩ := key m hm
  have := (uniq_list uniq_item (fun _ h => h) fun _ => item_begins).inj rfl h1 k1 (by rw [h2, k2, e])
  rw [← h3, ← k3, this]

/-! ## What follows from the items -/

/-- A challenge without the ways to write it. -/
abbrev Core := Str × (Token68 ⊕ List Param)

def core (a : AuthSyn) : Core := (a.scheme, match a.details with
  | .nothing => .inr []
  | .token _ x => .inl x
  | .params _ l => .inr l.elems)

/-- Parameters that belong to what came before, and challenges. -/
def grouped : List (Option Item) → List Param × List Core
  | [] => ([], [])
  | none :: r => grouped r
  | some (n, none) :: r => ([], (n, .inr (grouped r).1) :: (grouped r).2)
  | some (n, some (.inl (_, .inl x))) :: r => ([], (n, .inl x) :: (grouped r).2)
  | some (n, some (.inl (_, .inr p))) :: r => ([], (n, .inr (p :: (grouped r).1)) :: (grouped r).2)
  | some (n, some (.inr (b, a, w))) :: r => (⟨n, b, a, w⟩ :: (grouped r).1, (grouped r).2)

theorem grouped_params (l : List (Str × Option (Param × Str))) (r : List (Option Item)) :
    grouped ((l.map fun x => x.2.map fun y => paramItem y.1) ++ r) =
      ((l.map Prod.snd).filterMap (fun x => x.map Prod.fst) ++ (grouped r).1, (grouped r).2) := by
  induction l with
  | nil => rfl
  | cons x l ih =>
    obtain ⟨t, _ | ⟨p, u⟩⟩ := x
    · exact ih
    · show (p :: (grouped (List.map _ l ++ r)).1, (grouped (List.map _ l ++ r)).2) = _
      rw [ih]
      rfl

theorem grouped_auth (a : AuthSyn) {r : List (Option Item)} (h : (grouped r).1 = []) :
    grouped (some (headItem a) :: (laterItems a ++ r)) = ([], core a :: (grouped r).2) := by
  obtain ⟨n, _ | ⟨sp, x⟩ | ⟨sp, ⟨_ | ⟨p, u⟩, rest⟩⟩⟩ := a
  · show ([], (n, .inr (grouped r).1) :: (grouped r).2) = _
    rw [h]
    rfl
  · rfl
  · show ([], (n, .inr (grouped _).1) :: (grouped _).2) = _
    rw [laterItems, grouped_params, h, List.append_nil]
    rfl
  · show ([], (n, .inr (p :: (grouped _).1)) :: (grouped _).2) = _
    rw [laterItems, grouped_params, h, List.append_nil]
    rfl

theorem grouped_tail (tl : List (Str × Option (Str × AuthSyn))) :
    grouped (tailItems tl) = ([], (tl.filterMap fun x => x.2.map Prod.snd).map core) := by
  induction tl with
  | nil => rfl
  | cons x tl ih =>
    obtain ⟨s, _ | ⟨t, a⟩⟩ := x
    · exact ih
    · show grouped (some (headItem a) :: (laterItems a ++ tailItems tl)) = _
      rw [grouped_auth a (by rw [ih]), ih]
      rfl

theorem grouped_all (l : List1Syn AuthSyn) : grouped (allItems l) = ([], l.elems.map core) := by
  have : ∀ (ld : List Str) r, grouped ((ld.map fun _ => none) ++ r) = grouped r := by
    intro ld r
    induction ld with
    | nil => rfl
    | cons s ld ih => exact ih
  rw [allItems, this, grouped_auth _ (by rw [grouped_tail]), grouped_tail]
  rfl

/-- A parameter comes next. -/
def paramNext : List (Option Item) → Bool
  | some (_, some (.inr _)) :: _ => true
  | _ => false

/-- There is nothing in some place; or nothing between a scheme and the comma before its first parameter. -/
def gapped : List (Option Item) → Bool
  | [] => false
  | none :: _ => true
  | some (_, none) :: r => paramNext r || gapped r
  | some (_, some _) :: r => gapped r

/-- There are gaps among the parameters. -/
def innerGaps (a : AuthSyn) : Prop := match a.details with
  | .params _ l => l.Gaps
  | _ => False

theorem gapped_params (l : List (Str × Option (Param × Str))) (r : List (Option Item)) :
    gapped ((l.map fun x => x.2.map fun y => paramItem y.1) ++ r) = true ↔
      (∃ x ∈ l, x.2.isNone = true) ∨ gapped r = true := by
  induction l with
  | nil => simp
  | cons x l ih =>
    obtain ⟨t, _ | ⟨p, u⟩⟩ := x
    · simp [gapped]
    · show gapped (List.map _ l ++ r) = true ↔ _
      rw [ih]
      simp

theorem gapped_auth (a : AuthSyn) {r : List (Option Item)} (h : paramNext r = false) :
    gapped (some (headItem a) :: (laterItems a ++ r)) = true ↔ innerGaps a ∨ gapped r = true := by
  obtain ⟨n, _ | ⟨sp, x⟩ | ⟨sp, ⟨_ | ⟨p, u⟩, rest⟩⟩⟩ := a
  · show (paramNext r || gapped r) = true ↔ False ∨ _
    rw [h, Bool.false_or, false_or]
  · show gapped r = true ↔ False ∨ _
    rw [false_or]
  · show (paramNext (laterItems _ ++ r) || gapped (laterItems _ ++ r)) = true ↔ _
    rw [Bool.or_eq_true, laterItems, gapped_params]
    show _ ↔ (rest ≠ [] ∧ (_ ∨ _)) ∨ _
    cases rest with
    | nil => simp [h]
    | cons x rest =>
      obtain ⟨t, _ | ⟨q, v⟩⟩ := x
      · simp [paramNext]
      · simp [paramNext, paramItem]
  · show gapped (laterItems _ ++ r) = true ↔ _
    rw [laterItems, gapped_params]
    show _ ↔ (rest ≠ [] ∧ (_ ∨ _)) ∨ _
    cases rest <;> simp

theorem next_tail (tl : List (Str × Option (Str × AuthSyn))) : paramNext (tailItems tl) = false := by
  cases tl with
  | nil => rfl
  | cons x tl =>
    obtain ⟨s, _ | ⟨t, ⟨n, _ | ⟨sp, x⟩ | ⟨sp, ⟨_ | ⟨p, u⟩, rest⟩⟩⟩⟩⟩ := x <;> rfl

theorem gapped_tail (tl : List (Str × Option (Str × AuthSyn))) : gapped (tailItems tl) = true ↔
    (∃ x ∈ tl, x.2.isNone = true) ∨ ∃ a ∈ tl.filterMap fun x => x.2.map Prod.snd, innerGaps a := by
  induction tl with
  | nil => simp [tailItems, gapped]
  | cons x tl ih =>
    obtain ⟨s, _ | ⟨t, a⟩⟩ := x
    · simp [tailItems, gapped]
    · show gapped (some (headItem a) :: (laterItems a ++ tailItems tl)) = true ↔ _
      rw [gapped_auth a (next_tail tl), ih]
      simp only [List.mem_cons, List.filterMap_cons, Option.map_some, exists_eq_or_imp, Option.isNone_some,
        Bool.false_eq_true, false_or]
      exact ⟨fun h => by rcases h with h | h | h <;> simp_all, fun h => by rcases h with h | h | h <;> simp_all⟩

theorem gapped_all (l : List1Syn AuthSyn) : gapped (allItems l) = true ↔ l.Gaps ∨ ∃ a ∈ l.elems, innerGaps a := by
  obtain ⟨_ | ⟨s, lead⟩, head, tail⟩ := l
  · show gapped (some (headItem head) :: (laterItems head ++ tailItems tail)) = true ↔ ([] ≠ [] ∨ _) ∨ ∃ a ∈ head :: _, _
    rw [gapped_auth head (next_tail tail), gapped_tail]
    simp only [ne_eq, not_true_eq_false, false_or, List.mem_cons, exists_eq_or_imp]
    exact ⟨fun h => by rcases h with h | h | h <;> simp_all, fun h => by rcases h with h | h | h <;> simp_all⟩
  · exact ⟨fun _ => .inl (.inl (List.cons_ne_nil _ _)), fun _ => rfl⟩

/-! ## Values and complaints -/

def coreValue (x : Core) : GVal := .obj (str "Parametrized") [nameValue (str "AuthScheme") x.1, match x.2 with
  | .inl t => .text t.text
  | .inr l => multi (l.map Param.entry)]

def coreNotes (x : Core) : List PyComplaint := match x.2 with
  | .inl _ => []
  | .inr l => l.flatMap Param.authNotes

theorem core_value (a : AuthSyn) : coreValue (core a) = a.value := by
  obtain ⟨n, _ | _ | _⟩ := a <;> rfl

theorem badSpace_ne (s : Str) {x : PyComplaint} (h : x ∈ badSpaceNotes s) : x.1 ≠ 1151 := by
  unfold badSpaceNotes at h
  split at h
  · rw [List.mem_singleton.mp h]
    decide
  · cases h

theorem word_notes_ne (w : Word) {x : PyComplaint} (h : x ∈ w.notes) : x.1 ≠ 1151 := by
  cases w with
  | token _ => cases h
  | quoted q =>
    obtain ⟨c, _, hc⟩ := List.mem_flatMap.mp h
    cases c with
    | plain c => cases hc
    | escaped c =>
      replace hc : x ∈ (if c = 34 ∨ c = 92 then [] else [(1017, [(str "char", .other (.text [c]))])] : List PyComplaint) := hc
      split at hc
      · cases hc
      · rw [List.mem_singleton.mp hc]
        simp

theorem authNotes_ne (p : Param) {x : PyComplaint} (h : x ∈ p.authNotes) : x.1 ≠ 1151 := by
  unfold Param.authNotes Param.notes at h
  rw [List.mem_append, List.mem_append, List.mem_append] at h
  rcases h with ((h | h) | h) | h
  · exact badSpace_ne _ h
  · exact badSpace_ne _ h
  · exact word_notes_ne _ h
  · split at h
    · split at h
      · rw [List.mem_singleton.mp h]
        decide
      · cases h
    · cases h

theorem gap_filter (gaps : Prop) [Decidable gaps] : (gapNotes gaps).filter (fun x => x.1 ≠ 1151) = [] := by
  unfold gapNotes
  split <;> rfl

theorem gap_mem (gaps : Prop) [Decidable gaps] : ((1151, []) : PyComplaint) ∈ gapNotes gaps ↔ gaps := by
  unfold gapNotes
  split <;> simp_all

theorem filter_authNotes (l : List Param) : (l.flatMap Param.authNotes).filter (fun x => x.1 ≠ 1151) = l.flatMap Param.authNotes :=
  List.filter_eq_self.mpr fun x hx => by
    obtain ⟨p, _, hp⟩ := List.mem_flatMap.mp hx
    simpa using authNotes_ne p hp

theorem not_authNotes (l : List Param) : ((1151, []) : PyComplaint) ∉ l.flatMap Param.authNotes := fun h => by
  obtain ⟨p, _, hp⟩ := List.mem_flatMap.mp h
  exact authNotes_ne p hp rfl

theorem core_notes (a : AuthSyn) : a.notes.filter (fun x => x.1 ≠ 1151) = coreNotes (core a) := by
  obtain ⟨n, _ | _ | ⟨sp, l⟩⟩ := a
  · rfl
  · rfl
  · show (List.flatMap _ _ ++ _).filter _ = _
    rw [List.filter_append, gap_filter, List.append_nil, filter_authNotes]
    rfl

theorem gap_notes (a : AuthSyn) : ((1151, []) : PyComplaint) ∈ a.notes ↔ innerGaps a := by
  obtain ⟨n, _ | _ | ⟨sp, l⟩⟩ := a
  · exact ⟨nofun, nofun⟩
  · exact ⟨nofun, nofun⟩
  · show _ ∈ List.flatMap _ _ ++ _ ↔ l.Gaps
    rw [List.mem_append, gap_mem]
    exact ⟨fun h => h.resolve_left (not_authNotes _), .inr⟩

/-- The text of a list of challenges determines the challenges and the complaints, but for how often there is 1151. -/
theorem challenges_same {l m : List1Syn AuthSyn} (hl : l.Ok AuthSyn.Ok) (hm : m.Ok AuthSyn.Ok)
    (e : l.text AuthSyn.text = m.text AuthSyn.text) :
    l.value AuthSyn.value = m.value AuthSyn.value ∧ SameButGaps (l.notes AuthSyn.notes) (m.notes AuthSyn.notes) := by
  have items := items_unique hl hm e
  have cores : l.elems.map core = m.elems.map core := by
    have := congrArg (fun x => (grouped x).2) items
    simpa [grouped_all] using this
  have value : ∀ l : List1Syn AuthSyn, l.value AuthSyn.value = .list ((l.elems.map core).map coreValue) := by
    intro l
    rw [List.map_map]
    exact congrArg GVal.list (List.map_congr_left fun a _ => (core_value a).symm)
  have notes : ∀ l : List1Syn AuthSyn, (l.notes AuthSyn.notes).filter (fun x => x.1 ≠ 1151) =
      (l.elems.map core).flatMap coreNotes := by
    intro l
    rw [List1Syn.notes, List.filter_append, gap_filter, List.append_nil, List.filter_flatMap, List.flatMap_map]
    exact congrArg (fun f => List.flatMap f l.elems) (funext core_notes)
  have gaps : ∀ l : List1Syn AuthSyn, ((1151, []) : PyComplaint) ∈ l.notes AuthSyn.notes ↔ gapped (allItems l) = true := by
    intro l
    rw [gapped_all, List1Syn.notes, List.mem_append, gap_mem, List.mem_flatMap, or_comm]
    simp only [gap_notes]
  refine ⟨by rw [value, value, cores], ?_, by rw [gaps, gaps, items]⟩
  rw [notes, notes, cores]

theorem readsButGaps_of_some {α : Type} {parse : Str → Parsing} {P : α → Prop} {t : α → Str} {v : α → GVal}
    {c : α → List PyComplaint} (h : ReadsSome parse P t v c)
    (hu : ∀ x y, P x → P y → t x = t y → v x = v y ∧ SameButGaps (c x) (c y)) : ReadsButGaps parse P t v c := by
  refine ⟨h.1, fun x hx => ?_⟩
  obtain ⟨⟨node, cs, as⟩, hr⟩ := (h.1 (t x)).1.mpr ⟨x, hx, rfl⟩
  obtain ⟨y, h1, h2, h3, h4⟩ := h.2 _ _ _ _ hr
  obtain ⟨k1, k2, k3⟩ := hu y x h1 hx h2.symm
  exact ⟨cs, as, by rw [hr, h3, k1], (h4.filter _).trans k2, h4.mem_iff.trans k3⟩

end Httpolice.Lemmas
