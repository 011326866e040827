import Verif.Lemmas.ExtValues
import Verif.Lemmas.ChallengesText

/-!
# Encoded values, Content-Disposition and relations can be read in one way only
-/

namespace Httpolice.Lemmas

open Httpolice.Model Httpolice.Spec

/-- What may be in an encoded value. -/
def XSign (c : Nat) : Prop := IsAttrChar c ∨ c = 37

theorem xchar_begins {x : XChar} (h : x.Ok) : Begins XSign x.text := by
  cases x with
  | plain c => exact ⟨c, [], rfl, .inl h⟩
  | percent a b => exact ⟨37, [a, b], rfl, .inr rfl⟩

theorem uniq_xchar : Uniq XChar.Ok XChar.text (fun _ => True) := by
  rintro (c | ⟨a, b⟩) (d | ⟨a', b'⟩) l l' h h' _ _ e
  · obtain ⟨rfl, e1⟩ := List.cons.inj e
    exact ⟨rfl, e1⟩
  · exact absurd (List.cons.inj e).1 (attr_ne h).2.2.1
  · exact absurd (List.cons.inj e).1.symm (attr_ne h').2.2.1
  · obtain ⟨rfl, e1⟩ := List.cons.inj (List.cons.inj e).2
    obtain ⟨rfl, e2⟩ := List.cons.inj e1
    exact ⟨rfl, e2⟩

theorem uniq_xchars : Uniq (fun l : List XChar => ∀ c ∈ l, c.Ok) (fun l => l.flatMap XChar.text) (Stops XSign) :=
  Uniq.many uniq_xchar (fun _ _ => trivial) (fun _ _ _ _ => trivial)
    (fun _ _ _ ha _ hl' e => (xchar_begins ha).append.not_stops (fun _ h => h) (e ▸ hl'))

theorem charset_ne {w : Str} (h : IsCharsetName w) : ∀ c ∈ w, c ≠ 39 ∧ c ≠ 32 ∧ c ≠ 9 := by
  intro c hc
  have := h.2 c hc
  unfold IsLetter IsDigit at this
  rw [charset_signs] at this
  simp only [List.mem_cons, List.not_mem_nil, or_false] at this
  omega

theorem hyphened_chars {R : Nat → Prop} (hr : R 45) {ws : List Str} (h : ∀ w ∈ ws, ∀ c ∈ w, R c) : ∀ c ∈ hyphened ws, R c := by
  intro c hc
  obtain ⟨w, hw, hc⟩ := List.mem_flatMap.mp hc
  rcases List.mem_cons.mp hc with rfl | hc
  · exact hr
  · exact h w hw c hc

theorem tag_ne {w : Str} (h : IsLanguageTag w) : w ≠ [] ∧ ∀ c ∈ w, c ≠ 39 := by
  have alnum : ∀ c, IsLetter c ∨ IsDigit c → c ≠ 39 := by
    intro c hc
    unfold IsLetter IsDigit at hc
    omega
  refine ⟨(range_token (tag_range h)).1, ?_⟩
  rcases tag_range h with rfl | ⟨a, ws, h1, h2, rfl⟩
  · decide +kernel
  · intro c hc
    rcases List.mem_append.mp hc with hc | hc
    · exact alnum c (.inl (h1.1 c hc))
    · exact hyphened_chars (R := (· ≠ 39)) (by decide) (fun w hw c hc => alnum c ((h2 w hw).1 c hc)) c hc

theorem uniq_ext : Uniq ExtSyn.Ok ExtSyn.text (Stops XSign) := by
  have quote : ∀ l : Str, Stops (· ≠ 39) (39 :: l) := fun l => .cons fun k => k rfl
  have tail := Uniq.seq (uniq_span (R := (· ≠ 39))) (uniq_xchars.after [39]) (fun _ _ _ _ => quote _)
  have all := Uniq.seq (uniq_span (R := (· ≠ 39))) (tail.after [39]) (fun _ _ _ _ => quote _)
  refine all.map (fun x : ExtSyn => (x.charset, x.language.getD [], x.chars)) ?_ ?_ ?_
  · rintro ⟨c, o, l⟩ ⟨h1, h2, h3⟩
    refine ⟨fun d hd => (charset_ne h1 d hd).1, ?_, h3⟩
    cases o with
    | none => nofun
    | some w => exact (tag_ne (h2 w rfl)).2
  · intro x _
    simp [ExtSyn.text]
  · rintro ⟨c, o, l⟩ ⟨c', o', l'⟩ h h' e
    simp only [Prod.mk.injEq] at e
    obtain ⟨rfl, e, rfl⟩ := e
    cases o with
    | none =>
      cases o' with
      | none => rfl
      | some w => exact absurd e.symm (tag_ne (h'.language w rfl)).1
    | some v =>
      cases o' with
      | none => exact absurd e (tag_ne (h.language v rfl)).1
      | some w => cases e; rfl

theorem ext_inj (x y : ExtSyn) (hx : x.Ok) (hy : y.Ok) (e : x.text = y.text) : x = y := uniq_ext.inj .nil hx hy e

/-! ## Content-Disposition -/

theorem dispValue_blank {x : DispValue} (h : x.Ok) (l : Str) : Stops Blank (x.text ++ l) := by
  cases x with
  | word w => exact (word_begins h).append.stops fun c hc => blank_broken (word_unbroken hc)
  | ext x =>
    have : Begins (fun c => c ≠ 39 ∧ c ≠ 32 ∧ c ≠ 9) x.text := by
      unfold ExtSyn.text
      rw [List.append_assoc]
      exact (begins_of_all h.charset.1 (charset_ne h.charset)).append
    exact not_blank (fun c hc => hc.2) this

/-- The end, or a semicolon. -/
def AtStop (l : Str) : Prop := l = [] ∨ AtSemi l

theorem AtStop.tchar {l : Str} (h : AtStop l) : Stops IsTchar l := by
  rcases h with rfl | h
  · exact .nil
  · exact h.stops

theorem AtStop.sign {l : Str} (h : AtStop l) : Stops XSign l := by
  rcases h with rfl | ⟨s, r, hs, rfl⟩
  · exact .nil
  · refine .append (fun c hc k => ?_) (.cons fun k => ?_)
    · rcases k with k | rfl
      · have := (attr_ne k).1
        rcases hs c hc with rfl | rfl <;> omega
      · rcases hs _ hc with h | h <;> cases h
    · rcases k with k | k
      · exact (attr_ne k).2.2.2.2.2 rfl
      · cases k

theorem uniq_dispParam : Uniq DispParam.Ok DispParam.text AtStop := by
  have name : Uniq (fun x : Str × Str × Str => IsToken x.1 ∧ IsOws x.2.1 ∧ IsOws x.2.2)
      (fun x => x.1 ++ (x.2.1 ++ ([61] ++ x.2.2))) (Stops Blank) := by
    have space := Uniq.seq uniq_ows (uniq_ows.after [61]) fun b l _ _ => .cons (by unfold Blank; decide)
    refine Uniq.seq uniq_token space ?_
    rintro ⟨a, b⟩ l h _
    show Stops IsTchar (a ++ ([61] ++ b) ++ l)
    rw [List.append_assoc]
    exact stops_blank_tchar h.1 (.cons fun k => (tchar_ne k).2.2.2.2.1 rfl)
  rintro ⟨n, a, b, x⟩ ⟨n', a', b', x'⟩ l l' h h' hl hl' e
  have e' : (n ++ (a ++ ([61] ++ b))) ++ (x.text ++ l) = (n' ++ (a' ++ ([61] ++ b'))) ++ (x'.text ++ l') := by
    simpa [DispParam.text] using e
  obtain ⟨e1, e2⟩ := name (n, a, b) (n', a', b') _ _ ⟨h.name, h.before, h.after⟩ ⟨h'.name, h'.before, h'.after⟩
    (dispValue_blank h.value l) (dispValue_blank h'.value l') e'
  simp only [Prod.mk.injEq] at e1
  obtain ⟨rfl, rfl, rfl⟩ := e1
  have hk : x.IsExt ↔ x'.IsExt := h.ext.trans h'.ext.symm
  have hx := h.value
  have hx' := h'.value
  cases x with
  | word w =>
    cases x' with
    | word w' =>
      obtain ⟨rfl, e3⟩ := uniq_word w w' l l' hx hx' hl.tchar hl'.tchar e2
      exact ⟨rfl, e3⟩
    | ext y => exact (hk.mpr trivial).elim
  | ext y =>
    cases x' with
    | word w' => exact (hk.mp trivial).elim
    | ext y' =>
      obtain ⟨rfl, e3⟩ := uniq_ext y y' l l' hx hx' hl.sign hl'.sign e2
      exact ⟨rfl, e3⟩

theorem disp_inj (x y : DispSyn) (hx : x.Ok) (hy : y.Ok) (e : x.text = y.text) : x = y := by
  have params : Uniq (SemiSyn.Ok DispParam.Ok) (SemiSyn.text DispParam.text) (fun l => l = []) := by
    refine uniq_semis_end uniq_dispParam (fun l hl => hl.symm) (fun a l ha => ?_) ?_
    · refine not_blank (Q := IsTchar) (fun c hc => ⟨(tchar_ne hc).2.2.1, (tchar_ne hc).2.2.2.1⟩) ?_
      unfold DispParam.text
      exact (token_begins ha.name).append.append.append
    · rintro l rfl ⟨s, r, _, e⟩
      simp at e
  have all := Uniq.seq uniq_token params fun b l hb hl => semis_stop tchar_semis hb (by rw [hl]; exact .nil)
  have := all.inj rfl (a := (x.name, x.params)) (b := (y.name, y.params)) hx hy e
  cases x
  cases y
  simp only [Prod.mk.injEq] at this
  obtain ⟨rfl, rfl⟩ := this
  rfl

/-! ## Relations -/

theorem relName_ne {w : Str} (h : IsRelName w) : 58 ∉ w ∧ ∀ c ∈ w, c ≠ 32 := by
  obtain ⟨c, v, h1, h2, rfl⟩ := h
  have : ∀ d ∈ c :: v, d ≠ 58 ∧ d ≠ 32 := by
    intro d hd
    rcases List.mem_cons.mp hd with rfl | hd
    · omega
    · have := h2 d hd
      unfold IsDigit at this
      omega
  exact ⟨fun k => (this 58 k).1 rfl, fun d hd => (this d hd).2⟩

theorem uri_colon {x : Uri} (h : x.scheme ≠ none) : 58 ∈ x.text := by
  cases hs : x.scheme with
  | none => exact absurd hs h
  | some w =>
    have : str ":" = [58] := by decide +kernel
    simp [Uri.text, hs, after, this]

theorem rel_text {x : RelSyn} (h : x.Ok) : x.text ≠ [] ∧ ∀ c ∈ x.text, c ≠ 32 := by
  cases x with
  | name w =>
    refine ⟨?_, (relName_ne h).2⟩
    obtain ⟨c, v, _, _, rfl⟩ := h
    nofun
  | uri w =>
    obtain ⟨u, h1, h2, rfl⟩ := h
    refine ⟨fun k => ?_, fun c hc k => ?_⟩
    · have hm : 58 ∈ u.text := uri_colon h2
      have k : u.text = [] := k
      rw [k] at hm
      cases hm
    · have := (uri_uriChars h1 c hc).1
      omega

theorem uniq_rel : Uniq RelSyn.Ok RelSyn.text (Stops (· ≠ 32)) := by
  have same : ∀ {w v : Str}, (RelSyn.name w).Ok → (RelSyn.uri v).Ok → w ≠ v := by
    rintro w _ h ⟨u, _, h2, rfl⟩ rfl
    exact (relName_ne h).1 (uri_colon h2)
  intro a b l l' ha hb hl hl' e
  obtain ⟨e1, e2⟩ := span_unique (Q := (· ≠ 32)) (rel_text ha).2 (rel_text hb).2 hl hl' e
  refine ⟨?_, e2⟩
  cases a with
  | name w =>
    cases b with
    | name v => exact congrArg RelSyn.name e1
    | uri v => exact absurd e1 (same ha hb)
  | uri w =>
    cases b with
    | name v => exact absurd (Eq.symm e1) (same hb ha)
    | uri v => exact congrArg RelSyn.uri e1

theorem rels_inj (x y : RelsSyn) (hx : x.Ok) (hy : y.Ok) (e : x.text = y.text) : x = y := by
  have gap : Uniq (fun w : Str => w ≠ [] ∧ ∀ c ∈ w, c = 32) (fun w => w) (Stops (· = 32)) :=
    uniq_span.mono (fun _ h => h.2) (fun _ h => h)
  have item := Uniq.seq gap uniq_rel fun b l hb _ => (begins_of_all (rel_text hb).1 (rel_text hb).2).append.stops fun _ h => h
  have gap_stops : ∀ {w : Str} {l}, (w ≠ [] ∧ ∀ c ∈ w, c = 32) → Stops (· ≠ 32) (w ++ l) := fun h =>
    (begins_of_all h.1 h.2).append.stops fun _ h k => k h
  have many := Uniq.many item (G := fun l => l = []) (fun l hl => by rw [hl]; exact .nil)
    (fun a l ha _ => by rw [List.append_assoc]; exact gap_stops ha.1)
    (fun a l l' ha _ hl' e => by
      subst hl'
      exact ha.1.1 (List.append_eq_nil_iff.mp (List.append_eq_nil_iff.mp e).1).1)
  have all := Uniq.seq uniq_rel many (by
    rintro (_ | ⟨z, zs⟩) l h hl
    · rw [hl]; exact .nil
    · rw [List.flatMap_cons, List.append_assoc, List.append_assoc]
      exact gap_stops (h z (.head _)).1)
  have := all.inj rfl (a := (x.first, x.rest)) (b := (y.first, y.rest)) hx hy e
  cases x
  cases y
  simp only [Prod.mk.injEq] at this
  obtain ⟨rfl, rfl⟩ := this
  rfl

end Httpolice.Lemmas
