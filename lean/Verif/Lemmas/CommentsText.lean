import Verif.Lemmas.Comments

/-!
# Texts of comments, of products and of warnings determine what is written
-/

namespace Httpolice.Lemmas

open Httpolice.Model Httpolice.Spec

/-! ## Comments and products -/

theorem uniq_remarks : Uniq Remarks.Ok Remarks.inside (Begins (· = 41)) := by
  intro r
  induction r with
  | done =>
    rintro s l l' _ hs ⟨c, l, rfl, rfl⟩ hl' e
    cases s with
    | done => exact ⟨rfl, e⟩
    | plain c s => exact absurd (List.cons.inj e).1.symm hs.1.2.2.1
    | escaped c s => exact absurd (List.cons.inj e).1 (by decide)
    | comment i s => exact absurd (List.cons.inj e).1 (by decide)
  | plain c r ih =>
    intro s l l' hr hs hl hl' e
    cases s with
    | done =>
      obtain ⟨d, l', rfl, rfl⟩ := hl'
      exact absurd (List.cons.inj e).1 hr.1.2.2.1
    | plain d s =>
      obtain ⟨rfl, e1⟩ := List.cons.inj e
      obtain ⟨rfl, e2⟩ := ih s l l' hr.2 hs.2 hl hl' e1
      exact ⟨rfl, e2⟩
    | escaped d s => exact absurd (List.cons.inj e).1 hr.1.2.2.2
    | comment i s => exact absurd (List.cons.inj e).1 hr.1.2.1
  | escaped c r ih =>
    intro s l l' hr hs hl hl' e
    cases s with
    | done =>
      obtain ⟨d, l', rfl, rfl⟩ := hl'
      exact absurd (List.cons.inj e).1 (by decide)
    | plain d s => exact absurd (List.cons.inj e).1.symm hs.1.2.2.2
    | escaped d s =>
      obtain ⟨rfl, e1⟩ := List.cons.inj (List.cons.inj e).2
      obtain ⟨rfl, e2⟩ := ih s l l' hr.2 hs.2 hl hl' e1
      exact ⟨rfl, e2⟩
    | comment i s => exact absurd (List.cons.inj e).1 (by decide)
  | comment i r ihi ih =>
    intro s l l' hr hs hl hl' e
    cases s with
    | done =>
      obtain ⟨d, l', rfl, rfl⟩ := hl'
      exact absurd (List.cons.inj e).1 (by decide)
    | plain d s => exact absurd (List.cons.inj e).1.symm hs.1.2.1
    | escaped d s => exact absurd (List.cons.inj e).1 (by decide)
    | comment j s =>
      have e1 : i.inside ++ 41 :: (r.inside ++ l) = j.inside ++ 41 :: (s.inside ++ l') := by
        have := (List.cons.inj e).2
        simpa using this
      obtain ⟨rfl, e2⟩ := ihi j _ _ hr.1 hs.1 ⟨41, _, rfl, rfl⟩ ⟨41, _, rfl, rfl⟩ e1
      obtain ⟨rfl, e3⟩ := ih s l l' hr.2 hs.2 hl hl' (List.cons.inj e2).2
      exact ⟨rfl, e3⟩

theorem uniq_comment : Uniq Remarks.Ok Remarks.text (fun _ => True) :=
  (uniq_remarks.before [41] (fun l _ => ⟨41, l, rfl, rfl⟩)).after [40]

theorem uniq_product : Uniq Protocol.Ok Protocol.text (Stops fun c => IsTchar c ∨ c = 47) := by
  have hs : str "/" = [47] := by decide +kernel
  have version : Uniq (optT True IsToken) (optT [] fun w => [47] ++ w) (Stops fun c => IsTchar c ∨ c = 47) :=
    ((uniq_token.mono (fun _ h => h) (fun _ h => h.mono fun _ => .inl)).after [47]).opt fun v l l' _ _ hl' e =>
      hl' 47 (v ++ l) e.symm (.inr rfl)
  refine (Uniq.seq uniq_token version ?_).map (fun x => (x.name, x.version)) ?_ ?_ ?_
  · rintro (_ | v) l _ hl
    · exact hl.mono fun _ => .inl
    · exact .cons fun k => (tchar_ne k).2.2.2.2.2.2.1 rfl
  · rintro ⟨n, _ | v⟩ h
    · exact ⟨h.1, trivial⟩
    · exact ⟨h.1, h.2 v rfl⟩
  · rintro ⟨n, _ | v⟩ h
    · rfl
    · simp [Protocol.text, optT, hs]
  · rintro ⟨n, v⟩ ⟨n', v'⟩ _ _ e
    simp only [Prod.mk.injEq] at e
    obtain ⟨rfl, rfl⟩ := e
    rfl

theorem product_begins {x : Protocol} (h : x.Ok) : Begins IsTchar x.text := (token_begins h.1).append

theorem comment_begins (r : Remarks) : Begins (· = 40) r.text := ⟨40, _, rfl, rfl⟩

theorem uniq_part : Uniq ProductPart.Ok ProductPart.text (Stops fun c => IsTchar c ∨ c = 47) := by
  refine (Uniq.sum uniq_product (uniq_comment.mono (fun _ h => h) (G := Stops fun c => IsTchar c ∨ c = 47) (fun _ _ => trivial))
    (fun p r l l' hp _ _ _ => (product_begins hp).append.ne (comment_begins r).append
      fun c h k => (tchar_ne h).2.2.2.2.2.2.2.2.1 k)).map (fun | .product p => .inl p | .comment r => .inr r) ?_ ?_ ?_
  · rintro (p | r) h <;> exact h
  · rintro (p | r) _ <;> rfl
  · rintro (p | r) (p' | r') _ _ e <;> cases e <;> rfl

theorem part_blank {x : ProductPart} (h : x.Ok) (l : Str) : Stops Blank (x.text ++ l) := by
  cases x with
  | product p =>
    exact (product_begins h).append.stops fun c hc k => by
      rcases k with rfl | rfl
      · exact (tchar_ne hc).2.2.1 rfl
      · exact (tchar_ne hc).2.2.2.1 rfl
  | comment r => exact (comment_begins r).append.stops fun c hc k => by unfold Blank at k; omega

theorem rws_begins {s : Str} (h : IsRws s) : Begins Blank s := begins_of_all h.1 h.2

/-- Whitespace or the end. -/
def AtBlank (l : Str) : Prop := l = [] ∨ Begins Blank l

theorem AtBlank.stops {l : Str} (h : AtBlank l) : Stops (fun c => IsTchar c ∨ c = 47) l := by
  rcases h with rfl | h
  · exact .nil
  · refine h.stops fun c hc k => ?_
    rcases k with k | rfl
    · rcases hc with rfl | rfl
      · exact (tchar_ne k).2.2.1 rfl
      · exact (tchar_ne k).2.2.2.1 rfl
    · unfold Blank at hc
      omega

theorem products_inj (x y : Products) (hx : x.Ok) (hy : y.Ok) (e : x.text = y.text) : x = y := by
  have item : Uniq (fun y : Str × ProductPart => IsRws y.1 ∧ y.2.Ok) (fun y => y.1 ++ y.2.text) AtBlank :=
    Uniq.seq (uniq_span.mono (P' := IsRws) (fun _ h => h.2) (fun _ h => h)) (uniq_part.mono (fun _ h => h) fun _ => AtBlank.stops)
      (fun b l hb _ => part_blank hb l)
  have many : Uniq (fun l : List (Str × ProductPart) => ∀ y ∈ l, IsRws y.1 ∧ y.2.Ok) (fun l => l.flatMap fun y => y.1 ++ y.2.text)
      (fun l => l = []) := by
    refine Uniq.many item (fun l h => .inl h) ?_ ?_
    · rintro ⟨s, p⟩ l ⟨h, _⟩ _
      exact .inr (rws_begins h).append.append
    · rintro ⟨s, p⟩ l l' ⟨h, _⟩ _ rfl e
      exact absurd (List.append_eq_nil_iff.mp (List.append_eq_nil_iff.mp e).1).1 h.1
  have whole : Uniq (fun x : Protocol × List (Str × ProductPart) => x.1.Ok ∧ ∀ y ∈ x.2, IsRws y.1 ∧ y.2.Ok)
      (fun x => x.1.text ++ x.2.flatMap fun y => y.1 ++ y.2.text) (fun l => l = []) := by
    refine Uniq.seq uniq_product many ?_
    rintro l _ h rfl
    rw [List.append_nil]
    refine AtBlank.stops ?_
    cases l with
    | nil => exact .inl rfl
    | cons z l => exact .inr (rws_begins (h z (.head _)).1).append.append
  obtain ⟨p, l⟩ := x
  obtain ⟨p', l'⟩ := y
  have := whole.inj rfl (a := (p, l)) (b := (p', l')) hx hy e
  cases this
  rfl

/-! ## Warnings -/

theorem days_quotes : ∀ w ∈ shortDays ++ longDays ++ months, ∀ c ∈ w, c ≠ 34 := by decide +kernel

theorem getD_quotes {l : List Str} (hl : ∀ w ∈ l, w ∈ shortDays ++ longDays ++ months) (n : Nat) : ∀ c ∈ l.getD n [], c ≠ 34 := by
  intro c hc
  rw [List.getD_eq_getElem?_getD] at hc
  cases h : l[n]? with
  | none =>
    rw [h] at hc
    cases hc
  | some w =>
    rw [h] at hc
    exact days_quotes w (hl w (List.mem_of_getElem? h)) c hc

theorem two_quotes (n : Nat) : ∀ c ∈ two n, c ≠ 34 := by
  intro c hc
  unfold two at hc
  simp only [List.mem_cons, List.not_mem_nil, or_false] at hc
  omega

theorem stamp_quotes (x : Stamp) (f : DateFormat) : ∀ c ∈ x.text f, c ≠ 34 := by
  have h1 : ∀ n, ∀ c ∈ shortDays.getD n [], c ≠ 34 := getD_quotes (fun w hw => by simp [hw])
  have h2 : ∀ n, ∀ c ∈ longDays.getD n [], c ≠ 34 := getD_quotes (fun w hw => by simp [hw])
  have h3 : ∀ n, ∀ c ∈ monthName n, c ≠ 34 := fun n => getD_quotes (fun w hw => by simp [hw]) _
  have app : ∀ {a b : Str}, (∀ c ∈ a, c ≠ 34) → (∀ c ∈ b, c ≠ 34) → ∀ c ∈ a ++ b, c ≠ 34 :=
    fun ha hb c hc => (List.mem_append.mp hc).elim (ha c) (hb c)
  have h4 : ∀ n, ∀ c ∈ four n, c ≠ 34 := fun n => app (two_quotes _) (two_quotes _)
  have k1 : ∀ c ∈ str ", ", c ≠ 34 := by decide +kernel
  have k2 : ∀ c ∈ str " ", c ≠ 34 := by decide +kernel
  have k3 : ∀ c ∈ str "-", c ≠ 34 := by decide +kernel
  have k4 : ∀ c ∈ str " GMT", c ≠ 34 := by decide +kernel
  have k5 : ∀ c ∈ str ":", c ≠ 34 := by decide +kernel
  have h5 : ∀ h m s, ∀ c ∈ timeText h m s, c ≠ 34 := fun h m s =>
    app (app (app (app (two_quotes _) k5) (two_quotes _)) k5) (two_quotes _)
  have h6 : ∀ n, ∀ c ∈ [48 + n], c ≠ 34 := by
    intro n c hc
    rw [List.mem_singleton.mp hc]
    omega
  cases f <;> unfold Stamp.text <;> dsimp only
  · exact app (app (app (app (app (app (app (app (app (h1 _) k1) (two_quotes _)) k2) (h3 _)) k2) (h4 _)) k2) (h5 _ _ _)) k4
  · exact app (app (app (app (app (app (app (app (app (h2 _) k1) (two_quotes _)) k3) (h3 _)) k3) (two_quotes _)) k2) (h5 _ _ _)) k4
  · exact app (app (app (app (app (app (app (app (h1 _) k2) (h3 _)) k2) (two_quotes _)) k2) (h5 _ _ _)) k2) (h4 _)
  · exact app (app (app (app (app (app (app (app (app (h1 _) k2) (h3 _)) k2) k2) (h6 _)) k2) (h5 _ _ _)) k2) (h4 _)

theorem agent_chars {w : Str} (h : IsAgent w) : ∀ c ∈ w, c ≠ 32 := by
  rcases h with ⟨a, p, h1, h2, rfl⟩ | h
  · have : UriChars (a ++ before (str ":") p) := by
      refine uriChars_append (host_uriChars h1) (before_uriChars ?_ fun w hw c hc => digit_uriChar (h2 w hw c hc))
      have : str ":" = [58] := by decide +kernel
      rw [this]
      intro c hc
      rw [List.mem_singleton.mp hc]
      unfold UriChar
      decide
    intro c hc
    have := this c hc
    unfold UriChar at this
    omega
  · exact fun c hc => (tchar_ne (h.2 c hc)).2.2.1

/-- Dates, given that they can be told from their texts. -/
theorem uniq_warning (hd : ∀ x y : DateFormat × Stamp, x.2.Fits x.1 → y.2.Fits y.1 → x.2.text x.1 = y.2.text y.1 → x = y) :
    Uniq WarningSyn.Ok WarningSyn.text AtComma := by
  have date0 : Uniq (fun x : DateFormat × Stamp => x.2.Fits x.1) (fun x => x.2.text x.1) (Begins (· = 34)) := by
    intro a b l l' ha hb hl hl' e
    obtain ⟨e1, e2⟩ := span_unique (Q := (· ≠ 34)) (stamp_quotes _ _) (stamp_quotes _ _) (hl.stops fun _ h k => k h)
      (hl'.stops fun _ h k => k h) e
    exact ⟨hd a b ha hb e1, e2⟩
  have date1 : Uniq (fun x : DateFormat × Stamp => x.2.Fits x.1) (fun x => [32, 34] ++ (x.2.text x.1 ++ [34])) AtComma :=
    ((date0.before [34] (G := AtComma) fun l _ => ⟨34, l, rfl, rfl⟩).after [32, 34])
  have date := date1.opt (fun a l l' _ _ hl' e => by
    have := atComma_unlike (s := [32]) (w := [34]) (l := a.2.text a.1 ++ [34] ++ l) (fun c hc => .inl (List.mem_singleton.mp hc))
      ⟨34, [], rfl, by unfold Unbroken; decide⟩
    refine this ?_
    rw [← show [32, 34] ++ (a.2.text a.1 ++ [34]) ++ l = l' from e] at hl'
    simpa using hl')
  have tail := Uniq.seq uniq_quoted date (fun _ _ _ _ => trivial)
  have agent := Uniq.seq (uniq_span.mono (P' := IsAgent) (fun _ => agent_chars) fun _ h => h) (tail.after [32])
    (fun _ _ _ _ => .cons fun k => k rfl)
  have code := Uniq.seq (uniq_span.mono (P' := fun w => IsNumeral w ∧ w.length = 3) (fun _ h => h.1.2) fun _ h => h) (agent.after [32])
    (fun _ _ _ _ => .cons fun k => by omega)
  have h1 : str " " = [32] := by decide +kernel
  have h2 : str " \"" = [32, 34] := by decide +kernel
  have h3 : str "\"" = [34] := by decide +kernel
  refine code.map (fun x => (x.code, x.agent, x.message, x.date)) ?_ ?_ ?_
  · rintro ⟨k, a, q, _ | ⟨f, d⟩⟩ ⟨k1, k2, k3, k4⟩
    · exact ⟨k1, k2, k3, trivial⟩
    · exact ⟨k1, k2, k3, k4 f d rfl⟩
  · rintro ⟨k, a, q, _ | ⟨f, d⟩⟩ _
    · simp [WarningSyn.text, optT, h1]
    · simp [WarningSyn.text, optT, h1, h2, h3]
  · rintro ⟨k, a, q, o⟩ ⟨k', a', q', o'⟩ _ _ e
    simp only [Prod.mk.injEq] at e
    obtain ⟨rfl, rfl, rfl, rfl⟩ := e
    rfl

theorem warning_begins {x : WarningSyn} (h : x.Ok) : Begins Unbroken x.text := by
  unfold WarningSyn.text
  refine Begins.append (Begins.append (Begins.append (Begins.append (Begins.append ?_))))
  refine (begins_of_all h.1.1.1 h.1.1.2).mono fun c hc => ?_
  unfold Unbroken
  omega

end Httpolice.Lemmas
