import Verif.Lemmas.StringsModule
import Verif.Model.Rfc7230Headers
import Verif.Spec.Parameters

/-!
# Parameters and weights in grammars
-/

namespace Httpolice.Lemmas

open Httpolice.Model Httpolice.Spec

/-! ## Semicolons -/

theorem semi_char : litD (str ";") false = fixedD [59] := tab_lit_char (k := 59) (by decide)

/-- A semicolon with whitespace. -/
abbrev semiD : Den := tabD (fun x : Str × Str => IsOws x.1 ∧ IsOws x.2) (fun x => x.1 ++ 59 :: x.2) (fun _ => []) (fun _ => [])

theorem semi_den : appD skipF (thenD (thenD spacesD (litD (str ";") false)) spacesD) = semiD := by
  rw [spaces_tab, semi_char, tab_then, tab_then, tab_skip]
  refine tab_iff ?_ ?_
  · rintro ⟨⟨a, _⟩, b⟩ ⟨⟨ha, _⟩, hb⟩
    exact ⟨(a, b), ⟨ha, hb⟩, by simp, rfl, rfl⟩
  · rintro ⟨a, b⟩ ⟨ha, hb⟩
    exact ⟨((a, ()), b), ⟨⟨ha, trivial⟩, hb⟩, by simp, rfl, rfl⟩

section
variable {α : Type} {P : α → Prop} {t : α → Str} {x : α → GVal} {c : α → List PyComplaint}

theorem semi_then : thenD semiD (tabD P t (fun a => [x a]) c) =
    tabD (fun y : (Str × Str) × α => (IsOws y.1.1 ∧ IsOws y.1.2) ∧ P y.2) (fun y => y.1.1 ++ 59 :: y.1.2 ++ t y.2)
      (fun y => [x y.2]) (fun y => c y.2) := by
  rw [tab_then]
  rfl

theorem semis_den : timesD (thenD semiD (tabD P t (fun a => [x a]) c)) (thenD semiD (tabD P t (fun a => [x a]) c)) 0 none =
    tabD (SemiSyn.Ok P) (SemiSyn.text t) (fun l => [.list (l.elems.map x)]) (fun l => l.elems.flatMap c) := by
  rw [semi_then, tab_times (fun a _ => ⟨_, rfl⟩) 0 none nofun]
  refine tab_iff ?_ ?_
  · intro l h
    refine ⟨l, h.1, rfl, ?_, ?_⟩
    · simp only [SemiSyn.elems, List.map_map]
      rfl
    · simp only [SemiSyn.elems, List.flatMap_map]
  · intro l h
    refine ⟨l, ⟨h, Nat.zero_le _, nofun⟩, rfl, ?_, ?_⟩
    · simp only [SemiSyn.elems, List.map_map]
      rfl
    · simp only [SemiSyn.elems, List.flatMap_map]

end

/-! ## Parameters -/

theorem equals_char : litD (str "=") false = fixedD [61] := tab_lit_char (k := 61) (by decide)

theorem bwsEquals_den : appD skipF (thenD (thenD badSpacesD (litD (str "=") false)) badSpacesD) =
    tabD (fun x : Str × Str => IsOws x.1 ∧ IsOws x.2) (fun x => x.1 ++ str "=" ++ x.2) (fun _ => [])
      (fun x => badSpaceNotes x.1 ++ badSpaceNotes x.2) := by
  rw [equals_char, tab_then, tab_then, tab_skip]
  refine tab_iff ?_ ?_
  · rintro ⟨⟨a, _⟩, b⟩ ⟨⟨ha, _⟩, hb⟩
    exact ⟨(a, b), ⟨ha, hb⟩, rfl, rfl, by simp⟩
  · rintro ⟨a, b⟩ ⟨ha, hb⟩
    exact ⟨((a, ()), b), ⟨⟨ha, trivial⟩, hb⟩, rfl, rfl, by simp⟩

/-- A token or a quoted string. -/
abbrev wordsD : Den := tabD Word.Ok Word.text (fun w => [.text w.content]) Word.notes

theorem words_den : orD tokenD quotedD = wordsD := by
  rw [tab_or]
  refine tab_iff ?_ ?_
  · rintro (w | q) h
    · exact ⟨.token w, h, rfl, rfl, rfl⟩
    · exact ⟨.quoted q, h, rfl, rfl, rfl⟩
  · rintro (w | q) h
    · exact ⟨.inl w, h, rfl, rfl, rfl⟩
    · exact ⟨.inr q, h, rfl, rfl, rfl⟩

/-- Parameters, with what is made of the names. -/
abbrev paramD (Name : Str → Prop) (f : Str → GVal) : Den :=
  tabD (Param.Ok Name) Param.text (fun x => [.tuple [f x.name, .text x.value.content]]) Param.notes

theorem param_den {Name : Str → Prop} {f : Str → GVal} :
    oneD (thenD (thenD (tabD Name (fun w => w) (fun w => [f w]) (fun _ => []))
      (appD skipF (thenD (thenD badSpacesD (litD (str "=") false)) badSpacesD))) (oneD (orD tokenD quotedD))) =
    paramD Name f := by
  rw [bwsEquals_den, words_den, tab_one_single, tab_then, tab_then, tab_one]
  refine tab_iff ?_ ?_
  · rintro ⟨⟨n, a, b⟩, w⟩ ⟨⟨h1, h2⟩, h3⟩
    exact ⟨⟨n, a, b, w⟩, ⟨h1, h2.1, h2.2, h3⟩, by simp [Param.text], rfl, by simp [Param.notes]⟩
  · rintro ⟨n, a, b, w⟩ ⟨h1, h2, h3, h4⟩
    exact ⟨((n, a, b), w), ⟨⟨h1, h2, h3⟩, h4⟩, by simp [Param.text], rfl, by simp [Param.notes]⟩

/-! ## Weights -/

theorem zeros_den : appD joinF (timesD (litD (str "0") false) (litD (str "0") false) 0 (some 3)) =
    tabD (fun w : Str => w.length ≤ 3 ∧ ∀ c ∈ w, c = 48) (fun w => w) (fun w => [.text w]) (fun _ => []) := by
  have : litD (str "0") false = octetD (fun x => decide (48 ≤ x ∧ x ≤ 48)) := by
    rw [octet_is]
    exact tab_lit_char (k := 48) (by decide)
  rw [this, tab_stringTimes _ 0 (some 3) (fun k hk => by cases hk; decide)]
  have hb : ∀ c : Nat, decide (48 ≤ c ∧ c ≤ 48) = true ↔ c = 48 := fun c => by rw [decide_eq_true_eq]; omega
  exact tab_iff (fun w h => ⟨w, ⟨h.2.2 3 rfl, fun c hc => (hb c).mp (h.1 c hc)⟩, rfl, rfl, rfl⟩)
    (fun w h => ⟨w, ⟨fun c hc => (hb c).mpr (h.2 c hc), Nat.zero_le _, fun k hk => by cases hk; exact h.1⟩, rfl, rfl, rfl⟩)

theorem places_den : appD joinF (timesD (octetD digitBits) (octetD digitBits) 0 (some 3)) =
    tabD (fun w : Str => w.length ≤ 3 ∧ ∀ c ∈ w, 48 ≤ c ∧ c ≤ 57) (fun w => w) (fun w => [.text w]) (fun _ => []) := by
  rw [tab_stringTimes _ 0 (some 3) (fun k hk => by cases hk; decide)]
  exact tab_iff (fun w h => ⟨w, ⟨h.2.2 3 rfl, fun c hc => (digit_iff c).mp (h.1 c hc)⟩, rfl, rfl, rfl⟩)
    (fun w h => ⟨w, ⟨fun c hc => (digit_iff c).mpr (h.2 c hc), Nat.zero_le _, fun k hk => by cases hk; exact h.1⟩, rfl, rfl, rfl⟩)

theorem point_char : litD (str ".") false = fixedD (str ".") := tab_lit_char (k := 46) (by decide)

theorem weight_part {d : Str} {P : Str → Prop} (hd : litD d false = fixedD d) :
    appD (classF (str "float")) (appD addF (thenD (litD d false) (oneD (orD (appD addF (thenD (litD (str ".") false)
      (tabD P (fun w => w) (fun w => [.text w]) (fun _ => [])))) (appD (substF (.text [])) nothingD))))) =
    tabD (fun o : Option Str => ∀ ds, o = some ds → P ds)
      (fun o => d ++ (match o with | none => [] | some ds => str "." ++ ds))
      (fun o => [.obj (str "float") [.text (d ++ (match o with | none => [] | some ds => str "." ++ ds))]]) (fun _ => []) := by
  rw [hd, point_char, tab_then, tab_app, tab_maybe, tab_one, tab_then, tab_app, tab_class]
  refine tab_iff ?_ ?_
  · rintro ⟨_, _ | ⟨_, w⟩⟩ ⟨_, h⟩
    · exact ⟨none, nofun, rfl, rfl, rfl⟩
    · exact ⟨some w, fun ds e => by cases e; exact h.2, rfl, rfl, rfl⟩
  · rintro (_ | w) h
    · exact ⟨((), none), ⟨trivial, trivial⟩, rfl, rfl, rfl⟩
    · exact ⟨((), some ((), w)), ⟨trivial, trivial, h w rfl⟩, rfl, rfl, rfl⟩

/-- A weight. -/
abbrev weightD : Den := tabD Weight.Ok Weight.text (fun x => [x.value]) (fun _ => [])

theorem rank_den {N : Type} {δ : N → Den} :
    oneD ((GExpr.alt (rankE (str "0") .digit) (rankE (str "1") (.lit (str "0") false)) : GExpr N).den δ) = weightD := by
  show oneD (orD (appD (classF (str "float")) (appD addF (thenD (litD (str "0") false) (oneD (orD (appD addF
    (thenD (litD (str ".") false) (appD joinF (timesD (octetD digitBits) (octetD digitBits) 0 (some 3)))))
    (appD (substF (.text [])) nothingD))))))
    (appD (classF (str "float")) (appD addF (thenD (litD (str "1") false) (oneD (orD (appD addF
    (thenD (litD (str ".") false) (appD joinF (timesD (litD (str "0") false) (litD (str "0") false) 0 (some 3)))))
    (appD (substF (.text [])) nothingD))))))) = _
  rw [places_den, zeros_den, weight_part (d := str "0") (tab_lit_char (k := 48) (by decide)),
    weight_part (d := str "1") (tab_lit_char (k := 49) (by decide)), tab_or, tab_one]
  refine tab_iff ?_ ?_
  · rintro (o | o) h
    · refine ⟨⟨false, o⟩, fun ds e => ⟨(h ds e).1, fun c hc => ⟨((h ds e).2 c hc).1, ((h ds e).2 c hc).2, nofun⟩⟩, rfl, rfl, rfl⟩
    · refine ⟨⟨true, o⟩, fun ds e => ⟨(h ds e).1, fun c hc => ?_⟩, rfl, rfl, rfl⟩
      have := (h ds e).2 c hc
      exact ⟨by omega, by omega, fun _ => this⟩
  · rintro ⟨_ | _, o⟩ h
    · exact ⟨.inl o, fun ds e => ⟨(h ds e).1, fun c hc => ⟨((h ds e).2 c hc).1, ((h ds e).2 c hc).2.1⟩⟩, rfl, rfl, rfl⟩
    · exact ⟨.inr o, fun ds e => ⟨(h ds e).1, fun c hc => ((h ds e).2 c hc).2.2 rfl⟩, rfl, rfl, rfl⟩

/-- A weight with what comes before. -/
abbrev rankingD : Den := tabD Ranking.Ok Ranking.text (fun x => [x.value]) (fun _ => [])

theorem ranking_den : oneD (thenD (appD skipF (thenD (thenD (thenD spacesD (litD (str ";") false)) spacesD)
    (litD (str "q=") false))) weightD) = rankingD := by
  have hs : str ";" = [59] := by decide +kernel
  rw [spaces_tab, semi_char, tab_lit, tab_then, tab_then, tab_then, tab_skip, tab_then, tab_one]
  refine tab_iff ?_ ?_
  · rintro ⟨⟨⟨⟨a, _⟩, b⟩, m⟩, w⟩ ⟨⟨⟨⟨h1, _⟩, h2⟩, h3⟩, h4⟩
    exact ⟨⟨a, b, m, w⟩, ⟨h1, h2, h3, h4⟩, by simp [Ranking.text, hs], rfl, rfl⟩
  · rintro ⟨a, b, m, w⟩ ⟨h1, h2, h3, h4⟩
    exact ⟨((((a, ()), b), m), w), ⟨⟨⟨⟨h1, trivial⟩, h2⟩, h3⟩, h4⟩, by simp [Ranking.text, hs], rfl, rfl⟩

/-! ## Where they end -/

/-- Blanks and then a semicolon. -/
def AtSemi (l : Str) : Prop := ∃ s r, IsOws s ∧ l = s ++ 59 :: r

theorem blank_semi (l : Str) : Stops Blank (59 :: l) := .cons (by unfold Blank; decide)

theorem stops_blank_tchar {s l : Str} (hs : IsOws s) (hl : Stops IsTchar l) : Stops IsTchar (s ++ l) := by
  refine .append (fun c hc k => ?_) hl
  rcases hs c hc with rfl | rfl
  · exact (tchar_ne k).2.2.1 rfl
  · exact (tchar_ne k).2.2.2.1 rfl

theorem AtSemi.stops {l : Str} (h : AtSemi l) : Stops IsTchar l := by
  obtain ⟨s, r, hs, rfl⟩ := h
  exact stops_blank_tchar hs (.cons fun k => (tchar_ne k).2.2.2.2.2.1 rfl)

theorem AtSemi.not_atComma {l : Str} (h : AtSemi l) : ¬ AtComma l := by
  obtain ⟨s, r, hs, rfl⟩ := h
  rintro (h | ⟨s', r', hs', h⟩)
  · simp at h
  · obtain ⟨_, h⟩ := span_unique (Q := Blank) hs hs' (blank_semi r) (blank_comma r') h
    exact absurd (List.cons.inj h).1 (by decide)

theorem AtSemi.not_atEnd {l : Str} (h : AtSemi l) : ¬ AtEnd l := by
  obtain ⟨s, r, hs, rfl⟩ := h
  rintro ⟨s', r', hs', hr, e⟩
  have : Stops Blank r' := by
    rcases hr with rfl | hr
    · exact .nil
    · exact hr.stops fun c hc => by subst hc; unfold Blank; decide
  obtain ⟨_, rfl⟩ := span_unique (Q := Blank) hs hs' (blank_semi r) this e
  rcases hr with h | ⟨c, l, h, rfl⟩
  · cases h
  · exact absurd (List.cons.inj h).1 (by decide)

theorem not_blank {Q : Nat → Prop} (hq : ∀ c, Q c → c ≠ 32 ∧ c ≠ 9) {w l : Str} (h : Begins Q w) : Stops Blank (w ++ l) :=
  h.append.stops fun c hc k => by
    rcases k with rfl | rfl
    · exact (hq _ hc).1 rfl
    · exact (hq _ hc).2 rfl

section
variable {α : Type} {P : α → Prop} {t : α → Str} {F G : Str → Prop}

/-- What comes between semicolons, up to something else. -/
theorem uniq_semis (h : Uniq P t F) (hF : ∀ l, AtSemi l ∨ G l → F l) (hb : ∀ a l, P a → Stops Blank (t a ++ l))
    (hG : ∀ a l s s' l', P a → AtSemi l ∨ G l → IsOws s → IsOws s' → G l' → s ++ 59 :: (s' ++ (t a ++ l)) ≠ l') :
    Uniq (SemiSyn.Ok P) (SemiSyn.text t) G := by
  have item : Uniq (fun x : (Str × Str) × α => (IsOws x.1.1 ∧ IsOws x.1.2) ∧ P x.2)
      (fun x => (x.1.1 ++ ([59] ++ x.1.2)) ++ t x.2) (fun l => AtSemi l ∨ G l) := by
    have semi : Uniq (fun x : Str × Str => IsOws x.1 ∧ IsOws x.2) (fun x => x.1 ++ ([59] ++ x.2)) (Stops Blank) :=
      Uniq.seq uniq_ows (uniq_ows.after [59]) (fun b l _ _ => blank_semi _)
    exact Uniq.seq semi (h.mono (fun _ h => h) hF) (fun b l hb' _ => hb b l hb')
  have := Uniq.many item (G := G) (fun l hl => .inr hl)
    (fun x l hx _ => .inl ⟨x.1.1, x.1.2 ++ t x.2 ++ l, hx.1.1, by simp⟩)
    (fun x l l' hx hl hl' e => hG x.2 l x.1.1 x.1.2 l' hx.2 hl hx.1.1 hx.1.2 hl' (by rw [← e]; simp))
  refine Uniq.map this (fun l => l) (fun l h => h) (fun l _ => ?_) (fun _ _ _ _ e => e)
  simp [SemiSyn.text]

/-- The same where no semicolon follows. -/
theorem uniq_semis_end (h : Uniq P t F) (hF : ∀ l, AtSemi l ∨ G l → F l) (hb : ∀ a l, P a → Stops Blank (t a ++ l))
    (hG : ∀ l, G l → ¬ AtSemi l) : Uniq (SemiSyn.Ok P) (SemiSyn.text t) G :=
  uniq_semis h hF hb fun _ _ s _ _ _ _ hs _ hl' e => hG _ hl' ⟨s, _, hs, e.symm⟩

end

theorem equals_eq : str "=" = [61] := by decide +kernel

theorem uniq_param {Name : Str → Prop} (hn : ∀ w, Name w → IsToken w) :
    Uniq (Param.Ok Name) Param.text (Stops IsTchar) := by
  have name : Uniq Name (fun w => w) (Stops IsTchar) := uniq_token.mono hn (fun _ h => h)
  have tail : Uniq (fun x : Str × Word => IsOws x.1 ∧ x.2.Ok) (fun x => x.1 ++ x.2.text) (Stops IsTchar) := by
    refine Uniq.seq uniq_ows uniq_word ?_
    rintro (w | q) l h _
    · exact not_blank (fun c hc => ⟨(tchar_ne hc).2.2.1, (tchar_ne hc).2.2.2.1⟩) (token_begins h)
    · exact not_blank (fun c hc => by subst hc; decide) (quoted_begins q)
  have rest : Uniq (fun x : Str × Str × Word => IsOws x.1 ∧ IsOws x.2.1 ∧ x.2.2.Ok)
      (fun x => x.1 ++ ([61] ++ (x.2.1 ++ x.2.2.text))) (Stops IsTchar) :=
    Uniq.seq uniq_ows (tail.after [61]) (fun b l _ _ => .cons (by unfold Blank; decide))
  have all := Uniq.seq name rest ?_
  · refine all.map (fun x : Param => (x.name, x.before, x.after, x.value)) (fun x h => h) (fun x _ => ?_) ?_
    · simp [Param.text, equals_eq]
    · rintro ⟨a, b, c, d⟩ ⟨a', b', c', d'⟩ _ _ e
      simp only [Prod.mk.injEq] at e
      obtain ⟨rfl, rfl, rfl, rfl⟩ := e
      rfl
  · rintro ⟨a, b, w⟩ l h _
    show Stops IsTchar (a ++ ([61] ++ (b ++ w.text)) ++ l)
    rw [List.append_assoc]
    exact stops_blank_tchar h.1 (.cons fun k => (tchar_ne k).2.2.2.2.1 rfl)

/-- Points and digits. -/
def Decimal (c : Nat) : Prop := c = 46 ∨ (48 ≤ c ∧ c ≤ 57)

theorem uniq_weight : Uniq Weight.Ok Weight.text (Stops Decimal) := by
  have h0 : str "0" = [48] := by decide +kernel
  have h1 : str "1" = [49] := by decide +kernel
  have hp : str "." = [46] := by decide +kernel
  have digs : Uniq (fun w : Str => ∀ c ∈ w, 48 ≤ c ∧ c ≤ 57) (fun w => [46] ++ w) (Stops Decimal) :=
    (uniq_span.mono (fun _ h => h) (fun l h => h.mono fun c hc => .inr hc)).after [46]
  have opt := digs.opt (fun a l l' _ _ hl' e => hl' 46 (a ++ l) e.symm (.inl rfl))
  have whole : Uniq (fun _ : Bool => True) (fun b => if b then [49] else [48]) (fun _ => True) := by
    rintro (_ | _) (_ | _) l l' _ _ _ _ e
    · exact ⟨rfl, (List.cons.inj e).2⟩
    · exact absurd (List.cons.inj e).1 (by decide)
    · exact absurd (List.cons.inj e).1 (by decide)
    · exact ⟨rfl, (List.cons.inj e).2⟩
  refine (Uniq.seq whole opt (fun _ _ _ _ => trivial)).map (fun x => (x.one, x.digits)) ?_ ?_ ?_
  · rintro ⟨b, _ | ds⟩ h
    · exact ⟨trivial, trivial⟩
    · exact ⟨trivial, fun c hc => ⟨((h ds rfl).2 c hc).1, ((h ds rfl).2 c hc).2.1⟩⟩
  · rintro ⟨b, _ | ds⟩ _ <;> cases b <;> simp [Weight.text, optT, h0, h1, hp]
  · rintro ⟨b, o⟩ ⟨b', o'⟩ _ _ e
    simp only [Prod.mk.injEq] at e
    obtain ⟨rfl, rfl⟩ := e
    rfl

theorem sameWord_length {w v : Str} (h : SameWord w v) : w.length = v.length := by
  induction h with
  | nil => rfl
  | cons _ _ ih => simp [ih]

/-- Words of the same length. -/
theorem uniq_sameWord (v : Str) : Uniq (fun w => SameWord w v) (fun w => w) (fun _ => True) := by
  intro a b l l' ha hb _ _ e
  exact List.append_inj e ((sameWord_length ha).trans (sameWord_length hb).symm)

theorem q_begins {w : Str} (h : SameWord w (str "q=")) : ∃ c, w = [c, 61] ∧ (c = 113 ∨ c = 81) := by
  have : str "q=" = [113, 61] := by decide +kernel
  rw [this] at h
  obtain _ | ⟨h1, _ | ⟨h2, _ | _⟩⟩ := h
  unfold SameLetter at h1 h2
  rename_i c d
  have h3 : d = 61 := by omega
  subst h3
  exact ⟨c, rfl, by omega⟩

theorem uniq_ranking : Uniq Ranking.Ok Ranking.text (Stops Decimal) := by
  have mark : Uniq (fun x : Str × Weight => SameWord x.1 (str "q=") ∧ x.2.Ok) (fun x => x.1 ++ x.2.text) (Stops Decimal) :=
    Uniq.seq (uniq_sameWord _) uniq_weight (fun _ _ _ _ => trivial)
  have tail : Uniq (fun x : Str × Str × Weight => IsOws x.1 ∧ SameWord x.2.1 (str "q=") ∧ x.2.2.Ok)
      (fun x => x.1 ++ (x.2.1 ++ x.2.2.text)) (Stops Decimal) := by
    refine Uniq.seq uniq_ows mark ?_
    rintro ⟨m, w⟩ l ⟨h1, _⟩ _
    obtain ⟨c, rfl, hc⟩ := q_begins h1
    refine .cons ?_
    unfold Blank
    omega
  have hs : str ";" = [59] := by decide +kernel
  refine (Uniq.seq uniq_ows (tail.after [59]) (fun _ _ _ _ => blank_semi _)).map
    (fun x => (x.before, x.after, x.mark, x.weight)) (fun x h => h) (fun x _ => by simp [Ranking.text, hs]) ?_
  rintro ⟨a, b, c, d⟩ ⟨a', b', c', d'⟩ _ _ e
  simp only [Prod.mk.injEq] at e
  obtain ⟨rfl, rfl, rfl, rfl⟩ := e
  rfl

theorem ranking_semi {x : Ranking} (h : x.Ok) (l : Str) : AtSemi (x.text ++ l) := by
  have hs : str ";" = [59] := by decide +kernel
  exact ⟨x.before, x.after ++ x.mark ++ x.weight.text ++ l, h.1, by simp [Ranking.text, hs]⟩

end Httpolice.Lemmas
