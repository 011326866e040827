import Verif.Lemmas.Ranges
import Verif.Lemmas.Unique
import Verif.Model.Strings
import Verif.Spec.Strings

/-!
# Tokens and quoted strings in grammars
-/

namespace Httpolice.Lemmas

open Httpolice.Model Httpolice.Spec

section
variable {N : Type} {δ : N → Den}

/-- A token. -/
abbrev tokenD : Den := tabD IsToken (fun w => w) (fun w => [.text w]) (fun _ => [])

/-- A quoted pair. -/
abbrev pairD : Den := tabD (fun c => (QChar.escaped c).Ok) (fun c => (QChar.escaped c).text) (fun c => [.text [c]])
  (fun c => (QChar.escaped c).notes)

/-- A quoted string. -/
abbrev quotedD : Den := tabD Quoted.Ok Quoted.text (fun q => [.text q.content]) Quoted.notes

theorem ows_one : oneD ((GExpr.ows : GExpr N).den δ) = spacesD := ows_den

theorem token_den : (GExpr.token : GExpr N).den δ = tokenD := by
  show appD joinF (timesD (octetD tcharBits) (octetD tcharBits) 1 none) = _
  rw [string1_den]
  exact tab_iff (fun w h => ⟨w, ⟨h.1, fun c hc => (tchar_iff c).mp (h.2 c hc)⟩, rfl, rfl, rfl⟩)
    (fun w h => ⟨w, ⟨h.1, fun c hc => (tchar_iff c).mpr (h.2 c hc)⟩, rfl, rfl, rfl⟩)

theorem token_one : oneD ((GExpr.token : GExpr N).den δ) = tokenD := by rw [token_den, tab_one_single]

theorem number_one' : oneD ((GExpr.number : GExpr N).den δ) = numberD := number_one (δ := fun _ : RangeName => numberD)

theorem backslash_is : appD skipF (litD (str "\\") false) = silentD [92] := skip_char (k := 92) (by decide)

theorem quotable_iff (c : Nat) : quotableBits c = true ↔ (QChar.escaped c).Ok := by
  unfold quotableBits spBits vcharBits obsTextBits QChar.Ok
  simp only [Bool.or_eq_true, decide_eq_true_eq]
  omega

theorem qdtext_iff (c : Nat) : qdtextBits c = true ↔ (QChar.plain c).Ok := by
  unfold qdtextBits spBits obsTextBits QChar.Ok
  simp only [Bool.or_eq_true, decide_eq_true_eq]
  omega

theorem sensible_notes (c : Nat) : (if c ∈ str "\"\\" then [] else [(1017, [(str "char", .other (.text [c]))])]) =
    (QChar.escaped c).notes := by
  have : str "\"\\" = [34, 92] := by decide +kernel
  rw [this]
  unfold QChar.notes
  simp

theorem pair_den : oneD ((GExpr.quotedPair (str "\"\\") : GExpr N).den δ) = pairD := by
  show oneD (appD (sensibleF _) (thenD (appD skipF (litD (str "\\") false)) (octetD quotableBits))) = _
  rw [backslash_is, tab_chars, silent_then, tab_app, tab_one]
  exact tab_iff (fun c h => ⟨c, (quotable_iff c).mp h, rfl, rfl, sensible_notes c⟩)
    (fun c h => ⟨c, (quotable_iff c).mpr h, rfl, rfl, (sensible_notes c).symm⟩)

theorem dquote_is : octetD dquoteBits = fixedD [34] := octet_is 34

theorem skip_dquote : appD skipF (octetD dquoteBits) = silentD [34] := by rw [dquote_is, skip_fixed]

theorem qchar_den : orD (octetD qdtextBits) pairD = tabD QChar.Ok QChar.text (fun x => [.text [x.char]]) QChar.notes := by
  rw [tab_chars, tab_or]
  refine tab_iff ?_ ?_
  · rintro (c | c) h
    · exact ⟨.plain c, (qdtext_iff c).mp h, rfl, rfl, rfl⟩
    · exact ⟨.escaped c, h, rfl, rfl, rfl⟩
  · rintro (c | c) h
    · exact ⟨.inl c, (qdtext_iff c).mpr h, rfl, rfl, rfl⟩
    · exact ⟨.inr c, h, rfl, rfl, rfl⟩

theorem join_singles {α : Type} (f : α → Nat) (l : List α) : joinTexts (l.map fun a => elementOf [GVal.text [f a]]) = l.map f := by
  have := join_chars (l.map f)
  rw [List.map_map] at this
  exact this

theorem quoted_one {pair : N} (hp : δ pair = pairD) : oneD ((GExpr.quotedString pair : GExpr N).den δ) = quotedD := by
  show oneD (thenD (thenD (appD skipF (octetD dquoteBits)) (appD joinF (timesD (orD (octetD qdtextBits) (δ pair))
    (oneD (orD (octetD qdtextBits) (δ pair))) 0 none))) (appD skipF (octetD dquoteBits))) = _
  rw [hp, qchar_den, tab_one_single, tab_times (fun a _ => ⟨_, rfl⟩) 0 none nofun, tab_app, skip_dquote, silent_then,
    then_silent, tab_one]
  refine tab_iff ?_ ?_
  · intro q h
    refine ⟨q, h.1, rfl, ?_, List.append_nil _⟩
    show [GVal.text (joinTexts _)] = _
    rw [join_singles]
    rfl
  · intro q h
    refine ⟨q, ⟨h, Nat.zero_le _, nofun⟩, rfl, ?_, (List.append_nil _).symm⟩
    show _ = [GVal.text (joinTexts _)]
    rw [join_singles]
    rfl

end

/-! ## Where they end -/

theorem uniq_token : Uniq IsToken (fun w => w) (Stops IsTchar) := uniq_span.mono (fun _ h => h.2) (fun _ h => h)

theorem uniq_qchar : Uniq QChar.Ok QChar.text (fun _ => True) := by
  rintro (c | c) (d | d) l l' hc hd _ _ e
  · obtain ⟨rfl, e2⟩ := List.cons.inj e
    exact ⟨rfl, e2⟩
  · exact absurd (List.cons.inj e).1 hc.2.2
  · exact absurd (List.cons.inj e).1.symm hd.2.2
  · have e := (List.cons.inj e).2
    obtain ⟨rfl, e2⟩ := List.cons.inj e
    exact ⟨rfl, e2⟩

theorem uniq_quoted : Uniq Quoted.Ok Quoted.text (fun _ => True) := by
  have : Uniq (fun q : Quoted => ∀ c ∈ q, c.Ok) (fun q => q.flatMap QChar.text) (Begins (· = 34)) := by
    refine Uniq.many uniq_qchar (fun _ _ => trivial) (fun _ _ _ _ => trivial) ?_
    rintro (c | c) l _ hc _ ⟨d, r, rfl, rfl⟩ e
    · exact hc.2.1 (List.cons.inj e).1
    · exact absurd (List.cons.inj e).1 (by decide)
  exact (this.before [34] (G := fun _ => True) (fun l _ => ⟨34, l, rfl, rfl⟩)).after [34]

theorem quoted_begins (q : Quoted) : Begins (· = 34) q.text := ⟨34, _, rfl, rfl⟩

theorem token_begins {w : Str} (h : IsToken w) : Begins IsTchar w := begins_of_all h.1 h.2

theorem tchars : str "!#$%&'*+-.^_`|~" = [33, 35, 36, 37, 38, 39, 42, 43, 45, 46, 94, 95, 96, 124, 126] := by decide +kernel

/-- Not a delimiter. -/
theorem tchar_ne {c : Nat} (h : IsTchar c) : c ≠ 34 ∧ c ≠ 44 ∧ c ≠ 32 ∧ c ≠ 9 ∧ c ≠ 61 ∧ c ≠ 59 ∧ c ≠ 47 ∧ c ≠ 92 ∧
    c ≠ 40 ∧ c ≠ 41 ∧ c ≠ 58 := by
  unfold IsTchar at h
  rw [tchars] at h
  simp only [List.mem_cons, List.not_mem_nil, or_false] at h
  omega

theorem tchar_unbroken {c : Nat} (h : IsTchar c) : Unbroken c := ⟨(tchar_ne h).2.1, (tchar_ne h).2.2.1, (tchar_ne h).2.2.2.1⟩

theorem stops_token {l : Str} (h : Stops Unbroken l) : Stops IsTchar l := h.mono fun _ => tchar_unbroken

theorem uniq_word : Uniq Word.Ok Word.text (Stops IsTchar) := by
  have := Uniq.sum uniq_token (uniq_quoted.mono (fun _ h => h) (G := Stops IsTchar) (fun _ _ => trivial))
    (fun w q l l' hw _ _ _ => (token_begins hw).append.ne (quoted_begins q).append
      fun c h k => (tchar_ne h).1 k)
  refine this.map (fun | .token s => .inl s | .quoted q => .inr q) ?_ ?_ ?_
  · rintro (s | q) h <;> exact h
  · rintro (s | q) h <;> rfl
  · rintro (s | q) (s' | q') _ _ e
    · cases e; rfl
    · cases e
    · cases e
    · cases e; rfl

end Httpolice.Lemmas
