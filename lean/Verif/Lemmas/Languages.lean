import Verif.Lemmas.NegotiationText
import Verif.Lemmas.UriChars
import Verif.Model.Languages
import Verif.Spec.Languages

/-!
# What the names for languages come to
-/

namespace Httpolice.Lemmas

open Httpolice.Model Httpolice.Spec

/-! ## Languages of texts -/

theorem count_iff {bits : Nat → Bool} {P : Nat → Prop} (h : ∀ c, bits c = true ↔ P c) (lo hi : Nat) (w : Str) :
    timesL (oneL bits) lo (some hi) w ↔ (∀ c ∈ w, P c) ∧ lo ≤ w.length ∧ w.length ≤ hi := by
  have len : ∀ ws : List Str, (∀ u ∈ ws, oneL bits u) → ws.flatten.length = ws.length := by
    intro ws
    induction ws with
    | nil => intro _; rfl
    | cons u ws ih =>
      intro h
      obtain ⟨⟨c, _, rfl⟩, h2⟩ := List.forall_mem_cons.mp h
      rw [List.flatten_cons, List.length_append, ih h2]
      simp [Nat.add_comm]
  constructor
  · rintro ⟨ws, h1, ⟨h2, h3⟩, rfl⟩
    exact ⟨(chars_iff h _).mp ⟨ws, h1, ⟨Nat.zero_le _, nofun⟩, rfl⟩, by rw [len ws h1]; exact h2, by rw [len ws h1]; exact h3 hi rfl⟩
  · rintro ⟨h1, h2, h3⟩
    obtain ⟨ws, k1, _, rfl⟩ := (chars_iff h w).mpr h1
    rw [len ws k1] at h2 h3
    exact ⟨ws, k1, ⟨h2, fun k e => by cases e; exact h3⟩, rfl⟩

theorem hyphened_iff {L : Str → Prop} (lo : Nat) (hi : Option Nat) (w : Str) : timesL (catL (fun w => w = [45]) L) lo hi w ↔
    ∃ ws : List Str, (∀ u ∈ ws, L u) ∧ (lo ≤ ws.length ∧ ∀ k, hi = some k → ws.length ≤ k) ∧ w = hyphened ws := by
  constructor
  · rintro ⟨ws, h1, h2, rfl⟩
    have : ∃ us : List Str, (∀ u ∈ us, L u) ∧ us.length = ws.length ∧ ws.flatten = hyphened us := by
      clear h2
      induction ws with
      | nil => exact ⟨[], nofun, rfl, rfl⟩
      | cons v ws ih =>
        obtain ⟨⟨_, u, rfl, k, rfl⟩, k2⟩ := List.forall_mem_cons.mp h1
        obtain ⟨us, i1, i2, i3⟩ := ih k2
        refine ⟨u :: us, List.forall_mem_cons.mpr ⟨k, i1⟩, by simp [i2], ?_⟩
        rw [List.flatten_cons, i3]
        rfl
    obtain ⟨us, k1, k2, k3⟩ := this
    exact ⟨us, k1, by rw [k2]; exact h2, k3⟩
  · rintro ⟨us, h1, h2, rfl⟩
    refine ⟨us.map fun u => 45 :: u, ?_, by rw [List.length_map]; exact h2, rfl⟩
    intro v hv
    obtain ⟨u, hu, rfl⟩ := List.mem_map.mp hv
    exact ⟨[45], u, rfl, h1 u hu, rfl⟩

theorem hyphenOpt_iff {L : Str → Prop} (w : Str) : optL (catL (fun w => w = [45]) L) w ↔
    ∃ o : Option Str, (∀ u, o = some u → L u) ∧ w = hyphened o.toList := by
  constructor
  · rintro (⟨_, y, rfl, h, rfl⟩ | rfl)
    · exact ⟨some y, fun _ e => by cases e; exact h, (List.append_nil _).symm⟩
    · exact ⟨none, nofun, rfl⟩
  · rintro ⟨_ | y, h, rfl⟩
    · exact .inr rfl
    · exact .inl ⟨[45], y, rfl, h y rfl, List.append_nil _⟩

theorem hyphened_cons (u : Str) (us : List Str) : hyphened (u :: us) = 45 :: (u ++ hyphened us) := rfl

/-- What the names come to. -/
def langsL : LangName → Str → Prop
  | .irregular => fun w => ∃ t ∈ oldTags.take 17, SameWord w t
  | .regular => fun w => ∃ t ∈ oldTags.drop 17, SameWord w t
  | .grandfathered => fun w => ∃ t ∈ oldTags, SameWord w t
  | .privateuse => IsPrivateUse
  | .extlang => fun w => ∃ u us, IsLetters 3 3 u ∧ (∀ u ∈ us, IsLetters 3 3 u) ∧ us.length ≤ 2 ∧ w = u ++ hyphened us
  | .language => fun w => ∃ l es, IsLetters 2 8 l ∧ (∀ u ∈ es, IsLetters 3 3 u) ∧
      (es ≠ [] → l.length ≤ 3 ∧ es.length ≤ 3) ∧ w = l ++ hyphened es
  | .script => IsLetters 4 4
  | .region => fun w => IsLetters 2 2 w ∨ (w.length = 3 ∧ ∀ c ∈ w, IsDigit c)
  | .variant => fun w => IsAlnums 4 8 w ∧ (w.length = 4 → ∃ c, w.head? = some c ∧ IsDigit c)
  | .extension => fun w => ∃ c us, ((IsLetter c ∨ IsDigit c) ∧ c ≠ 120 ∧ c ≠ 88 ∧ us ≠ [] ∧ ∀ u ∈ us, IsAlnums 2 8 u) ∧
      w = c :: hyphened us
  | .langtag => fun w => ∃ x : TagSyn, x.Ok ∧ w = x.text
  | _ => fun _ => False

/-- What the names come to. -/
def langsD : LangName → Den
  | .sem n => semD n
  | .languageTag => tabD IsLanguageTag (fun w => w) (fun w => [nameValue (str "LanguageTag") w]) (fun _ => [])
  | .languageRange => tabD IsLanguageRange (fun w => w) (fun w => [nameValue (str "CaseInsensitive") w]) (fun _ => [])
  | .acceptLanguages | .acceptLanguage => list1sD RankedSyn.LanguageOk RankedSyn.text RankedSyn.languageRange (fun _ => [])
  | .contentLanguages | .contentLanguage => list1sD IsLanguageTag (fun w => w) (nameValue (str "LanguageTag")) (fun _ => [])
  | n => verbD (langsL n)

/-! ## Parts -/

theorem lit_hyphen : litD (str "-") false = verbD (fun w => w = [45]) := verb_plain (s := [45]) (by decide +kernel)

theorem alphas_den (lo hi : Nat) (h : lo ≤ hi ∧ 1 ≤ hi) : (alphasE lo hi).den langsD = verbD (IsLetters lo hi) := by
  show appD joinF (timesD (octetD alphaBits) (octetD alphaBits) lo (some hi)) = _
  rw [verb_chars, verb_times _ lo (some hi) (by rintro _ ⟨⟩; exact h)]
  exact verb_congr (count_iff alpha_iff lo hi)

theorem alphanum_iff (c : Nat) : alphanumBits c = true ↔ IsLetter c ∨ IsDigit c := by
  unfold alphanumBits
  rw [Bool.or_eq_true, alpha_iff, digitBits_iff]

theorem alphanums_den (lo hi : Nat) (h : lo ≤ hi ∧ 1 ≤ hi) : (alphanumsE lo hi).den langsD = verbD (IsAlnums lo hi) := by
  show appD joinF (timesD (octetD alphanumBits) (octetD alphanumBits) lo (some hi)) = _
  rw [verb_chars, verb_times _ lo (some hi) (by rintro _ ⟨⟩; exact h)]
  exact verb_congr (count_iff alphanum_iff lo hi)

theorem hyphen_den {e : GExpr LangName} {L : Str → Prop} (h : e.part (e.den langsD) = verbD L) :
    (hyphenE e).den langsD = verbD (catL (fun w => w = [45]) L) := by
  show appD addF (thenD (litD (str "-") false) (e.part (e.den langsD))) = _
  rw [lit_hyphen, h, verb_add]

theorem oneOf_den (s : Str) (l : List Str) : (oneOfE s l).den langsD = verbD (fun w => ∃ t ∈ s :: l, SameWord w t) := by
  have main : ∀ (l : List Str) (e : GExpr LangName) (L : Str → Prop), e.den langsD = verbD L →
      (l.foldl (fun e t => GExpr.alt e (.lit t false)) e).den langsD = verbD (fun w => L w ∨ ∃ t ∈ l, SameWord w t) := by
    intro l
    induction l with
    | nil =>
      intro e L h
      rw [List.foldl_nil, h]
      exact verb_congr fun w => ⟨.inl, fun h => h.elim id fun ⟨_, h, _⟩ => nomatch h⟩
    | cons t l ih =>
      intro e L h
      have ha : (GExpr.alt e (.lit t false)).den langsD = verbD (orL L fun w => SameWord w t) := by
        show orD (e.den langsD) (litD t false) = _
        rw [h, verb_lit, verb_or]
      rw [List.foldl_cons, ih _ _ ha]
      refine verb_congr fun w => ?_
      unfold orL
      simp only [List.mem_cons, exists_eq_or_imp, or_assoc]
  unfold oneOfE
  rw [main l _ (fun w => SameWord w s) (by show litD s false = _; rw [verb_lit])]
  refine verb_congr fun w => ?_
  simp only [List.mem_cons, exists_eq_or_imp]

theorem oneOf_fine (s : Str) (l : List Str) (known : List LangName) : (oneOfE s l).Fine known := by
  have main : ∀ (l : List Str) (e : GExpr LangName), e.Fine known →
      (l.foldl (fun e t => GExpr.alt e (.lit t false)) e).Fine known := by
    intro l
    induction l with
    | nil => exact fun e h => h
    | cons t l ih => exact fun e h => ih _ ⟨h, trivial⟩
  exact main l _ trivial

theorem grandfathered_den : oneD ((GExpr.alt (.ref .irregular) (.ref .regular) : GExpr LangName).den langsD) =
    langsD .grandfathered := by
  show oneD (orD (verbD (langsL .irregular)) (verbD (langsL .regular))) = _
  rw [verb_or, verb_one]
  refine verb_congr fun w => ?_
  constructor
  · rintro (⟨t, h1, h2⟩ | ⟨t, h1, h2⟩)
    · exact ⟨t, List.mem_of_mem_take h1, h2⟩
    · exact ⟨t, List.mem_of_mem_drop h1, h2⟩
  · rintro ⟨t, h1, h2⟩
    rw [← List.take_append_drop 17 oldTags] at h1
    exact (List.mem_append.mp h1).imp (fun h => ⟨t, h, h2⟩) (fun h => ⟨t, h, h2⟩)

theorem privateuse_den : oneD ((GExpr.add (.lit (str "x") false) (.string1 (hyphenE (alphanumsE 1 8))) : GExpr LangName).den langsD) =
    langsD .privateuse := by
  show oneD (appD addF (thenD (litD (str "x") false) (appD joinF (timesD ((hyphenE (alphanumsE 1 8)).den langsD)
    ((hyphenE (alphanumsE 1 8)).den langsD) 1 none)))) = _
  rw [hyphen_den (e := alphanumsE 1 8) (alphanums_den 1 8 (by decide)), verb_lit, verb_many1, verb_add, verb_one]
  refine verb_congr fun w => ?_
  have hx : ∀ u, SameWord u (str "x") ↔ ∃ x, (x = 120 ∨ x = 88) ∧ u = [x] := by
    intro u
    rw [show str "x" = [120] by decide +kernel]
    constructor
    · intro h
      cases h with
      | cons h1 h2 =>
        cases h2
        refine ⟨_, ?_, rfl⟩
        unfold SameLetter at h1
        omega
    · rintro ⟨x, h, rfl⟩
      refine .cons ?_ .nil
      unfold SameLetter
      omega
  constructor
  · rintro ⟨u, v, h1, h2, rfl⟩
    obtain ⟨x, h3, rfl⟩ := (hx u).mp h1
    obtain ⟨ps, h4, h5, rfl⟩ := (hyphened_iff 1 none v).mp h2
    exact ⟨x, ps, h3, List.ne_nil_of_length_pos h5.1, h4, rfl⟩
  · rintro ⟨x, ps, h1, h2, h3, rfl⟩
    exact ⟨[x], hyphened ps, (hx _).mpr ⟨x, h1, rfl⟩, (hyphened_iff 1 none _).mpr ⟨ps, h3, ⟨List.length_pos_iff.mpr h2, nofun⟩, rfl⟩, rfl⟩

theorem extlang_den : oneD ((GExpr.add (alphasE 3 3) (.stringTimes 0 (some 2) (hyphenE (alphasE 3 3))) : GExpr LangName).den langsD) =
    langsD .extlang := by
  show oneD (appD addF (thenD ((alphasE 3 3).den langsD) (appD joinF (timesD ((hyphenE (alphasE 3 3)).den langsD)
    ((hyphenE (alphasE 3 3)).den langsD) 0 (some 2))))) = _
  rw [hyphen_den (e := alphasE 3 3) (alphas_den 3 3 (by decide)), alphas_den 3 3 (by decide), verb_times _ 0 (some 2) (by simp), verb_add, verb_one]
  refine verb_congr fun w => ?_
  constructor
  · rintro ⟨u, v, h1, h2, rfl⟩
    obtain ⟨us, h3, h4, rfl⟩ := (hyphened_iff 0 (some 2) v).mp h2
    exact ⟨u, us, h1, h3, h4.2 2 rfl, rfl⟩
  · rintro ⟨u, us, h1, h2, h3, rfl⟩
    exact ⟨u, _, h1, (hyphened_iff 0 (some 2) _).mpr ⟨us, h2, ⟨Nat.zero_le _, fun k e => by cases e; exact h3⟩, rfl⟩, rfl⟩

theorem language_den : oneD ((GExpr.alt (.alt (.add (alphasE 2 3) (.maybeStr (hyphenE (.ref .extlang)))) (alphasE 4 4))
    (alphasE 5 8) : GExpr LangName).den langsD) = langsD .language := by
  show oneD (orD (orD (appD addF (thenD ((alphasE 2 3).den langsD) (oneD (orD ((hyphenE (.ref .extlang)).den langsD)
    (appD (substF (.text [])) nothingD))))) ((alphasE 4 4).den langsD)) ((alphasE 5 8).den langsD)) = _
  rw [hyphen_den (e := .ref .extlang) (L := langsL .extlang) rfl, alphas_den 2 3 (by decide), alphas_den 4 4 (by decide),
    alphas_den 5 8 (by decide), verb_maybe, verb_one, verb_add, verb_or, verb_or, verb_one]
  refine verb_congr fun w => ?_
  constructor
  · rintro ((⟨l, v, h1, h2, rfl⟩ | h) | h)
    · obtain ⟨_ | e, h3, rfl⟩ := (hyphenOpt_iff v).mp h2
      · exact ⟨l, [], ⟨h1.1, h1.2.1, by have := h1.2.2; omega⟩, nofun, nofun, rfl⟩
      · obtain ⟨u, us, k1, k2, k3, rfl⟩ := h3 e rfl
        refine ⟨l, u :: us, ⟨h1.1, h1.2.1, by have := h1.2.2; omega⟩, List.forall_mem_cons.mpr ⟨k1, k2⟩,
          fun _ => ⟨h1.2.2, Nat.succ_le_succ k3⟩, ?_⟩
        rw [hyphened_cons]
        simp [hyphened]
    · exact ⟨w, [], ⟨h.1, by have := h.2.1; omega, by have := h.2.2; omega⟩, nofun, nofun, (List.append_nil _).symm⟩
    · exact ⟨w, [], ⟨h.1, by have := h.2.1; omega, h.2.2⟩, nofun, nofun, (List.append_nil _).symm⟩
  · rintro ⟨l, es, h1, h2, h3, rfl⟩
    cases es with
    | nil =>
      show orL (orL _ _) _ (l ++ [])
      rw [List.append_nil]
      obtain ⟨k1, k2, k3⟩ := h1
      by_cases hl : l.length ≤ 3
      · exact .inl (.inl ⟨l, [], ⟨k1, k2, hl⟩, .inr rfl, (List.append_nil _).symm⟩)
      · by_cases h4 : l.length ≤ 4
        · exact .inl (.inr ⟨k1, by omega, h4⟩)
        · exact .inr ⟨k1, by omega, k3⟩
    | cons u us =>
      obtain ⟨k1, k2⟩ := List.forall_mem_cons.mp h2
      obtain ⟨k3, k4⟩ := h3 nofun
      exact .inl (.inl ⟨l, _, ⟨h1.1, h1.2.1, k3⟩, .inl ⟨[45], _, rfl, ⟨u, us, k1, k2, Nat.le_of_succ_le_succ k4, rfl⟩, rfl⟩, rfl⟩)

theorem region_den : oneD ((GExpr.alt (alphasE 2 2) (.stringTimes 3 (some 3) (.chars digitBits true)) : GExpr LangName).den langsD) =
    langsD .region := by
  show oneD (orD ((alphasE 2 2).den langsD) (appD joinF (timesD (octetD digitBits) (octetD digitBits) 3 (some 3)))) = _
  rw [alphas_den 2 2 (by decide), verb_chars, verb_times _ 3 (some 3) (by simp), verb_or, verb_one]
  refine verb_congr fun w => or_congr Iff.rfl ((count_iff digitBits_iff 3 3 w).trans ⟨?_, ?_⟩)
  · rintro ⟨h1, h2, h3⟩
    exact ⟨by omega, h1⟩
  · rintro ⟨h1, h2⟩
    exact ⟨h2, by omega, by omega⟩

theorem variant_den : oneD ((GExpr.alt (alphanumsE 5 8) (.add (.chars digitBits true) (alphanumsE 3 3)) : GExpr LangName).den langsD) =
    langsD .variant := by
  show oneD (orD ((alphanumsE 5 8).den langsD) (appD addF (thenD (octetD digitBits) ((alphanumsE 3 3).den langsD)))) = _
  rw [alphanums_den 5 8 (by decide), alphanums_den 3 3 (by decide), verb_chars, verb_add, verb_or, verb_one]
  refine verb_congr fun w => ⟨?_, ?_⟩
  · rintro (⟨h1, h2, h3⟩ | ⟨_, v, ⟨c, hc, rfl⟩, ⟨h1, h2, h3⟩, rfl⟩)
    · exact ⟨⟨h1, by omega, h3⟩, fun h => by omega⟩
    · refine ⟨⟨List.forall_mem_cons.mpr ⟨.inr ((digitBits_iff c).mp hc), h1⟩, ?_, ?_⟩, fun _ => ⟨c, rfl, (digitBits_iff c).mp hc⟩⟩
      · show 4 ≤ v.length + 1
        omega
      · show v.length + 1 ≤ 8
        omega
  · rintro ⟨⟨h1, h2, h3⟩, h4⟩
    by_cases h : w.length = 4
    · obtain ⟨c, k1, k2⟩ := h4 h
      cases w with
      | nil => cases k1
      | cons d v =>
        cases k1
        have hl : v.length + 1 = 4 := h
        exact .inr ⟨[c], v, ⟨c, (digitBits_iff c).mpr k2, rfl⟩, ⟨(List.forall_mem_cons.mp h1).2, by omega, by omega⟩, rfl⟩
    · exact .inl ⟨h1, by omega, h3⟩

theorem singleton_iff (c : Nat) : singletonBits c = true ↔ (IsLetter c ∨ IsDigit c) ∧ c ≠ 120 ∧ c ≠ 88 := by
  unfold singletonBits
  simp only [Bool.or_eq_true, digitBits_iff, decide_eq_true_eq]
  unfold IsLetter IsDigit
  omega

theorem langExtension_den : oneD ((GExpr.add (.chars singletonBits true) (.string1 (hyphenE (alphanumsE 2 8))) : GExpr LangName).den langsD) =
    langsD .extension := by
  show oneD (appD addF (thenD (octetD singletonBits) (appD joinF (timesD ((hyphenE (alphanumsE 2 8)).den langsD)
    ((hyphenE (alphanumsE 2 8)).den langsD) 1 none)))) = _
  rw [hyphen_den (e := alphanumsE 2 8) (alphanums_den 2 8 (by decide)), verb_chars, verb_many1, verb_add, verb_one]
  refine verb_congr fun w => ⟨?_, ?_⟩
  · rintro ⟨_, v, ⟨c, hc, rfl⟩, h2, rfl⟩
    obtain ⟨ps, h4, h5, rfl⟩ := (hyphened_iff 1 none v).mp h2
    obtain ⟨k1, k2, k3⟩ := (singleton_iff c).mp hc
    exact ⟨c, ps, ⟨k1, k2, k3, List.ne_nil_of_length_pos h5.1, h4⟩, rfl⟩
  · rintro ⟨c, ps, ⟨h1, h2, h3, h4, h5⟩, rfl⟩
    exact ⟨[c], hyphened ps, ⟨c, (singleton_iff c).mpr ⟨h1, h2, h3⟩, rfl⟩,
      (hyphened_iff 1 none _).mpr ⟨ps, h5, ⟨List.length_pos_iff.mpr h4, nofun⟩, rfl⟩, rfl⟩

theorem extensions_iff (w : Str) : timesL (catL (fun w => w = [45]) (langsL .extension)) 0 none w ↔
    ∃ es : List (Nat × List Str), (∀ e ∈ es, (IsLetter e.1 ∨ IsDigit e.1) ∧ e.1 ≠ 120 ∧ e.1 ≠ 88 ∧ e.2 ≠ [] ∧ ∀ w ∈ e.2, IsAlnums 2 8 w) ∧
      w = hyphened (es.map fun e => e.1 :: hyphened e.2) := by
  rw [hyphened_iff]
  constructor
  · rintro ⟨ws, h1, k, rfl⟩
    clear k
    induction ws with
    | nil => exact ⟨[], nofun, rfl⟩
    | cons u ws ih =>
      obtain ⟨⟨c, us, k1, rfl⟩, k2⟩ := List.forall_mem_cons.mp h1
      obtain ⟨es, i1, i2⟩ := ih k2
      refine ⟨(c, us) :: es, List.forall_mem_cons.mpr ⟨k1, i1⟩, ?_⟩
      rw [List.map_cons, hyphened_cons, hyphened_cons, i2]
  · rintro ⟨es, h1, rfl⟩
    refine ⟨_, ?_, ⟨Nat.zero_le _, nofun⟩, rfl⟩
    intro u hu
    obtain ⟨e, he, rfl⟩ := List.mem_map.mp hu
    exact ⟨e.1, e.2, h1 e he, rfl⟩

theorem langtag_den : oneD ((GExpr.add (.add (.add (.add (.add (.ref .language) (.maybeStr (hyphenE (.ref .script))))
    (.maybeStr (hyphenE (.ref .region)))) (.string (hyphenE (.ref .variant)))) (.string (hyphenE (.ref .extension))))
    (.maybeStr (hyphenE (.ref .privateuse))) : GExpr LangName).den langsD) = langsD .langtag := by
  have hy : ∀ (n : LangName) (L : Str → Prop), langsD n = verbD L →
      (hyphenE (.ref n)).den langsD = verbD (catL (fun w => w = [45]) L) := fun n L h => hyphen_den h
  show oneD (appD addF (thenD (appD addF (thenD (appD addF (thenD (appD addF (thenD (appD addF (thenD (langsD .language)
    (oneD (orD ((hyphenE (.ref .script)).den langsD) (appD (substF (.text [])) nothingD)))))
    (oneD (orD ((hyphenE (.ref .region)).den langsD) (appD (substF (.text [])) nothingD)))))
    (appD joinF (timesD ((hyphenE (.ref .variant)).den langsD) ((hyphenE (.ref .variant)).den langsD) 0 none))))
    (appD joinF (timesD ((hyphenE (.ref .extension)).den langsD) ((hyphenE (.ref .extension)).den langsD) 0 none))))
    (oneD (orD ((hyphenE (.ref .privateuse)).den langsD) (appD (substF (.text [])) nothingD))))) = _
  rw [hy .script (langsL .script) rfl, hy .region (langsL .region) rfl, hy .variant (langsL .variant) rfl,
    hy .extension (langsL .extension) rfl, hy .privateuse (langsL .privateuse) rfl,
    show langsD .language = verbD (langsL .language) from rfl]
  simp only [verb_maybe, verb_many, verb_one, verb_add]
  refine verb_congr fun w => ⟨?_, ?_⟩
  · rintro ⟨_, p, ⟨_, e, ⟨_, v, ⟨_, r, ⟨l, s, h1, h2, rfl⟩, h3, rfl⟩, h4, rfl⟩, h5, rfl⟩, h6, rfl⟩
    obtain ⟨l, es, k1, k2, k3, rfl⟩ := h1
    obtain ⟨s, k4, rfl⟩ := (hyphenOpt_iff s).mp h2
    obtain ⟨r, k5, rfl⟩ := (hyphenOpt_iff r).mp h3
    obtain ⟨vs, k6, _, rfl⟩ := (hyphened_iff 0 none v).mp h4
    obtain ⟨xs, k7, rfl⟩ := (extensions_iff e).mp h5
    obtain ⟨p, k8, rfl⟩ := (hyphenOpt_iff p).mp h6
    exact ⟨⟨l, es, s, r, vs, xs, p⟩, ⟨k1, k2, k3, k4, k5, k6, k7, k8⟩, rfl⟩
  · rintro ⟨⟨l, es, s, r, vs, xs, p⟩, ⟨k1, k2, k3, k4, k5, k6, k7, k8⟩, rfl⟩
    exact ⟨_, _, ⟨_, _, ⟨_, _, ⟨_, _, ⟨_, _, ⟨l, es, k1, k2, k3, rfl⟩, (hyphenOpt_iff _).mpr ⟨s, k4, rfl⟩, rfl⟩,
      (hyphenOpt_iff _).mpr ⟨r, k5, rfl⟩, rfl⟩, (hyphened_iff 0 none _).mpr ⟨vs, k6, ⟨Nat.zero_le _, nofun⟩, rfl⟩, rfl⟩,
      (extensions_iff _).mpr ⟨xs, k7, rfl⟩, rfl⟩, (hyphenOpt_iff _).mpr ⟨p, k8, rfl⟩, rfl⟩

theorem languageTag_den : oneD ((GExpr.alt (.alt (.app (classF (str "LanguageTag")) true (.ref .langtag))
    (.app (classF (str "LanguageTag")) true (.ref .privateuse))) (.app (classF (str "LanguageTag")) true (.ref .grandfathered)) :
    GExpr LangName).den langsD) = langsD .languageTag := by
  show oneD (orD (orD (appD (classF (str "LanguageTag")) (verbD (langsL .langtag)))
    (appD (classF (str "LanguageTag")) (verbD (langsL .privateuse)))) (appD (classF (str "LanguageTag")) (verbD (langsL .grandfathered)))) = _
  rw [tab_class, tab_class, tab_class, tab_or, tab_or, tab_one]
  refine tab_iff ?_ ?_
  · rintro ((w | w) | w) h
    · exact ⟨w, .inl h, rfl, rfl, rfl⟩
    · exact ⟨w, .inr (.inl h), rfl, rfl, rfl⟩
    · exact ⟨w, .inr (.inr h), rfl, rfl, rfl⟩
  · rintro w (h | h | h)
    · exact ⟨.inl (.inl w), h, rfl, rfl, rfl⟩
    · exact ⟨.inl (.inr w), h, rfl, rfl, rfl⟩
    · exact ⟨.inr w, h, rfl, rfl, rfl⟩

theorem languageRange_den : oneD ((GExpr.app (classF (str "CaseInsensitive")) true (.alt
    (.add (alphasE 1 8) (.string (hyphenE (alphanumsE 1 8)))) (.lit (str "*") false)) : GExpr LangName).den langsD) =
    langsD .languageRange := by
  show oneD (appD (classF (str "CaseInsensitive")) (orD (appD addF (thenD ((alphasE 1 8).den langsD)
    (appD joinF (timesD ((hyphenE (alphanumsE 1 8)).den langsD) ((hyphenE (alphanumsE 1 8)).den langsD) 0 none))))
    (litD (str "*") false))) = _
  rw [hyphen_den (e := alphanumsE 1 8) (alphanums_den 1 8 (by decide)), alphas_den 1 8 (by decide), lit_star, verb_many, verb_add, verb_or, tab_class,
    tab_one_single]
  have hs : str "*" = [42] := by decide +kernel
  refine tab_iff ?_ ?_
  · rintro w (⟨u, v, h1, h2, rfl⟩ | h)
    · obtain ⟨ws, h3, _, rfl⟩ := (hyphened_iff 0 none v).mp h2
      exact ⟨_, .inr ⟨u, ws, h1, h3, rfl⟩, rfl, rfl, rfl⟩
    · exact ⟨w, .inl (h.trans hs.symm), rfl, rfl, rfl⟩
  · rintro w (h | ⟨u, ws, h1, h3, rfl⟩)
    · exact ⟨w, .inr (h.trans hs), rfl, rfl, rfl⟩
    · exact ⟨_, .inl ⟨u, _, h1, (hyphened_iff 0 none _).mpr ⟨ws, h3, ⟨Nat.zero_le _, nofun⟩, rfl⟩, rfl⟩, rfl, rfl, rfl⟩

theorem languageElem_den : (GExpr.app (classF (str "Parametrized")) true (.seq (.ref .languageRange)
    (.maybe (.ref (.sem .weight)))) : GExpr LangName).den langsD =
    tabD RankedSyn.LanguageOk RankedSyn.text (fun x => [x.languageRange]) (fun _ => []) := by
  show appD (classF (str "Parametrized")) (thenD (tabD IsLanguageRange (fun w => w) (fun w => [nameValue (str "CaseInsensitive") w])
    (fun _ => [])) (oneD (orD rankingD (appD (substF .none) nothingD)))) = _
  rw [ranked_den]
  exact tab_iff (fun x h => ⟨⟨x.1, x.2⟩, h, rfl, rfl, rfl⟩) (fun x h => ⟨(x.name, x.rank), h, rfl, rfl, rfl⟩)

local macro "fine" : tactic => `(tactic| simp_all [Defn.Fine, GExpr.Fine, hyphenE, alphasE, alphanumsE])

local macro "one" : tactic => `(tactic| exact named_alike (.of_eq tab_one_single))

theorem langs_solve {order : List Nat → List Nat} (ho : ∀ l c, c ∈ order l ↔ c ∈ l) : Solves [] langsD (langDefs order) := by
  refine solves_import (known := []) (δ' := semD) nofun (fun _ => rfl) (sems_solve ho) ?_
  have hk : ∀ n ∈ [LangName.sem (.hop (.str .ows)), .sem .weight],
      n ∈ ((semDefs order).map fun x => LangName.sem x.1).reverse ++ [] := of_decide_eq_true (Eq.refl true)
  generalize ((semDefs order).map fun x => LangName.sem x.1).reverse ++ [] = known at hk
  refine ⟨oneOf_fine _ _ _, named_alike (.of_eq ((congrArg oneD (oneOf_den _ _)).trans (verb_one _))), ?_⟩
  refine ⟨oneOf_fine _ _ _, named_alike (.of_eq ((congrArg oneD (oneOf_den _ _)).trans (verb_one _))), ?_⟩
  refine ⟨by fine, named_alike (.of_eq grandfathered_den), ?_⟩
  refine ⟨by fine, named_alike (.of_eq privateuse_den), ?_⟩
  refine ⟨by fine, named_alike (.of_eq extlang_den), ?_⟩
  refine ⟨by fine, named_alike (.of_eq language_den), ?_⟩
  refine ⟨by fine, named_alike (.of_eq ((congrArg oneD (alphas_den 4 4 (by decide))).trans (verb_one _))), ?_⟩
  refine ⟨by fine, named_alike (.of_eq region_den), ?_⟩
  refine ⟨by fine, named_alike (.of_eq variant_den), ?_⟩
  refine ⟨by fine, named_alike (.of_eq langExtension_den), ?_⟩
  refine ⟨by fine, named_alike (.of_eq langtag_den), ?_⟩
  refine ⟨by fine, named_alike (.of_eq languageTag_den), ?_⟩
  refine ⟨by fine, named_alike (.of_eq languageRange_den), ?_⟩
  refine ⟨⟨by simp_all, rfl, by fine, by rw [languageElem_den]; exact fun w cs => tab_never w cs⟩, ?_, ?_⟩
  · show Alike (list1D _) _
    rw [languageElem_den]
    exact tab_list1 (fun _ _ => nofun)
  refine ⟨by fine, by one, ?_⟩
  refine ⟨⟨by simp_all, rfl, by fine, fun w cs => tab_never w cs⟩, tab_list1 (fun _ _ => nofun), ?_⟩
  refine ⟨by fine, by one, ?_⟩
  trivial

/-! ## They are tokens -/

theorem alnum_tchar {c : Nat} (h : IsLetter c ∨ IsDigit c) : IsTchar c := by
  unfold IsLetter IsDigit at h
  unfold IsTchar
  rcases h with (h | h) | h
  · exact .inl h
  · exact .inr (.inl h)
  · exact .inr (.inr (.inl h))

theorem hyphened_tchar {ws : List Str} (h : ∀ w ∈ ws, ∀ c ∈ w, IsTchar c) : ∀ c ∈ hyphened ws, IsTchar c := by
  intro c hc
  obtain ⟨w, hw, hc⟩ := List.mem_flatMap.mp hc
  rcases List.mem_cons.mp hc with rfl | hc
  · exact (tchar_iff 45).mp (by decide)
  · exact h w hw c hc

theorem range_token {w : Str} (h : IsLanguageRange w) : IsToken w := by
  rcases h with rfl | ⟨a, ws, ⟨h1, h2, _⟩, h3, rfl⟩
  · exact star_token
  · refine ⟨?_, fun c hc => ?_⟩
    · intro e
      rw [(List.append_eq_nil_iff.mp e).1] at h2
      cases h2
    · rcases List.mem_append.mp hc with hc | hc
      · exact alnum_tchar (.inl (h1 c hc))
      · exact hyphened_tchar (fun v hv c hc => alnum_tchar ((h3 v hv).1 c hc)) c hc

theorem sameWord_append {u v w : Str} (h : SameWord w (u ++ v)) : ∃ a b, SameWord a u ∧ SameWord b v ∧ w = a ++ b := by
  induction u generalizing w with
  | nil => exact ⟨[], w, .nil, h, rfl⟩
  | cons c u ih =>
    cases h with
    | cons h1 h2 =>
      obtain ⟨a, b, k1, k2, rfl⟩ := ih h2
      exact ⟨_ :: a, b, .cons h1 k1, k2, rfl⟩

theorem sameWord_letters {s w : Str} (h : SameWord w s) :
    (∀ lo hi, IsLetters lo hi s → IsLetters lo hi w) ∧ ∀ lo hi, IsAlnums lo hi s → IsAlnums lo hi w := by
  have : w.length = s.length ∧ ((∀ c ∈ s, IsLetter c) → ∀ c ∈ w, IsLetter c) ∧
      ((∀ c ∈ s, IsLetter c ∨ IsDigit c) → ∀ c ∈ w, IsLetter c ∨ IsDigit c) := by
    induction h with
    | nil => exact ⟨rfl, fun _ => nofun, fun _ => nofun⟩
    | @cons a b u v h1 _ ih =>
      refine ⟨by rw [List.length_cons, List.length_cons, ih.1], fun h => ?_, fun h => ?_⟩
      · obtain ⟨k1, k2⟩ := List.forall_mem_cons.mp h
        refine List.forall_mem_cons.mpr ⟨?_, ih.2.1 k2⟩
        unfold SameLetter at h1
        unfold IsLetter at k1 ⊢
        omega
      · obtain ⟨k1, k2⟩ := List.forall_mem_cons.mp h
        refine List.forall_mem_cons.mpr ⟨?_, ih.2.2 k2⟩
        unfold SameLetter at h1
        unfold IsLetter IsDigit at k1 ⊢
        omega
  exact ⟨fun lo hi h => ⟨this.2.1 h.1, by rw [this.1]; exact h.2⟩, fun lo hi h => ⟨this.2.2 h.1, by rw [this.1]; exact h.2⟩⟩

theorem sameWord_hyphened {ws : List Str} {w : Str} (h : SameWord w (hyphened ws)) (hw : ∀ v ∈ ws, IsAlnums 1 8 v) :
    ∃ vs, (∀ v ∈ vs, IsAlnums 1 8 v) ∧ w = hyphened vs := by
  induction ws generalizing w with
  | nil =>
    cases h
    exact ⟨[], nofun, rfl⟩
  | cons u ws ih =>
    obtain ⟨k1, k2⟩ := List.forall_mem_cons.mp hw
    rw [hyphened_cons] at h
    cases h with
    | @cons d _ _ _ h1 h2 =>
      obtain ⟨a, b, j1, j2, rfl⟩ := sameWord_append h2
      obtain ⟨vs, i1, rfl⟩ := ih j2 k2
      refine ⟨a :: vs, List.forall_mem_cons.mpr ⟨(sameWord_letters j1).2 1 8 k1, i1⟩, ?_⟩
      have : d = 45 := by
        unfold SameLetter at h1
        omega
      rw [hyphened_cons, this]

/-- The old tags in parts. -/
def oldParts : List (Str × List Str) :=
  [(str "en", [str "GB", str "oed"]), (str "i", [str "ami"]), (str "i", [str "bnn"]), (str "i", [str "default"]),
   (str "i", [str "enochian"]), (str "i", [str "hak"]), (str "i", [str "klingon"]), (str "i", [str "lux"]),
   (str "i", [str "mingo"]), (str "i", [str "navajo"]), (str "i", [str "pwn"]), (str "i", [str "tao"]), (str "i", [str "tay"]),
   (str "i", [str "tsu"]), (str "sgn", [str "BE", str "FR"]), (str "sgn", [str "BE", str "NL"]), (str "sgn", [str "CH", str "DE"]),
   (str "art", [str "lojban"]), (str "cel", [str "gaulish"]), (str "no", [str "bok"]), (str "no", [str "nyn"]),
   (str "zh", [str "guoyu"]), (str "zh", [str "hakka"]), (str "zh", [str "min"]), (str "zh", [str "min", str "nan"]),
   (str "zh", [str "xiang"])]

theorem old_parts {t : Str} (h : t ∈ oldTags) :
    ∃ a ws, IsLetters 1 8 a ∧ (∀ v ∈ ws, IsAlnums 1 8 v) ∧ t = a ++ hyphened ws := by
  have e : oldTags = oldParts.map fun x => x.1 ++ hyphened x.2 := by decide +kernel
  have ok : ∀ x ∈ oldParts, IsLetters 1 8 x.1 ∧ ∀ v ∈ x.2, IsAlnums 1 8 v := by
    unfold IsLetters IsAlnums IsLetter IsDigit
    decide +kernel
  rw [e] at h
  obtain ⟨x, hx, rfl⟩ := List.mem_map.mp h
  exact ⟨x.1, x.2, (ok x hx).1, (ok x hx).2, rfl⟩

theorem alnums_in {lo hi : Nat} (h1 : 1 ≤ lo) (h2 : hi ≤ 8) {w : Str} (h : IsAlnums lo hi w) : IsAlnums 1 8 w :=
  ⟨h.1, by have := h.2.1; omega, by have := h.2.2; omega⟩

theorem letters_in {lo hi : Nat} (h1 : 1 ≤ lo) (h2 : hi ≤ 8) {w : Str} (h : IsLetters lo hi w) : IsAlnums 1 8 w :=
  ⟨fun c hc => .inl (h.1 c hc), by have := h.2.1; omega, by have := h.2.2; omega⟩

theorem hyphened_append (us vs : List Str) : hyphened us ++ hyphened vs = hyphened (us ++ vs) := List.flatMap_append.symm

theorem private_range {w : Str} (h : IsPrivateUse w) :
    ∃ a ws, IsLetters 1 8 a ∧ (∀ v ∈ ws, IsAlnums 1 8 v) ∧ w = a ++ hyphened ws := by
  obtain ⟨x, ps, h1, _, h3, rfl⟩ := h
  refine ⟨[x], ps, ⟨fun c hc => ?_, by simp⟩, h3, rfl⟩
  obtain rfl := List.mem_singleton.mp hc
  unfold IsLetter
  omega

theorem extensions_range (es : List (Nat × List Str))
    (h : ∀ e ∈ es, (IsLetter e.1 ∨ IsDigit e.1) ∧ e.1 ≠ 120 ∧ e.1 ≠ 88 ∧ e.2 ≠ [] ∧ ∀ w ∈ e.2, IsAlnums 2 8 w) :
    ∃ ws, (∀ v ∈ ws, IsAlnums 1 8 v) ∧ hyphened (es.map fun e => e.1 :: hyphened e.2) = hyphened ws := by
  induction es with
  | nil => exact ⟨[], nofun, rfl⟩
  | cons e es ih =>
    obtain ⟨k1, k2⟩ := List.forall_mem_cons.mp h
    obtain ⟨ws, i1, i2⟩ := ih k2
    refine ⟨[e.1] :: (e.2 ++ ws), ?_, ?_⟩
    · refine List.forall_mem_cons.mpr ⟨⟨fun c hc => by obtain rfl := List.mem_singleton.mp hc; exact k1.1, by simp⟩, ?_⟩
      exact fun v hv => (List.mem_append.mp hv).elim (fun hv => alnums_in (by decide) (by decide) (k1.2.2.2.2 v hv)) (i1 v)
    · rw [List.map_cons, hyphened_cons, hyphened_cons, i2, ← hyphened_append]
      rfl

/-- A tag is a range. -/
theorem tag_range {w : Str} (h : IsLanguageTag w) : IsLanguageRange w := by
  rcases h with ⟨x, hx, rfl⟩ | h | ⟨t, ht, h⟩
  · obtain ⟨us, u1, u2⟩ := extensions_range x.extensions hx.extensions
    have hp : ∃ ps, (∀ v ∈ ps, IsAlnums 1 8 v) ∧ hyphened x.privateUse.toList = hyphened ps := by
      cases hp : x.privateUse with
      | none => exact ⟨[], nofun, rfl⟩
      | some p =>
        obtain ⟨a, ws, h1, h2, rfl⟩ := private_range (hx.privateUse p hp)
        refine ⟨a :: ws, List.forall_mem_cons.mpr ⟨letters_in (by decide) (by decide) h1, h2⟩, ?_⟩
        rw [hyphened_cons, Option.toList_some, hyphened_cons]
        simp [hyphened]
    obtain ⟨ps, p1, p2⟩ := hp
    refine .inr ⟨x.language, x.extlangs ++ x.script.toList ++ x.region.toList ++ x.variants ++ us ++ ps,
      ⟨hx.language.1, by have := hx.language.2.1; omega, hx.language.2.2⟩, ?_, ?_⟩
    · intro v hv
      simp only [List.mem_append, Option.mem_toList, or_assoc] at hv
      rcases hv with hv | hv | hv | hv | hv | hv
      · exact letters_in (by decide) (by decide) (hx.extlangs v hv)
      · exact letters_in (by decide) (by decide) (hx.script v hv)
      · rcases hx.region v hv with h | ⟨h1, h2⟩
        · exact letters_in (by decide) (by decide) h
        · exact ⟨fun c hc => .inr (h2 c hc), by omega, by omega⟩
      · exact alnums_in (by decide) (by decide) (hx.variants v hv).1
      · exact u1 v hv
      · exact p1 v hv
    · unfold TagSyn.text
      rw [u2, p2]
      simp only [← hyphened_append, List.append_assoc]
  · exact .inr (private_range h)
  · obtain ⟨a, ws, h1, h2, rfl⟩ := old_parts ht
    obtain ⟨b, v, k1, k2, rfl⟩ := sameWord_append h
    obtain ⟨vs, k3, rfl⟩ := sameWord_hyphened k2 h2
    exact .inr ⟨b, vs, (sameWord_letters k1).1 1 8 h1, k3, rfl⟩

theorem list1_mono {α : Type} {P Q : α → Prop} (h : ∀ a, P a → Q a) {x : List1Syn α} (hx : x.Ok P) : x.Ok Q := by
  refine ⟨hx.1, h _ hx.2.1, fun y hy => ⟨(hx.2.2 y hy).1, ?_⟩⟩
  have := (hx.2.2 y hy).2
  revert this
  cases y.2 with
  | none => exact id
  | some z => exact fun k => ⟨k.1, h _ k.2⟩

end Httpolice.Lemmas
