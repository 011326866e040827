import Verif.Spec.Fields
import Verif.Lemmas.RawCredentials

/-!
# Particular headers in terms of raw entries
-/

namespace Httpolice.Lemmas.Check

open Httpolice.Model Httpolice.Spec Httpolice.Props

variable {E : Env}

local instance (e : Entry) (name : String) : Decidable (HasName E e name) := by
  unfold HasName; infer_instance

theorem hexDigit_iff (c : Nat) : isHexDigit c = true ↔ HexChar c := by
  unfold isHexDigit HexChar isAsciiDigit
  simp
  omega

theorem percent_iff (s : Str) : containsPercentEncodes s = true ↔ PercentEncoded s := by
  have step : ∀ c (s : Str), PercentEncoded s → PercentEncoded (c :: s) := by
    rintro c s ⟨a, x, y, b, rfl, h1, h2⟩
    exact ⟨c :: a, x, y, b, rfl, h1, h2⟩
  have back : ∀ c (s : Str), PercentEncoded (c :: s) →
      PercentEncoded s ∨ ∃ x y b, c = 37 ∧ s = x :: y :: b ∧ HexChar x ∧ HexChar y := by
    rintro c s ⟨a, x, y, b, h, h1, h2⟩
    cases a with
    | nil =>
      simp only [List.nil_append, List.cons.injEq] at h
      exact .inr ⟨x, y, b, h.1, h.2, h1, h2⟩
    | cons d a =>
      simp only [List.cons_append, List.cons.injEq] at h
      exact .inl ⟨a, x, y, b, h.2, h1, h2⟩
  induction s with
  | nil => simp [PercentEncoded, containsPercentEncodes]
  | cons c s ih =>
    unfold containsPercentEncodes
    split
    · rename_i x y b he
      simp only [List.cons.injEq] at he
      obtain ⟨rfl, rfl⟩ := he
      have ih : containsPercentEncodes (x :: y :: b) = true ↔ PercentEncoded (x :: y :: b) := ih
      rw [Bool.or_eq_true, ih, Bool.and_eq_true, hexDigit_iff, hexDigit_iff]
      constructor
      · rintro (⟨h1, h2⟩ | h)
        · exact ⟨[], x, y, b, rfl, h1, h2⟩
        · exact step _ _ h
      · intro h
        rcases back _ _ h with h | ⟨_, _, _, _, he, h1, h2⟩
        · exact .inr h
        · cases he
          exact .inl ⟨h1, h2⟩
    · rename_i d s' hn he
      simp only [List.cons.injEq] at he
      obtain ⟨rfl, rfl⟩ := he
      refine Iff.trans ih ⟨step _ _, fun h => ?_⟩
      rcases back _ _ h with h | ⟨_, _, _, rfl, rfl, h1, h2⟩
      · exact h
      · exact (hn _ _ _ rfl rfl).elim
    · rename_i he
      cases he

theorem precedes_iff (h : Sensible E) (ps : List (Str × Str)) {n n' : String}
    (hn : (str n).all (· < 128) = true) (hn' : (str n').all (· < 128) = true)
    (hd : asciiLower (str n) ≠ asciiLower (str n')) :
    HasParam E ps n ∧ HasParam E ps n' ∧ ps.findIdx (fun x => E.same x.1 (str n)) <
      ps.findIdx (fun x => E.same x.1 (str n')) ↔ Precedes E ps n n' := by
  induction ps with
  | nil => simp [HasParam, Precedes]
  | cons x ps ih =>
    have hw : ∀ x : Str × Str, E.same x.1 (str n) = true ↔ IsWord E x.1 n := fun x => same_word' h hn
    have hw' : ∀ x : Str × Str, E.same x.1 (str n') = true ↔ IsWord E x.1 n' := fun x => same_word' h hn'
    rw [List.findIdx_cons, List.findIdx_cons]
    by_cases h1 : IsWord E x.1 n
    · have h2 := word_apart h1 hd
      rw [(hw x).2 h1, Bool.eq_false_iff.2 (fun hc => h2 ((hw' x).1 hc))]
      have : HasParam E (x :: ps) n := ⟨x, by simp, h1⟩
      have hp : HasParam E (x :: ps) n' ↔ HasParam E ps n' := by
        simp [HasParam, h2]
      simp only [this, true_and, hp, cond_true, cond_false, Nat.zero_lt_succ, and_true]
      constructor
      · intro hh
        exact ⟨[], x, ps, rfl, h1, by simp, hh⟩
      · rintro ⟨l, y, l', he, _, hl, y', hy', hh⟩
        refine ⟨y', ?_, hh⟩
        cases l with
        | nil => cases he; exact hy'
        | cons z l => cases he; simp [hy']
    · by_cases h2 : IsWord E x.1 n'
      · rw [(hw' x).2 h2]
        simp only [cond_true, Nat.not_lt_zero, and_false, false_iff]
        rintro ⟨l, y, l', he, hy, hl, _⟩
        cases l with
        | nil => cases he; exact h1 hy
        | cons z l => cases he; exact hl x (by simp) h2
      · rw [Bool.eq_false_iff.2 (fun hc => h1 ((hw x).1 hc)),
          Bool.eq_false_iff.2 (fun hc => h2 ((hw' x).1 hc))]
        have hp : HasParam E (x :: ps) n ↔ HasParam E ps n := by simp [HasParam, h1]
        have hp' : HasParam E (x :: ps) n' ↔ HasParam E ps n' := by simp [HasParam, h2]
        rw [hp, hp']
        simp only [cond_false, Nat.add_lt_add_iff_right]
        rw [ih]
        constructor
        · rintro ⟨l, y, l', rfl, hy, hl, hh⟩
          refine ⟨x :: l, y, l', rfl, hy, fun z hz => ?_, hh⟩
          rcases List.mem_cons.1 hz with rfl | hz
          · exact h2
          · exact hl z hz
        · rintro ⟨l, y, l', he, hy, hl, hh⟩
          cases l with
          | nil => cases he; exact absurd hy h1
          | cons z l =>
            cases he
            exact ⟨l, y, l', rfl, hy, fun z hz => hl z (List.mem_cons_of_mem _ hz), hh⟩

theorem precedes_param {ps : List (Str × Str)} {n n' : String} (h : Precedes E ps n n') :
    HasParam E ps n ∧ HasParam E ps n' := by
  obtain ⟨l, x, l', rfl, h1, _, y, hy, h2⟩ := h
  exact ⟨⟨x, by simp, h1⟩, ⟨y, by simp [hy], h2⟩⟩

theorem subsumes_iff (x y : Str × Option Nat) : subsumes E (x, y) = true ↔ Subsumes E x y := by
  unfold subsumes Subsumes
  simp only [Bool.and_eq_true, Bool.or_eq_true, beq_iff_eq, Bool.not_eq_true', List.isSuffixOf_iff_suffix,
    and_assoc]
  refine and_congr_left fun _ => or_congr Iff.rfl ?_
  unfold List.IsSuffix
  simp only [eq_comm]

theorem mem_permutations2 {α : Type} {l : List α} {x y : α} (h : x ≠ y) :
    (x, y) ∈ permutations2 l ↔ x ∈ l ∧ y ∈ l := by
  unfold permutations2
  simp only [List.mem_flatMap, List.mem_map, List.mem_filter, decide_eq_true_eq, Prod.mk.injEq]
  constructor
  · rintro ⟨a, ha, b, ⟨hb, _⟩, rfl, rfl⟩
    exact ⟨List.fst_mem_of_mem_zipIdx ha, List.fst_mem_of_mem_zipIdx hb⟩
  · rintro ⟨hx, hy⟩
    obtain ⟨i, hi, rfl⟩ := List.getElem_of_mem hx
    obtain ⟨j, hj, rfl⟩ := List.getElem_of_mem hy
    refine ⟨(l[i], i), ?_, (l[j], j), ⟨?_, ?_⟩, rfl, rfl⟩
    · simp [List.mem_zipIdx_iff_getElem?]
    · simp [List.mem_zipIdx_iff_getElem?]
    · dsimp only
      rintro rfl
      exact h rfl

theorem says_accept (h : Sensible E) {hdr : String} (hn : hdr ∈ checkedNames) {m : Msg} :
    Says .req 1276 (checkAccept E m hdr) ↔ ∃ x y, Listed E m hdr (E.grammars.accept (str hdr)) x ∧
      Listed E m hdr (E.grammars.accept (str hdr)) y ∧ Subsumes E x y := by
  have hm : ∀ x, x ∈ E.items m hdr (E.grammars.accept (str hdr)) ↔
      Listed E m hdr (E.grammars.accept (str hdr)) x := fun x =>
    mem_items h.lower hn m _ (h.accept _) x
  have hne : ∀ x y, Subsumes E x y → x ≠ y := by
    rintro x y ⟨_, h1, h2, _⟩ rfl
    rw [h1] at h2
    cases h2
  unfold checkAccept
  refine Iff.trans (b := ∃ p ∈ permutations2 (E.items m hdr (E.grammars.accept (str hdr))),
    subsumes E p = true) ?_ ?_
  · cases hf : (permutations2 (E.items m hdr (E.grammars.accept (str hdr)))).find? (subsumes E) with
    | none =>
      rw [List.find?_eq_none] at hf
      simp only [says_nil, false_iff]
      rintro ⟨p, hp, hs⟩
      exact hf p hp hs
    | some p =>
      simp only [says_say, and_true, true_iff]
      exact ⟨p, List.mem_of_find?_eq_some hf, List.find?_some hf⟩
  · constructor
    · rintro ⟨⟨x, y⟩, hp, hs⟩
      rw [subsumes_iff] at hs
      obtain ⟨h1, h2⟩ := (mem_permutations2 (hne x y hs)).1 hp
      exact ⟨x, y, (hm x).1 h1, (hm y).1 h2, hs⟩
    · rintro ⟨x, y, h1, h2, hs⟩
      exact ⟨(x, y), (mem_permutations2 (hne x y hs)).2 ⟨(hm x).2 h1, (hm y).2 h2⟩,
        (subsumes_iff x y).2 hs⟩

theorem four_items {t : Target} {N : Nat} {a b c d : List Act} {l : List (List Act)} {P : Prop}
    (h : ¬Says t N (inOrder l)) (h' : Says t N a ∨ Says t N b ∨ Says t N c ∨ Says t N d ↔ P) :
    Says t N (inOrder (a :: b :: c :: d :: l)) ↔ P := by
  rw [says_inOrder_cons, says_inOrder_cons, says_inOrder_cons, says_inOrder_cons, ← h']
  simp [h]

theorem knownMethod_iff (s : Str) : isKnownMethod s = true ↔ KnownMethod s := by
  unfold isKnownMethod KnownMethod
  simp only [List.any_eq_true, beq_iff_eq]
  exact ⟨fun ⟨r, h, e⟩ => ⟨r, h, e.symm⟩, fun ⟨r, h, e⟩ => ⟨r, h, e.symm⟩⟩

theorem urlsafe_iff (s : Str) : isUrlsafeBase64 s = true ↔ ∀ c ∈ s, UrlsafeDigit c := by
  unfold isUrlsafeBase64 UrlsafeDigit
  simp only [List.all_eq_true, Bool.or_eq_true, Bool.and_eq_true, isAsciiLetter, isAsciiDigit,
    decide_eq_true_eq, beq_iff_eq, or_assoc]

theorem sameArg_iff (a b : ArgVal PrefArg) : E.sameArg a b = true ↔ SameArg E a b := by
  constructor
  · intro h
    unfold Env.sameArg at h
    split at h
    · exact .none
    · rw [beq_iff_eq] at h; subst h; exact .malformed _
    · rw [beq_iff_eq] at h; subst h; exact .raw _
    · exact .rawWord _ _ (by simpa [Env.same] using h)
    · exact .wordRaw _ _ (by simpa [Env.same] using h)
    · exact .word _ _ (by simpa [Env.same] using h)
    · rw [beq_iff_eq] at h; subst h; exact .num _
    · cases h
  · rintro (_ | _ | _ | ⟨_, _, h⟩ | ⟨_, _, h⟩ | ⟨_, _, h⟩ | _) <;> simp [Env.sameArg, Env.same, *]

theorem samePref_iff (a b : Str × ArgVal PrefArg) :
    E.samePref a b = true ↔ E.lower a.1 = E.lower b.1 ∧ SameArg E a.2 b.2 := by
  unfold Env.samePref
  rw [Bool.and_eq_true, sameArg_iff, Env.same, beq_iff_eq]

theorem hasPref_iff (h : Sensible E) (m : Msg) {name value : String}
    (hn : (str name).all (· < 128) = true) :
    E.hasPref m name value = true ↔ Prefers E m name value := by
  unfold Env.hasPref Env.preferences Prefers
  rw [any_items h.lower (by decide) m _ h.prefer]
  refine exists_congr fun x => and_congr_right fun _ => ?_
  rw [samePref_iff, h.lower (str name) fun c hc => by simpa using List.all_eq_true.1 hn c hc]
  rfl

theorem preferences_eq (h : Sensible E) (m : Msg) : E.preferences m = preferencesOf E m := by
  unfold Env.preferences preferencesOf
  rw [items_eq m _ _ h.prefer, usable_eq h.lower (by decide)]
  congr 1
  funext e
  cases E.grammars.prefer e <;> rfl

theorem preference_first (h : Sensible E) (m : Msg) {d : String} (hd : (str d).all (· < 128) = true)
    {f : Found PrefArg} (hf : f ≠ .none) :
    E.preference m d = f ↔ ∃ a, FirstPref E m d a ∧ foundOf a = f := by
  have hl : E.lower (str d) = asciiLower (str d) :=
    h.lower _ fun c hc => by simpa using List.all_eq_true.1 hd c hc
  unfold Env.preference
  rw [preferences_eq h, directiveGet_first hf]
  unfold FirstPref IsWord
  rw [hl]
  constructor
  · rintro ⟨l1, d, a, l2, h1, h2, h3, h4⟩
    exact ⟨a, ⟨l1, d, l2, h1, h2, h3⟩, h4⟩
  · rintro ⟨a, ⟨l1, d, l2, h1, h2, h3⟩, h4⟩
    exact ⟨l1, d, a, l2, h1, h2, h3, h4⟩

theorem settings_iff (h : Sensible E) (m : Msg) :
    truthyBody (E.single m "HTTP2-Settings" E.grammars.http2Settings) = true ↔
      Has E m "HTTP2-Settings" ∧ ¬LastOf E m "HTTP2-Settings" E.grammars.http2Settings [] := by
  rw [← single_last h.lower (by decide), ← present_has h.lower (by decide), present_iff]
  cases hs : E.single m "HTTP2-Settings" E.grammars.http2Settings with
  | none =>
    simp only [truthyBody, Bool.false_eq_true, false_iff]
    rintro ⟨h1, _⟩
    unfold Env.single at hs
    rw [(C26_single _ _ _ _).1] at hs
    dsimp only at hs
    rw [List.getLast?_eq_some_getLast h1] at hs
    simp only [Option.map_some] at hs
    split at hs
    · cases hs
    · cases hs
    · simp_all
  | unavailable =>
    simp only [truthyBody, reduceCtorEq, not_false_eq_true, and_true, true_iff]
    intro h1
    unfold Env.single at hs
    rw [(C26_single _ _ _ _).1] at hs
    dsimp only at hs
    rw [h1] at hs
    simp at hs
  | val s =>
    have h1 : usable E.lower (E.badForTrailer (str "HTTP2-Settings")) m (str "HTTP2-Settings") ≠ [] := by
      intro h1
      unfold Env.single at hs
      rw [(C26_single _ _ _ _).1] at hs
      dsimp only at hs
      rw [h1] at hs
      simp at hs
    cases s <;> simp [truthyBody, h1]

theorem twice_iff (h : Sensible E) (m : Msg) {name : String} (hn : (str name).all (· < 128) = true) :
    E.totalEntries m name > 1 ↔ Twice E m name := by
  have hl : E.lower (str name) = asciiLower (str name) :=
    h.lower _ fun c hc => by simpa using List.all_eq_true.1 hn c hc
  have hz : ∀ l : List Entry, ∀ k, ((l.zipIdx k).filter fun ei =>
      decide (E.lower (str name) = E.lower ei.1.name)).length =
        (l.filter fun e => decide (HasName E e name)).length := by
    intro l
    induction l with
    | nil => intro k; rfl
    | cons e l ih =>
      intro k
      rw [List.zipIdx_cons]
      by_cases he : HasName E e name
      · rw [List.filter_cons_of_pos (by simpa [hl] using he.symm), List.filter_cons_of_pos (by simpa using he),
          List.length_cons, List.length_cons, ih]
      · rw [List.filter_cons_of_neg (by simpa [hl] using fun hc => he hc.symm),
          List.filter_cons_of_neg (by simpa using he), ih]
  have ht : E.totalEntries m name =
      ((m.headers ++ m.trailers).filter fun e => decide (HasName E e name)).length := by
    unfold Env.totalEntries enumerateHeaders
    simp only [List.flatMap_cons, List.flatMap_nil, List.append_nil, List.length_append, List.length_map,
      List.filter_append]
    rw [hz, hz]
  rw [ht]
  unfold Twice
  generalize m.headers ++ m.trailers = l
  constructor
  · intro hh
    match hf : l.filter (fun e => decide (HasName E e name)) with
    | [] => rw [hf] at hh; simp at hh
    | [_] => rw [hf] at hh; simp at hh
    | e :: e' :: r =>
      obtain ⟨a, l', rfl, _, he, hf⟩ := List.filter_eq_cons_iff.1 hf
      obtain ⟨b, c, rfl, _, he', _⟩ := List.filter_eq_cons_iff.1 hf
      exact ⟨a, e, b, e', c, rfl, of_decide_eq_true he, of_decide_eq_true he'⟩
  · rintro ⟨a, e, b, e', c, rfl, he, he'⟩
    rw [List.filter_append, List.filter_cons_of_pos (by simpa using he), List.filter_append,
      List.filter_cons_of_pos (by simpa using he')]
    simp
    omega

/-- Drop the statements that do not report the notice, up to the four that may. -/
macro "locate_four" : tactic => `(tactic| (
  repeat (refine skip_item (quiet_of ?_) ?_; focus (plain_ne; done))
  refine four_items (quiet_of ?_) ?_
  focus (plain_ne; done)))

/-- What is done for `Content-Disposition`. -/
theorem says_disposition (h : Sensible E) {t : Target} {N : Nat} (ps : List (Str × Str)) :
    Says t N (inOrder [
        each (E.dupNames (ps.map Prod.fst)) fun d => say t 1247 [("param", .text d)],
        (match E.getParam "filename" ps with
          | some f => inOrder [
            whenever (containsPercentEncodes f) (say t 1248),
            whenever (f.contains 34 || f.contains 92) (say t 1249),
            whenever (!isAscii f) (say t 1250)]
          | none => []),
        whenever (E.inParams "filename*" ps) (
          if E.inParams "filename" ps then
            whenever (decide (ps.findIdx (fun x => E.same x.1 (str "filename*")) <
              ps.findIdx (fun x => E.same x.1 (str "filename")))) (say t 1252)
          else say t 1251)]) ↔
      (N = 1247 ∧ Repeats E (ps.map Prod.fst)) ∨
      (N = 1248 ∧ ∃ f, FirstParam E ps "filename" f ∧ PercentEncoded f) ∨
      (N = 1249 ∧ ∃ f, FirstParam E ps "filename" f ∧ (34 ∈ f ∨ 92 ∈ f)) ∨
      (N = 1250 ∧ ∃ f, FirstParam E ps "filename" f ∧ ∃ c ∈ f, 128 ≤ c) ∨
      (N = 1251 ∧ HasParam E ps "filename*" ∧ ¬HasParam E ps "filename") ∨
      (N = 1252 ∧ Precedes E ps "filename*" "filename") := by
  have h1 := precedes_iff h ps (n := "filename*") (n' := "filename") (by decide) (by decide) (by decide)
  rw [← h1, ← dups_iff]
  simp only [← getParam_iff h ps (show (str "filename").all (· < 128) = true by decide),
    says_inOrder_cons, says_inOrder_nil, says_each, says_say, says_whenever, says_ite,
    params_iff h ps (show (str "filename").all (· < 128) = true by decide),
    params_iff h ps (show (str "filename*").all (· < 128) = true by decide), decide_eq_true_eq]
  have h2 : ∀ f : Str, (!isAscii f) = true ↔ ∃ c ∈ f, 128 ≤ c := by
    intro f
    simp [isAscii]
  cases E.getParam "filename" ps with
  | none =>
    simp only [says_nil, reduceCtorEq, false_and, exists_false, and_false, false_or, or_false, true_and,
      exists_and_right, exists_eq_left]
    grind
  | some f =>
    simp only [says_inOrder_cons, says_inOrder_nil, says_say, says_whenever, percent_iff, h2,
      Bool.or_eq_true, List.contains_iff_mem, Option.some.injEq, exists_eq_left', true_and, or_false,
      exists_and_right]
    generalize PercentEncoded f = a, (34 ∈ f ∨ 92 ∈ f) = b, (∃ c ∈ f, 128 ≤ c) = c,
      (∃ d, d ∈ E.dupNames (ps.map Prod.fst)) = d, HasParam E ps "filename" = e,
      HasParam E ps "filename*" = g, (List.findIdx _ ps < List.findIdx _ ps) = k
    clear h1 h2
    grind

/-- What is done for `Strict-Transport-Security`. -/
theorem says_transport (h : Sensible E) {t : Target} {N : Nat} (ds : List (Str × ArgVal Nat)) :
    Says t N (inOrder [
        whenever (!ds.any fun d => E.same d.1 (str "max-age")) (say t 1218),
        whenever (directiveGet E.lower (str "max-age") (ds.map .ok) == .arg (.parsed 0) &&
          (match directiveGet E.lower (str "includeSubDomains") (ds.map .ok) with
            | .none => false
            | _ => true)) (say t 1219),
        each (E.dupNames (ds.map Prod.fst)) fun d => say t 1220 [("directive", .text d)]]) ↔
      (N = 1218 ∧ ¬∃ d ∈ ds, IsWord E d.1 "max-age") ∨
      (N = 1219 ∧ (∃ l d l', ds = l ++ (d, .parsed 0) :: l' ∧ IsWord E d "max-age" ∧
        ∀ x ∈ l, ¬IsWord E x.1 "max-age") ∧ ∃ d ∈ ds, IsWord E d.1 "includeSubDomains") ∨
      (N = 1220 ∧ Repeats E (ds.map Prod.fst)) := by
  have hl : E.lower (str "max-age") = asciiLower (str "max-age") := h.lower _ (by decide)
  have hl' : E.lower (str "includeSubDomains") = asciiLower (str "includeSubDomains") :=
    h.lower _ (by decide)
  have h1 : directiveGet E.lower (str "max-age") (ds.map .ok) = .arg (.parsed 0) ↔
      ∃ l d l', ds = l ++ (d, .parsed 0) :: l' ∧ IsWord E d "max-age" ∧
        ∀ x ∈ l, ¬IsWord E x.1 "max-age" := by
    rw [directiveGet_first (by simp), hl]
    constructor
    · rintro ⟨l, d, a, l', e1, e2, e3, e4⟩
      cases a <;> cases e4
      exact ⟨l, d, l', e1, e2, e3⟩
    · rintro ⟨l, d, l', e1, e2, e3⟩
      exact ⟨l, d, _, l', e1, e2, e3, rfl⟩
  have h2 : (match directiveGet E.lower (str "includeSubDomains") (ds.map .ok) with
      | .none => false
      | _ => true) = true ↔ ∃ d ∈ ds, IsWord E d.1 "includeSubDomains" := by
    unfold IsWord
    rw [← hl']
    constructor
    · intro hs
      by_cases hf : directiveGet E.lower (str "includeSubDomains") (ds.map .ok) = .none
      · rw [hf] at hs
        cases hs
      · obtain ⟨l, d, a, l', rfl, e2, _⟩ := (directiveGet_first hf).1 rfl
        exact ⟨(d, a), by simp, e2⟩
    · rintro ⟨d, hd, hw⟩
      have : ∀ l : List (Str × ArgVal Nat), d ∈ l →
          directiveGet E.lower (str "includeSubDomains") (l.map .ok) ≠ .none := by
        intro l
        induction l with
        | nil => simp
        | cons x l ih =>
          intro hd
          by_cases hx : E.lower x.1 = E.lower (str "includeSubDomains")
          · rw [(directiveGet_first (l := x :: l) (f := foundOf x.2) (by cases x.2 <;> simp [foundOf])).2
              ⟨[], x.1, x.2, l, rfl, hx, by simp, rfl⟩]
            cases x.2 <;> simp [foundOf]
          · rcases List.mem_cons.1 hd with rfl | hd
            · exact absurd hw hx
            · simpa [directiveGet, hx] using ih hd
      have := this ds hd
      split <;> simp_all
  rw [← dups_iff]
  simp only [says_inOrder_cons, says_inOrder_nil, says_each, says_say, says_whenever,
    Bool.and_eq_true, beq_iff_eq, h1]
  rw [h2]
  have h3 : (!ds.any fun d => E.same d.1 (str "max-age")) = true ↔ ¬∃ d ∈ ds, IsWord E d.1 "max-age" := by
    rw [Bool.not_eq_true', ← Bool.not_eq_true, List.any_eq_true]
    simp only [same_word' h (show (str "max-age").all (· < 128) = true by decide)]
  rw [h3]
  simp only [true_and, or_false]
  grind

theorem says_agent (ua : List (Option Str)) :
    Says .req 1093 (match ua.filterMap id with
        | [] => []
        | p :: ps => whenever ((p :: ps).all E.productLibrary) (say .req 1093 [("library", .text p)])) ↔
      (∃ p, some p ∈ ua) ∧ ∀ p, some p ∈ ua → E.productLibrary p = true := by
  have hm : ∀ p, some p ∈ ua ↔ p ∈ ua.filterMap id := by
    intro p
    simp
  simp only [hm]
  cases ua.filterMap id with
  | nil => simp
  | cons p ps =>
    simp only [says_whenever, says_say, and_true, List.all_eq_true]
    refine ⟨fun hh => ⟨⟨p, by simp⟩, hh⟩, fun hh => hh.2⟩

theorem elems_nil (h : Sensible E) {V : Type} {name : String} (hn : name ∈ checkedNames) (m : Msg)
    (p : Entry → Parsed V) (hp : ∀ e v, p e ≠ .single v) :
    E.multi m name p = .elems [] ↔ ListItems E m name p = [] := by
  rcases multi_cases h hn m p with ⟨_, hm⟩ | ⟨_, e, v, _, hv, _⟩ | ⟨hu, _⟩
  · rw [hm, usable_eq h.lower hn]
    unfold ListItems
    simp only [MultiValue.elems.injEq, List.flatMap_eq_nil_iff]
    refine forall_congr' fun e => forall_congr' fun _ => ?_
    cases hh : p e with
    | list l => simp [entryElems]
    | single v => exact absurd hh (hp e v)
    | unavailable s => simp [entryElems]
  · exact absurd hv (hp e v)
  · exact absurd (fun e _ _ v => hp e v) hu

theorem says_common (h : Sensible E) {t : Target} {N : Nat} (r : Response) (req : Request) (status : Int) :
    Says t N (match (E.items r.fields "Upgrade" E.grammars.upgrade).find?
        fun x => decide (x ∈ E.items req.fields "Upgrade" E.grammars.upgrade) with
      | some x =>
        if status = 426 then say t 1102 [("protocol", .text x.1)]
        else whenever (isSuccessful status) (say t 1103 [("protocol", .text x.1)])
      | none => []) ↔
    (∃ x, CommonProtocol E r req x) ∧ ((status = 426 ∧ N = 1102) ∨ (isSuccessful status = true ∧ N = 1103)) := by
  have hc : ∀ x, CommonProtocol E r req x ↔ x ∈ E.items r.fields "Upgrade" E.grammars.upgrade ∧
      x ∈ E.items req.fields "Upgrade" E.grammars.upgrade := by
    intro x
    rw [mem_upgrade h, mem_upgrade h]
    rfl
  simp only [hc]
  cases hf : (E.items r.fields "Upgrade" E.grammars.upgrade).find?
      fun x => decide (x ∈ E.items req.fields "Upgrade" E.grammars.upgrade) with
  | none =>
    rw [List.find?_eq_none] at hf
    simp only [says_nil, false_iff]
    rintro ⟨⟨x, h1, h2⟩, _⟩
    exact hf x h1 (by simpa using h2)
  | some x =>
    have h1 := List.mem_of_find?_eq_some hf
    have h2 := List.find?_some hf
    rw [and_iff_right ⟨x, h1, by simpa using h2⟩]
    simp only [says_ite, says_whenever, says_say, true_and, isSuccessful, decide_eq_true_eq]
    constructor
    · rintro (⟨e, rfl⟩ | ⟨_, e, rfl⟩)
      · exact .inl ⟨e, rfl⟩
      · exact .inr ⟨e, rfl⟩
    · rintro (⟨e, rfl⟩ | ⟨e, rfl⟩)
      · exact .inl ⟨e, rfl⟩
      · exact .inr ⟨by omega, e, rfl⟩

theorem stands_iff (h : Sensible E) (m : Msg) {d : String} (hd : (str d).all (· < 128) = true) :
    (match E.preference m d with
        | .none => false
        | .arg (.raw s) => !s.isEmpty
        | .arg (.parsed (.num n)) => n != 0
        | .arg .none => false
        | _ => true) = true ↔ ∃ a, FirstPref E m d a ∧ PrefStands a := by
  constructor
  · intro ht
    have hf : E.preference m d ≠ .none := by intro e; rw [e] at ht; cases ht
    obtain ⟨a, ha, hfa⟩ := (preference_first h m hd hf).1 rfl
    refine ⟨a, ha, ?_⟩
    rw [← hfa] at ht
    cases a with
    | parsed p => cases p <;> simpa [foundOf, PrefStands] using ht
    | _ => simp_all [foundOf, PrefStands]
  · rintro ⟨a, ha, hs⟩
    have := (preference_first h m hd (f := foundOf a) (by cases a <;> simp [foundOf])).2 ⟨a, ha, rfl⟩
    rw [this]
    cases a with
    | parsed p => cases p <;> simpa [foundOf, PrefStands] using hs
    | _ => simp_all [foundOf, PrefStands]

theorem firstIs_iff (h : Sensible E) (m : Msg) {d : String} {v : Str}
    (hd : (str d).all (· < 128) = true) :
    (match E.preference m d with
        | .arg a => E.sameArg a (.raw v)
        | _ => false) = true ↔ ∃ a, FirstPref E m d a ∧ SameArg E a (.raw v) := by
  simp only [← sameArg_iff]
  constructor
  · intro ht
    have hf : E.preference m d ≠ .none := by intro e; rw [e] at ht; cases ht
    obtain ⟨a, ha, hfa⟩ := (preference_first h m hd hf).1 rfl
    refine ⟨a, ha, ?_⟩
    rw [← hfa] at ht
    cases a <;> simp_all [foundOf]
  · rintro ⟨a, ha, hs⟩
    have := (preference_first h m hd (f := foundOf a) (by cases a <;> simp [foundOf])).2 ⟨a, ha, rfl⟩
    rw [this]
    cases a <;> simp_all [foundOf, Env.sameArg]

theorem vary_iff (h : Sensible E) (m : Msg) :
    (match E.multi m "Vary" E.grammars.vary with
        | .single v => v != str "*"
        | .elems _ => !(E.items m "Vary" E.grammars.vary).any fun v => E.same v (str "Prefer")) = true ↔
      (∃ v, SoleValue E m "Vary" E.grammars.vary v ∧ v ≠ str "*") ∨
        (¬(∃ v, SoleValue E m "Vary" E.grammars.vary v) ∧
          ¬(Unmixed E m "Vary" E.grammars.vary ∧
            ∃ x, Listed E m "Vary" E.grammars.vary x ∧ IsWord E x "Prefer")) := by
  have hs := fun v => multi_single h (show "Vary" ∈ checkedNames by decide) m E.grammars.vary v
  have hi : (E.items m "Vary" E.grammars.vary).any (fun v => E.same v (str "Prefer")) = true ↔
      Unmixed E m "Vary" E.grammars.vary ∧ ∃ x, Listed E m "Vary" E.grammars.vary x ∧
        IsWord E x "Prefer" := by
    rw [List.any_eq_true]
    simp only [items_unmixed h (show "Vary" ∈ checkedNames by decide),
      same_word' h (show (str "Prefer").all (· < 128) = true by decide)]
    grind
  rw [← hi]
  simp only [← hs]
  cases hm : E.multi m "Vary" E.grammars.vary with
  | single v => simp
  | elems l => simp

end Httpolice.Lemmas.Check
