import Verif.Spec.Inputs
import Verif.Lemmas.Headings

/-!
# Facts about `Model/Inputs.lean`: sniffing and combined files
-/

namespace Httpolice.Lemmas
open Httpolice.Model Httpolice.Spec

theorem isDigitByte_iff {c : Nat} : isDigitByte c = true ↔ IsDigit c := by
  simp [isDigitByte, IsDigit]

theorem prefix_drop {p s : Str} (h : p.isPrefixOf s = true) : s = p ++ s.drop p.length := by
  obtain ⟨t, rfl⟩ := List.isPrefixOf_iff_prefix.1 h
  simp

theorem matchStatusLine_iff {line : Str} : matchStatusLine line = true ↔ StartsWithStatus line := by
  constructor
  · intro h
    rw [matchStatusLine, Bool.and_eq_true] at h
    obtain ⟨h1, h2⟩ := h
    have e := prefix_drop h1
    have e7 : (str "HTTP/1.").length = 7 := by decide
    rw [e7] at e
    split at h2
    next v a b c rest hd =>
      simp only [Bool.and_eq_true, isDigitByte_iff] at h2
      obtain ⟨⟨⟨hv, ha⟩, hb⟩, hc⟩ := h2
      refine ⟨v, a, b, c, rest, hv, ha, hb, hc, ?_⟩
      rw [e, hd]
      simp [str]
    next => cases h2
  · rintro ⟨v, a, b, c, rest, hv, ha, hb, hc, rfl⟩
    rw [← isDigitByte_iff] at hv ha hb hc
    simp [matchStatusLine, str, hv, ha, hb, hc]

/-! ## First lines -/

theorem firstLine_of {a rest : Str} (ha : ∀ c ∈ a, c ≠ 10)
    (hr : rest = [] ∨ ∃ more, rest = 10 :: more) :
    firstLine (a ++ rest) = a ++ rest.take 1 := by
  induction a with
  | nil =>
    rcases hr with rfl | ⟨more, rfl⟩ <;> simp [firstLine]
  | cons x a ih =>
    rw [List.cons_append, firstLine, if_neg (ha x List.mem_cons_self),
      ih fun c hc => ha c (List.mem_cons_of_mem _ hc)]
    rfl

theorem firstLine_cut (s : Str) : ∃ a rest, s = a ++ rest ∧ (∀ c ∈ a, c ≠ 10) ∧
    (rest = [] ∨ ∃ more, rest = 10 :: more) := by
  induction s with
  | nil => exact ⟨[], [], rfl, by simp, .inl rfl⟩
  | cons x s ih =>
    by_cases hx : x = 10
    · exact ⟨[], x :: s, rfl, by simp, .inr ⟨s, by rw [hx]⟩⟩
    · obtain ⟨a, rest, rfl, h1, h2⟩ := ih
      refine ⟨x :: a, rest, rfl, ?_, h2⟩
      intro c hc
      rcases List.mem_cons.1 hc with rfl | hc
      · exact hx
      · exact h1 c hc

theorem sniffOutbound_iff {data : Str} : sniffOutbound data = true ↔ StartsWithStatus data := by
  rw [sniffOutbound, matchStatusLine_iff]
  obtain ⟨a, rest, rfl, ha, hr⟩ := firstLine_cut data
  rw [firstLine_of ha hr]
  have long : ∀ t : Str, StartsWithStatus (a ++ t) → (t = [] ∨ ∃ more, t = 10 :: more) →
      StartsWithStatus a := by
    rintro t ⟨v, x, y, z, more, hv, hx, hy, hz, he⟩ ht
    have hh : str "HTTP/1." ++ [v] ++ str " " ++ [x, y, z] ++ str " " ++ more =
        (str "HTTP/1." ++ [v] ++ str " " ++ [x, y, z] ++ str " ") ++ more := by simp
    rw [hh] at he
    rcases List.append_eq_append_iff.1 he with ⟨b, hb, _⟩ | ⟨b, hb, _⟩
    · cases b with
      | nil => exact ⟨v, x, y, z, [], hv, hx, hy, hz, by simpa using hb.symm⟩
      | cons q b =>
        exfalso
        rename_i hcut
        rcases ht with rfl | ⟨m, rfl⟩
        · have := congrArg List.length hcut
          simp at this
        · have hq : q = 10 := by
            have := congrArg List.head? hcut
            simpa using this.symm
          subst hq
          have hmem : 10 ∈ str "HTTP/1." ++ [v] ++ str " " ++ [x, y, z] ++ str " " := by
            rw [hb]; simp
          simp only [str, IsDigit] at *
          simp at hmem
          omega
    · exact ⟨v, x, y, z, b, hv, hx, hy, hz, by rw [hb]⟩
  have ext : ∀ t : Str, StartsWithStatus a → StartsWithStatus (a ++ t) := by
    rintro t ⟨v, x, y, z, more, hv, hx, hy, hz, rfl⟩
    exact ⟨v, x, y, z, more ++ t, hv, hx, hy, hz, by simp⟩
  constructor
  · intro h
    refine ext _ (long _ h ?_)
    rcases hr with rfl | ⟨more, rfl⟩
    · exact .inl rfl
    · exact .inr ⟨[], rfl⟩
  · exact fun h => ext _ (long _ h hr)

/-! ## Request lines -/

theorem rstripBytes_cut (s : Str) : ∃ ws, s = rstripBytes s ++ ws ∧ ∀ c ∈ ws, isSpaceByte c = true := by
  refine ⟨(s.reverse.takeWhile isSpaceByte).reverse, ?_, ?_⟩
  · rw [rstripBytes, ← List.reverse_append, List.takeWhile_append_dropWhile, List.reverse_reverse]
  · intro c hc
    exact List.all_eq_true.1 List.all_takeWhile c (List.mem_reverse.1 hc)

theorem rstripBytes_of {s ws : Str} {x : Nat} (hx : isSpaceByte x = false)
    (hw : ∀ c ∈ ws, isSpaceByte c = true) : rstripBytes (s ++ [x] ++ ws) = s ++ [x] := by
  rw [rstripBytes, List.reverse_append, List.dropWhile_append_of_pos (by simpa using hw)]
  simp [hx]

theorem matchVersion_iff {s : Str} :
    matchVersion s = true ↔ ∃ v, IsDigit v ∧ s = str "HTTP/1." ++ [v] := by
  constructor
  · intro h
    rw [matchVersion, Bool.and_eq_true] at h
    obtain ⟨h1, h2⟩ := h
    have e := prefix_drop h1
    have e7 : (str "HTTP/1.").length = 7 := by decide
    rw [e7] at e
    split at h2
    next v hd => exact ⟨v, isDigitByte_iff.1 h2, by rw [e, hd]⟩
    next => cases h2
  · rintro ⟨v, hv, rfl⟩
    rw [← isDigitByte_iff] at hv
    simp [matchVersion, str, hv]

theorem matchRequestLine_iff {line : Str} : matchRequestLine line = true ↔
    ∃ m t v, m ≠ [] ∧ t ≠ [] ∧ 32 ∉ m ∧ 32 ∉ t ∧ IsDigit v ∧
      line = m ++ [32] ++ (t ++ [32] ++ (str "HTTP/1." ++ [v])) := by
  constructor
  · intro h
    rw [matchRequestLine] at h
    split at h
    next m t w hs =>
      simp only [Bool.and_eq_true, matchVersion_iff] at h
      obtain ⟨⟨hm, ht⟩, v, hv, rfl⟩ := h
      obtain ⟨hx, ⟨h0, _⟩ | ⟨_, b, rfl, hb⟩⟩ := splitOn_inv 32 line _ _ hs
      · cases h0
      obtain ⟨hy, ⟨h0, _⟩ | ⟨_, b', rfl, hb'⟩⟩ := splitOn_inv 32 b _ _ hb
      · cases h0
      obtain ⟨_, ⟨_, rfl⟩ | ⟨h0, _⟩⟩ := splitOn_inv 32 b' _ _ hb'
      · refine ⟨m, t, v, ?_, ?_, hx, hy, hv, rfl⟩
        · rintro rfl; simp at hm
        · rintro rfl; simp at ht
      · exact absurd rfl h0
    next => cases h
  · rintro ⟨m, t, v, hm, ht, hms, hts, hv, rfl⟩
    have hv32 : 32 ∉ str "HTTP/1." ++ [v] := by
      simp only [IsDigit] at hv
      simp [str]
      omega
    rw [matchRequestLine, splitOn_cons _ _ _ hms, splitOn_cons _ _ _ hts, splitOn_none _ _ hv32]
    have : matchVersion (str "HTTP/1." ++ [v]) = true := matchVersion_iff.2 ⟨v, hv, rfl⟩
    dsimp only
    rw [this]
    cases m with
    | nil => exact absurd rfl hm
    | cons _ _ =>
      cases t with
      | nil => exact absurd rfl ht
      | cons _ _ => rfl

theorem isSpaceByte_iff {c : Nat} : isSpaceByte c = true ↔ c = 10 ∨ IsTrailing c := by
  simp only [isSpaceByte, IsTrailing, Bool.or_eq_true, decide_eq_true_eq]
  omega

theorem digit_not_space {v : Nat} (h : IsDigit v) : isSpaceByte v = false := by
  cases hb : isSpaceByte v with
  | false => rfl
  | true =>
    have := isSpaceByte_iff.1 hb
    simp only [IsTrailing, IsDigit] at *
    omega

theorem sniffInbound_iff {data : Str} : sniffInbound data = true ↔ StartsWithRequest data := by
  rw [sniffInbound, matchRequestLine_iff]
  constructor
  · rintro ⟨m, t, v, hm, ht, hms, hts, hv, he⟩
    obtain ⟨a, rest, rfl, ha, hr⟩ := firstLine_cut data
    rw [firstLine_of ha hr] at he
    obtain ⟨ws, hw, hws⟩ := rstripBytes_cut (a ++ rest.take 1)
    rw [he] at hw
    -- the stripped line ends in a digit, so it is a part of `a`
    have hcore : ∃ ws', a = m ++ [32] ++ (t ++ [32] ++ (str "HTTP/1." ++ [v])) ++ ws' ∧
        ∀ c ∈ ws', isSpaceByte c = true := by
      rcases List.append_eq_append_iff.1 hw.symm with ⟨b, hb, hb2⟩ | ⟨b, hb, hb2⟩
      · exact ⟨b, hb, fun c hc => hws c (by rw [hb2]; exact List.mem_append_left _ hc)⟩
      · cases hr0 : rest.take 1 with
        | nil =>
          rw [hr0] at hb2
          have hb0 : b = [] := (List.append_eq_nil_iff.1 hb2.symm).1
          subst hb0
          exact ⟨[], by simpa using hb.symm, by simp⟩
        | cons q r =>
          have hq : q = 10 ∧ r = [] := by
            rcases hr with rfl | ⟨more, rfl⟩
            · cases hr0
            · simp at hr0
              exact ⟨hr0.1.symm, hr0.2⟩
          obtain ⟨rfl, rfl⟩ := hq
          rw [hr0] at hb2
          cases b with
          | nil => exact ⟨[], by simpa using hb.symm, by simp⟩
          | cons z b =>
            exfalso
            have hb0 : b = [] := (List.append_eq_nil_iff.1 (List.cons.inj hb2).2.symm).1
            subst hb0
            have hz : z = 10 := by simpa using (List.cons.inj hb2).1.symm
            subst hz
            have := congrArg List.getLast? hb
            have e : m ++ [32] ++ (t ++ [32] ++ (str "HTTP/1." ++ [v])) =
                (m ++ [32] ++ (t ++ [32] ++ str "HTTP/1.")) ++ [v] := by simp
            rw [e, List.getLast?_concat, List.getLast?_concat] at this
            cases this
            simp only [IsDigit] at hv
            omega
    obtain ⟨ws', rfl, hws'⟩ := hcore
    refine ⟨m, t, v, ws', rest, hm, ht, ?_, hv, ?_, hr, by simp [str]⟩
    · intro c hc
      refine ⟨?_, ha c ?_⟩
      · rcases List.mem_append.1 hc with h | h
        · exact fun e => hms (e ▸ h)
        · exact fun e => hts (e ▸ h)
      · rcases List.mem_append.1 hc with h | h <;> simp [h]
    · intro c hc
      rcases isSpaceByte_iff.1 (hws' c hc) with rfl | h
      · exact absurd rfl (ha 10 (by simp [hc]))
      · exact h
  · rintro ⟨m, t, v, ws, rest, hm, ht, hmt, hv, hw, hr, rfl⟩
    refine ⟨m, t, v, hm, ht, ?_, ?_, hv, ?_⟩
    · exact fun h => (hmt 32 (List.mem_append_left _ h)).1 rfl
    · exact fun h => (hmt 32 (List.mem_append_right _ h)).1 rfl
    · have hno : ∀ c ∈ m ++ str " " ++ t ++ str " HTTP/1." ++ [v] ++ ws, c ≠ 10 := by
        intro c hc
        simp only [List.mem_append] at hc
        rcases hc with ((((h | h) | h) | h) | h) | h
        · exact (hmt c (by simp [h])).2
        · simp [str] at h; omega
        · exact (hmt c (by simp [h])).2
        · simp [str] at h; omega
        · simp at h; simp only [IsDigit] at hv; omega
        · have := hw c h; simp only [IsTrailing] at this; omega
      rw [firstLine_of hno hr]
      have e : m ++ str " " ++ t ++ str " HTTP/1." ++ [v] ++ ws ++ rest.take 1 =
          (m ++ str " " ++ t ++ str " HTTP/1.") ++ [v] ++ (ws ++ rest.take 1) := by simp
      rw [e, rstripBytes_of (digit_not_space hv)]
      · simp [str]
      · intro c hc
        rw [isSpaceByte_iff]
        rcases List.mem_append.1 hc with h | h
        · exact .inr (hw c h)
        · rcases hr with rfl | ⟨more, rfl⟩
          · cases h
          · simp at h; exact .inl h

/-! ## Cutting at a separator -/

theorem splitFirst_some {sep s a b : Str} (h : splitFirst sep s = some (a, b)) : CutAt sep s a b := by
  induction s generalizing a b with
  | nil =>
    rw [splitFirst] at h
    split at h
    next hp =>
      cases h
      have := List.isPrefixOf_iff_prefix.1 hp
      rw [List.prefix_nil] at this
      subst this
      exact ⟨rfl, fun _ _ _ => Nat.zero_le _⟩
    next => cases h
  | cons c s ih =>
    rw [splitFirst] at h
    split at h
    next hp =>
      cases h
      exact ⟨prefix_drop hp, fun _ _ _ => Nat.zero_le _⟩
    next hp =>
      split at h
      next => cases h
      next a0 b0 hs =>
        cases h
        obtain ⟨h1, h2⟩ := ih hs
        refine ⟨by rw [h1]; rfl, fun a' b' he => ?_⟩
        cases a' with
        | nil =>
          exfalso
          apply hp
          rw [List.isPrefixOf_iff_prefix]
          exact ⟨b', he.symm⟩
        | cons x a' =>
          have := (List.cons.inj he).2
          have := h2 a' b' this
          simpa using this

theorem splitFirst_none {sep s : Str} (h : splitFirst sep s = none) : ¬ Occurs sep s := by
  induction s with
  | nil =>
    rw [splitFirst] at h
    split at h
    next => cases h
    next hp =>
      rintro ⟨a, b, he⟩
      have h1 := List.append_eq_nil_iff.1 he.symm
      have h2 := List.append_eq_nil_iff.1 h1.1
      rw [h2.2] at hp
      exact hp rfl
  | cons c s ih =>
    rw [splitFirst] at h
    split at h
    next => cases h
    next hp =>
      split at h
      next hs =>
        rintro ⟨a, b, he⟩
        cases a with
        | nil =>
          apply hp
          rw [List.isPrefixOf_iff_prefix]
          exact ⟨b, he.symm⟩
        | cons x a => exact ih hs ⟨a, b, (List.cons.inj he).2⟩
      next => cases h

theorem cutAt_unique {sep s a b a' b' : Str} (h : CutAt sep s a b) (h' : CutAt sep s a' b') :
    a = a' ∧ b = b' := by
  have hl : a.length = a'.length := Nat.le_antisymm (h.2 _ _ h'.1) (h'.2 _ _ h.1)
  have he : a ++ sep ++ b = a' ++ sep ++ b' := h.1.symm.trans h'.1
  rw [List.append_assoc, List.append_assoc] at he
  obtain ⟨h1, h2⟩ := List.append_inj he hl
  exact ⟨h1, List.append_cancel_left h2⟩

theorem splitFirst_iff {sep s a b : Str} : splitFirst sep s = some (a, b) ↔ CutAt sep s a b := by
  refine ⟨splitFirst_some, fun h => ?_⟩
  cases hs : splitFirst sep s with
  | none => exact absurd ⟨a, b, h.1⟩ (splitFirst_none hs)
  | some p =>
    obtain ⟨a', b'⟩ := p
    obtain ⟨rfl, rfl⟩ := cutAt_unique h (splitFirst_some hs)
    rfl

theorem splitFirst_none_iff {sep s : Str} : splitFirst sep s = none ↔ ¬ Occurs sep s := by
  refine ⟨splitFirst_none, fun h => ?_⟩
  cases hs : splitFirst sep s with
  | none => rfl
  | some p => exact absurd ⟨p.1, p.2, (splitFirst_some (a := p.1) (b := p.2) hs).1⟩ h

end Httpolice.Lemmas
