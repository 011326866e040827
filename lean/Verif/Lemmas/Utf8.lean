import Verif.Spec.Encoded
import Verif.Lemmas.Hops
import Verif.Lemmas.UriChars

/-!
# UTF-8 and percent-encoding
-/

namespace Httpolice.Lemmas

open Httpolice.Model Httpolice.Spec

/-! ## UTF-8 -/

theorem utf8_eq (a : Nat) (w : Str) : utf8Decodes (a :: w) =
    if a < 0x80 then utf8Decodes w
    else if a < 0xC2 then false
    else if a < 0xE0 then
      match w with
      | b :: w => utf8Decodes.tail b && utf8Decodes w
      | _ => false
    else if a < 0xF0 then
      match w with
      | b :: c :: w => utf8Decodes.tail b && utf8Decodes.tail c && (a != 0xE0 || 0xA0 ≤ b) && (a != 0xED || b < 0xA0) && utf8Decodes w
      | _ => false
    else if a < 0xF5 then
      match w with
      | b :: c :: d :: w =>
        utf8Decodes.tail b && utf8Decodes.tail c && utf8Decodes.tail d && (a != 0xF0 || 0x90 ≤ b) && (a != 0xF4 || b < 0x90) &&
          utf8Decodes w
      | _ => false
    else false := by
  rw [utf8Decodes.eq_def]
  rfl

theorem utf8_first {c : Nat} (h : IsScalar c) (w : Str) : utf8Decodes (utf8 c ++ w) = utf8Decodes w := by
  unfold IsScalar at h
  unfold utf8
  split
  · rename_i h1
    show utf8Decodes (c :: w) = _
    rw [utf8_eq]
    simp [h1]
  split
  · rename_i h1 h2
    show utf8Decodes ((0xC0 + c / 0x40) :: (0x80 + c % 0x40) :: w) = _
    rw [utf8_eq, if_neg (by omega), if_neg (by omega), if_pos (by omega)]
    have : utf8Decodes.tail (0x80 + c % 0x40) = true := by simp [utf8Decodes.tail]; omega
    simp [this]
  split
  · rename_i h1 h2 h3
    show utf8Decodes ((0xE0 + c / 0x1000) :: (0x80 + c / 0x40 % 0x40) :: (0x80 + c % 0x40) :: w) = _
    rw [utf8_eq, if_neg (by omega), if_neg (by omega), if_neg (by omega), if_pos (by omega)]
    have t1 : utf8Decodes.tail (0x80 + c / 0x40 % 0x40) = true := by simp [utf8Decodes.tail]; omega
    have t2 : utf8Decodes.tail (0x80 + c % 0x40) = true := by simp [utf8Decodes.tail]; omega
    have t3 : (0xE0 + c / 0x1000 != 0xE0 || decide (0xA0 ≤ 0x80 + c / 0x40 % 0x40)) = true := by
      rw [Bool.or_eq_true, bne_iff_ne, decide_eq_true_eq]; omega
    have t4 : (0xE0 + c / 0x1000 != 0xED || decide (0x80 + c / 0x40 % 0x40 < 0xA0)) = true := by
      rw [Bool.or_eq_true, bne_iff_ne, decide_eq_true_eq]; omega
    simp only [t1, t2, t3, t4, Bool.true_and]
  · rename_i h1 h2 h3
    show utf8Decodes ((0xF0 + c / 0x40000) :: (0x80 + c / 0x1000 % 0x40) :: (0x80 + c / 0x40 % 0x40) :: (0x80 + c % 0x40) :: w) = _
    rw [utf8_eq, if_neg (by omega), if_neg (by omega), if_neg (by omega), if_neg (by omega), if_pos (by omega)]
    have t1 : utf8Decodes.tail (0x80 + c / 0x1000 % 0x40) = true := by simp [utf8Decodes.tail]; omega
    have t2 : utf8Decodes.tail (0x80 + c / 0x40 % 0x40) = true := by simp [utf8Decodes.tail]; omega
    have t3 : utf8Decodes.tail (0x80 + c % 0x40) = true := by simp [utf8Decodes.tail]; omega
    have t4 : (0xF0 + c / 0x40000 != 0xF0 || decide (0x90 ≤ 0x80 + c / 0x1000 % 0x40)) = true := by
      rw [Bool.or_eq_true, bne_iff_ne, decide_eq_true_eq]; omega
    have t5 : (0xF0 + c / 0x40000 != 0xF4 || decide (0x80 + c / 0x1000 % 0x40 < 0x90)) = true := by
      rw [Bool.or_eq_true, bne_iff_ne, decide_eq_true_eq]; omega
    simp only [t1, t2, t3, t4, t5, Bool.true_and]

theorem isUtf8_cons {c : Nat} (h : IsScalar c) {w v : Str} (e : v = utf8 c ++ w) (hw : IsUtf8 w) : IsUtf8 v := by
  obtain ⟨cs, h1, rfl⟩ := hw
  exact ⟨c :: cs, List.forall_mem_cons.mpr ⟨h, h1⟩, e⟩

theorem utf8_decodes (b : Str) : utf8Decodes b = true ↔ IsUtf8 b := by
  constructor
  · intro h
    induction b using utf8Decodes.induct with
    | case1 => exact ⟨[], nofun, rfl⟩
    | case2 a w h1 ih =>
      rw [utf8_eq, if_pos h1] at h
      exact isUtf8_cons (c := a) (.inl (by omega)) (by unfold utf8; rw [if_pos h1]; rfl) (ih h)
    | case3 a w h1 h2 =>
      rw [utf8_eq, if_neg h1, if_pos h2] at h
      cases h
    | case4 a h1 h2 h3 b w ih =>
      rw [utf8_eq, if_neg h1, if_neg h2, if_pos h3] at h
      simp only [Bool.and_eq_true, utf8Decodes.tail, decide_eq_true_eq] at h
      refine isUtf8_cons (c := (a - 0xC0) * 0x40 + (b - 0x80)) (.inl (by omega)) ?_ (ih h.2)
      unfold utf8
      rw [if_neg (by omega), if_pos (by omega), show 0xC0 + ((a - 0xC0) * 0x40 + (b - 0x80)) / 0x40 = a by omega,
        show 0x80 + ((a - 0xC0) * 0x40 + (b - 0x80)) % 0x40 = b by omega]
      rfl
    | case5 a w h1 h2 h3 hw =>
      rw [utf8_eq, if_neg h1, if_neg h2, if_pos h3] at h
      cases w with
      | nil => cases h
      | cons b w => exact absurd rfl (hw b w)
    | case6 a h1 h2 h3 h4 b c w ih =>
      rw [utf8_eq, if_neg h1, if_neg h2, if_neg h3, if_pos h4] at h
      simp only [Bool.and_eq_true, utf8Decodes.tail, decide_eq_true_eq, Bool.or_eq_true, bne_iff_ne] at h
      obtain ⟨⟨⟨⟨hb, hc⟩, k1⟩, k2⟩, hw⟩ := h
      refine isUtf8_cons (c := (a - 0xE0) * 0x1000 + (b - 0x80) * 0x40 + (c - 0x80)) ?_ ?_ (ih hw)
      · unfold IsScalar
        omega
      unfold utf8
      rw [if_neg (by omega), if_neg (by omega), if_pos (by omega),
        show 0xE0 + ((a - 0xE0) * 0x1000 + (b - 0x80) * 0x40 + (c - 0x80)) / 0x1000 = a by omega,
        show 0x80 + ((a - 0xE0) * 0x1000 + (b - 0x80) * 0x40 + (c - 0x80)) / 0x40 % 0x40 = b by omega,
        show 0x80 + ((a - 0xE0) * 0x1000 + (b - 0x80) * 0x40 + (c - 0x80)) % 0x40 = c by omega]
      rfl
    | case7 a w h1 h2 h3 h4 hw =>
      rw [utf8_eq, if_neg h1, if_neg h2, if_neg h3, if_pos h4] at h
      match w, hw, h with
      | [], _, h => cases h
      | [_], _, h => cases h
      | b :: c :: w, hw, _ => exact absurd rfl (hw b c w)
    | case8 a h1 h2 h3 h4 h5 b c d w ih =>
      rw [utf8_eq, if_neg h1, if_neg h2, if_neg h3, if_neg h4, if_pos h5] at h
      simp only [Bool.and_eq_true, utf8Decodes.tail, decide_eq_true_eq, Bool.or_eq_true, bne_iff_ne] at h
      obtain ⟨⟨⟨⟨⟨hb, hc⟩, hd⟩, k1⟩, k2⟩, hw⟩ := h
      refine isUtf8_cons (c := (a - 0xF0) * 0x40000 + (b - 0x80) * 0x1000 + (c - 0x80) * 0x40 + (d - 0x80)) ?_ ?_ (ih hw)
      · unfold IsScalar
        omega
      unfold utf8
      rw [if_neg (by omega), if_neg (by omega), if_neg (by omega),
        show 0xF0 + ((a - 0xF0) * 0x40000 + (b - 0x80) * 0x1000 + (c - 0x80) * 0x40 + (d - 0x80)) / 0x40000 = a by omega,
        show 0x80 + ((a - 0xF0) * 0x40000 + (b - 0x80) * 0x1000 + (c - 0x80) * 0x40 + (d - 0x80)) / 0x1000 % 0x40 = b by omega,
        show 0x80 + ((a - 0xF0) * 0x40000 + (b - 0x80) * 0x1000 + (c - 0x80) * 0x40 + (d - 0x80)) / 0x40 % 0x40 = c by omega,
        show 0x80 + ((a - 0xF0) * 0x40000 + (b - 0x80) * 0x1000 + (c - 0x80) * 0x40 + (d - 0x80)) % 0x40 = d by omega]
      rfl
    | case9 a w h1 h2 h3 h4 h5 hw =>
      rw [utf8_eq, if_neg h1, if_neg h2, if_neg h3, if_neg h4, if_pos h5] at h
      match w, hw, h with
      | [], _, h => cases h
      | [_], _, h => cases h
      | [_, _], _, h => cases h
      | b :: c :: d :: w, hw, _ => exact absurd rfl (hw b c d w)
    | case10 a w h1 h2 h3 h4 h5 =>
      rw [utf8_eq, if_neg h1, if_neg h2, if_neg h3, if_neg h4, if_neg h5] at h
      cases h
  · rintro ⟨w, h, rfl⟩
    induction w with
    | nil => rfl
    | cons c w ih =>
      obtain ⟨h1, h2⟩ := List.forall_mem_cons.mp h
      rw [List.flatMap_cons, utf8_first h1, ih h2]

/-! ## Percent-encoding -/

theorem hexDigitOf_eq {c : Nat} (h : IsHexDigit c) : hexDigitOf c = some (hexVal c) := by
  unfold IsHexDigit IsDigit at h
  unfold hexDigitOf hexVal
  by_cases h1 : 48 ≤ c ∧ c ≤ 57
  · rw [if_pos h1, if_pos h1.2]
  by_cases h2 : 65 ≤ c ∧ c ≤ 70
  · rw [if_neg h1, if_pos h2, if_neg (by omega), if_pos h2.2]
  · rw [if_neg h1, if_neg h2, if_pos (by omega), if_neg (by omega), if_neg (by omega)]

theorem attr_signs : str "!#$&+-.^_`|~" = [33, 35, 36, 38, 43, 45, 46, 94, 95, 96, 124, 126] := by decide +kernel

theorem attr_ne {c : Nat} (h : IsAttrChar c) : 33 ≤ c ∧ c ≤ 126 ∧ c ≠ 37 ∧ c ≠ 39 ∧ c ≠ 44 ∧ c ≠ 59 := by
  unfold IsAttrChar IsLetter IsDigit at h
  rw [attr_signs] at h
  simp only [List.mem_cons, List.not_mem_nil, or_false] at h
  omega

theorem unquote_plain {c : Nat} (h : c ≠ 37) (w : Str) : unquote (c :: w) = c :: unquote w := by
  rw [unquote]
  exact fun _ _ _ e => absurd e h

theorem unquote_text {l : List XChar} (h : ∀ c ∈ l, c.Ok) : unquote (l.flatMap XChar.text) = l.map XChar.byte := by
  induction l with
  | nil => rfl
  | cons x l ih =>
    obtain ⟨h1, h2⟩ := List.forall_mem_cons.mp h
    cases x with
    | plain c =>
      rw [List.flatMap_cons, List.map_cons, ← ih h2]
      exact unquote_plain (attr_ne h1).2.2.1 _
    | percent a b =>
      rw [List.flatMap_cons, List.map_cons, ← ih h2]
      show unquote (37 :: a :: b :: _) = _
      rw [unquote, hexDigitOf_eq h1.1, hexDigitOf_eq h1.2]
      rfl

theorem encoded_xchars (w : Str) : Encoded IsAttrChar w ↔ ∃ l : List XChar, (∀ c ∈ l, c.Ok) ∧ w = l.flatMap XChar.text := by
  constructor
  · intro h
    induction h with
    | nil => exact ⟨[], nofun, rfl⟩
    | @char c w h _ ih =>
      obtain ⟨l, h1, rfl⟩ := ih
      exact ⟨.plain c :: l, List.forall_mem_cons.mpr ⟨h, h1⟩, rfl⟩
    | @percent a b w ha hb _ ih =>
      obtain ⟨l, h1, rfl⟩ := ih
      exact ⟨.percent a b :: l, List.forall_mem_cons.mpr ⟨⟨ha, hb⟩, h1⟩, rfl⟩
  · rintro ⟨l, h, rfl⟩
    induction l with
    | nil => exact .nil
    | cons x l ih =>
      obtain ⟨h1, h2⟩ := List.forall_mem_cons.mp h
      cases x with
      | plain c => exact .char h1 (ih h2)
      | percent a b => exact .percent h1.1 h1.2 (ih h2)

end Httpolice.Lemmas
