import Verif.Lemmas.Verbatim
import Verif.Lemmas.Challenges
import Verif.Model.Rfc3986
import Verif.Spec.Uri

/-!
# Percent-encoding and paths
-/

namespace Httpolice.Lemmas

open Httpolice.Model Httpolice.Spec

/-! ## Characters -/

theorem alpha_iff (c : Nat) : alphaBits c = true ↔ IsLetter c := by
  simp only [alphaBits, IsLetter, Bool.or_eq_true, decide_eq_true_eq]

theorem digitBits_iff (c : Nat) : digitBits c = true ↔ IsDigit c := by
  simp only [digitBits, IsDigit, decide_eq_true_eq]

theorem charBits_letter {k : Nat} (hk : 65 ≤ k ∧ k ≤ 90) (c : Nat) : charBits k false c = true ↔ c = k ∨ c = k + 32 := by
  have h1 : litLower k = k + 32 := if_pos hk
  have h2 : litUpper k = k := if_neg fun h => by omega
  show (decide (litLower k ≤ c ∧ c ≤ litLower k) || decide (litUpper k ≤ c ∧ c ≤ litUpper k)) = true ↔ _
  rw [h1, h2, Bool.or_eq_true, decide_eq_true_eq, decide_eq_true_eq]
  omega

theorem hex_iff (c : Nat) : hexBits c = true ↔ IsHexDigit c := by
  unfold hexBits IsHexDigit
  rw [Bool.or_eq_true, Bool.or_eq_true, Bool.or_eq_true, Bool.or_eq_true, Bool.or_eq_true, Bool.or_eq_true,
    charBits_letter (by decide), charBits_letter (by decide), charBits_letter (by decide), charBits_letter (by decide),
    charBits_letter (by decide), charBits_letter (by decide), digitBits_iff]
  unfold IsDigit
  omega

theorem subDelim_signs : str "!$&'()*+,;=" = [33, 36, 38, 39, 40, 41, 42, 43, 44, 59, 61] := by decide +kernel

theorem subDelim_iff (c : Nat) : subDelimBits c = true ↔ SubDelim c := by
  unfold subDelimBits SubDelim
  rw [Bool.or_eq_true, Bool.or_eq_true, Bool.or_eq_true, Bool.or_eq_true, Bool.or_eq_true, Bool.or_eq_true, Bool.or_eq_true,
    Bool.or_eq_true, Bool.or_eq_true, Bool.or_eq_true,
    charBits_sign (by decide), charBits_sign (by decide), charBits_sign (by decide), charBits_sign (by decide),
    charBits_sign (by decide), charBits_sign (by decide), charBits_sign (by decide), charBits_sign (by decide),
    charBits_sign (by decide), charBits_sign (by decide), charBits_sign (by decide), subDelim_signs]
  simp only [List.mem_cons, List.not_mem_nil, or_false, or_assoc]

theorem unreserved_signs : str "-._~" = [45, 46, 95, 126] := by decide +kernel

theorem unreserved_iff (c : Nat) : unreservedBits c = true ↔ Unreserved c := by
  unfold unreservedBits Unreserved
  rw [Bool.or_eq_true, Bool.or_eq_true, Bool.or_eq_true, Bool.or_eq_true, Bool.or_eq_true,
    charBits_sign (by decide), charBits_sign (by decide), charBits_sign (by decide), charBits_sign (by decide), alpha_iff,
    digitBits_iff, unreserved_signs]
  simp only [List.mem_cons, List.not_mem_nil, or_false, or_assoc]

theorem pchar_iff (c : Nat) : pcharBits c = true ↔ PathChar c := by
  unfold pcharBits PathChar
  rw [Bool.or_eq_true, Bool.or_eq_true, Bool.or_eq_true, charBits_sign (by decide), charBits_sign (by decide), unreserved_iff,
    subDelim_iff]
  simp only [or_assoc]

theorem noColon_iff (c : Nat) : noColonBits c = true ↔ Unreserved c ∨ SubDelim c ∨ c = 64 := by
  unfold noColonBits
  rw [Bool.or_eq_true, Bool.or_eq_true, charBits_sign (by decide), unreserved_iff, subDelim_iff]
  simp only [or_assoc]

theorem userinfo_iff (c : Nat) : userinfoBits c = true ↔ Unreserved c ∨ SubDelim c ∨ c = 58 := by
  unfold userinfoBits
  rw [Bool.or_eq_true, Bool.or_eq_true, charBits_sign (by decide), unreserved_iff, subDelim_iff]
  simp only [or_assoc]

theorem regName_iff (c : Nat) : regNameBits c = true ↔ Unreserved c ∨ SubDelim c := by
  unfold regNameBits
  rw [Bool.or_eq_true, unreserved_iff, subDelim_iff]

theorem scheme_signs : str "+-." = [43, 45, 46] := by decide +kernel

theorem scheme_iff (c : Nat) : schemeBits c = true ↔ IsLetter c ∨ IsDigit c ∨ c ∈ str "+-." := by
  unfold schemeBits
  rw [Bool.or_eq_true, Bool.or_eq_true, Bool.or_eq_true, Bool.or_eq_true, charBits_sign (by decide), charBits_sign (by decide),
    charBits_sign (by decide), alpha_iff, digitBits_iff, scheme_signs]
  simp only [List.mem_cons, List.not_mem_nil, or_false, or_assoc]

theorem subDelim_not {c : Nat} (h : SubDelim c) : c ≠ 45 ∧ c ≠ 46 ∧ c ≠ 47 ∧ c ≠ 58 ∧ c ≠ 63 ∧ c ≠ 64 ∧ c ≠ 37 ∧ c ≠ 35 ∧ c ≠ 91 := by
  unfold SubDelim at h
  rw [subDelim_signs] at h
  simp only [List.mem_cons, List.not_mem_nil, or_false] at h
  omega

theorem unreserved_not {c : Nat} (h : Unreserved c) : c ≠ 47 ∧ c ≠ 58 ∧ c ≠ 63 ∧ c ≠ 64 ∧ c ≠ 37 ∧ c ≠ 35 ∧ c ≠ 91 := by
  unfold Unreserved IsLetter IsDigit at h
  rw [unreserved_signs] at h
  simp only [List.mem_cons, List.not_mem_nil, or_false] at h
  omega

theorem hexDigit_not {c : Nat} (h : IsHexDigit c) : c ≠ 47 ∧ c ≠ 58 ∧ c ≠ 63 ∧ c ≠ 64 ∧ c ≠ 37 ∧ c ≠ 35 ∧ c ≠ 91 := by
  unfold IsHexDigit IsDigit at h
  omega

theorem pathChar_not {c : Nat} (h : PathChar c) : c ≠ 47 ∧ c ≠ 63 ∧ c ≠ 37 ∧ c ≠ 35 ∧ c ≠ 91 := by
  rcases h with h | h | rfl | rfl
  · have := unreserved_not h; omega
  · have := subDelim_not h; omega
  · decide
  · decide

/-! ## Literals -/

theorem sameWord_refl (w : Str) : SameWord w w := by
  induction w with
  | nil => exact .nil
  | cons c w ih => exact .cons (.inl rfl) ih

theorem sameWord_plain {s : Str} (h : s.all (fun c => !alphaBits c) = true) (w : Str) : SameWord w s ↔ w = s := by
  constructor
  · intro hw
    induction hw with
    | nil => rfl
    | cons h1 _ ih =>
      rw [List.all_cons, Bool.and_eq_true] at h
      rw [ih h.2]
      have hb := h.1
      simp only [alphaBits, Bool.not_eq_true', Bool.or_eq_false_iff, decide_eq_false_iff_not] at hb
      rcases h1 with rfl | h1 | h1
      · rfl
      · omega
      · omega
  · rintro rfl
    exact sameWord_refl w

theorem verb_plain {s : Str} (h : s.all (fun c => !alphaBits c) = true) : litD s false = verbD (fun w => w = s) := by
  rw [verb_lit]
  exact verb_congr (sameWord_plain h)

theorem lit_percent : litD (str "%") false = verbD (fun w => w = [37]) := verb_plain (s := [37]) (by decide +kernel)
theorem lit_1 : litD (str "1") false = verbD (fun w => w = [49]) := verb_plain (s := [49]) (by decide +kernel)
theorem lit_2 : litD (str "2") false = verbD (fun w => w = [50]) := verb_plain (s := [50]) (by decide +kernel)
theorem lit_25 : litD (str "25") false = verbD (fun w => w = [50, 53]) := verb_plain (s := [50, 53]) (by decide +kernel)
theorem lit_dot : litD (str ".") false = verbD (fun w => w = [46]) := verb_plain (s := [46]) (by decide +kernel)
theorem lit_colon : litD (str ":") false = verbD (fun w => w = [58]) := verb_plain (s := [58]) (by decide +kernel)
theorem lit_gap : litD (str "::") false = verbD (fun w => w = [58, 58]) := verb_plain (s := [58, 58]) (by decide +kernel)
theorem lit_zone : litD (str "%25") false = verbD (fun w => w = [37, 50, 53]) := verb_plain (s := [37, 50, 53]) (by decide +kernel)
theorem lit_open : litD (str "[") false = verbD (fun w => w = [91]) := verb_plain (s := [91]) (by decide +kernel)
theorem lit_close : litD (str "]") false = verbD (fun w => w = [93]) := verb_plain (s := [93]) (by decide +kernel)
theorem lit_at : litD (str "@") false = verbD (fun w => w = [64]) := verb_plain (s := [64]) (by decide +kernel)
theorem lit_slash : litD (str "/") false = verbD (fun w => w = [47]) := verb_plain (s := [47]) (by decide +kernel)
theorem lit_slashes : litD (str "//") false = verbD (fun w => w = [47, 47]) := verb_plain (s := [47, 47]) (by decide +kernel)
theorem lit_mark : litD (str "?") false = verbD (fun w => w = [63]) := verb_plain (s := [63]) (by decide +kernel)
theorem lit_hash : litD (str "#") false = verbD (fun w => w = [35]) := verb_plain (s := [35]) (by decide +kernel)
theorem lit_star : litD (str "*") false = verbD (fun w => w = [42]) := verb_plain (s := [42]) (by decide +kernel)

/-! ## Percent-encoding -/

/-- `pct-encoded` -/
def percentL : Str → Prop := fun w => ∃ a b, IsHexDigit a ∧ IsHexDigit b ∧ w = [37, a, b]

/-- Such a character, or a percent sign with two digits. -/
def unitL (P : Nat → Prop) : Str → Prop := fun w => (∃ c, P c ∧ w = [c]) ∨ percentL w

variable {P Q : Nat → Prop} {u v w : Str}

theorem encoded_append (hu : Encoded P u) (hv : Encoded P v) : Encoded P (u ++ v) := by
  induction hu with
  | nil => exact hv
  | char h _ ih => exact .char h ih
  | percent h1 h2 _ ih => exact .percent h1 h2 ih

theorem encoded_mono (h : ∀ c, P c → Q c) (hw : Encoded P w) : Encoded Q w := by
  induction hw with
  | nil => exact .nil
  | char h' _ ih => exact .char (h _ h') ih
  | percent h1 h2 _ ih => exact .percent h1 h2 ih

theorem encoded_mem (hw : Encoded P w) {c : Nat} (hc : c ∈ w) : P c ∨ c = 37 ∨ IsHexDigit c := by
  induction hw with
  | nil => cases hc
  | char h _ ih =>
    rcases List.mem_cons.mp hc with rfl | hc
    · exact .inl h
    · exact ih hc
  | percent h1 h2 _ ih =>
    rcases List.mem_cons.mp hc with rfl | hc
    · exact .inr (.inl rfl)
    rcases List.mem_cons.mp hc with rfl | hc
    · exact .inr (.inr h1)
    rcases List.mem_cons.mp hc with rfl | hc
    · exact .inr (.inr h2)
    · exact ih hc

theorem encoded_unit (h : unitL P u) : Encoded P u := by
  rcases h with ⟨c, h, rfl⟩ | ⟨a, b, h1, h2, rfl⟩
  · exact .char h .nil
  · exact .percent h1 h2 .nil

theorem unit_ne (h : unitL P u) : u ≠ [] := by
  rcases h with ⟨c, h, rfl⟩ | ⟨a, b, h1, h2, rfl⟩ <;> nofun

theorem encoded_iff (P : Nat → Prop) (w : Str) : timesL (unitL P) 0 none w ↔ Encoded P w := by
  constructor
  · rintro ⟨ws, h, hl, rfl⟩
    clear hl
    induction ws with
    | nil => exact .nil
    | cons u ws ih =>
      simp only [List.mem_cons, forall_eq_or_imp] at h
      exact encoded_append (encoded_unit h.1) (ih h.2)
  · intro h
    induction h with
    | nil => exact ⟨[], nofun, ⟨Nat.le_refl _, nofun⟩, rfl⟩
    | @char c w h _ ih =>
      obtain ⟨ws, h1, _, rfl⟩ := ih
      exact ⟨[c] :: ws, by simpa using ⟨.inl ⟨c, h, rfl⟩, h1⟩, ⟨Nat.zero_le _, nofun⟩, rfl⟩
    | @percent a b w h h' _ ih =>
      obtain ⟨ws, h1, _, rfl⟩ := ih
      exact ⟨[37, a, b] :: ws, by simpa using ⟨.inr ⟨a, b, h, h', rfl⟩, h1⟩, ⟨Nat.zero_le _, nofun⟩, rfl⟩

/-- Once or more. -/
theorem times_one {L : Str → Prop} (hL : ∀ w, L w → w ≠ []) (w : Str) :
    timesL L 1 none w ↔ w ≠ [] ∧ timesL L 0 none w := by
  constructor
  · rintro ⟨ws, h1, ⟨h2, _⟩, rfl⟩
    refine ⟨?_, ws, h1, ⟨Nat.zero_le _, nofun⟩, rfl⟩
    cases ws with
    | nil => cases h2
    | cons u ws =>
      intro e
      exact hL u (h1 u List.mem_cons_self) (List.append_eq_nil_iff.mp e).1
  · rintro ⟨h, ws, h1, _, rfl⟩
    refine ⟨ws, h1, ⟨?_, nofun⟩, rfl⟩
    cases ws with
    | nil => exact absurd rfl h
    | cons u ws => exact Nat.succ_le_succ (Nat.zero_le _)

theorem encoded_iff1 (P : Nat → Prop) (w : Str) : timesL (unitL P) 1 none w ↔ w ≠ [] ∧ Encoded P w := by
  rw [times_one fun _ => unit_ne, encoded_iff]

theorem encoded_congr (h : ∀ c, P c ↔ Q c) (w : Str) : Encoded P w ↔ Encoded Q w :=
  ⟨encoded_mono fun c => (h c).mp, encoded_mono fun c => (h c).mpr⟩

theorem encoded_tail {c : Nat} (hc : c ≠ 37) (h : Encoded P (c :: w)) : P c ∧ Encoded P w := by
  cases h with
  | char h t => exact ⟨h, t⟩
  | percent _ _ _ => exact absurd rfl hc

/-- Not some character. -/
theorem encoded_without {k : Nat} (hk : k ≠ 37 ∧ ¬ IsHexDigit k) (w : Str) :
    Encoded P w ∧ k ∉ w ↔ Encoded (fun c => P c ∧ c ≠ k) w := by
  constructor
  · rintro ⟨h, hn⟩
    induction h with
    | nil => exact .nil
    | char h _ ih =>
      simp only [List.mem_cons, not_or] at hn
      exact .char ⟨h, fun e => hn.1 e.symm⟩ (ih hn.2)
    | percent h1 h2 _ ih =>
      simp only [List.mem_cons, not_or] at hn
      exact .percent h1 h2 (ih hn.2.2.2)
  · intro h
    refine ⟨encoded_mono (fun _ hc => hc.1) h, fun hm => ?_⟩
    rcases encoded_mem h hm with h' | h' | h'
    · exact h'.2 rfl
    · exact hk.1 h'
    · exact hk.2 h'

/-! ## Paths -/

/-- `*( "/" segment )` -/
def slashesL : Str → Prop := timesL (catL (fun w => w = [47]) (Encoded PathChar)) 0 none

theorem segment_path (h : Encoded PathChar w) : IsPath w := encoded_mono (fun _ => .inl) h

theorem segment_noSlash (h : Encoded PathChar w) : 47 ∉ w := fun hm => by
  rcases encoded_mem h hm with h | h | h
  · exact (pathChar_not h).1 rfl
  · cases h
  · exact (hexDigit_not h).1 rfl

theorem path_split (h : IsPath w) : ∃ s r, Encoded PathChar s ∧ (IsPath r ∧ (r = [] ∨ r.head? = some 47)) ∧ w = s ++ r := by
  unfold IsPath at h
  induction h with
  | nil => exact ⟨[], [], .nil, ⟨.nil, .inl rfl⟩, rfl⟩
  | @char c w h t ih =>
    rcases h with h | rfl
    · obtain ⟨s, r, h1, h2, rfl⟩ := ih
      exact ⟨c :: s, r, .char h h1, h2, rfl⟩
    · exact ⟨[], _, .nil, ⟨.char (.inr rfl) t, .inr rfl⟩, rfl⟩
  | @percent a b w ha hb t ih =>
    obtain ⟨s, r, h1, h2, rfl⟩ := ih
    exact ⟨37 :: a :: b :: s, r, .percent ha hb h1, h2, rfl⟩

theorem slashes_path (h : slashesL w) : IsPath w ∧ (w = [] ∨ w.head? = some 47) := by
  obtain ⟨ws, h1, hl, rfl⟩ := h
  clear hl
  induction ws with
  | nil => exact ⟨.nil, .inl rfl⟩
  | cons u ws ih =>
    simp only [List.mem_cons, forall_eq_or_imp] at h1
    obtain ⟨⟨_, s, rfl, h2, rfl⟩, h3⟩ := h1
    exact ⟨.char (.inr rfl) (encoded_append (segment_path h2) (ih h3).1), .inr rfl⟩

theorem path_slashes (n : Nat) : ∀ w : Str, w.length ≤ n → IsPath w → (w = [] ∨ w.head? = some 47) → slashesL w := by
  induction n with
  | zero =>
    intro w hn _ _
    obtain rfl := List.length_eq_zero_iff.mp (Nat.le_zero.mp hn)
    exact ⟨[], nofun, ⟨Nat.le_refl _, nofun⟩, rfl⟩
  | succ n ih =>
    intro w hn h hh
    cases w with
    | nil => exact ⟨[], nofun, ⟨Nat.le_refl _, nofun⟩, rfl⟩
    | cons c w =>
      rcases hh with hh | hh
      · cases hh
      cases hh
      obtain ⟨s, r, h1, h2, rfl⟩ := path_split (encoded_tail (by decide) h).2
      simp only [List.length_cons, List.length_append] at hn
      obtain ⟨ws, k1, _, rfl⟩ := ih r (by omega) h2.1 h2.2
      refine ⟨(47 :: s) :: ws, ?_, ⟨Nat.zero_le _, nofun⟩, rfl⟩
      simpa using ⟨⟨[47], s, rfl, h1, rfl⟩, k1⟩

theorem slashes_iff (w : Str) : slashesL w ↔ IsPath w ∧ (w = [] ∨ w.head? = some 47) :=
  ⟨slashes_path, fun h => path_slashes _ w (Nat.le_refl _) h.1 h.2⟩

theorem slashes1_iff (w : Str) : timesL (catL (fun w => w = [47]) (Encoded PathChar)) 1 none w ↔
    IsPath w ∧ w.head? = some 47 := by
  rw [times_one (by rintro _ ⟨_, s, rfl, _, rfl⟩; nofun)]
  constructor
  · rintro ⟨h1, h2⟩
    obtain ⟨h3, h4⟩ := slashes_path h2
    exact ⟨h3, h4.resolve_left h1⟩
  · rintro ⟨h1, h2⟩
    exact ⟨(by rintro rfl; cases h2), (slashes_iff w).mpr ⟨h1, .inr h2⟩⟩

theorem firstSegment_append {s r : Str} (hs : 47 ∉ s) (hr : r = [] ∨ r.head? = some 47) : firstSegment (s ++ r) = s := by
  unfold firstSegment
  rw [List.takeWhile_append_of_pos (fun c hc => decide_eq_true (show c ≠ 47 by rintro rfl; exact hs hc))]
  cases r with
  | nil => simp
  | cons c r =>
    rcases hr with hr | hr
    · cases hr
    · cases hr
      simp

/-- `segment-nz *( "/" segment )` -/
theorem rootless_iff (w : Str) : catL (fun w => w ≠ [] ∧ Encoded PathChar w) slashesL w ↔
    IsPath w ∧ w ≠ [] ∧ w.head? ≠ some 47 := by
  constructor
  · rintro ⟨s, r, ⟨h1, h2⟩, h3, rfl⟩
    refine ⟨encoded_append (segment_path h2) (slashes_path h3).1, fun e => h1 (List.append_eq_nil_iff.mp e).1, ?_⟩
    cases s with
    | nil => exact absurd rfl h1
    | cons c s =>
      intro e
      cases e
      exact segment_noSlash h2 List.mem_cons_self
  · rintro ⟨h1, h2, h3⟩
    obtain ⟨s, r, k1, k2, rfl⟩ := path_split h1
    refine ⟨s, r, ⟨?_, k1⟩, (slashes_iff r).mpr k2, rfl⟩
    rintro rfl
    rcases k2.2 with rfl | e
    · exact h2 rfl
    · exact h3 e

/-- `segment-nz-nc *( "/" segment )` -/
theorem noscheme_iff (w : Str) : catL (fun w => w ≠ [] ∧ Encoded (fun c => Unreserved c ∨ SubDelim c ∨ c = 64) w) slashesL w ↔
    IsPath w ∧ w ≠ [] ∧ w.head? ≠ some 47 ∧ 58 ∉ firstSegment w := by
  have hP : ∀ c, (Unreserved c ∨ SubDelim c ∨ c = 64) ↔ PathChar c ∧ c ≠ 58 := by
    intro c
    constructor
    · rintro (h | h | rfl)
      · exact ⟨.inl h, (unreserved_not h).2.1⟩
      · exact ⟨.inr (.inl h), (subDelim_not h).2.2.2.1⟩
      · exact ⟨.inr (.inr (.inr rfl)), by decide⟩
    · rintro ⟨h | h | h | h, hn⟩
      · exact .inl h
      · exact .inr (.inl h)
      · exact absurd h hn
      · exact .inr (.inr h)
  have hE : ∀ s, Encoded (fun c => Unreserved c ∨ SubDelim c ∨ c = 64) s ↔ Encoded PathChar s ∧ 58 ∉ s := fun s => by
    rw [encoded_without ⟨by decide, fun h => (hexDigit_not h).2.1 rfl⟩]
    exact encoded_congr hP s
  constructor
  · rintro ⟨s, r, ⟨h1, h2⟩, h3, rfl⟩
    obtain ⟨h4, h5⟩ := (hE s).mp h2
    obtain ⟨k1, k2, k3⟩ := (rootless_iff (s ++ r)).mp ⟨s, r, ⟨h1, h4⟩, h3, rfl⟩
    refine ⟨k1, k2, k3, ?_⟩
    rw [firstSegment_append (segment_noSlash h4) (slashes_path h3).2]
    exact h5
  · rintro ⟨h1, h2, h3, h4⟩
    obtain ⟨s, r, ⟨k1, k2⟩, k3, rfl⟩ := (rootless_iff w).mpr ⟨h1, h2, h3⟩
    rw [firstSegment_append (segment_noSlash k2) (slashes_path k3).2] at h4
    exact ⟨s, r, ⟨k1, (hE s).mpr ⟨k2, h4⟩⟩, k3, rfl⟩

theorem twoSlashes (w : Str) : str "//" <+: w ↔ ∃ v, w = 47 :: 47 :: v :=
  ⟨fun ⟨v, h⟩ => ⟨v, h.symm⟩, fun ⟨v, h⟩ => ⟨v, h.symm⟩⟩

/-- `"/" [ segment-nz *( "/" segment ) ]` -/
theorem absolute_iff (w : Str) : catL (fun w => w = [47]) (optL (catL (fun w => w ≠ [] ∧ Encoded PathChar w) slashesL)) w ↔
    IsPath w ∧ w.head? = some 47 ∧ ¬ str "//" <+: w := by
  rw [twoSlashes]
  constructor
  · rintro ⟨_, v, rfl, h | rfl, rfl⟩
    · obtain ⟨h1, h2, h3⟩ := (rootless_iff v).mp h
      refine ⟨.char (.inr rfl) h1, rfl, ?_⟩
      rintro ⟨v, e⟩
      cases e
      exact h3 rfl
    · exact ⟨.char (.inr rfl) .nil, rfl, by rintro ⟨v, e⟩; cases e⟩
  · rintro ⟨h1, h2, h3⟩
    cases w with
    | nil => cases h2
    | cons c v =>
      cases h2
      refine ⟨[47], v, rfl, ?_, rfl⟩
      by_cases hv : v = []
      · exact .inr hv
      · refine .inl ((rootless_iff v).mpr ⟨(encoded_tail (by decide) h1).2, hv, fun e => h3 ?_⟩)
        cases v with
        | nil => cases e
        | cons d v => cases e; exact ⟨v, rfl⟩

end Httpolice.Lemmas
