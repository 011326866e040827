import Verif.Lemmas.Encoded

/-!
# IP addresses
-/

namespace Httpolice.Lemmas

open Httpolice.Model Httpolice.Spec

variable {u v w : Str}

theorem catL_assoc (A B C : Str → Prop) : catL (catL A B) C = catL A (catL B C) := by
  funext w
  refine propext ⟨?_, ?_⟩
  · rintro ⟨_, v, ⟨a, b, h1, h2, rfl⟩, h3, rfl⟩
    exact ⟨a, b ++ v, h1, ⟨b, v, h2, h3, rfl⟩, List.append_assoc ..⟩
  · rintro ⟨a, _, h1, ⟨b, v, h2, h3, rfl⟩, rfl⟩
    exact ⟨a ++ b, v, ⟨a, b, h1, h2, rfl⟩, h3, (List.append_assoc ..).symm⟩

/-! ## IPv4 -/

theorem numeral_grows (w : Str) (n : Nat) : n ≤ w.foldl (fun n c => 10 * n + (c - 48)) n := by
  induction w generalizing n with
  | nil => exact Nat.le_refl n
  | cons c w ih => exact Nat.le_trans (by omega) (ih (10 * n + (c - 48)))

/-- `octet_range` -/
abbrev rangeBits (min max : Nat) : Nat → Bool := fun c => decide (min ≤ c ∧ c ≤ max)

theorem byteNumber_iff (w : Str) : orL (orL (orL (orL (oneL digitBits) (catL (oneL (rangeBits 0x31 0x39)) (oneL digitBits)))
    (catL (catL (fun w => w = [49]) (oneL digitBits)) (oneL digitBits)))
    (catL (catL (fun w => w = [50]) (oneL (rangeBits 0x30 0x34))) (oneL digitBits)))
    (catL (fun w => w = [50, 53]) (oneL (rangeBits 0x30 0x35))) w ↔ IsByteNumber w := by
  constructor
  · rintro ((((⟨c, h, rfl⟩ | ⟨_, _, ⟨a, h1, rfl⟩, ⟨b, h2, rfl⟩, rfl⟩) |
      ⟨_, _, ⟨_, _, rfl, ⟨a, h1, rfl⟩, rfl⟩, ⟨b, h2, rfl⟩, rfl⟩) | ⟨_, _, ⟨_, _, rfl, ⟨a, h1, rfl⟩, rfl⟩, ⟨b, h2, rfl⟩, rfl⟩) |
      ⟨_, _, rfl, ⟨b, h2, rfl⟩, rfl⟩)
    · simp only [digitBits, decide_eq_true_eq] at h
      refine ⟨⟨nofun, by simpa using h⟩, ?_, .inl rfl⟩
      simp only [numeral, List.foldl]
      omega
    · simp only [rangeBits, digitBits, decide_eq_true_eq] at h1 h2
      refine ⟨⟨nofun, by simp; omega⟩, ?_, .inr (by simp; omega)⟩
      simp only [numeral, List.foldl, List.cons_append, List.nil_append]
      omega
    · simp only [digitBits, decide_eq_true_eq] at h1 h2
      refine ⟨⟨nofun, by simp; omega⟩, ?_, .inr (by simp)⟩
      simp only [numeral, List.foldl, List.cons_append, List.nil_append]
      omega
    · simp only [rangeBits, digitBits, decide_eq_true_eq] at h1 h2
      refine ⟨⟨nofun, by simp; omega⟩, ?_, .inr (by simp)⟩
      simp only [numeral, List.foldl, List.cons_append, List.nil_append]
      omega
    · simp only [rangeBits, decide_eq_true_eq] at h2
      refine ⟨⟨nofun, by simp; omega⟩, ?_, .inr (by simp)⟩
      simp only [numeral, List.foldl, List.cons_append, List.nil_append]
      omega
  · rintro ⟨⟨h1, h2⟩, h3, h4⟩
    have dig : ∀ c, 48 ≤ c ∧ c ≤ 57 → oneL digitBits [c] := fun c h => ⟨c, decide_eq_true h, rfl⟩
    cases w with
    | nil => exact absurd rfl h1
    | cons a w =>
    have ha := h2 a List.mem_cons_self
    cases w with
    | nil => exact .inl (.inl (.inl (.inl (dig a ha))))
    | cons b w =>
    have hb := h2 b (by simp)
    have h0 : a ≠ 48 := by
      rcases h4 with h4 | h4
      · simp at h4
      · simpa using h4
    cases w with
    | nil => exact .inl (.inl (.inl (.inr ⟨[a], [b], ⟨a, decide_eq_true (by omega), rfl⟩, dig b hb, rfl⟩)))
    | cons c w =>
    have hc := h2 c (by simp)
    cases w with
    | cons d w =>
      have := numeral_grows w (10 * (10 * (10 * (10 * 0 + (a - 48)) + (b - 48)) + (c - 48)) + (d - 48))
      have h5 : _ ≤ numeral (a :: b :: c :: d :: w) := this
      omega
    | nil =>
    simp only [numeral, List.foldl] at h3
    rcases (by omega : a = 49 ∨ (a = 50 ∧ b ≤ 52) ∨ (a = 50 ∧ b = 53)) with rfl | ⟨rfl, h⟩ | ⟨rfl, rfl⟩
    · exact .inl (.inl (.inr ⟨[49, b], [c], ⟨[49], [b], rfl, dig b hb, rfl⟩, dig c hc, rfl⟩))
    · exact .inl (.inr ⟨[50, b], [c], ⟨[50], [b], rfl, ⟨b, decide_eq_true (by omega), rfl⟩, rfl⟩, dig c hc, rfl⟩)
    · exact .inr ⟨[50, 53], [c], rfl, ⟨c, decide_eq_true (by omega), rfl⟩, rfl⟩

theorem ipv4_iff (w : Str) : catL (catL (catL (catL (catL (catL IsByteNumber (fun w => w = [46])) IsByteNumber) (fun w => w = [46]))
    IsByteNumber) (fun w => w = [46])) IsByteNumber w ↔ IsIPv4 w := by
  constructor
  · rintro ⟨_, d, ⟨_, _, ⟨_, c, ⟨_, _, ⟨_, b, ⟨a, _, h1, rfl, rfl⟩, h2, rfl⟩, rfl, rfl⟩, h3, rfl⟩, rfl, rfl⟩, h4, rfl⟩
    exact ⟨a, b, c, d, h1, h2, h3, h4, rfl⟩
  · rintro ⟨a, b, c, d, h1, h2, h3, h4, rfl⟩
    exact ⟨_, d, ⟨_, _, ⟨_, c, ⟨_, _, ⟨_, b, ⟨a, _, h1, rfl, rfl⟩, h2, rfl⟩, rfl, rfl⟩, h3, rfl⟩, rfl, rfl⟩, h4, rfl⟩

/-! ## IPv6 -/

theorem piece_iff (w : Str) : timesL (oneL hexBits) 1 (some 4) w ↔ IsPiece w := by
  have key : ∀ (ws : List Str), (∀ u ∈ ws, oneL hexBits u) → ws.flatten.length = ws.length ∧ ∀ c ∈ ws.flatten, IsHexDigit c := by
    intro ws h
    induction ws with
    | nil => exact ⟨rfl, nofun⟩
    | cons u ws ih =>
      simp only [List.mem_cons, forall_eq_or_imp] at h
      obtain ⟨⟨c, hc, rfl⟩, h2⟩ := h
      obtain ⟨k1, k2⟩ := ih h2
      refine ⟨by simp [← k1], ?_⟩
      intro d hd
      rcases List.mem_cons.mp hd with rfl | hd
      · exact (hex_iff d).mp hc
      · exact k2 d hd
  constructor
  · rintro ⟨ws, h1, ⟨h2, h3⟩, rfl⟩
    obtain ⟨k1, k2⟩ := key ws h1
    exact ⟨k1 ▸ h2, k1 ▸ h3 4 rfl, k2⟩
  · rintro ⟨h1, h2, h3⟩
    refine ⟨w.map fun c => [c], ?_, ?_, ?_⟩
    · intro u hu
      obtain ⟨c, hc, rfl⟩ := List.mem_map.mp hu
      exact ⟨c, (hex_iff c).mpr (h3 c hc), rfl⟩
    · rw [List.length_map]
      exact ⟨h1, fun k e => by cases e; exact h2⟩
    · clear h1 h2 h3
      induction w with
      | nil => rfl
      | cons c w ih => rw [List.map_cons, List.flatten_cons, ← ih]; rfl

/-- `h16 ":"` -/
abbrev pieceColonL : Str → Prop := catL IsPiece (fun w => w = [58])

theorem run_iff (min max : Nat) (w : Str) : timesL pieceColonL min (some max) w ↔
    ∃ ps : List Str, (∀ u ∈ ps, IsPiece u) ∧ (min ≤ ps.length ∧ ps.length ≤ max) ∧ w = ps.flatMap (fun u => u ++ [58]) := by
  constructor
  · rintro ⟨ws, h1, ⟨h2, h3⟩, rfl⟩
    have : ∃ ps : List Str, (∀ u ∈ ps, IsPiece u) ∧ ps.length = ws.length ∧ ws.flatten = ps.flatMap (fun u => u ++ [58]) := by
      clear h2 h3
      induction ws with
      | nil => exact ⟨[], nofun, rfl, rfl⟩
      | cons x ws ih =>
        simp only [List.mem_cons, forall_eq_or_imp] at h1
        obtain ⟨⟨p, _, hp, rfl, rfl⟩, h2⟩ := h1
        obtain ⟨ps, k1, k2, k3⟩ := ih h2
        exact ⟨p :: ps, by simpa using ⟨hp, k1⟩, by simp [k2], by simp [k3]⟩
    obtain ⟨ps, k1, k2, k3⟩ := this
    exact ⟨ps, k1, by rw [k2]; exact ⟨h2, h3 _ rfl⟩, k3⟩
  · rintro ⟨ps, h1, h2, rfl⟩
    refine ⟨ps.map fun u => u ++ [58], ?_, ?_, ?_⟩
    · intro u hu
      obtain ⟨p, hp, rfl⟩ := List.mem_map.mp hu
      exact ⟨p, [58], h1 p hp, rfl, rfl⟩
    · rw [List.length_map]
      exact ⟨h2.1, fun k e => by cases e; exact h2.2⟩
    · rw [List.flatMap_def]

theorem colons_append (ps : List Str) {l : List Str} (hl : l ≠ []) :
    colons (ps ++ l) = ps.flatMap (fun u => u ++ [58]) ++ colons l := by
  induction ps with
  | nil => rfl
  | cons p ps ih =>
    have : ∃ x xs, ps ++ l = x :: xs := by
      cases hx : ps ++ l with
      | nil => exact absurd (List.append_eq_nil_iff.mp hx).2 hl
      | cons x xs => exact ⟨x, xs, rfl⟩
    obtain ⟨x, xs, hx⟩ := this
    rw [List.cons_append, List.flatMap_cons, List.append_assoc, ← ih, hx]
    simp [colons]

/-- The texts of pieces that amount to `n`. -/
def countL (n : Nat) : Str → Prop := fun w => ∃ p : Pieces, p.Ok ∧ p.count = n ∧ w = p.text

theorem ls32_iff (w : Str) : orL (catL (catL IsPiece (fun w => w = [58])) IsPiece) IsIPv4 w ↔ countL 2 w := by
  constructor
  · rintro (⟨_, b, ⟨a, _, h1, rfl, rfl⟩, h2, rfl⟩ | h)
    · refine ⟨⟨[a, b], none⟩, ⟨by simpa using ⟨h1, h2⟩, nofun⟩, rfl, ?_⟩
      simp [Pieces.text, colons]
    · exact ⟨⟨[], some w⟩, ⟨nofun, fun _ e => by cases e; exact h⟩, rfl, rfl⟩
  · rintro ⟨⟨ps, _ | x⟩, ⟨h1, h2⟩, h3, rfl⟩
    · simp only [Pieces.count, Option.toList, List.length_nil] at h3
      obtain ⟨a, b, rfl⟩ : ∃ a b, ps = [a, b] := by
        match ps, h3 with
        | [a, b], _ => exact ⟨a, b, rfl⟩
      refine .inl ⟨a ++ [58], b, ⟨a, [58], h1 a (by simp), rfl, rfl⟩, h1 b (by simp), ?_⟩
      simp [Pieces.text, colons]
    · simp only [Pieces.count, Option.toList, List.length_cons, List.length_nil] at h3
      obtain rfl := List.length_eq_zero_iff.mp (by omega : ps.length = 0)
      exact .inr (h2 x rfl)

theorem tail_iff (n : Nat) (w : Str) : catL (timesL pieceColonL n (some n)) (countL 2) w ↔ countL (n + 2) w := by
  constructor
  · rintro ⟨_, _, h1, ⟨q, h2, h3, rfl⟩, rfl⟩
    obtain ⟨ps, h4, ⟨h5, h6⟩, rfl⟩ := (run_iff n n _).mp h1
    refine ⟨⟨ps ++ q.pieces, q.v4⟩, ⟨?_, h2.2⟩, ?_, ?_⟩
    · intro u hu
      rcases List.mem_append.mp hu with hu | hu
      · exact h4 u hu
      · exact h2.1 u hu
    · unfold Pieces.count at h3
      show (ps ++ q.pieces).length + 2 * q.v4.toList.length = n + 2
      rw [List.length_append]
      omega
    · have : q.pieces ++ q.v4.toList ≠ [] := by
        intro e
        obtain ⟨e1, e2⟩ := List.append_eq_nil_iff.mp e
        unfold Pieces.count at h3
        rw [e1, e2] at h3
        cases h3
      unfold Pieces.text
      rw [List.append_assoc, colons_append ps this]
  · rintro ⟨⟨ps, _ | x⟩, ⟨h1, h2⟩, h3, rfl⟩
    · simp only [Pieces.count, Option.toList, List.length_nil] at h3
      have hd : (ps.drop n).length = 2 := by rw [List.length_drop]; omega
      refine ⟨(ps.take n).flatMap (fun u => u ++ [58]), colons (ps.drop n), ?_, ⟨⟨ps.drop n, none⟩, ⟨?_, nofun⟩, ?_, ?_⟩, ?_⟩
      · refine (run_iff n n _).mpr ⟨ps.take n, fun u hu => h1 u (List.mem_of_mem_take hu), ?_, rfl⟩
        rw [List.length_take]
        omega
      · exact fun u hu => h1 u (List.mem_of_mem_drop hu)
      · simp [Pieces.count, hd]
      · simp [Pieces.text]
      · rw [← colons_append _ (by intro e; rw [e] at hd; cases hd), List.take_append_drop]
        simp [Pieces.text]
    · simp only [Pieces.count, Option.toList, List.length_cons, List.length_nil] at h3
      refine ⟨ps.flatMap (fun u => u ++ [58]), x, ?_, ⟨⟨[], some x⟩, ⟨nofun, h2⟩, rfl, rfl⟩, ?_⟩
      · exact (run_iff n n _).mpr ⟨ps, h1, by omega, rfl⟩
      · exact colons_append ps (by simp)

theorem tail1_iff (w : Str) : catL (catL IsPiece (fun w => w = [58])) (countL 2) w ↔ countL 3 w := by
  rw [← tail_iff 1]
  have : ∀ w, pieceColonL w ↔ timesL pieceColonL 1 (some 1) w := by
    intro w
    constructor
    · intro h
      exact ⟨[w], by simpa using h, ⟨Nat.le_refl _, fun k e => by cases e; exact Nat.le_refl _⟩, by simp⟩
    · rintro ⟨ws, h1, ⟨h2, h3⟩, rfl⟩
      obtain ⟨u, rfl⟩ := List.length_eq_one_iff.mp (Nat.le_antisymm (h3 1 rfl) h2)
      simpa using h1
  have e : pieceColonL = timesL pieceColonL 1 (some 1) := funext fun w => propext (this w)
  show catL pieceColonL (countL 2) w ↔ _
  rw [← e]

theorem count1_iff (w : Str) : IsPiece w ↔ countL 1 w := by
  constructor
  · intro h
    exact ⟨⟨[w], none⟩, ⟨by simpa using h, nofun⟩, rfl, rfl⟩
  · rintro ⟨⟨ps, _ | x⟩, ⟨h1, h2⟩, h3, rfl⟩
    · obtain ⟨u, rfl⟩ := List.length_eq_one_iff.mp (by simpa [Pieces.count] using h3)
      exact h1 u (by simp)
    · simp only [Pieces.count, Option.toList, List.length_cons, List.length_nil] at h3
      omega

theorem count0_iff (w : Str) : w = [] ↔ countL 0 w := by
  constructor
  · rintro rfl
    exact ⟨⟨[], none⟩, ⟨nofun, nofun⟩, rfl, rfl⟩
  · rintro ⟨⟨ps, _ | x⟩, ⟨h1, h2⟩, h3, rfl⟩
    · obtain rfl := List.length_eq_zero_iff.mp (by simpa [Pieces.count] using h3)
      rfl
    · simp only [Pieces.count, Option.toList, List.length_cons, List.length_nil] at h3
      omega

/-- Up to `n` pieces. -/
def frontL (n : Nat) : Str → Prop := fun w => ∃ ps : List Str, (∀ u ∈ ps, IsPiece u) ∧ ps.length ≤ n ∧ w = colons ps

theorem front0_iff (w : Str) : w = [] ↔ frontL 0 w := by
  constructor
  · rintro rfl
    exact ⟨[], nofun, Nat.le_refl _, rfl⟩
  · rintro ⟨ps, _, h, rfl⟩
    obtain rfl := List.length_eq_zero_iff.mp (Nat.le_zero.mp h)
    rfl

theorem front1_iff (w : Str) : optL IsPiece w ↔ frontL 1 w := by
  constructor
  · rintro (h | rfl)
    · exact ⟨[w], by simpa using h, Nat.le_refl _, rfl⟩
    · exact ⟨[], nofun, Nat.zero_le _, rfl⟩
  · rintro ⟨_ | ⟨p, _ | ⟨q, ps⟩⟩, h1, h2, rfl⟩
    · exact .inr rfl
    · exact .inl (h1 _ List.mem_cons_self)
    · simp at h2

theorem front_iff (n : Nat) (w : Str) : optL (catL (timesL pieceColonL 0 (some n)) IsPiece) w ↔ frontL (n + 1) w := by
  constructor
  · rintro (⟨_, p, h1, h2, rfl⟩ | rfl)
    · obtain ⟨ps, h3, ⟨_, h4⟩, rfl⟩ := (run_iff 0 n _).mp h1
      refine ⟨ps ++ [p], ?_, ?_, (colons_append ps (l := [p]) (by simp)).symm⟩
      · intro u hu
        rcases List.mem_append.mp hu with hu | hu
        · exact h3 u hu
        · exact List.mem_singleton.mp hu ▸ h2
      · rw [List.length_append]
        exact Nat.succ_le_succ h4
    · exact ⟨[], nofun, Nat.zero_le _, rfl⟩
  · rintro ⟨ps, h1, h2, rfl⟩
    rcases List.eq_nil_or_concat ps with rfl | ⟨qs, p, rfl⟩
    · exact .inr rfl
    · rw [List.concat_eq_append] at *
      rw [List.length_append] at h2
      refine .inl ⟨_, p, (run_iff 0 n _).mpr ⟨qs, fun u hu => h1 u (by simp [hu]), ⟨Nat.zero_le _, Nat.le_of_succ_le_succ h2⟩,
        rfl⟩, h1 p (by simp), ?_⟩
      exact colons_append qs (by simp)

/-- Up to `m` pieces, a gap, and `n` pieces. -/
def gapL (m n : Nat) : Str → Prop := catL (frontL m) (catL (fun w => w = [58, 58]) (countL n))

theorem ipv6_iff (w : Str) : orL (orL (orL (orL (orL (orL (orL (orL (countL 8) (gapL 0 7)) (gapL 1 6)) (gapL 2 5)) (gapL 3 4))
    (gapL 4 3)) (gapL 5 2)) (gapL 6 1)) (gapL 7 0) w ↔ IsIPv6 w := by
  have key : ∀ m n w, m + n ≤ 7 → gapL m n w → IsIPv6 w := by
    rintro m n _ h ⟨_, _, ⟨ps, h1, h2, rfl⟩, ⟨_, _, rfl, ⟨p, h3, h4, rfl⟩, rfl⟩, rfl⟩
    refine .inr ⟨ps, p, h1, h3, by omega, ?_⟩
    rw [List.append_assoc]
    rfl
  constructor
  · rintro ((((((((h | h) | h) | h) | h) | h) | h) | h) | h)
    · exact .inl h
    all_goals exact key _ _ _ (by decide) h
  · rintro (h | ⟨ps, p, h1, h2, h3, rfl⟩)
    · exact .inl (.inl (.inl (.inl (.inl (.inl (.inl (.inl h)))))))
    · have : ∀ m n, ps.length ≤ m → p.count = n → gapL m n (colons ps ++ str "::" ++ p.text) := by
        intro m n k1 k2
        exact ⟨_, _, ⟨ps, h1, k1, rfl⟩, ⟨_, _, rfl, ⟨p, h2, k2, rfl⟩, rfl⟩, List.append_assoc ..⟩
      rcases (by omega : p.count = 0 ∨ p.count = 1 ∨ p.count = 2 ∨ p.count = 3 ∨ p.count = 4 ∨ p.count = 5 ∨ p.count = 6 ∨
        p.count = 7) with e | e | e | e | e | e | e | e
      · exact .inr (this 7 0 (by omega) e)
      · exact .inl (.inr (this 6 1 (by omega) e))
      · exact .inl (.inl (.inr (this 5 2 (by omega) e)))
      · exact .inl (.inl (.inl (.inr (this 4 3 (by omega) e))))
      · exact .inl (.inl (.inl (.inl (.inr (this 3 4 (by omega) e)))))
      · exact .inl (.inl (.inl (.inl (.inl (.inr (this 2 5 (by omega) e))))))
      · exact .inl (.inl (.inl (.inl (.inl (.inl (.inr (this 1 6 (by omega) e)))))))
      · exact .inl (.inl (.inl (.inl (.inl (.inl (.inl (.inr (this 0 7 (by omega) e))))))))

end Httpolice.Lemmas
