import Verif.Model.Stream

/-!
# Lemmas about reading from a stream
-/

namespace Httpolice.Lemmas

open Httpolice.Model

/-- The stream after an outcome. -/
def state {α : Type} : Out α → SS
  | .ok _ s => s
  | .exc _ s => s

/-- How a stream may change: it only moves forward, never becomes sane again, and `eof` stays
accurate. -/
structure Step (s s' : SS) : Prop where
  adv : ∃ n, n ≤ s.rest.length ∧ s'.rest = s.rest.drop n ∧ s'.pos = s.pos + n
  sane : s'.sane = true → s.sane = true
  eof : s.eof = true → s'.eof = true
  inv : (s.eof = true → s.rest = []) → (s'.eof = true → s'.rest = [])
  touch : (s.eof = true ↔ s.rest = []) → (s'.eof = true ↔ s'.rest = [])

theorem Step.refl (s : SS) : Step s s :=
  ⟨⟨0, by simp, by simp, by simp⟩, id, id, id, id⟩

theorem Step.trans {a b c : SS} (h : Step a b) (h' : Step b c) : Step a c := by
  obtain ⟨n, hn, hr, hp⟩ := h.adv
  obtain ⟨m, hm, hr', hp'⟩ := h'.adv
  refine ⟨⟨n + m, ?_, ?_, by omega⟩, fun x => h.sane (h'.sane x), fun x => h'.eof (h.eof x),
    fun x => h'.inv (h.inv x), fun x => h'.touch (h.touch x)⟩
  · rw [hr, List.length_drop] at hm; omega
  · rw [hr', hr, List.drop_drop]

theorem Step.len {s s' : SS} (h : Step s s') :
    s'.rest.length + s'.pos = s.rest.length + s.pos := by
  obtain ⟨n, hn, hr, hp⟩ := h.adv
  rw [hr, List.length_drop]; omega

theorem Step.pos_le {s s' : SS} (h : Step s s') : s.pos ≤ s'.pos := by
  obtain ⟨n, _, _, hp⟩ := h.adv; omega

theorem advance_step (s : SS) (n : Nat) (h : n ≤ s.rest.length) : Step s (s.advance n) := by
  refine ⟨⟨n, h, rfl, rfl⟩, id, ?_, ?_, ?_⟩
  · intro he; simp [SS.advance, he]
  · intro hi he
    simp only [SS.advance, Bool.or_eq_true, List.isEmpty_iff] at he ⊢
    rcases he with he | he
    · rw [hi he]; simp
    · exact he
  · intro hi
    simp only [SS.advance, Bool.or_eq_true, List.isEmpty_iff]
    constructor
    · rintro (he | he)
      · rw [hi.1 he]; simp
      · exact he
    · exact Or.inr

/-- Any reading from the file makes `eof` accurate. -/
theorem advance_touched (s : SS) (n : Nat) (hi : s.eof = true → s.rest = []) :
    (s.advance n).eof = true ↔ (s.advance n).rest = [] := by
  simp only [SS.advance, Bool.or_eq_true, List.isEmpty_iff]
  constructor
  · rintro (he | he)
    · rw [hi he]; simp
    · exact he
  · exact Or.inr

theorem insane_step (s : SS) : Step s { s with sane := false } :=
  ⟨⟨0, by simp, by simp, by simp⟩, by simp, id, id, id⟩

theorem complaints_step (s : SS) (cs : List (Nat × Nat)) : Step s { s with complaints := cs } :=
  ⟨⟨0, by simp, by simp, by simp⟩, id, id, id, id⟩

theorem spoil_eq (s : SS) (cs) : ({ s with complaints := cs } : SS).good = s.good := rfl

theorem fileLine_le (n : Nat) (s : Str) : (fileLine n s).length ≤ s.length := by
  induction n generalizing s with
  | zero => simp [fileLine]
  | succ n ih =>
    cases s with
    | nil => simp [fileLine]
    | cons c s =>
      have := ih s
      simp only [fileLine]
      split <;> simp <;> omega

/-- The line found: everything up to the first LF if it is near enough. -/
theorem fileLine_found (n : Nat) (a t : Str) (ha : 10 ∉ a) (hn : a.length < n) :
    fileLine n (a ++ 10 :: t) = a ++ [10] := by
  induction n generalizing a with
  | zero => omega
  | succ n ih =>
    cases a with
    | nil => simp [fileLine]
    | cons c a =>
      have hc : c ≠ 10 := fun h => ha (by simp [h])
      simp only [List.cons_append, fileLine, hc, if_false]
      rw [ih a (fun h => ha (by simp [h])) (by simpa using hn)]

/-- No LF near enough. -/
theorem fileLine_notfound (n : Nat) (s : Str) (h : 10 ∉ s.take n) : fileLine n s = s.take n := by
  induction n generalizing s with
  | zero => simp [fileLine]
  | succ n ih =>
    cases s with
    | nil => simp [fileLine]
    | cons c s =>
      simp only [List.take_succ_cons, List.mem_cons, not_or] at h
      simp only [fileLine, if_neg (Ne.symm h.1), List.take_succ_cons, ih s h.2]

/-- Either there is an LF near enough, or not. -/
theorem line_cases (n : Nat) (s : Str) :
    (∃ a t, s = a ++ 10 :: t ∧ 10 ∉ a ∧ a.length < n) ∨ 10 ∉ s.take n := by
  induction n generalizing s with
  | zero => right; simp
  | succ n ih =>
    cases s with
    | nil => right; simp
    | cons c s =>
      by_cases hc : c = 10
      · left; exact ⟨[], s, by simp [hc], by simp, by simp⟩
      · rcases ih s with ⟨a, t, hs, ha, hl⟩ | h
        · left
          refine ⟨c :: a, t, by simp [hs], ?_, by simpa using hl⟩
          simp only [List.mem_cons, not_or]
          exact ⟨Ne.symm hc, ha⟩
        · right
          simp only [List.take_succ_cons, List.mem_cons, not_or]
          exact ⟨Ne.symm hc, h⟩

/-- The text of a line: without the CR at its end, if there is one. -/
def stripCR (a : Str) : Str := if a.getLast? = some 13 then a.dropLast else a

/-- `readline` when there is an LF near enough. -/
theorem readline_found (s : SS) (a t : Str) (hs : s.rest = a ++ 10 :: t) (ha : 10 ∉ a)
    (hl : a.length < maxLineLength) :
    s.readline = .ok (stripCR a)
      { rest := t, pos := s.pos + a.length + 1, eof := s.eof || t.isEmpty, sane := s.sane
        complaints := if a.getLast? = some 13 then s.complaints
          else s.complaints ++ [(1224, s.pos)] } := by
  have hline : fileLine maxLineLength s.rest = a ++ [10] := by
    rw [hs]; exact fileLine_found _ a t ha hl
  have hadv : s.advance (a.length + 1) =
      { s with rest := t, pos := s.pos + a.length + 1, eof := s.eof || t.isEmpty } := by
    have : s.rest.drop (a.length + 1) = t := by
      rw [hs, ← List.drop_drop]; simp
    simp only [SS.advance, this]
    rfl
  have hlen : (a ++ [10]).length = a.length + 1 := by simp
  unfold SS.readline
  rw [hline]
  simp only [hlen, hadv, List.getLast?_append, List.getLast?_singleton, Option.some_or, ne_eq, not_true_eq_false,
    if_false, List.dropLast_concat]
  unfold stripCR
  by_cases h13 : a.getLast? = some 13
  · have hne : a ≠ [] := by rintro rfl; simp at h13
    have hpos : 1 ≤ a.length := List.length_pos_iff.2 hne
    rw [if_pos ⟨by omega, h13⟩, if_pos h13, if_pos h13]
    congr 1
    rw [List.take_append_of_le_length (by omega), List.dropLast_eq_take]
    congr 1
  · rw [if_neg (by simp [h13]), if_neg h13, if_neg h13]
    simp [SS.complain]

/-- `readline` when there is no LF near enough. -/
theorem readline_notfound (s : SS) (h : 10 ∉ s.rest.take maxLineLength) :
    s.readline = (s.advance (s.rest.take maxLineLength).length).error s.pos := by
  have hline : fileLine maxLineLength s.rest = s.rest.take maxLineLength := fileLine_notfound _ _ h
  unfold SS.readline
  rw [hline]
  simp only
  rw [if_pos]
  intro h10
  exact h (List.mem_of_getLast? h10)

theorem readline_step (s : SS) : Step s (state s.readline) := by
  rcases line_cases maxLineLength s.rest with ⟨a, t, hs, ha, hl⟩ | h
  · rw [readline_found s a t hs ha hl]
    have hadv := advance_step s (a.length + 1) (by rw [hs]; simp)
    have : s.rest.drop (a.length + 1) = t := by
      rw [hs, ← List.drop_drop]; simp
    refine Step.trans hadv ?_
    simp only [state, SS.advance, this]
    exact complaints_step ⟨t, s.pos + (a.length + 1), s.eof || t.isEmpty, s.sane, s.complaints⟩ _
  · rw [readline_notfound s h]
    refine Step.trans (advance_step s _ ?_) (insane_step _)
    simp only [List.length_take]; omega

theorem readline_touched (s : SS) (hi : s.eof = true → s.rest = []) :
    (state s.readline).eof = true ↔ (state s.readline).rest = [] := by
  rcases line_cases maxLineLength s.rest with ⟨a, t, hs, ha, hl⟩ | h
  · rw [readline_found s a t hs ha hl]
    simp only [state, Bool.or_eq_true, List.isEmpty_iff]
    constructor
    · rintro (he | he)
      · have := hi he; rw [hs] at this; simp at this
      · exact he
    · exact Or.inr
  · rw [readline_notfound s h]
    exact advance_touched s _ hi

/-- A line read consumes at least one byte. -/
theorem readline_lt {s s' : SS} {r : Str} (h : s.readline = .ok r s') : s.pos < s'.pos := by
  rcases line_cases maxLineLength s.rest with ⟨a, t, hs, ha, hl⟩ | h'
  · rw [readline_found s a t hs ha hl] at h
    cases h
    simp only; omega
  · rw [readline_notfound s h'] at h; cases h

theorem readline_sane {s s' : SS} {r : Str} (h : s.readline = .ok r s') : s'.sane = s.sane := by
  rcases line_cases maxLineLength s.rest with ⟨a, t, hs, ha, hl⟩ | h'
  · rw [readline_found s a t hs ha hl] at h
    cases h; rfl
  · rw [readline_notfound s h'] at h; cases h

theorem readline_exc {s s' : SS} {e : Exc} (h : s.readline = .exc e s') :
    e = .parse s.pos ∧ s'.sane = false := by
  rcases line_cases maxLineLength s.rest with ⟨a, t, hs, ha, hl⟩ | h'
  · rw [readline_found s a t hs ha hl] at h; cases h
  · rw [readline_notfound s h'] at h
    simp only [SS.error, Out.exc.injEq] at h
    exact ⟨h.1.symm, by rw [← h.2]⟩

theorem readlineend_step (s : SS) : Step s (state s.readlineend) := by
  have h := readline_step s
  unfold SS.readlineend
  cases hr : s.readline with
  | exc e s' => rw [hr] at h; exact h
  | ok r s' =>
    rw [hr] at h
    simp only
    split
    · exact Step.trans h (insane_step _)
    · exact h

theorem readlineend_ok {s s' : SS} {u : Unit} (h : s.readlineend = .ok u s') :
    s.readline = .ok [] s' := by
  unfold SS.readlineend at h
  cases hr : s.readline with
  | exc e s1 => rw [hr] at h; cases h
  | ok r s1 =>
    rw [hr] at h
    simp only at h
    split at h
    · cases h
    · rename_i hne
      cases h
      have hne := Decidable.not_not.1 hne
      rw [hne]

theorem readlineend_exc {s s' : SS} {e : Exc} (h : s.readlineend = .exc e s') :
    (∃ p, e = .parse p) ∧ s'.sane = false := by
  unfold SS.readlineend at h
  cases hr : s.readline with
  | exc e1 s1 =>
    rw [hr] at h
    cases h
    exact ⟨⟨_, (readline_exc hr).1⟩, (readline_exc hr).2⟩
  | ok r s1 =>
    rw [hr] at h
    simp only at h
    split at h
    · simp only [SS.error, Out.exc.injEq] at h
      exact ⟨⟨_, h.1.symm⟩, by rw [← h.2]⟩
    · cases h

theorem read_step (s : SS) (n : Int) : Step s (state (s.read n)) := by
  unfold SS.read
  split
  · exact Step.refl s
  · simp only
    have hle : (s.taken n).length ≤ s.rest.length := by
      unfold SS.taken
      split
      · exact Nat.le_refl _
      · rw [List.length_take]; omega
    split
    · exact Step.trans (advance_step s _ hle) (insane_step _)
    · exact advance_step s _ hle

theorem read_exc {s s' : SS} {n : Int} {e : Exc} (h : s.read n = .exc e s') :
    (e = .value ∧ n < -1) ∨ (e = .parse s.pos ∧ s'.sane = false) := by
  unfold SS.read at h
  split at h
  · rename_i hn
    cases h; exact Or.inl ⟨rfl, hn⟩
  · simp only at h
    split at h
    · simp only [SS.error, Out.exc.injEq] at h
      exact Or.inr ⟨h.1.symm, by rw [← h.2]⟩
    · cases h

theorem read_sane {s s' : SS} {n : Int} {r : Str} (h : s.read n = .ok r s') : s'.sane = s.sane := by
  unfold SS.read at h
  split at h
  · cases h
  · simp only at h
    split at h
    · cases h
    · cases h; rfl

theorem read_complaints {s s' : SS} {n : Int} {r : Str} (h : s.read n = .ok r s') :
    s'.complaints = s.complaints := by
  unfold SS.read at h
  split at h
  · cases h
  · simp only at h
    split at h
    · cases h
    · cases h; rfl

/-- A successful read of a natural number of bytes. -/
theorem read_nat {s s' : SS} {n : Nat} {r : Str} (h : s.read n = .ok r s') :
    r = s.rest.take n ∧ r.length = n ∧ s' = s.advance n := by
  unfold SS.read at h
  rw [if_neg (by omega)] at h
  have ht : s.taken n = s.rest.take n := by
    unfold SS.taken
    rw [if_neg (by omega), Int.toNat_natCast]
  rw [ht] at h
  simp only at h
  split at h
  · cases h
  · rename_i hlt
    cases h
    have hle := List.length_take_le n s.rest
    have : (s.rest.take n).length = n := by omega
    exact ⟨rfl, this, by rw [this]⟩

/-- Reading `n` bytes when they are there. -/
theorem read_found (s : SS) (a t : Str) (hs : s.rest = a ++ t) :
    s.read (a.length : Nat) = .ok a { s with rest := t, pos := s.pos + a.length, eof := s.eof || t.isEmpty } := by
  unfold SS.read
  rw [if_neg (by omega)]
  have h1 : s.rest.take a.length = a := by rw [hs]; simp
  have h2 : s.rest.drop a.length = t := by rw [hs]; simp
  have ht : s.taken (a.length : Nat) = a := by
    unfold SS.taken
    rw [if_neg (by omega), Int.toNat_natCast, h1]
  rw [ht]
  simp only
  rw [if_neg (by omega)]
  simp [SS.advance, h2]

end Httpolice.Lemmas
