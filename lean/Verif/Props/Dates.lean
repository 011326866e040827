import Verif.Lemmas.Dates
import Verif.Lemmas.ModuleNt
import Verif.Props.Modules

/-!
# C48: dates
-/

namespace Httpolice.Props

open Httpolice.Model Httpolice.Spec Httpolice.Lemmas

/-! ## Texts determine what is written -/

theorem two_inj {m n : Nat} (e : two m = two n) : m = n := by
  simp only [two, List.cons.injEq, and_true] at e
  omega

theorem four_inj {m n : Nat} (e : four m = four n) : m = n := by
  obtain ⟨h1, h2⟩ := List.append_inj e rfl
  have := two_inj h1
  have := two_inj h2
  omega

theorem months_inj : ∀ m, 1 ≤ m → m ≤ 12 → ∀ n, 1 ≤ n → n ≤ 12 → monthName m = monthName n → m = n := by
  have key : ∀ m, m < 13 → ∀ n, n < 13 → 1 ≤ m → 1 ≤ n → monthName m = monthName n → m = n := by decide +kernel
  exact fun m h1 h2 n h3 h4 => key m (by omega) n (by omega) h1 h3

theorem short_inj : ∀ m, m < 7 → ∀ n, n < 7 → shortDays.getD m [] = shortDays.getD n [] → m = n := by decide +kernel

theorem long_inj : ∀ m, m < 7 → ∀ n, n < 7 → longDays.getD m [] = longDays.getD n [] → m = n := by decide +kernel

theorem month_length : ∀ m, 1 ≤ m → m ≤ 12 → (monthName m).length = 3 := by
  have key : ∀ m, m < 13 → 1 ≤ m → (monthName m).length = 3 := by decide +kernel
  exact fun m h1 h2 => key m (by omega) h1

theorem short_length : ∀ m, m < 7 → (shortDays.getD m []).length = 3 := by decide +kernel

theorem long_fourth (m : Nat) (hm : m < 7) (l : Str) :
    (longDays.getD m [] ++ l).getD 3 0 ≠ 44 ∧ (longDays.getD m [] ++ l).getD 3 0 ≠ 32 := by
  have key : ∀ m, m < 7 → 3 < (longDays.getD m []).length ∧ (longDays.getD m []).getD 3 0 ≠ 44 ∧
    (longDays.getD m []).getD 3 0 ≠ 32 := by decide +kernel
  obtain ⟨h1, h2⟩ := key m hm
  rw [List.getD_eq_getElem?_getD, List.getElem?_append_left h1, ← List.getD_eq_getElem?_getD]
  exact h2

theorem fourth {w : Str} (h : w.length = 3) (c : Nat) (l : Str) : (w ++ c :: l).getD 3 0 = c := by
  match w, h with
  | [_, _, _], _ => rfl

/-- The fourth character tells the format. -/
theorem format_char {x : Stamp} {f : DateFormat} (hx : x.Fits f) :
    match f with
    | .imf => (x.text f).getD 3 0 = 44
    | .rfc850 => (x.text f).getD 3 0 ≠ 44 ∧ (x.text f).getD 3 0 ≠ 32
    | _ => (x.text f).getD 3 0 = 32 := by
  have hl := short_length x.dow hx.1
  cases f with
  | imf =>
    simp only [Stamp.text, List.append_assoc]
    exact fourth hl 44 _
  | rfc850 =>
    simp only [Stamp.text, List.append_assoc]
    exact long_fourth x.dow hx.1 _
  | asctime =>
    simp only [Stamp.text, List.append_assoc]
    exact fourth hl 32 _
  | asctimeSpaced =>
    simp only [Stamp.text, List.append_assoc]
    exact fourth hl 32 _

theorem peel {a b l l' : Str} (e : a ++ l = b ++ l') (h : a.length = b.length) : a = b ∧ l = l' := List.append_inj e h

theorem time_inj {h m s h' m' s' : Nat} (e : timeText h m s = timeText h' m' s') : h = h' ∧ m = m' ∧ s = s' := by
  simp only [timeText, List.append_assoc] at e
  obtain ⟨e1, e⟩ := peel e rfl
  obtain ⟨_, e⟩ := peel e rfl
  obtain ⟨e2, e⟩ := peel e rfl
  obtain ⟨_, e3⟩ := peel e rfl
  exact ⟨two_inj e1, two_inj e2, two_inj e3⟩

theorem imf_inj {x y : Stamp} (hx : x.Fits .imf) (hy : y.Fits .imf) (e : x.text .imf = y.text .imf) : x = y := by
  obtain ⟨a1, a2, a3, _⟩ := hx
  obtain ⟨b1, b2, b3, _⟩ := hy
  obtain ⟨k, yr, m, d, h, mi, s⟩ := x
  obtain ⟨k', yr', m', d', h', mi', s'⟩ := y
  simp only [Stamp.text, List.append_assoc] at e
  obtain ⟨e1, e⟩ := peel e (by rw [short_length _ a1, short_length _ b1])
  obtain ⟨_, e⟩ := peel e rfl
  obtain ⟨e2, e⟩ := peel e rfl
  obtain ⟨_, e⟩ := peel e rfl
  obtain ⟨e3, e⟩ := peel e (by rw [month_length _ a2 a3, month_length _ b2 b3])
  obtain ⟨_, e⟩ := peel e rfl
  obtain ⟨e4, e⟩ := peel e rfl
  obtain ⟨_, e⟩ := peel e rfl
  obtain ⟨e5, _⟩ := peel e rfl
  obtain ⟨rfl, rfl, rfl⟩ := time_inj e5
  cases short_inj _ a1 _ b1 e1
  cases two_inj e2
  cases months_inj _ a2 a3 _ b2 b3 e3
  cases four_inj e4
  rfl

theorem rfc850_inj {x y : Stamp} (hx : x.Fits .rfc850) (hy : y.Fits .rfc850) (e : x.text .rfc850 = y.text .rfc850) :
    x = y := by
  obtain ⟨a1, a2, a3, _, _, _, _, a4⟩ := hx
  obtain ⟨b1, b2, b3, _, _, _, _, b4⟩ := hy
  obtain ⟨k, yr, m, d, h, mi, s⟩ := x
  obtain ⟨k', yr', m', d', h', mi', s'⟩ := y
  simp only [Stamp.text, List.append_assoc] at e
  obtain ⟨e1, e⟩ := List.append_inj' e (by
    simp only [List.length_append, month_length _ a2 a3, month_length _ b2 b3]
    rfl)
  obtain ⟨_, e⟩ := peel e rfl
  obtain ⟨e2, e⟩ := peel e rfl
  obtain ⟨_, e⟩ := peel e rfl
  obtain ⟨e3, e⟩ := peel e (by rw [month_length _ a2 a3, month_length _ b2 b3])
  obtain ⟨_, e⟩ := peel e rfl
  obtain ⟨e4, e⟩ := peel e rfl
  obtain ⟨_, e⟩ := peel e rfl
  obtain ⟨e5, _⟩ := peel e rfl
  obtain ⟨rfl, rfl, rfl⟩ := time_inj e5
  cases long_inj _ a1 _ b1 e1
  cases two_inj e2
  cases months_inj _ a2 a3 _ b2 b3 e3
  have e4 := two_inj e4
  have a4 : 1900 ≤ yr ∧ yr < 2000 := a4
  have b4 : 1900 ≤ yr' ∧ yr' < 2000 := b4
  have : yr = yr' := by omega
  subst this
  rfl

/-- The day of the month in the asctime format. -/
def asctimeText (spaced : Bool) (d : Nat) : Str := if spaced then str " " ++ [48 + d] else two d

theorem asctimeText_inj {p q : Bool} {d d' : Nat} (e : asctimeText p d = asctimeText q d') : p = q ∧ d = d' := by
  have hs : str " " = [32] := rfl
  cases p <;> cases q <;>
    simp only [asctimeText, hs, two, if_true, Bool.false_eq_true, if_false, List.cons_append, List.nil_append,
      List.cons.injEq, and_true, Bool.true_eq_false, true_and, false_and] at e ⊢ <;> omega

theorem asctime_text (x : Stamp) (p : Bool) : x.text (if p then .asctimeSpaced else .asctime) =
    shortDays.getD x.dow [] ++ (str " " ++ (monthName x.month ++ (str " " ++ (asctimeText p x.day ++ (str " " ++
      (timeText x.hour x.minute x.second ++ (str " " ++ four x.year))))))) := by
  cases p <;> simp [Stamp.text, asctimeText]

theorem asctime_inj {x y : Stamp} {p q : Bool} (hx : x.Fits (if p then .asctimeSpaced else .asctime))
    (hy : y.Fits (if q then .asctimeSpaced else .asctime))
    (e : x.text (if p then .asctimeSpaced else .asctime) = y.text (if q then .asctimeSpaced else .asctime)) :
    p = q ∧ x = y := by
  obtain ⟨a1, a2, a3, _⟩ := hx
  obtain ⟨b1, b2, b3, _⟩ := hy
  rw [asctime_text, asctime_text] at e
  obtain ⟨k, yr, m, d, h, mi, s⟩ := x
  obtain ⟨k', yr', m', d', h', mi', s'⟩ := y
  obtain ⟨e1, e⟩ := peel e (by rw [short_length _ a1, short_length _ b1])
  obtain ⟨_, e⟩ := peel e rfl
  obtain ⟨e3, e⟩ := peel e (by rw [month_length _ a2 a3, month_length _ b2 b3])
  obtain ⟨_, e⟩ := peel e rfl
  obtain ⟨e2, e⟩ := peel e (by cases p <;> cases q <;> rfl)
  obtain ⟨_, e⟩ := peel e rfl
  obtain ⟨e5, e⟩ := peel e rfl
  obtain ⟨_, e4⟩ := peel e rfl
  obtain ⟨rfl, rfl, rfl⟩ := time_inj e5
  obtain ⟨rfl, h2⟩ := asctimeText_inj e2
  cases short_inj _ a1 _ b1 e1
  cases h2
  cases months_inj _ a2 a3 _ b2 b3 e3
  cases four_inj e4
  exact ⟨rfl, rfl⟩

/-- **C48**: a text in any of the formats determines the format and what is written. -/
theorem C48_unambiguous {x y : Stamp} {f g : DateFormat} (hx : x.Fits f) (hy : y.Fits g) (e : x.text f = y.text g) :
    f = g ∧ x = y := by
  have h1 := format_char hx
  have h2 := format_char hy
  rw [e] at h1
  have hc : (44 : Nat) ≠ 32 := by decide
  cases f <;> cases g <;> simp only at h1 h2
  case imf.imf => exact ⟨rfl, imf_inj hx hy e⟩
  case rfc850.rfc850 => exact ⟨rfl, rfc850_inj hx hy e⟩
  case asctime.asctime => exact ⟨rfl, (asctime_inj (p := false) (q := false) hx hy e).2⟩
  case asctimeSpaced.asctimeSpaced => exact ⟨rfl, (asctime_inj (p := true) (q := true) hx hy e).2⟩
  case asctime.asctimeSpaced => cases (asctime_inj (p := false) (q := true) hx hy e).1
  case asctimeSpaced.asctime => cases (asctime_inj (p := true) (q := false) hx hy e).1
  case imf.rfc850 => exact absurd h1 h2.1
  case imf.asctime => rw [h2] at h1; cases h1
  case imf.asctimeSpaced => rw [h2] at h1; cases h1
  case rfc850.imf => exact absurd h2 h1.1
  case rfc850.asctime => exact absurd h2 h1.2
  case rfc850.asctimeSpaced => exact absurd h2 h1.2
  case asctime.imf => rw [h2] at h1; cases h1
  case asctimeSpaced.imf => rw [h2] at h1; cases h1
  case asctime.rfc850 => exact absurd h1 h2.2
  case asctimeSpaced.rfc850 => exact absurd h1 h2.2

/-! ## The parser -/

section
variable {h h' : PyHeap} {env : DateName → Sym}

theorem date_symbol (env : DateName → Sym) (h : PyHeap) : ∃ k, (runDefs env h dateDefs).1 .httpDate = .nt k :=
  module_nt dateDefs env h (nts := []) nofun (by decide +kernel)

/-- **C48**: `HTTP_date` parses the three formats of RFC 7231, and nothing else. -/
theorem C48_accepts (hb : Builds true Heap.init h) (later : Builds true (runDefs env h dateDefs).2 h')
    (ann : GVal → Bool) (data : Str) :
    ∃ k, (runDefs env h dateDefs).1 .httpDate = .nt k ∧
      ((∃ res, innerParse h'.grammar (pyOps ann) data k = .ok res) ↔ ∃ f x, Stamp.Fits x f ∧ data = x.text f) ∧
      ((∃ e, innerParse h'.grammar (pyOps ann) data k = .error (.parse e)) ↔ ¬ ∃ f x, Stamp.Fits x f ∧ data = x.text f) := by
  obtain ⟨k, hk⟩ := date_symbol env h
  obtain ⟨p1, p2, _⟩ := C57_module_parses hb dates_solve (by decide) later ann hk data
  have key : (∃ vs cs, dateD .httpDate data vs cs) ↔ ∃ f x, Stamp.Fits x f ∧ data = x.text f := by
    constructor
    · rintro ⟨vs, cs, ⟨f, x⟩, ⟨_, h1⟩, h2, _⟩
      exact ⟨f, x, h1, h2⟩
    · rintro ⟨f, x, h1, h2⟩
      exact ⟨_, _, (f, x), ⟨trivial, h1⟩, h2, rfl, rfl⟩
  exact ⟨k, hk, p1.trans key, p2.trans (not_congr key)⟩

/-- **C48**: what is parsed is what is written, with the complaints that are due. -/
theorem C48_reads (hb : Builds true Heap.init h) (later : Builds true (runDefs env h dateDefs).2 h')
    (ann : GVal → Bool) {x : Stamp} {f : DateFormat} (hx : x.Fits f) :
    ∃ k cs as, (runDefs env h dateDefs).1 .httpDate = .nt k ∧
      innerParse h'.grammar (pyOps ann) (x.text f) k = .ok (.val x.value, cs, as) ∧ cs.Perm (x.notes f) := by
  obtain ⟨k, hk⟩ := date_symbol env h
  obtain ⟨p1, _, p3⟩ := C57_module_parses hb dates_solve (by decide) later ann hk (x.text f)
  obtain ⟨⟨node, cs, as⟩, hr⟩ := p1.mpr ⟨_, _, (f, x), ⟨trivial, hx⟩, rfl, rfl, rfl⟩
  obtain ⟨⟨g, y⟩, ⟨_, k1⟩, k2, k3, k4⟩ := anyOrder_tab.mp (p3 _ _ _ hr)
  obtain ⟨rfl, rfl⟩ := C48_unambiguous hx k1 k2
  refine ⟨k, cs, as, hk, ?_, k4⟩
  cases node with
  | skip => cases k3
  | val v => cases k3; exact hr

/-- **C48**: the value is an instant exactly if there are such a day and time, and the same instant in each format. -/
theorem C48_instant (x : Stamp) :
    (x.value = x.datetime ↔ x.Real) ∧
    (x.Real → ∀ y : Stamp, y.value = x.value ↔ y.year = x.year ∧ y.month = x.month ∧ y.day = x.day ∧ y.hour = x.hour ∧
      y.minute = x.minute ∧ y.second = x.second) := by
  have hu : ∀ (z y : Stamp), ¬ z.Real → z.value ≠ y.datetime := by
    intro z y hz e
    unfold Stamp.value at e
    rw [if_neg hz] at e
    have := (GVal.obj.inj e).1
    revert this
    decide +kernel
  refine ⟨⟨fun e => ?_, fun h => if_pos h⟩, fun hx y => ⟨fun e => ?_, ?_⟩⟩
  · exact Classical.byContradiction fun hn => hu x x hn e
  · have hxv : x.value = x.datetime := if_pos hx
    by_cases hy : y.Real
    · have hyv : y.value = y.datetime := if_pos hy
      rw [hxv, hyv] at e
      have := (GVal.obj.inj e).2
      simp only [List.cons.injEq, GVal.int.injEq, Int.ofNat_inj, and_true] at this
      exact this
    · exact absurd (e.trans hxv) (hu y x hy)
  · obtain ⟨k, yr, m, d, hh, mi, s⟩ := x
    obtain ⟨k', yr', m', d', hh', mi', s'⟩ := y
    rintro ⟨rfl, rfl, rfl, rfl, rfl, rfl⟩
    rfl

theorem note_iff {P : Prop} [Decidable P] {i j : Nat} {c : Context PErr GVal} :
    j ∈ (if P then [(i, c)] else []).map Prod.fst ↔ P ∧ j = i := by
  by_cases h : P <;> simp [h]

theorem not_note_iff {P : Prop} [Decidable P] {i j : Nat} {c : Context PErr GVal} :
    j ∈ (if P then [] else [(i, c)]).map Prod.fst ↔ ¬ P ∧ j = i := by
  by_cases h : P <;> simp [h]

/-- **C48**: the next day is the next day of the week. -/
theorem C48_weekdays {y m d : Nat} (hr : RealDate y m d) :
    (d < monthLength y m → weekdayOf y m (d + 1) = (weekdayOf y m d + 1) % 7) ∧
    (d = monthLength y m → m < 12 → weekdayOf y (m + 1) 1 = (weekdayOf y m d + 1) % 7) ∧
    (d = 31 → m = 12 → weekdayOf (y + 1) 1 1 = (weekdayOf y m d + 1) % 7) := by
  obtain ⟨h1, h2, h3, h4, h5⟩ := hr
  unfold weekdayOf
  refine ⟨fun _ => by omega, fun hd _ => ?_, fun hd hm => ?_⟩
  · have : daysInMonths y (m + 1 - 1) = daysInMonths y (m - 1) + d := by
      obtain ⟨n, rfl⟩ : ∃ n, m = n + 1 := ⟨m - 1, by omega⟩
      rw [hd]
      rfl
    rw [this]
    omega
  · have : daysInYears (y + 1 - 1) = daysInYears (y - 1) + daysInMonths y (m - 1) + d := by
      obtain ⟨n, rfl⟩ : ∃ n, y = n + 1 := ⟨y - 1, by omega⟩
      subst hd hm
      exact (Nat.add_assoc ..).symm
    rw [this, show daysInMonths (y + 1) (1 - 1) = 0 from rfl]
    omega

/-- **C48**: when each of the complaints is due. -/
theorem C48_notes (x : Stamp) (f : DateFormat) (i : Nat) :
    i ∈ (x.notes f).map Prod.fst ↔
      (i = 1222 ∧ ¬ RealDate x.year x.month x.day) ∨ (i = 1223 ∧ ¬ RealTime x.hour x.minute x.second) ∨
      (i = 1107 ∧ f ≠ .imf) ∨ (i = 1108 ∧ x.Real ∧ weekdayOf x.year x.month x.day ≠ x.dow) := by
  unfold Stamp.notes noDayNotes noTimeNotes obsoleteNotes Stamp.weekdayNotes
  simp only [List.map_append, List.mem_append, note_iff, not_note_iff]
  constructor
  · rintro (((⟨h1, h2⟩ | ⟨h1, h2⟩) | ⟨h1, h2⟩) | ⟨h1, h2⟩)
    · exact .inl ⟨h2, h1⟩
    · exact .inr (.inl ⟨h2, h1⟩)
    · exact .inr (.inr (.inl ⟨h2, h1⟩))
    · exact .inr (.inr (.inr ⟨h2, h1⟩))
  · rintro (⟨h1, h2⟩ | ⟨h1, h2⟩ | ⟨h1, h2⟩ | ⟨h1, h2⟩)
    · exact .inl (.inl (.inl ⟨h2, h1⟩))
    · exact .inl (.inl (.inr ⟨h2, h1⟩))
    · exact .inl (.inr ⟨h2, h1⟩)
    · exact .inr ⟨h2, h1⟩

/-- **C48**: a date printed in the IMF-fixdate format is parsed back, and nothing is reported. -/
theorem C48_round_trip (hb : Builds true Heap.init h) (later : Builds true (runDefs env h dateDefs).2 h')
    (ann : GVal → Bool) {x : Stamp} (hx : x.Real) (hy : x.year < 10000) (hw : x.dow = weekdayOf x.year x.month x.day) :
    ∃ k as, (runDefs env h dateDefs).1 .httpDate = .nt k ∧
      innerParse h'.grammar (pyOps ann) (x.text .imf) k = .ok (.val x.datetime, [], as) := by
  obtain ⟨⟨_, h2, h3, _, h5⟩, h6, h7, h8⟩ := id hx
  have hl : monthLength x.year x.month ≤ 31 := by
    rw [← monthDays_eq _ h2 h3]
    rcases month_cases h2 h3 with e | e | e | e | e | e | e | e | e | e | e | e <;> rw [e] <;>
      unfold pyMonthDays <;> split <;> simp
  have hf : x.Fits .imf := by
    refine ⟨by rw [hw]; exact weekday_lt _ _ _, h2, h3, by omega, by omega, by omega, ?_, hy⟩
    show x.day < 100
    omega
  obtain ⟨k, cs, as, k1, k2, k3⟩ := C48_reads (env := env) hb later ann hf
  have hn : x.notes .imf = [] := by
    unfold Stamp.notes noDayNotes noTimeNotes obsoleteNotes Stamp.weekdayNotes
    rw [if_pos hx.1, if_pos hx.2, if_pos rfl, if_neg (fun j => j.2 hw.symm)]
    rfl
  rw [hn] at k3
  rw [k3.eq_nil, (C48_instant x).1.mpr hx] at k2
  exact ⟨k, as, k1, k2⟩

end

/-- The date in RFC 7231. -/
def rfcDate : Stamp := ⟨6, 1994, 11, 6, 8, 49, 37⟩

/-- The formats, as there. -/
example : rfcDate.text .imf = str "Sun, 06 Nov 1994 08:49:37 GMT" ∧
    rfcDate.text .rfc850 = str "Sunday, 06-Nov-94 08:49:37 GMT" ∧
    rfcDate.text .asctimeSpaced = str "Sun Nov  6 08:49:37 1994" ∧
    (∀ f, rfcDate.Fits f) ∧ rfcDate.Real ∧ rfcDate.dow = weekdayOf 1994 11 6 := by
  refine ⟨by decide +kernel, by decide +kernel, by decide +kernel, fun f => by cases f <;> decide +kernel,
    by decide +kernel, by decide +kernel⟩

/-- The grammar, with nothing built before or after. -/
def dateHeap : PyHeap := (loadDefs dateDefs).2

/-- The number of a nonterminal. -/
def ntNumber : Sym → Option Nat
  | .nt k => some k
  | _ => none

/-- This meets the conditions of the theorems; and this is what the parser returns. -/
example : Builds true Heap.init Heap.init ∧ Builds true dateHeap dateHeap ∧
    ntNumber ((loadDefs dateDefs).1 .httpDate) = some 235 := ⟨.refl, .refl, by decide +kernel⟩

example : shown (innerParse dateHeap.grammar (pyOps fun _ => false) (str "Mon Feb 30 08:49:60 1994") 235) =
    some (some (render (.obj (str "Unavailable") [.text (str "30 Feb 1994 08:49:60")])), [1223, 1222, 1107]) := by
  decide +kernel

example : shown (innerParse dateHeap.grammar (pyOps fun _ => false) (str "Sun, 6 Nov") 235) = none := by decide +kernel

end Httpolice.Props
