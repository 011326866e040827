import Verif.Model.Rfc7231
import Verif.Spec.Dates

/-!
# Python's calendar arithmetic
-/

namespace Httpolice.Lemmas

open Httpolice.Model Httpolice.Spec

theorem leap_iff (y : Nat) : pyLeap y = true ↔ LeapYear y := by
  unfold pyLeap LeapYear
  simp only [Bool.and_eq_true, Bool.or_eq_true, beq_iff_eq, bne_iff_ne, Nat.dvd_iff_mod_eq_zero]
  constructor
  · rintro ⟨h, h1 | h1⟩
    · exact ⟨h, fun h2 => absurd h2 h1⟩
    · exact ⟨h, fun _ => h1⟩
  · rintro ⟨h, h1⟩
    exact ⟨h, (Classical.em (y % 100 = 0)).symm.imp id h1⟩

theorem month_cases {m : Nat} (h1 : 1 ≤ m) (h2 : m ≤ 12) :
    m = 1 ∨ m = 2 ∨ m = 3 ∨ m = 4 ∨ m = 5 ∨ m = 6 ∨ m = 7 ∨ m = 8 ∨ m = 9 ∨ m = 10 ∨ m = 11 ∨ m = 12 := by omega

theorem monthDays_eq (y : Nat) {m : Nat} (h1 : 1 ≤ m) (h2 : m ≤ 12) : pyMonthDays y m = monthLength y m := by
  have hl := leap_iff y
  rcases month_cases h1 h2 with rfl | rfl | rfl | rfl | rfl | rfl | rfl | rfl | rfl | rfl | rfl | rfl <;>
    simp [pyMonthDays, monthLength, hl]

theorem dateOk_iff {y m d : Nat} (hy : y < 10000) : pyDateOk y m d = true ↔ RealDate y m d := by
  unfold pyDateOk RealDate
  simp only [Bool.and_eq_true, decide_eq_true_eq]
  constructor
  · rintro ⟨⟨⟨⟨⟨a, b⟩, c⟩, e⟩, f⟩, g⟩
    exact ⟨a, c, e, f, by rwa [← monthDays_eq y c e]⟩
  · rintro ⟨a, c, e, f, g⟩
    exact ⟨⟨⟨⟨⟨a, by omega⟩, c⟩, e⟩, f⟩, by rwa [monthDays_eq y c e]⟩

theorem timeOk_iff {h m s : Nat} : pyTimeOk h m s = true ↔ RealTime h m s := by
  unfold pyTimeOk RealTime
  simp only [Bool.and_eq_true, decide_eq_true_eq]
  omega

theorem daysBeforeMonth_eq (y : Nat) {m : Nat} (h1 : 1 ≤ m) (h2 : m ≤ 12) :
    pyDaysBeforeMonth y m = daysInMonths y (m - 1) := by
  have hl := leap_iff y
  rcases month_cases h1 h2 with rfl | rfl | rfl | rfl | rfl | rfl | rfl | rfl | rfl | rfl | rfl | rfl <;>
    by_cases h : LeapYear y <;>
    simp [pyDaysBeforeMonth, daysInMonths, monthLength, hl, h]

theorem yearLength (y : Nat) : daysInMonths y 12 = if LeapYear y then 366 else 365 := by
  by_cases h : LeapYear y <;> simp [daysInMonths, monthLength, h]

theorem div_succ (y : Nat) (k : Nat) : (y + 1) / k = y / k + if (y + 1) % k = 0 then 1 else 0 := by
  rw [Nat.succ_div]
  simp only [Nat.dvd_iff_mod_eq_zero]

theorem daysBeforeYear_eq (y : Nat) : pyDaysBeforeYear (y + 1) = daysInYears y := by
  induction y with
  | zero => rfl
  | succ y ih =>
    rw [daysInYears, ← ih, yearLength]
    unfold pyDaysBeforeYear LeapYear
    simp only [Nat.dvd_iff_mod_eq_zero, Nat.add_sub_cancel]
    rw [div_succ y 4, div_succ y 100, div_succ y 400]
    have h1 : (y + 1) % 400 = 0 → (y + 1) % 100 = 0 := by omega
    have h2 : (y + 1) % 100 = 0 → (y + 1) % 4 = 0 := by omega
    have h3 : y / 100 ≤ y / 4 := Nat.div_le_div_left (by decide) (by decide)
    generalize y / 4 = a at *
    generalize y / 100 = b at *
    generalize y / 400 = c at *
    by_cases k1 : (y + 1) % 4 = 0 <;> by_cases k2 : (y + 1) % 100 = 0 <;> by_cases k3 : (y + 1) % 400 = 0 <;>
      simp only [k1, k2, k3, if_true, if_false, true_and, false_and, true_implies, false_implies] <;>
      first | omega | exact absurd (h1 k3) k2 | exact absurd (h2 k2) k1

/-- Python agrees with counting days. -/
theorem weekday_eq {y m d : Nat} (h : RealDate y m d) : pyWeekday y m d = weekdayOf y m d := by
  obtain ⟨hy, h1, h2, h3, _⟩ := h
  unfold pyWeekday weekdayOf
  rw [daysBeforeMonth_eq y h1 h2]
  obtain ⟨y, rfl⟩ : ∃ z, y = z + 1 := ⟨y - 1, by omega⟩
  rw [daysBeforeYear_eq, Nat.add_sub_cancel]
  omega

theorem weekday_lt (y m d : Nat) : weekdayOf y m d < 7 := Nat.mod_lt _ (by decide)

end Httpolice.Lemmas
