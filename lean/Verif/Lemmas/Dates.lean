import Verif.Lemmas.Calendar
import Verif.Lemmas.Words

/-!
# What the names of the date grammar come to
-/

namespace Httpolice.Lemmas

open Httpolice.Model Httpolice.Spec

/-! ## Digits -/

theorem two_decimal {w : Str} (h : ∀ c ∈ w, 48 ≤ c ∧ c ≤ 57) (hl : w.length = 2) :
    decimal w < 100 ∧ w = two (decimal w) := by
  match w, hl with
  | [a, b], _ =>
    have ha := h a (by simp)
    have hb := h b (by simp)
    refine ⟨by simp only [decimal, List.foldl]; omega, ?_⟩
    simp only [decimal, List.foldl, two, List.cons.injEq, and_true]
    omega

theorem decimal_two {n : Nat} (h : n < 100) : decimal (two n) = n := by
  simp only [decimal, two, List.foldl]
  omega

theorem two_digits {n : Nat} (h : n < 100) : ∀ c ∈ two n, 48 ≤ c ∧ c ≤ 57 := by
  intro c hc
  simp only [two, List.mem_cons, List.not_mem_nil, or_false] at hc
  omega

theorem four_decimal {w : Str} (h : ∀ c ∈ w, 48 ≤ c ∧ c ≤ 57) (hl : w.length = 4) :
    decimal w < 10000 ∧ w = four (decimal w) := by
  match w, hl with
  | [a, b, c, d], _ =>
    have ha := h a (by simp)
    have hb := h b (by simp)
    have hc := h c (by simp)
    have hd := h d (by simp)
    refine ⟨by simp only [decimal, List.foldl]; omega, ?_⟩
    simp only [decimal, List.foldl, four, two, List.cons_append, List.nil_append, List.cons.injEq, and_true]
    omega

theorem decimal_four {n : Nat} (h : n < 10000) : decimal (four n) = n := by
  simp only [decimal, four, two, List.cons_append, List.nil_append, List.foldl]
  omega

theorem four_digits {n : Nat} (h : n < 10000) : ∀ c ∈ four n, 48 ≤ c ∧ c ≤ 57 := by
  intro c hc
  simp only [four, two, List.cons_append, List.nil_append, List.mem_cons, List.not_mem_nil, or_false] at hc
  omega

/-- Two digits as a number. -/
abbrev twoD : Den := tabD (· < 100) two (fun n => [.int n]) (fun _ => [])

/-- Four digits as a number. -/
abbrev fourD : Den := tabD (· < 10000) four (fun n => [.int n]) (fun _ => [])

section
variable {N : Type} {δ : N → Den}

theorem two_den : appD intF (appD joinF (timesD (octetD digitBits) (octetD digitBits) 2 (some 2))) = twoD := by
  rw [digits_den 2 (by decide)]
  refine tab_eq decimal two ?_ ?_
  · rintro w ⟨h1, h2⟩
    exact ⟨(two_decimal h1 h2).1, (two_decimal h1 h2).2, rfl, rfl⟩
  · intro n h
    refine ⟨⟨two_digits h, rfl⟩, rfl, ?_, rfl⟩
    show _ = [GVal.int (decimal (two n) : Nat)]
    rw [decimal_two h]

theorem four_den : appD intF (appD joinF (timesD (octetD digitBits) (octetD digitBits) 4 (some 4))) = fourD := by
  rw [digits_den 4 (by decide)]
  refine tab_eq decimal four ?_ ?_
  · rintro w ⟨h1, h2⟩
    exact ⟨(four_decimal h1 h2).1, (four_decimal h1 h2).2, rfl, rfl⟩
  · intro n h
    refine ⟨⟨four_digits h, rfl⟩, rfl, ?_, rfl⟩
    show _ = [GVal.int (decimal (four n) : Nat)]
    rw [decimal_four h]

theorem decimal19 {w : Str} (hl : w.length = 2) : decimal (str "19" ++ w) = 1900 + decimal w := by
  match w, hl with
  | [a, b], _ =>
    have : str "19" = [49, 57] := by decide +kernel
    rw [this]
    simp only [decimal, List.cons_append, List.nil_append, List.foldl]
    omega

/-- Two digits as a year. -/
abbrev year19D : Den :=
  tabD (fun y => 1900 ≤ y ∧ y < 2000) (fun y => two (y % 100)) (fun n => [.int n]) (fun _ => [])

theorem year19_den : appD int19F (appD joinF (timesD (octetD digitBits) (octetD digitBits) 2 (some 2))) = year19D := by
  rw [digits_den 2 (by decide)]
  refine tab_eq (fun w => 1900 + decimal w) (fun y => two (y % 100)) ?_ ?_
  · rintro w ⟨h1, h2⟩
    obtain ⟨h3, h4⟩ := two_decimal h1 h2
    refine ⟨⟨by omega, by omega⟩, ?_, ?_, rfl⟩
    · have : (1900 + decimal w) % 100 = decimal w := by omega
      rw [this]
      exact h4
    · show [GVal.int (decimal (str "19" ++ w) : Nat)] = _
      rw [decimal19 h2]
  · rintro y ⟨h1, h2⟩
    have hm : y % 100 < 100 := Nat.mod_lt _ (by decide)
    refine ⟨⟨two_digits hm, rfl⟩, rfl, ?_, rfl⟩
    show _ = [GVal.int (decimal (str "19" ++ two (y % 100)) : Nat)]
    rw [decimal19 rfl, decimal_two hm]
    have : 1900 + y % 100 = y := by omega
    rw [this]

end

/-! ## Actions -/

/-- A day, or something `Unavailable`. -/
def dateValue (y m d : Nat) : GVal := if RealDate y m d then dateObj y m d else unavailableObj (badDateText y m d)

/-- A time, or something `Unavailable`. -/
def timeValue (h m s : Nat) : GVal := if RealTime h m s then timeObj h m s else unavailableObj (timeText h m s)

theorem monthNames_eq : monthNames = months := rfl

theorem toDate_eq {y : Nat} (m d : Nat) (hy : y < 10000) : toDate d m y = (dateValue y m d, noDayNotes y m d) := by
  have hd := dateOk_iff (m := m) (d := d) hy
  unfold toDate dateValue noDayNotes
  by_cases h : RealDate y m d
  · rw [if_pos (hd.mpr h), if_pos h, if_pos h]
  · rw [if_neg (fun k => h (hd.mp k)), if_neg h, if_neg h]
    rfl

theorem toTime_eq (h m s : Nat) : toTime h m s = (timeValue h m s, noTimeNotes h m s) := by
  have hd := timeOk_iff (h := h) (m := m) (s := s)
  unfold toTime timeValue noTimeNotes
  by_cases k : RealTime h m s
  · rw [if_pos (hd.mpr k), if_pos k, if_pos k]
  · rw [if_neg (fun j => k (hd.mp j)), if_neg k, if_neg k]
    rfl

theorem pad4_eq (n : Nat) : pad4 n = four n := by
  have h1 : n / 1000 = n / 100 / 10 := by omega
  have h2 : n / 10 % 10 = n % 100 / 10 := by omega
  have h3 : n % 10 = n % 100 % 10 := by omega
  show [48 + n / 1000, 48 + n / 100 % 10, 48 + n / 10 % 10, 48 + n % 10] =
    [48 + n / 100 / 10, 48 + n / 100 % 10, 48 + n % 100 / 10, 48 + n % 100 % 10]
  rw [h1, h2, h3]

theorem isoDate_eq (y m d : Nat) : isoDate y m d = four y ++ str "-" ++ two m ++ str "-" ++ two d := by
  unfold isoDate
  rw [pad4_eq y]
  rfl

theorem toDatetime_eq (x : Stamp) :
    toDatetime (dateValue x.year x.month x.day) (timeValue x.hour x.minute x.second) = x.value := by
  have hr : x.Real ↔ RealDate x.year x.month x.day ∧ RealTime x.hour x.minute x.second := Iff.rfl
  unfold dateValue timeValue Stamp.value shownDate
  by_cases h : RealDate x.year x.month x.day <;> by_cases k : RealTime x.hour x.minute x.second
  · rw [if_pos h, if_pos k, if_pos (hr.mpr ⟨h, k⟩)]
    simp [toDatetime, dateObj, timeObj, datetimeObj, Stamp.datetime]
  · rw [if_pos h, if_neg k, if_neg (fun j => k (hr.mp j).2), if_pos h]
    simp only [toDatetime, dateObj, unavailableObj, dtText, Int.toNat_natCast, if_true, isoDate_eq]
  · rw [if_neg h, if_pos k, if_neg (fun j => h (hr.mp j).1), if_neg h]
    have e : ¬ str "time" = str "date" := by decide +kernel
    simp only [toDatetime, timeObj, unavailableObj, dtText, Int.toNat_natCast, e, if_false]
    rfl
  · rw [if_neg h, if_neg k, if_neg (fun j => k (hr.mp j).2), if_neg h]
    simp only [toDatetime, unavailableObj, dtText]

theorem dayNames_eq : dayNames = reportDays := rfl

theorem checkDay_eq (x : Stamp) : checkDayF [.tuple [.int x.dow, x.value]] = (.val x.value, x.weekdayNotes) := by
  by_cases h : x.Real
  · have hv : x.value = x.datetime := if_pos h
    rw [hv]
    unfold Stamp.datetime checkDayF Stamp.weekdayNotes
    simp only [Int.toNat_natCast, weekday_eq h.1, dayNames_eq]
    by_cases k : weekdayOf x.year x.month x.day ≠ x.dow
    · rw [if_pos k, if_pos ⟨h, k⟩]
    · rw [if_neg k, if_neg (fun j => k j.2)]
  · unfold Stamp.weekdayNotes
    rw [if_neg (fun j => h j.1)]
    unfold Stamp.value
    rw [if_neg h]
    rfl

/-! ## Names -/

/-- Dates in some of the formats. -/
abbrev stampD (F : DateFormat → Prop) (v : Stamp → List GVal) (c : DateFormat → Stamp → List PyComplaint) : Den :=
  tabD (fun x : DateFormat × Stamp => F x.1 ∧ x.2.Fits x.1) (fun x => x.2.text x.1) (fun x => v x.2) (fun x => c x.1 x.2)

/-- The claimed day of the week, and the rest. -/
def claimedArgs (x : Stamp) : List GVal := [.tuple [.int x.dow, x.value]]

/-- What has been said so far. -/
def earlyNotes (x : Stamp) : List PyComplaint :=
  noDayNotes x.year x.month x.day ++ noTimeNotes x.hour x.minute x.second

/-- What the names come to. -/
def dateD : DateName → Den
  | .dayName => numbersD 0 shortDays
  | .day | .hour | .minute | .second => twoD
  | .month => numbersD 1 months
  | .year => fourD
  | .date1 => tabD (fun x : Nat × Nat × Nat => x.1 < 100 ∧ (1 ≤ x.2.1 ∧ x.2.1 ≤ 12) ∧ x.2.2 < 10000)
      (fun x => two x.1 ++ str " " ++ monthName x.2.1 ++ str " " ++ four x.2.2)
      (fun x => [dateValue x.2.2 x.2.1 x.1]) (fun x => noDayNotes x.2.2 x.2.1 x.1)
  | .timeOfDay => tabD (fun x : Nat × Nat × Nat => x.1 < 100 ∧ x.2.1 < 100 ∧ x.2.2 < 100)
      (fun x => timeText x.1 x.2.1 x.2.2) (fun x => [timeValue x.1 x.2.1 x.2.2]) (fun x => noTimeNotes x.1 x.2.1 x.2.2)
  | .gmt => oneD (wordD (str "GMT"))
  | .imfFixdate => stampD (· = .imf) claimedArgs (fun _ => earlyNotes)
  | .dayNameL => numbersD 0 longDays
  | .date2 => tabD (fun x : Nat × Nat × Nat => x.1 < 100 ∧ (1 ≤ x.2.1 ∧ x.2.1 ≤ 12) ∧ 1900 ≤ x.2.2 ∧ x.2.2 < 2000)
      (fun x => two x.1 ++ str "-" ++ monthName x.2.1 ++ str "-" ++ two (x.2.2 % 100))
      (fun x => [dateValue x.2.2 x.2.1 x.1]) (fun x => noDayNotes x.2.2 x.2.1 x.1)
  | .rfc850Date => stampD (· = .rfc850) claimedArgs (fun _ => earlyNotes)
  | .date3 => tabD (fun x : Nat × (Nat ⊕ Nat) => (1 ≤ x.1 ∧ x.1 ≤ 12) ∧ Sum.elim (· < 100) (· < 10) x.2)
      (fun x => monthName x.1 ++ str " " ++ Sum.elim two (fun d => str " " ++ [48 + d]) x.2)
      (fun x => [.tuple [.int x.1, .int (Sum.elim id id x.2 : Nat)]]) (fun _ => [])
  | .asctimeDate => stampD (fun f => f = .asctime ∨ f = .asctimeSpaced) claimedArgs (fun _ => earlyNotes)
  | .obsDate => stampD (· ≠ .imf) claimedArgs (fun f x => earlyNotes x ++ obsoleteNotes f)
  | .httpDate => stampD (fun _ => True) (fun x => [x.value]) (fun f x => x.notes f)

theorem tab_one_single {α : Type} {P : α → Prop} {t : α → Str} {v : α → GVal} {c : α → List PyComplaint} :
    oneD (tabD P t (fun a => [v a]) c) = tabD P t (fun a => [v a]) c := by
  rw [tab_one]; rfl

theorem colon_is : appD skipF (litD (str ":") false) = silentD (str ":") := skip_char (k := 58) (by decide)
theorem hyphen_is : appD skipF (litD (str "-") false) = silentD (str "-") := skip_char (k := 45) (by decide)
theorem skip_sp : appD skipF (octetD spBits) = silentD (str " ") := by rw [sp_is, skip_fixed]; rfl

theorem comma_sp : appD skipF (thenD (litD (str ",") false) (octetD spBits)) = silentD (str ", ") := by
  have : litD (str ",") false = fixedD (str ",") := tab_lit_char (k := 44) (by decide)
  rw [this, sp_is, tab_then, tab_skip]
  exact tab_eq (fun _ => ()) (fun _ => ((), ())) (fun _ _ => ⟨trivial, rfl, rfl, rfl⟩)
    (fun _ _ => ⟨⟨trivial, trivial⟩, rfl, rfl, rfl⟩)

theorem sp_gmt : appD skipF (thenD (octetD spBits) (oneD (wordD (str "GMT")))) = silentD (str " GMT") := by
  rw [sp_is, tab_one, tab_then, tab_skip]
  exact tab_eq (fun _ => ()) (fun _ => ((), ())) (fun _ _ => ⟨trivial, rfl, rfl, rfl⟩)
    (fun _ _ => ⟨⟨trivial, trivial⟩, rfl, rfl, rfl⟩)

theorem date1_den : oneD ((GExpr.app toDateF false
    (.seq (.seq (.seq (.seq (.ref .day) skipSp) (.ref .month)) skipSp) (.ref .year))).den dateD) = dateD .date1 := by
  show oneD (appD toDateF (thenD (thenD (thenD (thenD twoD (appD skipF (octetD spBits))) (numbersD 1 months))
    (appD skipF (octetD spBits))) fourD)) = _
  rw [skip_sp, then_silent, tab_then, then_silent, tab_then, tab_app, tab_one]
  refine tab_eq (fun x => (x.1.1, x.1.2, x.2)) (fun x => ((x.1, x.2.1), x.2.2)) ?_ ?_
  · rintro ⟨⟨d, m⟩, y⟩ ⟨⟨h1, h2, h3⟩, h4⟩
    have h5 : m ≤ 12 := Nat.lt_succ_iff.mp h3
    refine ⟨⟨h1, ⟨h2, h5⟩, h4⟩, rfl, ?_, ?_⟩
    · show argsOf (nodeOf (argsOf (toDateF [.int d, .int m, .int y]).1)) = _
      simp only [toDateF, Int.toNat_natCast, toDate_eq m d h4]
      rfl
    · show [] ++ (toDateF [.int d, .int m, .int y]).2 = _
      simp only [toDateF, Int.toNat_natCast, toDate_eq m d h4]
      rfl
  · rintro ⟨d, m, y⟩ ⟨h1, ⟨h2, h3⟩, h4⟩
    refine ⟨⟨⟨h1, h2, Nat.lt_succ_iff.mpr h3⟩, h4⟩, rfl, ?_, ?_⟩
    · show _ = argsOf (nodeOf (argsOf (toDateF [.int d, .int m, .int y]).1))
      simp only [toDateF, Int.toNat_natCast, toDate_eq m d h4]
      rfl
    · show _ = [] ++ (toDateF [.int d, .int m, .int y]).2
      simp only [toDateF, Int.toNat_natCast, toDate_eq m d h4]
      rfl

theorem date2_den : oneD ((GExpr.app toDateF false
    (.seq (.seq (.seq (.seq (.ref .day) (.skip (.lit (str "-") false))) (.ref .month)) (.skip (.lit (str "-") false)))
      (.app int19F false (.stringTimes 2 (some 2) .digit)))).den dateD) = dateD .date2 := by
  show oneD (appD toDateF (thenD (thenD (thenD (thenD twoD (appD skipF (litD (str "-") false))) (numbersD 1 months))
    (appD skipF (litD (str "-") false)))
    (appD int19F (appD joinF (timesD (octetD digitBits) (octetD digitBits) 2 (some 2)))))) = _
  rw [hyphen_is, then_silent, tab_then, then_silent, year19_den, tab_then, tab_app, tab_one]
  refine tab_eq (fun x => (x.1.1, x.1.2, x.2)) (fun x => ((x.1, x.2.1), x.2.2)) ?_ ?_
  · rintro ⟨⟨d, m⟩, y⟩ ⟨⟨h1, h2, h3⟩, h4, h6⟩
    have h5 : m ≤ 12 := Nat.lt_succ_iff.mp h3
    have h7 : y < 10000 := Nat.lt_of_lt_of_le h6 (by decide)
    refine ⟨⟨h1, ⟨h2, h5⟩, h4, h6⟩, rfl, ?_, ?_⟩
    · show argsOf (nodeOf (argsOf (toDateF [.int d, .int m, .int y]).1)) = _
      simp only [toDateF, Int.toNat_natCast, toDate_eq m d h7]
      rfl
    · show [] ++ (toDateF [.int d, .int m, .int y]).2 = _
      simp only [toDateF, Int.toNat_natCast, toDate_eq m d h7]
      rfl
  · rintro ⟨d, m, y⟩ ⟨h1, ⟨h2, h3⟩, h4, h6⟩
    have h7 : y < 10000 := Nat.lt_of_lt_of_le h6 (by decide)
    refine ⟨⟨⟨h1, h2, Nat.lt_succ_iff.mpr h3⟩, h4, h6⟩, rfl, ?_, ?_⟩
    · show _ = argsOf (nodeOf (argsOf (toDateF [.int d, .int m, .int y]).1))
      simp only [toDateF, Int.toNat_natCast, toDate_eq m d h7]
      rfl
    · show _ = [] ++ (toDateF [.int d, .int m, .int y]).2
      simp only [toDateF, Int.toNat_natCast, toDate_eq m d h7]
      rfl

theorem time_den : oneD ((GExpr.app toTimeF false
    (.seq (.seq (.seq (.seq (.ref .hour) (.skip (.lit (str ":") false))) (.ref .minute)) (.skip (.lit (str ":") false)))
      (.ref .second))).den dateD) = dateD .timeOfDay := by
  show oneD (appD toTimeF (thenD (thenD (thenD (thenD twoD (appD skipF (litD (str ":") false))) twoD)
    (appD skipF (litD (str ":") false))) twoD)) = _
  rw [colon_is, then_silent, tab_then, then_silent, tab_then, tab_app, tab_one]
  refine tab_eq (fun x => (x.1.1, x.1.2, x.2)) (fun x => ((x.1, x.2.1), x.2.2)) ?_ ?_
  · rintro ⟨⟨h, m⟩, s⟩ ⟨⟨h1, h2⟩, h3⟩
    refine ⟨⟨h1, h2, h3⟩, rfl, ?_, ?_⟩
    · show argsOf (nodeOf (argsOf (toTimeF [.int h, .int m, .int s]).1)) = _
      simp only [toTimeF, Int.toNat_natCast, toTime_eq]
      rfl
    · show [] ++ (toTimeF [.int h, .int m, .int s]).2 = _
      simp only [toTimeF, Int.toNat_natCast, toTime_eq]
      rfl
  · rintro ⟨h, m, s⟩ ⟨h1, h2, h3⟩
    refine ⟨⟨⟨h1, h2⟩, h3⟩, rfl, ?_, ?_⟩
    · show _ = argsOf (nodeOf (argsOf (toTimeF [.int h, .int m, .int s]).1))
      simp only [toTimeF, Int.toNat_natCast, toTime_eq]
      rfl
    · show _ = [] ++ (toTimeF [.int h, .int m, .int s]).2
      simp only [toTimeF, Int.toNat_natCast, toTime_eq]
      rfl

/-- Put a date together. -/
abbrev stampOf (k : Nat) (d t : Nat × Nat × Nat) : Stamp := ⟨k, d.2.2, d.2.1, d.1, t.1, t.2.1, t.2.2⟩

theorem toDatetimeF_eq (x : Stamp) :
    toDatetimeF [.int x.dow, dateValue x.year x.month x.day, timeValue x.hour x.minute x.second] =
      (.val (.tuple [.int x.dow, x.value]), []) := by
  show (Node.val (GVal.tuple [.int x.dow, toDatetime _ _]), []) = _
  rw [toDatetime_eq]

theorem imf_den : oneD ((GExpr.app toDatetimeF false
    (.seq (.seq (.seq (.seq (.seq (.ref .dayName) (.skip (.seq (.lit (str ",") false) .sp))) (.ref .date1)) skipSp)
      (.ref .timeOfDay)) (.skip (.seq .sp (.ref .gmt))))).den dateD) = dateD .imfFixdate := by
  show oneD (appD toDatetimeF (thenD (thenD (thenD (thenD (thenD (numbersD 0 shortDays)
    (appD skipF (thenD (litD (str ",") false) (octetD spBits)))) (dateD .date1)) (appD skipF (octetD spBits)))
    (dateD .timeOfDay)) (appD skipF (thenD (octetD spBits) (oneD (wordD (str "GMT"))))))) = _
  rw [comma_sp, skip_sp, sp_gmt, then_silent]
  simp only [dateD]
  rw [tab_then, then_silent, tab_then, then_silent, tab_app, tab_one]
  refine tab_eq (fun x => (.imf, stampOf x.1.1 x.1.2 x.2))
    (fun x => ((x.2.dow, x.2.day, x.2.month, x.2.year), x.2.hour, x.2.minute, x.2.second)) ?_ ?_
  · rintro ⟨⟨k, d, m, y⟩, h, mi, s⟩ ⟨⟨⟨_, h1⟩, h2, ⟨h3, h4⟩, h5⟩, h6, h7, h8⟩
    refine ⟨⟨rfl, Nat.lt_of_lt_of_le h1 (by decide), h3, h4, h6, h7, h8, h2, h5⟩, ?_, ?_, ?_⟩
    · simp only [Stamp.text, List.append_assoc, Nat.sub_zero]
    · show argsOf (nodeOf (argsOf (toDatetimeF [.int k, dateValue y m d, timeValue h mi s]).1)) = _
      rw [toDatetimeF_eq ⟨k, y, m, d, h, mi, s⟩]
      rfl
    · show [] ++ noDayNotes y m d ++ noTimeNotes h mi s ++
        (toDatetimeF [.int k, dateValue y m d, timeValue h mi s]).2 = _
      rw [toDatetimeF_eq ⟨k, y, m, d, h, mi, s⟩]
      exact List.append_nil _
  · rintro ⟨_, ⟨k, y, m, d, h, mi, s⟩⟩ ⟨rfl, h1, h3, h4, h6, h7, h8, h2, h5⟩
    refine ⟨⟨⟨⟨Nat.zero_le _, Nat.lt_of_lt_of_le h1 (by decide)⟩, h2, ⟨h3, h4⟩, h5⟩, h6, h7, h8⟩, ?_, ?_, ?_⟩
    · simp only [Stamp.text, List.append_assoc, Nat.sub_zero]
    · show _ = argsOf (nodeOf (argsOf (toDatetimeF [.int k, dateValue y m d, timeValue h mi s]).1))
      rw [toDatetimeF_eq ⟨k, y, m, d, h, mi, s⟩]
      rfl
    · show _ = [] ++ noDayNotes y m d ++ noTimeNotes h mi s ++
        (toDatetimeF [.int k, dateValue y m d, timeValue h mi s]).2
      rw [toDatetimeF_eq ⟨k, y, m, d, h, mi, s⟩]
      exact (List.append_nil _).symm

theorem rfc850_den : oneD ((GExpr.app toDatetimeF false
    (.seq (.seq (.seq (.seq (.seq (.ref .dayNameL) (.skip (.seq (.lit (str ",") false) .sp))) (.ref .date2)) skipSp)
      (.ref .timeOfDay)) (.skip (.seq .sp (.ref .gmt))))).den dateD) = dateD .rfc850Date := by
  show oneD (appD toDatetimeF (thenD (thenD (thenD (thenD (thenD (numbersD 0 longDays)
    (appD skipF (thenD (litD (str ",") false) (octetD spBits)))) (dateD .date2)) (appD skipF (octetD spBits)))
    (dateD .timeOfDay)) (appD skipF (thenD (octetD spBits) (oneD (wordD (str "GMT"))))))) = _
  rw [comma_sp, skip_sp, sp_gmt, then_silent]
  simp only [dateD]
  rw [tab_then, then_silent, tab_then, then_silent, tab_app, tab_one]
  refine tab_eq (fun x => (.rfc850, stampOf x.1.1 x.1.2 x.2))
    (fun x => ((x.2.dow, x.2.day, x.2.month, x.2.year), x.2.hour, x.2.minute, x.2.second)) ?_ ?_
  · rintro ⟨⟨k, d, m, y⟩, h, mi, s⟩ ⟨⟨⟨_, h1⟩, h2, ⟨h3, h4⟩, h5⟩, h6, h7, h8⟩
    refine ⟨⟨rfl, Nat.lt_of_lt_of_le h1 (by decide), h3, h4, h6, h7, h8, h2, h5⟩, ?_, ?_, ?_⟩
    · simp only [Stamp.text, List.append_assoc, Nat.sub_zero]
    · show argsOf (nodeOf (argsOf (toDatetimeF [.int k, dateValue y m d, timeValue h mi s]).1)) = _
      rw [toDatetimeF_eq ⟨k, y, m, d, h, mi, s⟩]
      rfl
    · show [] ++ noDayNotes y m d ++ noTimeNotes h mi s ++
        (toDatetimeF [.int k, dateValue y m d, timeValue h mi s]).2 = _
      rw [toDatetimeF_eq ⟨k, y, m, d, h, mi, s⟩]
      exact List.append_nil _
  · rintro ⟨_, ⟨k, y, m, d, h, mi, s⟩⟩ ⟨rfl, h1, h3, h4, h6, h7, h8, h2, h5⟩
    refine ⟨⟨⟨⟨Nat.zero_le _, Nat.lt_of_lt_of_le h1 (by decide)⟩, h2, ⟨h3, h4⟩, h5⟩, h6, h7, h8⟩, ?_, ?_, ?_⟩
    · simp only [Stamp.text, List.append_assoc, Nat.sub_zero]
    · show _ = argsOf (nodeOf (argsOf (toDatetimeF [.int k, dateValue y m d, timeValue h mi s]).1))
      rw [toDatetimeF_eq ⟨k, y, m, d, h, mi, s⟩]
      rfl
    · show _ = [] ++ noDayNotes y m d ++ noTimeNotes h mi s ++
        (toDatetimeF [.int k, dateValue y m d, timeValue h mi s]).2
      rw [toDatetimeF_eq ⟨k, y, m, d, h, mi, s⟩]
      exact (List.append_nil _).symm

theorem one_digit : appD intF (thenD (silentD (str " ")) (octetD digitBits)) =
    tabD (fun d : Nat => d < 10) (fun d => str " " ++ [48 + d]) (fun d => [.int d]) (fun _ => []) := by
  rw [tab_chars, silent_then, tab_app]
  refine tab_eq (fun c => c - 48) (fun d => 48 + d) ?_ ?_
  · intro c hc
    have hc := (digit_iff c).mp hc
    have : 48 + (c - 48) = c := by omega
    refine ⟨by omega, by rw [this], ?_, rfl⟩
    show [GVal.int ((0 * 10 + (c - 48) : Nat) : Int)] = [GVal.int ((c - 48 : Nat) : Int)]
    rw [Nat.zero_mul, Nat.zero_add]
  · intro d hd
    refine ⟨(digit_iff _).mpr ⟨by omega, by omega⟩, rfl, ?_, rfl⟩
    show [GVal.int (d : Int)] = [GVal.int ((0 * 10 + (48 + d - 48) : Nat) : Int)]
    rw [Nat.zero_mul, Nat.zero_add, Nat.add_sub_cancel_left]

theorem date3_den : oneD ((GExpr.seq (.seq (.ref .month) skipSp)
    (.alt (digitsE 2) (.app intF false (.seq skipSp .digit)))).den dateD) = dateD .date3 := by
  show oneD (thenD (thenD (numbersD 1 months) (appD skipF (octetD spBits)))
    (oneD (orD (appD intF (appD joinF (timesD (octetD digitBits) (octetD digitBits) 2 (some 2))))
      (appD intF (thenD (appD skipF (octetD spBits)) (octetD digitBits)))))) = _
  rw [skip_sp, then_silent, two_den, one_digit, tab_or, tab_one, tab_then, tab_one]
  refine tab_eq (fun x => x) (fun x => x) ?_ ?_
  · rintro ⟨m, d | d⟩ ⟨⟨h1, h2⟩, h3⟩ <;> exact ⟨⟨⟨h1, Nat.lt_succ_iff.mp h2⟩, h3⟩, rfl, rfl, rfl⟩
  · rintro ⟨m, d | d⟩ ⟨⟨h1, h2⟩, h3⟩ <;> exact ⟨⟨⟨h1, Nat.lt_succ_iff.mpr h2⟩, h3⟩, rfl, rfl, rfl⟩

/-- The format that goes with the day. -/
def asctimeFormat : Nat ⊕ Nat → DateFormat
  | .inl _ => .asctime
  | .inr _ => .asctimeSpaced

/-- The day in the format. -/
def asctimeDay : DateFormat → Nat → Nat ⊕ Nat
  | .asctimeSpaced, d => .inr d
  | _, d => .inl d

theorem fromAsctime_eq (x : Stamp) (hy : x.year < 10000) :
    fromAsctimeF [.int x.dow, .tuple [.int x.month, .int x.day], timeValue x.hour x.minute x.second, .int x.year] =
      (.val (.tuple [.int x.dow, x.value]), noDayNotes x.year x.month x.day) := by
  simp only [fromAsctimeF, Int.toNat_natCast, toDate_eq x.month x.day hy, toDatetime_eq]

theorem asctime_den : Alike (oneD ((GExpr.app fromAsctimeF false
    (.seq (.seq (.seq (.seq (.seq (.seq (.ref .dayName) skipSp) (.ref .date3)) skipSp) (.ref .timeOfDay)) skipSp)
      (.ref .year))).den dateD)) (dateD .asctimeDate) := by
  show Alike (oneD (appD fromAsctimeF (thenD (thenD (thenD (thenD (thenD (thenD (numbersD 0 shortDays)
    (appD skipF (octetD spBits))) (dateD .date3)) (appD skipF (octetD spBits)))
    (dateD .timeOfDay)) (appD skipF (octetD spBits))) fourD))) _
  rw [skip_sp, then_silent]
  simp only [dateD]
  rw [tab_then, then_silent, tab_then, then_silent, tab_then, tab_app, tab_one]
  refine tab_alike (fun x => (asctimeFormat x.1.1.2.2,
      ⟨x.1.1.1, x.2, x.1.1.2.1, Sum.elim id id x.1.1.2.2, x.1.2.1, x.1.2.2.1, x.1.2.2.2⟩))
    (fun x => (((x.2.dow, x.2.month, asctimeDay x.1 x.2.day), x.2.hour, x.2.minute, x.2.second), x.2.year)) ?_ ?_
  · rintro ⟨⟨⟨k, m, d⟩, h, mi, s⟩, y⟩ ⟨⟨⟨⟨_, h1⟩, ⟨h3, h4⟩, h2⟩, h6, h7, h8⟩, h5⟩
    refine ⟨?_, ?_, ?_, ?_⟩
    · cases d with
      | inl d => exact ⟨.inl rfl, Nat.lt_of_lt_of_le h1 (by decide), h3, h4, h6, h7, h8, h2, h5⟩
      | inr d => exact ⟨.inr rfl, Nat.lt_of_lt_of_le h1 (by decide), h3, h4, h6, h7, h8, h2, h5⟩
    · cases d <;> simp [Stamp.text, asctimeFormat]
    · show argsOf (nodeOf (argsOf (fromAsctimeF [.int k, .tuple [.int m, .int (Sum.elim id id d : Nat)],
        timeValue h mi s, .int y]).1)) = _
      rw [fromAsctime_eq ⟨k, y, m, Sum.elim id id d, h, mi, s⟩ h5]
      rfl
    · show (([] ++ [] ++ noTimeNotes h mi s) ++ [] ++ (fromAsctimeF [.int k, .tuple [.int m, .int (Sum.elim id id d : Nat)],
        timeValue h mi s, .int y]).2).Perm _
      rw [fromAsctime_eq ⟨k, y, m, Sum.elim id id d, h, mi, s⟩ h5]
      simp only [List.append_nil, List.nil_append]
      exact List.perm_append_comm
  · rintro ⟨f, ⟨k, y, m, d, h, mi, s⟩⟩ ⟨hf, h1, h3, h4, h6, h7, h8, h2, h5⟩
    have hd : Sum.elim id id (asctimeDay f d) = d := by rcases hf with rfl | rfl <;> rfl
    refine ⟨?_, ?_, ?_, ?_⟩
    · refine ⟨⟨⟨⟨Nat.zero_le _, Nat.lt_of_lt_of_le h1 (by decide)⟩, ⟨h3, h4⟩, ?_⟩, h6, h7, h8⟩, ?_⟩
      · rcases hf with rfl | rfl <;> exact h2
      · rcases hf with rfl | rfl <;> exact h5
    · rcases hf with rfl | rfl <;> simp [Stamp.text, asctimeDay]
    · show _ = argsOf (nodeOf (argsOf (fromAsctimeF [.int k, .tuple [.int m, .int (Sum.elim id id (asctimeDay f d) : Nat)],
        timeValue h mi s, .int y]).1))
      rw [hd, fromAsctime_eq ⟨k, y, m, d, h, mi, s⟩ (by rcases hf with rfl | rfl <;> exact h5)]
      rfl
    · show (noDayNotes y m d ++ noTimeNotes h mi s).Perm (([] ++ [] ++ noTimeNotes h mi s) ++ [] ++
        (fromAsctimeF [.int k, .tuple [.int m, .int (Sum.elim id id (asctimeDay f d) : Nat)], timeValue h mi s, .int y]).2)
      rw [hd, fromAsctime_eq ⟨k, y, m, d, h, mi, s⟩ (by rcases hf with rfl | rfl <;> exact h5)]
      simp only [List.append_nil, List.nil_append]
      exact List.perm_append_comm

theorem obs_den : oneD ((GExpr.alt (.app obsoleteDateF false (.ref .rfc850Date))
    (.app obsoleteDateF false (.ref .asctimeDate))).den dateD) = dateD .obsDate := by
  show oneD (orD (appD obsoleteDateF (dateD .rfc850Date)) (appD obsoleteDateF (dateD .asctimeDate))) = _
  simp only [dateD]
  rw [tab_app, tab_app, tab_or, tab_one]
  refine tab_eq (Sum.elim id id) (fun x => if x.1 = .rfc850 then .inl x else .inr x) ?_ ?_
  · rintro (⟨f, x⟩ | ⟨f, x⟩) ⟨h1, h2⟩
    · have h1 : f = .rfc850 := h1
      subst h1
      exact ⟨⟨nofun, h2⟩, rfl, rfl, rfl⟩
    · have h1 : f = .asctime ∨ f = .asctimeSpaced := h1
      rcases h1 with rfl | rfl <;> exact ⟨⟨nofun, h2⟩, rfl, rfl, rfl⟩
  · rintro ⟨f, x⟩ ⟨h1, h2⟩
    cases f with
    | imf => exact absurd rfl h1
    | rfc850 => exact ⟨⟨rfl, h2⟩, rfl, rfl, rfl⟩
    | asctime => exact ⟨⟨.inl rfl, h2⟩, rfl, rfl, rfl⟩
    | asctimeSpaced => exact ⟨⟨.inr rfl, h2⟩, rfl, rfl, rfl⟩

theorem http_den : oneD ((GExpr.alt (.app checkDayF false (.ref .imfFixdate))
    (.app checkDayF false (.ref .obsDate))).den dateD) = dateD .httpDate := by
  show oneD (orD (appD checkDayF (dateD .imfFixdate)) (appD checkDayF (dateD .obsDate))) = _
  simp only [dateD]
  rw [tab_app, tab_app, tab_or, tab_one]
  refine tab_eq (Sum.elim id id) (fun x => if x.1 = .imf then .inl x else .inr x) ?_ ?_
  · rintro (⟨f, x⟩ | ⟨f, x⟩) ⟨h1, h2⟩
    · have h1 : f = .imf := h1
      subst h1
      refine ⟨⟨trivial, h2⟩, rfl, ?_, ?_⟩
      · show argsOf (nodeOf (argsOf (checkDayF [.tuple [.int x.dow, x.value]]).1)) = _
        rw [checkDay_eq]; rfl
      · show earlyNotes x ++ (checkDayF [.tuple [.int x.dow, x.value]]).2 = _
        rw [checkDay_eq]
        simp [earlyNotes, Stamp.notes, obsoleteNotes]
    · refine ⟨⟨trivial, h2⟩, rfl, ?_, ?_⟩
      · show argsOf (nodeOf (argsOf (checkDayF [.tuple [.int x.dow, x.value]]).1)) = _
        rw [checkDay_eq]; rfl
      · show earlyNotes x ++ obsoleteNotes f ++ (checkDayF [.tuple [.int x.dow, x.value]]).2 = _
        rw [checkDay_eq]
        rfl
  · rintro ⟨f, x⟩ ⟨_, h2⟩
    by_cases hf : f = .imf
    · subst hf
      refine ⟨⟨rfl, h2⟩, rfl, ?_, ?_⟩
      · show _ = argsOf (nodeOf (argsOf (checkDayF [.tuple [.int x.dow, x.value]]).1))
        rw [checkDay_eq]; rfl
      · show _ = earlyNotes x ++ (checkDayF [.tuple [.int x.dow, x.value]]).2
        rw [checkDay_eq]
        simp [earlyNotes, Stamp.notes, obsoleteNotes]
    · simp only [hf, if_false]
      refine ⟨⟨hf, h2⟩, rfl, ?_, ?_⟩
      · show _ = argsOf (nodeOf (argsOf (checkDayF [.tuple [.int x.dow, x.value]]).1))
        rw [checkDay_eq]; rfl
      · show _ = earlyNotes x ++ obsoleteNotes f ++ (checkDayF [.tuple [.int x.dow, x.value]]).2
        rw [checkDay_eq]
        rfl

/-- Nothing is used before it is defined. -/
local macro "fine" : tactic => `(tactic|
  simp [Defn.Fine, GExpr.Fine, GExpr.numberedFrom, GExpr.numbered, GExpr.word, GExpr.octets, str])

theorem two_one : oneD ((digitsE 2).den dateD) = twoD := by
  show oneD (appD intF (appD joinF (timesD (octetD digitBits) (octetD digitBits) 2 (some 2)))) = _
  rw [two_den, tab_one_single]

theorem four_one : oneD ((digitsE 4).den dateD) = fourD := by
  show oneD (appD intF (appD joinF (timesD (octetD digitBits) (octetD digitBits) 4 (some 4)))) = _
  rw [four_den, tab_one_single]

theorem numbers_one (k : Nat) {ws : List Str} (hw : ws ≠ []) :
    oneD ((GExpr.numberedFrom k ws).den dateD) = numbersD k ws := by
  rw [numberedFrom_den k hw, tab_one_single]

/-- The grammar of dates. -/
theorem dates_solve : Solves [] dateD dateDefs := by
  refine ⟨by fine, named_alike (.of_eq (numbers_one 0 (ws := shortDays) (by simp [shortDays]))), ?_⟩
  refine ⟨by fine, named_alike (.of_eq two_one), ?_⟩
  refine ⟨by fine, named_alike (.of_eq (numbers_one 1 (ws := months) (by simp [months]))), ?_⟩
  refine ⟨by fine, named_alike (.of_eq four_one), ?_⟩
  refine ⟨by fine, named_alike (.of_eq date1_den), ?_⟩
  refine ⟨by fine, named_alike (.of_eq two_one), ?_⟩
  refine ⟨by fine, named_alike (.of_eq two_one), ?_⟩
  refine ⟨by fine, named_alike (.of_eq two_one), ?_⟩
  refine ⟨by fine, named_alike (.of_eq time_den), ?_⟩
  refine ⟨by fine, named_alike (.of_eq (congrArg oneD (word_den _))), ?_⟩
  refine ⟨by fine, named_alike (.of_eq imf_den), ?_⟩
  refine ⟨by fine, named_alike (.of_eq (numbers_one 0 (ws := longDays) (by simp [longDays]))), ?_⟩
  refine ⟨by fine, named_alike (.of_eq date2_den), ?_⟩
  refine ⟨by fine, named_alike (.of_eq rfc850_den), ?_⟩
  refine ⟨by fine, named_alike (.of_eq date3_den), ?_⟩
  refine ⟨by fine, named_alike asctime_den, ?_⟩
  refine ⟨by fine, named_alike (.of_eq obs_den), ?_⟩
  refine ⟨by fine, named_alike (.of_eq http_den), ?_⟩
  trivial

end Httpolice.Lemmas
