import Verif.Lemmas.TabList
import Verif.Lemmas.Dates
import Verif.Model.Rfc7233
import Verif.Spec.Ranges

/-!
# What the names of the grammar of ranges come to
-/

namespace Httpolice.Lemmas

open Httpolice.Model Httpolice.Spec

/-! ## Reindexing -/

section
variable {α β : Type} {P : α → Prop} {t : α → Str} {v : α → List GVal} {c : α → List PyComplaint}

/-- Other descriptions of the same texts. -/
theorem tab_iff {Q : β → Prop} {t' : β → Str} {v' : β → List GVal} {c' : β → List PyComplaint}
    (h1 : ∀ a, P a → ∃ b, Q b ∧ t a = t' b ∧ v a = v' b ∧ c a = c' b)
    (h2 : ∀ b, Q b → ∃ a, P a ∧ t' b = t a ∧ v' b = v a ∧ c' b = c a) :
    tabD P t v c = tabD Q t' v' c' := by
  funext w vs cs
  refine propext ⟨?_, ?_⟩
  · rintro ⟨a, h, rfl, rfl, rfl⟩
    obtain ⟨b, k1, k2, k3, k4⟩ := h1 a h
    exact ⟨b, k1, k2, k3, k4⟩
  · rintro ⟨b, h, rfl, rfl, rfl⟩
    obtain ⟨a, k1, k2, k3, k4⟩ := h2 b h
    exact ⟨a, k1, k2, k3, k4⟩

/-- A pure function of what there is. -/
theorem tab_class (cls : Str) : appD (classF cls) (tabD P t v c) = tabD P t (fun a => [.obj cls (v a)]) c := by
  rw [tab_app]
  exact tab_eq (fun a => a) (fun a => a) (fun a h => ⟨h, rfl, rfl, List.append_nil _⟩)
    (fun a h => ⟨h, rfl, rfl, (List.append_nil _).symm⟩)

end

/-! ## Pieces -/

theorem decimal_numeral (w : Str) : decimal w = numeral w := by
  unfold decimal numeral
  have : (fun (n c : Nat) => n * 10 + (c - 48)) = fun n c => 10 * n + (c - 48) := by
    funext n c
    rw [Nat.mul_comm]
  rw [this]

theorem string1_den (bits : Nat → Bool) : appD joinF (timesD (octetD bits) (octetD bits) 1 none) =
    tabD (fun w : Str => w ≠ [] ∧ ∀ c ∈ w, bits c = true) (fun w => w) (fun w => [.text w]) (fun _ => []) := by
  rw [tab_stringTimes bits 1 none nofun]
  refine tab_eq (fun w => w) (fun w => w) (fun w h => ⟨⟨?_, h.1⟩, rfl, rfl, rfl⟩) (fun w h => ⟨⟨h.2, ?_, nofun⟩, rfl, rfl, rfl⟩)
  · rintro rfl
    exact absurd h.2.1 (by simp)
  · cases w with
    | nil => exact absurd rfl h.1
    | cons _ _ => simp

theorem string_den (bits : Nat → Bool) : appD joinF (timesD (octetD bits) (octetD bits) 0 none) =
    tabD (fun w : Str => ∀ c ∈ w, bits c = true) (fun w => w) (fun w => [.text w]) (fun _ => []) := by
  rw [tab_stringTimes bits 0 none nofun]
  exact tab_eq (fun w => w) (fun w => w) (fun w h => ⟨h.1, rfl, rfl, rfl⟩)
    (fun w h => ⟨⟨h, Nat.zero_le _, nofun⟩, rfl, rfl, rfl⟩)

/-- A number. -/
abbrev numberD : Den := tabD IsNumeral (fun w => w) (fun w => [.int (numeral w)]) (fun _ => [])

theorem number_den : appD intF (appD joinF (timesD (octetD digitBits) (octetD digitBits) 1 none)) = numberD := by
  rw [string1_den, tab_app]
  refine tab_eq (fun w => w) (fun w => w) ?_ ?_
  · rintro w ⟨h1, h2⟩
    refine ⟨⟨h1, fun c hc => (digit_iff c).mp (h2 c hc)⟩, rfl, ?_, rfl⟩
    show [GVal.int (decimal w : Nat)] = _
    rw [decimal_numeral]
  · rintro w ⟨h1, h2⟩
    refine ⟨⟨h1, fun c hc => (digit_iff c).mpr (h2 c hc)⟩, rfl, ?_, rfl⟩
    show _ = [GVal.int (decimal w : Nat)]
    rw [decimal_numeral]

theorem number_one : oneD (numberE.den δ) = numberD := by
  show oneD (appD intF (appD joinF (timesD (octetD digitBits) (octetD digitBits) 1 none))) = _
  rw [number_den, tab_one_single]

theorem tchar_iff (c : Nat) : tcharBits c = true ↔ IsTchar c := by
  have hs : str "!#$%&'*+-.^_`|~" = [33, 35, 36, 37, 38, 39, 42, 43, 45, 46, 94, 95, 96, 124, 126] := by decide +kernel
  unfold tcharBits IsTchar
  rw [hs]
  simp only [Bool.or_eq_true, List.contains_iff_mem, decide_eq_true_eq, digit_iff]
  constructor
  · rintro (((h | h) | h) | h)
    · exact .inr (.inr (.inr h))
    · exact .inr (.inr (.inl h))
    · exact .inl h
    · exact .inr (.inl h)
  · rintro (h | h | h | h)
    · exact .inl (.inr h)
    · exact .inr h
    · exact .inl (.inl (.inr h))
    · exact .inl (.inl (.inl h))

theorem sameWord_nil {w : Str} : SameWord w [] ↔ w = [] := by
  constructor
  · intro h
    cases h
    rfl
  · rintro rfl
    exact .nil

/-- `token__excluding(['bytes'])`. -/
theorem other_unit : exclD tcharBits [[], str "bytes"] =
    tabD (fun w => IsToken w ∧ ¬ IsBytes w) (fun w => w) (fun w => [.text w]) (fun _ => []) := by
  rw [tab_excl]
  refine tab_eq (fun w => w) (fun w => w) ?_ ?_
  · rintro w ⟨h1, h2⟩
    refine ⟨⟨⟨?_, fun c hc => (tchar_iff c).mp (h1 c hc)⟩, h2 _ (.tail _ (.head _))⟩, rfl, rfl, rfl⟩
    rintro rfl
    exact h2 [] (.head _) .nil
  · rintro w ⟨⟨h1, h2⟩, h3⟩
    refine ⟨⟨fun c hc => (tchar_iff c).mpr (h2 c hc), ?_⟩, rfl, rfl, rfl⟩
    intro x hx
    simp only [List.mem_cons, List.not_mem_nil, or_false] at hx
    rcases hx with rfl | rfl
    · exact fun k => h1 (sameWord_nil.mp k)
    · exact h3

/-! ## Names -/

/-- What the names come to. -/
noncomputable def rangeD : RangeName → Den
  | .ows => spacesD
  | .bytesUnit => tabD IsBytes (fun w => w) (fun w => [unitValue w]) (fun _ => [])
  | .otherRangeUnit => tabD (fun w => IsToken w ∧ ¬ IsBytes w) (fun w => w) (fun w => [unitValue w]) (fun _ => [])
  | .rangeUnit => tabD IsToken (fun w => w) (fun w => [unitValue w]) (fun _ => [])
  | .rangeUnits => tabD (fun l : List1Syn Str => l.Ok IsToken) (fun l => l.text id)
      (fun l => [.list (l.elems.map unitValue)]) (fun l => gapNotes l.Gaps)
  | .acceptableRanges | .acceptRanges => tabD AcceptRangesSyn.Ok AcceptRangesSyn.text (fun x => [x.value]) AcceptRangesSyn.notes
  | .firstBytePos | .lastBytePos | .suffixLength | .completeLength => numberD
  | .byteRangeSpec => tabD (fun x : Str × Option Str => IsNumeral x.1 ∧ optT True IsNumeral x.2)
      (fun x => (optT (ByteSpec.onwards x.1) (ByteSpec.between x.1) x.2).text)
      (fun x => [(optT (ByteSpec.onwards x.1) (ByteSpec.between x.1) x.2).value])
      (fun x => (optT (ByteSpec.onwards x.1) (ByteSpec.between x.1) x.2).notes)
  | .suffixByteRangeSpec => tabD IsNumeral (fun n => (ByteSpec.suffix n).text) (fun n => [(ByteSpec.suffix n).value])
      (fun _ => [])
  | .byteRanges | .byteRangeSet => tabD (fun l : List1Syn ByteSpec => l.Ok ByteSpec.Ok) (fun l => l.text ByteSpec.text)
      (fun l => [.list (l.elems.map ByteSpec.value)]) (fun l => l.elems.flatMap ByteSpec.notes ++ gapNotes l.Gaps)
  | .byteRangesSpecifier => tabD (fun x : Str × List1Syn ByteSpec => (RangeSyn.bytes x.1 x.2).Ok)
      (fun x => (RangeSyn.bytes x.1 x.2).text) (fun x => [(RangeSyn.bytes x.1 x.2).value])
      (fun x => (RangeSyn.bytes x.1 x.2).notes)
  | .otherRangeSet => tabD (fun w : Str => w ≠ [] ∧ ∀ c ∈ w, 33 ≤ c ∧ c ≤ 126) (fun w => w) (fun w => [.text w]) (fun _ => [])
  | .otherRangesSpecifier => tabD (fun x : Str × Str => (RangeSyn.other x.1 x.2).Ok)
      (fun x => (RangeSyn.other x.1 x.2).text) (fun x => [(RangeSyn.other x.1 x.2).value]) (fun _ => [])
  | .range => tabD RangeSyn.Ok RangeSyn.text (fun x => [x.value]) RangeSyn.notes
  | .byteRange => tabD (fun x : Str × Str => IsNumeral x.1 ∧ IsNumeral x.2) (fun x => x.1 ++ str "-" ++ x.2)
      (fun x => [.tuple [.int (numeral x.1), .int (numeral x.2)]]) (fun _ => [])
  | .byteRangeResp => tabD
      (fun x : (Str × Str) × Option Str => (IsNumeral x.1.1 ∧ IsNumeral x.1.2) ∧ optT True IsNumeral x.2)
      (fun x => x.1.1 ++ str "-" ++ x.1.2 ++ str "/" ++ x.2.getD (str "*"))
      (fun x => [.tuple [.tuple [.int (numeral x.1.1), .int (numeral x.1.2)], completeValue x.2]]) (fun _ => [])
  | .unsatisfiedRange => tabD IsNumeral (fun n => str "*/" ++ n) (fun n => [.tuple [.none, .int (numeral n)]]) (fun _ => [])
  | .byteContentRange => tabD (fun x : ContentRangeSyn => x.Ok ∧ ∀ u v, x ≠ .other u v) ContentRangeSyn.text
      (fun x => [x.value]) ContentRangeSyn.notes
  | .otherRangeResp => tabD (fun w : Str => ∀ c ∈ w, 1 ≤ c ∧ c ≤ 127) (fun w => w) (fun w => [.text w]) (fun _ => [])
  | .otherContentRange => tabD (fun x : Str × Str => (ContentRangeSyn.other x.1 x.2).Ok)
      (fun x => (ContentRangeSyn.other x.1 x.2).text) (fun x => [(ContentRangeSyn.other x.1 x.2).value]) (fun _ => [])
  | .contentRange => tabD ContentRangeSyn.Ok ContentRangeSyn.text (fun x => [x.value]) ContentRangeSyn.notes

theorem ows_den {N : Type} {δ : N → Den} : oneD ((GExpr.string (.chars spHtabBits false)).den δ) = spacesD := by
  show oneD (appD joinF (timesD (octetD spHtabBits) (octetD spHtabBits) 0 none)) = spacesD
  rw [string_den, tab_one_single]
  have hb : ∀ c, spHtabBits c = true ↔ c = 32 ∨ c = 9 := by
    intro c
    unfold spHtabBits
    simp only [Bool.or_eq_true, decide_eq_true_eq]
    omega
  funext w vs cs
  refine propext ⟨?_, ?_⟩
  · rintro ⟨w, h, rfl, rfl, rfl⟩
    exact ⟨fun c hc => (hb c).mp (h c hc), rfl, rfl⟩
  · rintro ⟨h, rfl, rfl⟩
    exact ⟨w, fun c hc => (hb c).mpr (h c hc), rfl, rfl, rfl⟩

theorem bytes_den : oneD ((GExpr.app (classF (str "RangeUnit")) true (.lit (str "bytes") false)).den rangeD) =
    rangeD .bytesUnit := by
  show oneD (appD (classF (str "RangeUnit")) (litD (str "bytes") false)) = _
  rw [tab_lit, tab_class, tab_one_single]
  rfl

theorem otherUnit_den (order : List Nat → List Nat) :
    oneD ((GExpr.app (classF (str "RangeUnit")) true (.excl order tcharBits true [[], str "bytes"])).den rangeD) =
    rangeD .otherRangeUnit := by
  show oneD (appD (classF (str "RangeUnit")) (exclD tcharBits [[], str "bytes"])) = _
  rw [other_unit, tab_class, tab_one_single]
  rfl

theorem sameLetter_tchar {c d : Nat} (hd : 97 ≤ d ∧ d ≤ 122) (h : SameLetter c d) : IsTchar c := by
  unfold SameLetter at h
  unfold IsTchar
  omega

theorem isBytes_token {w : Str} (h : IsBytes w) : IsToken w := by
  have key : ∀ (v : Str), (∀ c ∈ v, 97 ≤ c ∧ c ≤ 122) → ∀ w, SameWord w v → ∀ c ∈ w, IsTchar c := by
    intro v hv w hw
    induction hw with
    | nil => exact nofun
    | cons hl _ ih =>
      obtain ⟨k1, k2⟩ := List.forall_mem_cons.mp hv
      exact List.forall_mem_cons.mpr ⟨sameLetter_tchar k1 hl, ih k2⟩
  refine ⟨?_, key _ (by decide +kernel) w h⟩
  rintro rfl
  have h : SameWord [] (str "bytes") := h
  revert h
  have : str "bytes" = [98, 121, 116, 101, 115] := by decide +kernel
  rw [this]
  exact nofun

theorem unit_den : oneD ((GExpr.alt (.ref .bytesUnit) (.ref .otherRangeUnit)).den rangeD) = rangeD .rangeUnit := by
  show oneD (orD (rangeD .bytesUnit) (rangeD .otherRangeUnit)) = _
  simp only [rangeD]
  rw [tab_or, tab_one]
  refine tab_iff ?_ ?_
  · rintro (w | w) h
    · exact ⟨w, isBytes_token h, rfl, rfl, rfl⟩
    · exact ⟨w, h.1, rfl, rfl, rfl⟩
  · intro w h
    by_cases hw : IsBytes w
    · exact ⟨.inl w, hw, rfl, rfl, rfl⟩
    · exact ⟨.inr w, ⟨h, hw⟩, rfl, rfl, rfl⟩

theorem unit_not_none (u : Str) : unitValue u ≠ .none := nofun

theorem units_den : Alike (list1D (rangeD .rangeUnit)) (rangeD .rangeUnits) := by
  have := tab_list1 (P := IsToken) (t := id) (x := unitValue) (c := fun _ => []) (fun a _ => unit_not_none a)
  refine this.trans (Alike.of_eq ?_)
  exact tab_eq id id (fun s h => ⟨h, rfl, rfl, by rw [quiet_flatMap]; rfl⟩) (fun s h => ⟨h, rfl, rfl, by rw [quiet_flatMap]; rfl⟩)

theorem acceptable_den : oneD ((GExpr.alt (.app (classF (str "CaseInsensitive")) true (.lit (str "none") false))
    (.ref .rangeUnits)).den rangeD) = rangeD .acceptableRanges := by
  show oneD (orD (appD (classF (str "CaseInsensitive")) (litD (str "none") false)) (rangeD .rangeUnits)) = _
  simp only [rangeD]
  rw [tab_lit, tab_class, tab_or, tab_one]
  refine tab_iff ?_ ?_
  · rintro (w | l) h
    · exact ⟨.none w, h, rfl, rfl, rfl⟩
    · exact ⟨.units l, h, rfl, rfl, rfl⟩
  · rintro (w | l) h
    · exact ⟨.inl w, h, rfl, rfl, rfl⟩
    · exact ⟨.inr l, h, rfl, rfl, rfl⟩

theorem accept_den : oneD ((GExpr.ref .acceptableRanges).den rangeD) = rangeD .acceptRanges := by
  show oneD (rangeD .acceptableRanges) = _
  simp only [rangeD]
  rw [tab_one_single]

theorem reversed_between (f l : Nat) : rangeReversed (.int f) (.int l) = true ↔ l < f := by
  unfold rangeReversed
  rw [decide_eq_true_eq]
  omega

theorem between_notes (f l : Str) : (if rangeReversed (.int (numeral f)) (.int (numeral l)) then [(1133, [])] else []) =
    (ByteSpec.between f l).notes := by
  unfold ByteSpec.notes
  have : rangeReversed (.int (numeral f)) (.int (numeral l)) = true ↔ (ByteSpec.between f l).Reversed := reversed_between _ _
  by_cases h : (ByteSpec.between f l).Reversed
  · rw [if_pos (this.mpr h), if_pos h]
  · rw [if_neg (fun k => h (this.mp k)), if_neg h]

theorem spec_den : oneD ((GExpr.app wellFormed1F false (.seq (.seq (.ref .firstBytePos) (.skip (.lit (str "-") false)))
    (.maybe (.ref .lastBytePos)))).den rangeD) = rangeD .byteRangeSpec := by
  show oneD (appD wellFormed1F (thenD (thenD numberD (appD skipF (litD (str "-") false)))
    (oneD (orD numberD (appD (substF .none) nothingD))))) = _
  simp only [rangeD]
  rw [hyphen_is, then_silent, tab_maybe, tab_one, tab_then, tab_app, tab_one]
  refine tab_iff ?_ ?_
  · rintro ⟨f, _ | l⟩ h
    · refine ⟨(f, none), h, by simp [optT, ByteSpec.text], rfl, rfl⟩
    · refine ⟨(f, some l), h, rfl, rfl, ?_⟩
      show (if _ then _ else _) = _
      exact between_notes f l
  · rintro ⟨f, _ | l⟩ h
    · refine ⟨(f, none), h, by simp [optT, ByteSpec.text], rfl, rfl⟩
    · refine ⟨(f, some l), h, rfl, rfl, ?_⟩
      show _ = (if _ then _ else _)
      exact (between_notes f l).symm

theorem suffix_den : oneD ((GExpr.app suffixF false (.seq (.skip (.lit (str "-") false)) (.ref .suffixLength))).den rangeD) =
    rangeD .suffixByteRangeSpec := by
  show oneD (appD suffixF (thenD (appD skipF (litD (str "-") false)) numberD)) = _
  simp only [rangeD]
  rw [hyphen_is, silent_then, tab_app, tab_one]
  exact tab_iff (fun n h => ⟨n, h, rfl, rfl, rfl⟩) (fun n h => ⟨n, h, rfl, rfl, rfl⟩)

theorem either_den : (GExpr.alt (.ref .byteRangeSpec) (.ref .suffixByteRangeSpec)).den rangeD =
    tabD ByteSpec.Ok ByteSpec.text (fun x => [x.value]) ByteSpec.notes := by
  show orD (rangeD .byteRangeSpec) (rangeD .suffixByteRangeSpec) = _
  simp only [rangeD]
  rw [tab_or]
  refine tab_iff ?_ ?_
  · rintro (⟨f, _ | l⟩ | n) h
    · exact ⟨.onwards f, h.1, rfl, rfl, rfl⟩
    · exact ⟨.between f l, h, rfl, rfl, rfl⟩
    · exact ⟨.suffix n, h, rfl, rfl, rfl⟩
  · rintro (⟨f, l⟩ | f | n) h
    · exact ⟨.inl (f, some l), h, rfl, rfl, rfl⟩
    · exact ⟨.inl (f, none), ⟨h, trivial⟩, rfl, rfl, rfl⟩
    · exact ⟨.inr n, h, rfl, rfl, rfl⟩

theorem spec_not_none (x : ByteSpec) : x.value ≠ .none := by
  cases x <;> exact nofun

theorem specs_den : Alike (list1D ((GExpr.alt (.ref .byteRangeSpec) (.ref .suffixByteRangeSpec)).den rangeD))
    (rangeD .byteRanges) := by
  rw [either_den]
  exact tab_list1 (fun a _ => spec_not_none a)

theorem set_den : oneD ((GExpr.ref .byteRanges).den rangeD) = rangeD .byteRangeSet := by
  show oneD (rangeD .byteRanges) = _
  simp only [rangeD]
  rw [tab_one_single]

theorem equals_is : appD skipF (litD (str "=") false) = silentD (str "=") := skip_char (k := 61) (by decide)
theorem slash_is : appD skipF (litD (str "/") false) = silentD (str "/") := skip_char (k := 47) (by decide)

theorem bytesSpecifier_den : oneD ((GExpr.app (classF (str "RangeSpecifier")) true
    (.seq (.seq (.ref .bytesUnit) (.skip (.lit (str "=") false))) (.ref .byteRangeSet))).den rangeD) =
    rangeD .byteRangesSpecifier := by
  show oneD (appD (classF (str "RangeSpecifier")) (thenD (thenD (rangeD .bytesUnit) (appD skipF (litD (str "=") false)))
    (rangeD .byteRangeSet))) = _
  simp only [rangeD]
  rw [equals_is, then_silent, tab_then, tab_class, tab_one_single]
  exact tab_iff (fun n h => ⟨n, h, rfl, rfl, rfl⟩) (fun n h => ⟨n, h, rfl, rfl, rfl⟩)

theorem otherSet_den : oneD ((GExpr.string1 (.chars vcharBits true)).den rangeD) = rangeD .otherRangeSet := by
  show oneD (appD joinF (timesD (octetD vcharBits) (octetD vcharBits) 1 none)) = _
  simp only [rangeD]
  rw [string1_den, tab_one_single]
  have hb : ∀ c, vcharBits c = true ↔ 33 ≤ c ∧ c ≤ 126 := fun c => decide_eq_true_iff
  exact tab_iff (fun w h => ⟨w, ⟨h.1, fun c hc => (hb c).mp (h.2 c hc)⟩, rfl, rfl, rfl⟩)
    (fun w h => ⟨w, ⟨h.1, fun c hc => (hb c).mpr (h.2 c hc)⟩, rfl, rfl, rfl⟩)

theorem otherSpecifier_den : oneD ((GExpr.app (classF (str "RangeSpecifier")) true
    (.seq (.seq (.ref .otherRangeUnit) (.skip (.lit (str "=") false))) (.ref .otherRangeSet))).den rangeD) =
    rangeD .otherRangesSpecifier := by
  show oneD (appD (classF (str "RangeSpecifier")) (thenD (thenD (rangeD .otherRangeUnit)
    (appD skipF (litD (str "=") false))) (rangeD .otherRangeSet))) = _
  simp only [rangeD]
  rw [equals_is, then_silent, tab_then, tab_class, tab_one_single]
  exact tab_iff (fun n h => ⟨n, h, rfl, rfl, rfl⟩) (fun n h => ⟨n, h, rfl, rfl, rfl⟩)

theorem range_den : oneD ((GExpr.alt (.ref .byteRangesSpecifier) (.ref .otherRangesSpecifier)).den rangeD) =
    rangeD .range := by
  show oneD (orD (rangeD .byteRangesSpecifier) (rangeD .otherRangesSpecifier)) = _
  simp only [rangeD]
  rw [tab_or, tab_one]
  refine tab_iff ?_ ?_
  · rintro (⟨u, l⟩ | ⟨u, v⟩) h
    · exact ⟨.bytes u l, h, rfl, rfl, rfl⟩
    · exact ⟨.other u v, h, rfl, rfl, rfl⟩
  · rintro (⟨u, l⟩ | ⟨u, v⟩) h
    · exact ⟨.inl (u, l), h, rfl, rfl, rfl⟩
    · exact ⟨.inr (u, v), h, rfl, rfl, rfl⟩

theorem byteRange_den : oneD ((GExpr.seq (.seq (.ref .firstBytePos) (.skip (.lit (str "-") false)))
    (.ref .lastBytePos)).den rangeD) = rangeD .byteRange := by
  show oneD (thenD (thenD numberD (appD skipF (litD (str "-") false))) numberD) = _
  simp only [rangeD]
  rw [hyphen_is, then_silent, tab_then, tab_one]
  exact tab_iff (fun n h => ⟨n, h, rfl, rfl, rfl⟩) (fun n h => ⟨n, h, rfl, rfl, rfl⟩)

theorem star_den : appD (substF .none) (litD (str "*") false) =
    tabD (fun _ : Unit => True) (fun _ => str "*") (fun _ => [GVal.none]) (fun _ => []) := by
  have : litD (str "*") false = fixedD (str "*") := tab_lit_char (k := 42) (by decide)
  rw [this, tab_app]
  exact tab_iff (fun n h => ⟨n, h, rfl, rfl, rfl⟩) (fun n h => ⟨n, h, rfl, rfl, rfl⟩)

theorem resp_den : oneD ((GExpr.seq (.seq (.ref .byteRange) (.skip (.lit (str "/") false)))
    (.alt (.ref .completeLength) (.subst .none (.lit (str "*") false)))).den rangeD) = rangeD .byteRangeResp := by
  show oneD (thenD (thenD (rangeD .byteRange) (appD skipF (litD (str "/") false)))
    (oneD (orD numberD (appD (substF .none) (litD (str "*") false))))) = _
  simp only [rangeD]
  rw [slash_is, then_silent, star_den, tab_or, tab_one, tab_then, tab_one]
  refine tab_iff ?_ ?_
  · rintro ⟨⟨f, l⟩, n | _⟩ h
    · exact ⟨((f, l), some n), h, rfl, rfl, rfl⟩
    · exact ⟨((f, l), none), h, rfl, rfl, rfl⟩
  · rintro ⟨⟨f, l⟩, _ | n⟩ h
    · exact ⟨((f, l), .inr ()), h, rfl, rfl, rfl⟩
    · exact ⟨((f, l), .inl n), h, rfl, rfl, rfl⟩

theorem sameWord_marks {w : Str} : SameWord w (str "*/") ↔ w = str "*/" := by
  have : str "*/" = [42, 47] := by decide +kernel
  rw [this]
  constructor
  · rintro (_ | ⟨h1, _ | ⟨h2, _ | _⟩⟩)
    unfold SameLetter at h1 h2
    simp only [List.cons.injEq, and_true]
    omega
  · rintro rfl
    refine .cons ?_ (.cons ?_ .nil) <;> unfold SameLetter <;> omega

theorem unsatisfied_den : oneD ((GExpr.seq (.subst .none (.lit (str "*/") false)) (.ref .completeLength)).den rangeD) =
    rangeD .unsatisfiedRange := by
  show oneD (thenD (appD (substF .none) (litD (str "*/") false)) numberD) = _
  simp only [rangeD]
  rw [tab_lit, tab_app, tab_then, tab_one]
  refine tab_iff ?_ ?_
  · rintro ⟨w, n⟩ ⟨h1, h2⟩
    cases sameWord_marks.mp h1
    exact ⟨n, h2, rfl, rfl, rfl⟩
  · intro n h
    exact ⟨(str "*/", n), ⟨sameWord_marks.mpr rfl, h⟩, rfl, rfl, rfl⟩

theorem tooSmall (n l : Nat) : completeTooSmall (.int n) (.int l) = true ↔ n ≤ l := by
  unfold completeTooSmall
  rw [decide_eq_true_eq]
  omega

theorem part_wrong (u f l : Str) (c : Option Str) :
    badContentRange (ContentRangeSyn.part u f l c).value = true ↔ (ContentRangeSyn.part u f l c).Wrong := by
  show (rangeReversed _ _ || completeTooSmall _ _) = true ↔ _ ∨ _
  rw [Bool.or_eq_true, reversed_between]
  refine or_congr_right ?_
  cases c with
  | none => exact ⟨nofun, fun ⟨_, h, _⟩ => nomatch h⟩
  | some n =>
    refine (tooSmall _ _).trans ⟨fun h => ⟨n, rfl, h⟩, ?_⟩
    rintro ⟨m, hm, h⟩
    cases hm
    exact h

theorem bad_iff (x : ContentRangeSyn) : badContentRange x.value = true ↔ x.Wrong := by
  cases x with
  | part u f l c => exact part_wrong u f l c
  | unsatisfied u c => exact ⟨nofun, nofun⟩
  | other u v => exact ⟨nofun, nofun⟩

theorem bad_notes (x : ContentRangeSyn) : (if badContentRange x.value then [(1148, [])] else []) = x.notes := by
  unfold ContentRangeSyn.notes
  by_cases h : x.Wrong
  · rw [if_pos ((bad_iff x).mpr h), if_pos h]
  · rw [if_neg (fun k => h ((bad_iff x).mp k)), if_neg h]

theorem byteContent_den : oneD ((GExpr.app wellFormed2F false (.app (classF (str "ContentRange")) true
    (.seq (.seq (.ref .bytesUnit) (.skip .sp)) (.alt (.ref .byteRangeResp) (.ref .unsatisfiedRange))))).den rangeD) =
    rangeD .byteContentRange := by
  show oneD (appD wellFormed2F (appD (classF (str "ContentRange")) (thenD (thenD (rangeD .bytesUnit)
    (appD skipF (octetD spBits))) (oneD (orD (rangeD .byteRangeResp) (rangeD .unsatisfiedRange)))))) = _
  simp only [rangeD]
  rw [skip_sp, then_silent, tab_or, tab_one, tab_then, tab_class, tab_app, tab_one]
  refine tab_iff ?_ ?_
  · rintro ⟨u, ⟨⟨f, l⟩, c⟩ | n⟩ ⟨h1, h2⟩
    · refine ⟨.part u f l c, ⟨⟨h1, h2.1.1, h2.1.2, ?_⟩, nofun⟩, ?_, rfl, bad_notes (.part u f l c)⟩
      · rintro n rfl
        exact h2.2
      · simp [ContentRangeSyn.text]
    · refine ⟨.unsatisfied u n, ⟨⟨h1, h2⟩, nofun⟩, ?_, rfl, bad_notes (.unsatisfied u n)⟩
      have : str " */" = str " " ++ str "*/" := by decide +kernel
      simp [ContentRangeSyn.text, this]
  · rintro (⟨u, f, l, c⟩ | ⟨u, n⟩ | ⟨u, v⟩) ⟨h1, h2⟩
    · refine ⟨(u, .inl ((f, l), c)), ⟨h1.1, ⟨h1.2.1, h1.2.2.1⟩, ?_⟩, ?_, rfl, (bad_notes (.part u f l c)).symm⟩
      · cases c with
        | none => trivial
        | some n => exact h1.2.2.2 n rfl
      · simp [ContentRangeSyn.text]
    · refine ⟨(u, .inr n), h1, ?_, rfl, (bad_notes (.unsatisfied u n)).symm⟩
      have : str " */" = str " " ++ str "*/" := by decide +kernel
      simp [ContentRangeSyn.text, this]
    · exact absurd rfl (h2 u v)

theorem otherResp_den : oneD ((GExpr.string (.chars charBits7 true)).den rangeD) = rangeD .otherRangeResp := by
  show oneD (appD joinF (timesD (octetD charBits7) (octetD charBits7) 0 none)) = _
  simp only [rangeD]
  rw [string_den, tab_one_single]
  have hb : ∀ c, charBits7 c = true ↔ 1 ≤ c ∧ c ≤ 127 := fun c => decide_eq_true_iff
  exact tab_iff (fun w h => ⟨w, fun c hc => (hb c).mp (h c hc), rfl, rfl, rfl⟩)
    (fun w h => ⟨w, fun c hc => (hb c).mpr (h c hc), rfl, rfl, rfl⟩)

theorem otherContent_den : oneD ((GExpr.app (classF (str "ContentRange")) true
    (.seq (.seq (.ref .otherRangeUnit) (.skip .sp)) (.ref .otherRangeResp))).den rangeD) = rangeD .otherContentRange := by
  show oneD (appD (classF (str "ContentRange")) (thenD (thenD (rangeD .otherRangeUnit)
    (appD skipF (octetD spBits))) (rangeD .otherRangeResp))) = _
  simp only [rangeD]
  rw [skip_sp, then_silent, tab_then, tab_class, tab_one_single]
  exact tab_iff (fun n h => ⟨n, h, rfl, rfl, rfl⟩) (fun n h => ⟨n, h, rfl, rfl, rfl⟩)

theorem content_den : oneD ((GExpr.alt (.ref .byteContentRange) (.ref .otherContentRange)).den rangeD) =
    rangeD .contentRange := by
  show oneD (orD (rangeD .byteContentRange) (rangeD .otherContentRange)) = _
  simp only [rangeD]
  rw [tab_or, tab_one]
  have hn : ∀ u v, (ContentRangeSyn.other u v).notes = [] := fun u v => if_neg nofun
  refine tab_iff ?_ ?_
  · rintro (x | ⟨u, v⟩) h
    · exact ⟨x, h.1, rfl, rfl, rfl⟩
    · exact ⟨.other u v, h, rfl, rfl, (hn u v).symm⟩
  · intro x h
    cases x with
    | part u f l c => exact ⟨.inl (.part u f l c), ⟨h, nofun⟩, rfl, rfl, rfl⟩
    | unsatisfied u c => exact ⟨.inl (.unsatisfied u c), ⟨h, nofun⟩, rfl, rfl, rfl⟩
    | other u v => exact ⟨.inr (u, v), h, rfl, rfl, hn u v⟩

/-- Nothing is used before it is defined. -/
local macro "fine" : tactic => `(tactic| simp [Defn.Fine, GExpr.Fine])

theorem excl_fine {order : List Nat → List Nat} (ho : ∀ l c, c ∈ order l ↔ c ∈ l) (known : List RangeName) :
    (GExpr.excl order tcharBits true [[], str "bytes"] : GExpr RangeName).Fine known := by
  refine ⟨ho, fun x hx c hc d hd => (tchar_iff d).mpr ?_⟩
  simp only [List.mem_cons, List.not_mem_nil, or_false] at hx
  rcases hx with rfl | rfl
  · exact nomatch hc
  · exact sameLetter_tchar ((by decide +kernel : ∀ c ∈ str "bytes", 97 ≤ c ∧ c ≤ 122) c hc) hd

theorem tab_never {α : Type} {P : α → Prop} {t : α → Str} {v : α → GVal} {c : α → List PyComplaint} (w : Str)
    (cs : List PyComplaint) : ¬ tabD P t (fun a => [v a]) c w [] cs := by
  rintro ⟨a, _, _, h, _⟩
  cases h

/-- The grammar of ranges. -/
theorem ranges_solve {order : List Nat → List Nat} (ho : ∀ l c, c ∈ order l ↔ c ∈ l) :
    Solves [] rangeD (rangeDefs order) := by
  refine ⟨by fine, named_alike (.of_eq ows_den), ?_⟩
  refine ⟨by fine, named_alike (.of_eq bytes_den), ?_⟩
  refine ⟨excl_fine ho [.bytesUnit, .ows], named_alike (.of_eq (otherUnit_den order)), ?_⟩
  refine ⟨by fine, named_alike (.of_eq unit_den), ?_⟩
  refine ⟨⟨by simp, rfl, by fine, fun w cs => tab_never w cs⟩, units_den, ?_⟩
  refine ⟨by fine, named_alike (.of_eq acceptable_den), ?_⟩
  refine ⟨by fine, named_alike (.of_eq accept_den), ?_⟩
  refine ⟨by fine, named_alike (.of_eq number_one), ?_⟩
  refine ⟨by fine, named_alike (.of_eq number_one), ?_⟩
  refine ⟨by fine, named_alike (.of_eq spec_den), ?_⟩
  refine ⟨by fine, named_alike (.of_eq number_one), ?_⟩
  refine ⟨by fine, named_alike (.of_eq suffix_den), ?_⟩
  refine ⟨⟨by simp, rfl, by fine, fun w cs => by rw [either_den]; exact tab_never w cs⟩, specs_den, ?_⟩
  refine ⟨by fine, named_alike (.of_eq set_den), ?_⟩
  refine ⟨by fine, named_alike (.of_eq bytesSpecifier_den), ?_⟩
  refine ⟨by fine, named_alike (.of_eq otherSet_den), ?_⟩
  refine ⟨by fine, named_alike (.of_eq otherSpecifier_den), ?_⟩
  refine ⟨by fine, named_alike (.of_eq range_den), ?_⟩
  refine ⟨by fine, named_alike (.of_eq byteRange_den), ?_⟩
  refine ⟨by fine, named_alike (.of_eq number_one), ?_⟩
  refine ⟨by fine, named_alike (.of_eq resp_den), ?_⟩
  refine ⟨by fine, named_alike (.of_eq unsatisfied_den), ?_⟩
  refine ⟨by fine, named_alike (.of_eq byteContent_den), ?_⟩
  refine ⟨by fine, named_alike (.of_eq otherResp_den), ?_⟩
  refine ⟨by fine, named_alike (.of_eq otherContent_den), ?_⟩
  refine ⟨by fine, named_alike (.of_eq content_den), ?_⟩
  trivial

end Httpolice.Lemmas
