import Verif.Lemmas.Settings
import Verif.Model.Rfc7231Headers
import Verif.Spec.Negotiation

/-!
# What the names for media types and preferences come to
-/

namespace Httpolice.Lemmas

open Httpolice.Model Httpolice.Spec

/-- A word of marks. -/
theorem lit_marks {s : Str} (hs : ∀ c ∈ s, ¬ (65 ≤ c ∧ c ≤ 90 ∨ 97 ≤ c ∧ c ≤ 122)) : litD s false = fixedD s := by
  rw [tab_lit]
  have same : ∀ {w : Str}, SameWord w s → w = s := by
    intro w h
    induction h with
    | nil => rfl
    | @cons a b u v h1 _ ih =>
      obtain ⟨k1, k2⟩ := List.forall_mem_cons.mp hs
      rw [ih k2]
      unfold SameLetter at h1
      have : a = b := by omega
      rw [this]
  have refl : ∀ s : Str, SameWord s s := by
    intro s
    induction s with
    | nil => exact .nil
    | cons c s ih => exact .cons (.inl rfl) ih
  refine tab_iff ?_ ?_
  · intro w h
    obtain rfl := same h
    exact ⟨(), trivial, rfl, rfl, rfl⟩
  · intro _ _
    exact ⟨s, refl s, rfl, rfl, rfl⟩

/-! ## Media types -/

/-- Parameters. -/
abbrev attrD (Name : Str → Prop) : Den := tabD (Attr.Ok Name) Attr.text (fun x => [x.entry]) Attr.notes

/-- Some parameters. -/
abbrev attrsD (Name : Str → Prop) : Den :=
  tabD (SemiSyn.Ok (Attr.Ok Name)) (SemiSyn.text Attr.text) (fun l => [multi (l.elems.map Attr.entry)])
    (fun l => l.elems.flatMap Attr.notes)

/-- A pair of tokens with a slash. -/
abbrev mediaNameD : Den := tabD (fun x : Str × Str => IsToken x.1 ∧ IsToken x.2) (fun x => x.1 ++ str "/" ++ x.2)
  (fun x => [nameValue (str "MediaType") (x.1 ++ str "/" ++ x.2)]) (fun x => meantNotes (x.1 ++ str "/" ++ x.2))

/-- A range: a media type, or text where the flag is set. -/
abbrev rangeNameD : Den :=
  tabD (fun x : (Str × Str) × Bool => (IsToken x.1.1 ∧ IsToken x.1.2) ∧ (x.2 = true → x.1.2 = str "*"))
    (fun x => x.1.1 ++ str "/" ++ x.1.2)
    (fun x => [if x.2 then .text (x.1.1 ++ str "/" ++ x.1.2) else nameValue (str "MediaType") (x.1.1 ++ str "/" ++ x.1.2)])
    (fun x => meantNotes (x.1.1 ++ str "/" ++ x.1.2))

/-- A name of a parameter other than `q`. -/
abbrev NotQ (w : Str) : Prop := IsToken w ∧ ¬ SameWord w (str "q")

/-- The value of a range. -/
def rangeValue (x : MediaSyn × Bool) : GVal :=
  .obj (str "Parametrized") [if x.2 then .text x.1.name else nameValue (str "MediaType") x.1.name,
    multi (x.1.params.elems.map Attr.entry)]

/-- Ranges. -/
abbrev rangesD : Den := tabD (fun x : MediaSyn × Bool => x.1.Ok NotQ ∧ (x.2 = true → x.1.subtype = str "*"))
  (fun x => x.1.text) (fun x => [rangeValue x]) (fun x => x.1.notes)

/-- The value of an element of Accept. -/
def acceptValue (x : AcceptSyn × Bool) : GVal :=
  x.1.valueWith (if x.2 then .text x.1.range.name else nameValue (str "MediaType") x.1.range.name)

/-- In order. -/
def acceptOk (x : AcceptSyn × Bool) : Prop := x.1.Ok ∧ (x.2 = true → x.1.range.subtype = str "*")

/-- The value of an element of Accept-Encoding. -/
def codingValue (x : RankedSyn × Bool) : GVal :=
  x.1.valueWith (if x.2 then .text x.1.name else nameValue (str "ContentCoding") x.1.name)

/-- In order. -/
def codingOk (x : RankedSyn × Bool) : Prop := x.1.Ok ∧ (x.2 = true → x.1.name = str "*")

/-- What the names come to. -/
def semD : SemName → Den
  | .hop n => hopD n
  | .date n => dateD n
  | .type_ | .subtype => tokenD
  | .parameter => attrD IsToken
  | .mediaType | .contentType => tabD (MediaSyn.Ok IsToken) MediaSyn.text (fun x => [x.value]) MediaSyn.notes
  | .contentCoding => nameD (str "ContentCoding")
  | .parameter2 => attrD NotQ
  | .mediaRange => rangesD
  | .qvalue => weightD
  | .weight => rankingD
  | .acceptExt => tabD (fun y : (Str × Str) × Setting => (IsOws y.1.1 ∧ IsOws y.1.2) ∧ y.2.Ok IsToken)
      (fun y => y.1.1 ++ 59 :: y.1.2 ++ y.2.text) (fun y => [y.2.entry]) (fun y => y.2.notes)
  | .acceptParams => tabD (fun x : Ranking × SemiSyn Setting => x.1.Ok ∧ SemiSyn.Ok (Setting.Ok IsToken) x.2)
      (fun x => x.1.text ++ SemiSyn.text Setting.text x.2)
      (fun x => [multi (.tuple [nameValue (str "CaseInsensitive") (str "q"), x.1.value] :: x.2.elems.map Setting.entry)])
      (fun x => x.2.elems.flatMap Setting.notes)
  | .accepts | .accept => listsD acceptOk (fun x => x.1.text) acceptValue (fun x => x.1.notes)
  | .charset => nameD (str "Charset")
  | .acceptCharsets | .acceptCharset => list1sD RankedSyn.Ok RankedSyn.text RankedSyn.charset (fun _ => [])
  | .codings => tabD (fun x : Str × Bool => IsToken x.1 ∧ (x.2 = true → x.1 = str "*")) Prod.fst
      (fun x => [if x.2 then .text x.1 else nameValue (str "ContentCoding") x.1]) (fun _ => [])
  | .acceptEncodings | .acceptEncoding => listsD codingOk (fun x => x.1.text) codingValue (fun _ => [])
  | .delaySeconds | .maxForwards => numberD
  | .retryAfter => tabD RetrySyn.Ok RetrySyn.text (fun x => [x.value]) RetrySyn.notes
  | .methods | .allow => listsD IsToken (fun w => w) (nameValue (str "Method")) (fun _ => [])
  | .contentCodings | .contentEncoding => list1sD IsToken (fun w => w) (nameValue (str "ContentCoding")) (fun _ => [])
  | .dateHeader => dateD .httpDate
  | .fieldNames => list1sD IsToken (fun w => w) (nameValue (str "FieldName")) (fun _ => [])
  | .vary => tabD (fun x : List1Syn Str × Bool => x.1.Ok IsToken ∧ (x.2 = true → x.1 = ⟨[], str "*", []⟩))
      (fun x => x.1.text fun w => w) (fun x => [if x.2 then .text (str "*") else x.1.value (nameValue (str "FieldName"))])
      (fun x => x.1.notes fun _ => [])
  | .expect => tabD (fun w => SameWord w (str "100-continue")) (fun w => w)
      (fun w => [nameValue (str "CaseInsensitive") w]) (fun _ => [])

theorem attr_den {order : List Nat → List Nat} {xs : List Str} {Name : Str → Prop}
    (hn : ∀ w, Name w ↔ IsToken w ∧ ∀ x ∈ xs, ¬ SameWord w x) : oneD ((parameterE order xs).den semD) = attrD Name := by
  show oneD (thenD (thenD (appD (classF (str "CaseInsensitive")) (exclD tcharBits ([] :: xs)))
    (appD skipF (litD (str "=") false))) (oneD (orD tokenD quotedD))) = _
  rw [tokenExcl_den, words_den, tab_one_single, skip_equals, tab_class, then_silent, tab_then, tab_one]
  refine tab_iff ?_ ?_
  · rintro ⟨n, w⟩ ⟨h1, h2⟩
    exact ⟨⟨n, w⟩, ⟨(hn n).mpr h1, h2⟩, rfl, rfl, rfl⟩
  · rintro ⟨n, w⟩ ⟨h1, h2⟩
    exact ⟨(n, w), ⟨(hn n).mp h1, h2⟩, rfl, rfl, rfl⟩

theorem attrs_den {n : SemName} {Name : Str → Prop} (hn : semD n = attrD Name) : (parametersE n).den semD = attrsD Name := by
  show appD (classF (str "MultiDict")) (timesD (thenD (appD skipF (thenD (thenD spacesD (litD (str ";") false)) spacesD)) (semD n))
    (thenD (appD skipF (thenD (thenD spacesD (litD (str ";") false)) spacesD)) (semD n)) 0 none) = _
  rw [semi_den, hn, semis_den, tab_class]
  rfl

theorem slash_char : litD (str "/") false = fixedD (str "/") := lit_marks (by decide +kernel)

theorem checkMedia_eq (w : Str) : checkMediaTypeF [.obj (str "MediaType") [.text w]] =
    (.val (nameValue (str "MediaType") w), meantNotes w) := by
  have low : ∀ {v : Str}, v.map litLower = v → (SameWord w v ↔ v = w.map litLower) := by
    intro v hv
    rw [sameWord_iff, hv, eq_comm]
  have l1 := low (v := str "application/text") (by decide +kernel)
  have l2 := low (v := str "plain/text") (by decide +kernel)
  have l3 := low (v := str "text/json") (by decide +kernel)
  unfold checkMediaTypeF meantNotes meant badMediaTypes
  simp only [l1, l2, l3]
  generalize w.map litLower = u
  by_cases h1 : str "application/text" = u
  · simp [h1, nameValue]
  by_cases h2 : str "plain/text" = u
  · simp [h1, h2, nameValue]
  by_cases h3 : str "text/json" = u
  · simp [h1, h2, h3, nameValue]
  simp [h1, h2, h3, nameValue]

theorem mediaName_den : mediaNameE.den semD = mediaNameD := by
  show appD checkMediaTypeF (appD (classF (str "MediaType")) (appD addF (thenD (appD addF (thenD tokenD
    (litD (str "/") false))) tokenD))) = _
  rw [slash_char, tab_then, tab_app, tab_then, tab_app, tab_class, tab_app]
  refine tab_iff ?_ ?_
  · rintro ⟨⟨a, _⟩, b⟩ ⟨⟨h1, _⟩, h2⟩
    refine ⟨(a, b), ⟨h1, h2⟩, rfl, ?_, ?_⟩
    · show argsOf (checkMediaTypeF [.obj (str "MediaType") [.text (a ++ str "/" ++ b)]]).1 = _
      rw [checkMedia_eq]
      rfl
    · show _ ++ (checkMediaTypeF [.obj (str "MediaType") [.text (a ++ str "/" ++ b)]]).2 = _
      rw [checkMedia_eq]
      rfl
  · rintro ⟨a, b⟩ ⟨h1, h2⟩
    refine ⟨((a, ()), b), ⟨⟨h1, trivial⟩, h2⟩, rfl, ?_, ?_⟩
    · show _ = argsOf (checkMediaTypeF [.obj (str "MediaType") [.text (a ++ str "/" ++ b)]]).1
      rw [checkMedia_eq]
      rfl
    · show _ = _ ++ (checkMediaTypeF [.obj (str "MediaType") [.text (a ++ str "/" ++ b)]]).2
      rw [checkMedia_eq]
      rfl

theorem mediaType_den : oneD ((GExpr.app (classF (str "Parametrized")) true
    (.seq mediaNameE (parametersE .parameter))).den semD) = semD .mediaType := by
  show oneD (appD (classF (str "Parametrized")) (thenD (mediaNameE.den semD) ((parametersE .parameter).den semD))) = _
  rw [mediaName_den, attrs_den (Name := IsToken) rfl, tab_then, tab_class, tab_one_single]
  refine tab_iff ?_ ?_
  · rintro ⟨⟨a, b⟩, l⟩ ⟨h1, h2⟩
    exact ⟨⟨a, b, l⟩, ⟨h1.1, h1.2, h2⟩, rfl, rfl, rfl⟩
  · rintro ⟨a, b, l⟩ ⟨h1, h2, h3⟩
    exact ⟨((a, b), l), ⟨⟨h1, h2⟩, h3⟩, rfl, rfl, rfl⟩

theorem star_token : IsToken (str "*") := ⟨by decide +kernel, fun c hc => by
  have : str "*" = [42] := by decide +kernel
  rw [this, List.mem_singleton] at hc
  subst hc
  exact (tchar_iff 42).mp (by decide)⟩

/-- A name that ends in `/*` is not wrong. -/
theorem star_meant (w : Str) : meantNotes (w ++ str "/" ++ str "*") = [] := by
  have no : ∀ {v : Str}, v.getLast? ≠ some 42 → (∀ c ∈ v, 97 ≤ c ∨ c = 47) → ¬ SameWord (w ++ str "/" ++ str "*") v := by
    intro v h1 h2 h
    have hs : str "*" = [42] := by decide +kernel
    rw [sameWord_iff, hs] at h
    have e := congrArg List.getLast? h
    rw [List.map_append, List.map_singleton, List.getLast?_concat] at e
    rw [List.getLast?_map] at e
    cases hv : v.getLast? with
    | none => rw [hv] at e; cases e
    | some c =>
      rw [hv] at e
      have hc := h2 c (List.mem_of_getLast? hv)
      have e2 : litLower 42 = litLower c := Option.some.inj e
      have e3 : c = 42 := by
        unfold litLower at e2
        split at e2 <;> split at e2 <;> omega
      omega
  unfold meantNotes meant
  rw [if_neg, if_neg]
  · exact no (by decide +kernel) (by decide +kernel)
  · rintro (h | h)
    · exact no (by decide +kernel) (by decide +kernel) h
    · exact no (by decide +kernel) (by decide +kernel) h

theorem rangeName_den : oneD (orD (orD (litD (str "*/*") false) (appD addF (thenD (appD addF (thenD tokenD
    (litD (str "/") false))) (litD (str "*") false)))) (mediaNameE.den semD)) = rangeNameD := by
  have hall : str "*/*" = str "*" ++ str "/" ++ str "*" := by decide +kernel
  rw [mediaName_den, slash_char, lit_marks (s := str "*/*") (by decide +kernel), lit_marks (s := str "*") (by decide +kernel),
    tab_then, tab_app, tab_then, tab_app, tab_or, tab_or, tab_one]
  refine tab_iff ?_ ?_
  · rintro ((_ | ⟨⟨a, _⟩, _⟩) | ⟨a, b⟩) h
    · exact ⟨((str "*", str "*"), true), ⟨⟨star_token, star_token⟩, fun _ => rfl⟩, hall, by rw [hall]; rfl, (star_meant _).symm⟩
    · exact ⟨((a, str "*"), true), ⟨⟨h.1.1, star_token⟩, fun _ => rfl⟩, rfl, rfl, (star_meant _).symm⟩
    · exact ⟨((a, b), false), ⟨h, nofun⟩, rfl, rfl, rfl⟩
  · rintro ⟨⟨a, b⟩, _ | _⟩ ⟨h1, h2⟩
    · exact ⟨.inr (a, b), h1, rfl, rfl, rfl⟩
    · obtain rfl : b = str "*" := h2 rfl
      exact ⟨.inl (.inr ((a, ()), ())), ⟨⟨h1.1, trivial⟩, trivial⟩, rfl, rfl, star_meant a⟩

theorem mediaRange_den : oneD ((GExpr.app (classF (str "Parametrized")) true (.seq
    (.alt (.alt (.lit (str "*/*") false) (.add (.add (.ref .type_) (.lit (str "/") false)) (.lit (str "*") false))) mediaNameE)
    (parametersE .parameter2))).den semD) = semD .mediaRange := by
  show oneD (appD (classF (str "Parametrized")) (thenD (oneD (orD (orD (litD (str "*/*") false) (appD addF (thenD (appD addF
    (thenD tokenD (litD (str "/") false))) (litD (str "*") false)))) (mediaNameE.den semD)))
    ((parametersE .parameter2).den semD))) = _
  rw [rangeName_den, attrs_den (Name := NotQ) rfl, tab_then, tab_class, tab_one_single]
  refine tab_iff ?_ ?_
  · rintro ⟨⟨⟨a, b⟩, f⟩, l⟩ ⟨⟨h1, h2⟩, h3⟩
    exact ⟨(⟨a, b, l⟩, f), ⟨⟨h1.1, h1.2, h3⟩, h2⟩, rfl, rfl, rfl⟩
  · rintro ⟨⟨a, b, l⟩, f⟩ ⟨⟨h1, h2, h3⟩, h4⟩
    exact ⟨(((a, b), f), l), ⟨⟨⟨h1, h2⟩, h4⟩, h3⟩, rfl, rfl, rfl⟩

/-! ## Weights -/

theorem acceptExt_den : oneD ((GExpr.seq (.seq (.semicolon (.hop (.str .ows))) (.ss .token))
    (.maybe (.seq (.skip (.lit (str "=") false)) (.alt (.ss .token) (.ss .quoted))))).den semD) = semD .acceptExt := by
  show oneD (thenD (thenD (appD skipF (thenD (thenD spacesD (litD (str ";") false)) spacesD)) tokenD)
    (oneD (orD (thenD (appD skipF (litD (str "=") false)) (oneD (orD tokenD quotedD))) (appD (substF .none) nothingD)))) = _
  rw [semi_den, semi_then, words_den, tab_one_single, skip_equals, silent_then, tab_maybe, tab_one, tab_then, tab_one]
  refine tab_iff ?_ ?_
  · rintro ⟨⟨s, n⟩, _ | w⟩ ⟨⟨h1, h2⟩, h3⟩
    · exact ⟨(s, ⟨n, none⟩), ⟨h1, h2, nofun⟩, by simp [Setting.text, optT], rfl, rfl⟩
    · exact ⟨(s, ⟨n, some w⟩), ⟨h1, h2, fun _ e => by cases e; exact h3⟩, by simp [Setting.text, optT], rfl, rfl⟩
  · rintro ⟨s, ⟨n, _ | w⟩⟩ ⟨h1, h2⟩
    · exact ⟨((s, n), none), ⟨⟨h1, h2.1⟩, trivial⟩, by simp [Setting.text, optT], rfl, rfl⟩
    · exact ⟨((s, n), some w), ⟨⟨h1, h2.1⟩, h2.2 w rfl⟩, by simp [Setting.text, optT], rfl, rfl⟩

theorem acceptParams_den : oneD ((GExpr.app prependQF false (.seq (.ref .weight) (.many (.ref .acceptExt)))).den semD) =
    semD .acceptParams := by
  show oneD (appD prependQF (thenD rankingD (timesD (semD .acceptExt) (semD .acceptExt) 0 none))) = _
  rw [show semD .acceptExt = _ from (semi_then (P := Setting.Ok IsToken) (t := Setting.text) (x := Setting.entry)
    (c := Setting.notes)).symm, semis_den, tab_then, tab_app, tab_one]
  refine tab_iff ?_ ?_
  · rintro ⟨r, l⟩ h
    exact ⟨(r, l), h, rfl, rfl, List.append_nil _⟩
  · rintro ⟨r, l⟩ h
    exact ⟨(r, l), h, rfl, rfl, (List.append_nil _).symm⟩

theorem acceptElem_den : (GExpr.app (classF (str "Parametrized")) true (.seq (.ref .mediaRange)
    (.maybe (.ref .acceptParams) (.obj (str "MultiDict") [.list []])))).den semD =
    tabD acceptOk (fun x => x.1.text) (fun x => [acceptValue x]) (fun x => x.1.notes) := by
  show appD (classF (str "Parametrized")) (thenD rangesD (oneD (orD (semD .acceptParams)
    (appD (substF (.obj (str "MultiDict") [.list []])) nothingD)))) = _
  unfold semD
  rw [tab_maybe, tab_one, tab_then, tab_class]
  refine tab_iff ?_ ?_
  · rintro ⟨⟨m, f⟩, _ | ⟨r, l⟩⟩ ⟨⟨h1, h2⟩, h3⟩
    · exact ⟨(⟨m, none⟩, f), ⟨⟨h1, nofun⟩, h2⟩, rfl, rfl, rfl⟩
    · exact ⟨(⟨m, some (r, l)⟩, f), ⟨⟨h1, fun _ _ e => by cases e; exact h3⟩, h2⟩, rfl, rfl, rfl⟩
  · rintro ⟨⟨m, _ | ⟨r, l⟩⟩, f⟩ ⟨⟨h1, h3⟩, h2⟩
    · exact ⟨((m, f), none), ⟨⟨h1, h2⟩, trivial⟩, rfl, rfl, rfl⟩
    · exact ⟨((m, f), some (r, l)), ⟨⟨h1, h2⟩, h3 r l rfl⟩, rfl, rfl, rfl⟩

/-- A name with perhaps a weight. -/
theorem ranked_den {α : Type} {P : α → Prop} {t : α → Str} {v : α → GVal} :
    appD (classF (str "Parametrized")) (thenD (tabD P t (fun a => [v a]) (fun _ => []))
      (oneD (orD rankingD (appD (substF .none) nothingD)))) =
    tabD (fun x : α × Option Ranking => P x.1 ∧ ∀ r, x.2 = some r → r.Ok)
      (fun x => t x.1 ++ (match x.2 with | none => [] | some r => r.text))
      (fun x => [.obj (str "Parametrized") [v x.1, match x.2 with | none => .none | some r => r.value]]) (fun _ => []) := by
  rw [tab_maybe, tab_one, tab_then, tab_class]
  refine tab_iff ?_ ?_
  · rintro ⟨a, _ | r⟩ ⟨h1, h2⟩
    · exact ⟨(a, none), ⟨h1, nofun⟩, rfl, rfl, rfl⟩
    · exact ⟨(a, some r), ⟨h1, fun _ e => by cases e; exact h2⟩, rfl, rfl, rfl⟩
  · rintro ⟨a, _ | r⟩ ⟨h1, h2⟩
    · exact ⟨(a, none), ⟨h1, trivial⟩, rfl, rfl, rfl⟩
    · exact ⟨(a, some r), ⟨h1, h2 r rfl⟩, rfl, rfl, rfl⟩

theorem charsetElem_den : (GExpr.app (classF (str "Parametrized")) true (.seq
    (.alt (.ref .charset) (.app (classF (str "Charset")) true (.lit (str "*") false))) (.maybe (.ref .weight)))).den semD =
    tabD RankedSyn.Ok RankedSyn.text (fun x => [x.charset]) (fun _ => []) := by
  have name : oneD (orD (nameD (str "Charset")) (appD (classF (str "Charset")) (litD (str "*") false))) = nameD (str "Charset") := by
    rw [lit_marks (s := str "*") (by decide +kernel), tab_class, tab_or, tab_one]
    refine tab_iff ?_ ?_
    · rintro (w | _) h
      · exact ⟨w, h, rfl, rfl, rfl⟩
      · exact ⟨str "*", star_token, rfl, rfl, rfl⟩
    · exact fun w h => ⟨.inl w, h, rfl, rfl, rfl⟩
  show appD (classF (str "Parametrized")) (thenD (oneD (orD (nameD (str "Charset")) (appD (classF (str "Charset"))
    (litD (str "*") false)))) (oneD (orD rankingD (appD (substF .none) nothingD)))) = _
  rw [name, ranked_den]
  exact tab_iff (fun x h => ⟨⟨x.1, x.2⟩, h, rfl, rfl, rfl⟩) (fun x h => ⟨(x.name, x.rank), h, rfl, rfl, rfl⟩)

theorem codings_den : oneD ((GExpr.alt (.alt (.ref .contentCoding)
    (.app (classF (str "ContentCoding")) true (.lit (str "identity") false))) (.lit (str "*") false)).den semD) =
    semD .codings := by
  show oneD (orD (orD (nameD (str "ContentCoding")) (appD (classF (str "ContentCoding")) (litD (str "identity") false)))
    (litD (str "*") false)) = _
  rw [lit_marks (s := str "*") (by decide +kernel), tab_lit, tab_class, tab_or, tab_or, tab_one]
  refine tab_iff ?_ ?_
  · rintro ((w | w) | _) h
    · exact ⟨(w, false), ⟨h, nofun⟩, rfl, rfl, rfl⟩
    · exact ⟨(w, false), ⟨sameWord_token (by decide +kernel) h, nofun⟩, rfl, rfl, rfl⟩
    · exact ⟨(str "*", true), ⟨star_token, fun _ => rfl⟩, rfl, rfl, rfl⟩
  · rintro ⟨w, _ | _⟩ ⟨h1, h2⟩
    · exact ⟨.inl (.inl w), h1, rfl, rfl, rfl⟩
    · obtain rfl : w = str "*" := h2 rfl
      exact ⟨.inr (), trivial, rfl, rfl, rfl⟩

theorem codingElem_den : (GExpr.app (classF (str "Parametrized")) true (.seq (.ref .codings)
    (.maybe (.ref .weight)))).den semD = tabD codingOk (fun x => x.1.text) (fun x => [codingValue x]) (fun _ => []) := by
  show appD (classF (str "Parametrized")) (thenD (semD .codings) (oneD (orD rankingD (appD (substF .none) nothingD)))) = _
  unfold semD
  rw [ranked_den]
  exact tab_iff (fun x h => ⟨(⟨x.1.1, x.2⟩, x.1.2), ⟨⟨h.1.1, h.2⟩, h.1.2⟩, rfl, rfl, rfl⟩)
    (fun x h => ⟨((x.1.name, x.2), x.1.rank), ⟨⟨h.1.1, h.2⟩, h.1.2⟩, rfl, rfl, rfl⟩)

/-! ## Other headers -/

theorem retry_den : oneD ((GExpr.alt (.ref (.date .httpDate)) (.ref .delaySeconds)).den semD) = semD .retryAfter := by
  show oneD (orD (dateD .httpDate) numberD) = _
  unfold dateD
  rw [tab_or, tab_one]
  refine tab_iff ?_ ?_
  · rintro (x | w) h
    · exact ⟨.date x.1 x.2, h.2, rfl, rfl, rfl⟩
    · exact ⟨.seconds w, h, rfl, rfl, rfl⟩
  · rintro (⟨f, x⟩ | w) h
    · exact ⟨.inl (f, x), ⟨trivial, h⟩, rfl, rfl, rfl⟩
    · exact ⟨.inr w, h, rfl, rfl, rfl⟩

theorem vary_den : oneD ((GExpr.alt (.lit (str "*") false) (.ref .fieldNames)).den semD) = semD .vary := by
  show oneD (orD (litD (str "*") false) (list1sD IsToken (fun w => w) (nameValue (str "FieldName")) (fun _ => []))) = _
  rw [lit_marks (s := str "*") (by decide +kernel), tab_or, tab_one]
  have ok : (List1Syn.mk [] (str "*") []).Ok IsToken := ⟨nofun, star_token, nofun⟩
  have text : ((List1Syn.mk [] (str "*") []).text fun w => w) = str "*" := by decide +kernel
  have notes : (List1Syn.mk [] (str "*") []).notes (fun _ => []) = [] := by decide +kernel
  refine tab_iff ?_ ?_
  · rintro (_ | l) h
    · exact ⟨(⟨[], str "*", []⟩, true), ⟨ok, fun _ => rfl⟩, text.symm, rfl, notes.symm⟩
    · exact ⟨(l, false), ⟨h, nofun⟩, rfl, rfl, rfl⟩
  · rintro ⟨l, _ | _⟩ ⟨h1, h2⟩
    · exact ⟨.inr l, h1, rfl, rfl, rfl⟩
    · obtain rfl : l = ⟨[], str "*", []⟩ := h2 rfl
      exact ⟨.inl (), trivial, text, rfl, notes⟩

theorem expect_den : oneD ((GExpr.app (classF (str "CaseInsensitive")) true (.lit (str "100-continue") false)).den semD) =
    semD .expect := by
  show oneD (appD (classF (str "CaseInsensitive")) (litD (str "100-continue") false)) = _
  rw [tab_lit, tab_class, tab_one_single]
  rfl

local macro "fine" : tactic => `(tactic| simp_all [Defn.Fine, GExpr.Fine, GExpr.number, rankE, GExpr.semicolon, parametersE,
  parameterE, mediaNameE])

local macro "one" : tactic => `(tactic| exact named_alike (.of_eq tab_one_single))

/-- Media types and preferences. -/
theorem sems_solve {order : List Nat → List Nat} (ho : ∀ l c, c ∈ order l ↔ c ∈ l) : Solves [] semD (semDefs order) := by
  refine solves_import (known := []) (δ' := hopD) nofun (fun _ => rfl) (hops_solve ho) ?_
  refine solves_import (known := []) (δ' := dateD) nofun (fun _ => rfl) dates_solve ?_
  have hk : ∀ n ∈ [SemName.hop (.str .token), .hop (.str .quoted), .hop (.str .ows), .hop .fieldName, .hop .method,
      .date .httpDate],
      n ∈ (dateDefs.map fun x => SemName.date x.1).reverse ++
        (((hopDefs order).map fun x => SemName.hop x.1).reverse ++ []) := of_decide_eq_true (Eq.refl true)
  generalize (dateDefs.map fun x => SemName.date x.1).reverse ++
        (((hopDefs order).map fun x => SemName.hop x.1).reverse ++ []) = known at hk
  have t0 : ∀ known, (GExpr.tokenExcluding order [] : GExpr SemName).Fine known :=
    fun known => tokenExcl_fine ho (by decide +kernel) known
  have t1 : ∀ known, (GExpr.tokenExcluding order [str "q"] : GExpr SemName).Fine known :=
    fun known => tokenExcl_fine ho (by decide +kernel) known
  refine ⟨by fine, by one, ?_⟩
  refine ⟨by fine, by one, ?_⟩
  refine ⟨?_, named_alike (.of_eq (attr_den (by simp))), ?_⟩
  · generalize ([] : List Str) = xs at t0 ⊢
    fine
  refine ⟨by fine, named_alike (.of_eq mediaType_den), ?_⟩
  refine ⟨by fine, named_alike (.of_eq (name_den _)), ?_⟩
  refine ⟨?_, named_alike (.of_eq (attr_den (by simp))), ?_⟩
  · generalize [str "q"] = xs at t1 ⊢
    fine
  refine ⟨by fine, named_alike (.of_eq mediaRange_den), ?_⟩
  refine ⟨by fine, named_alike (.of_eq rank_den), ?_⟩
  refine ⟨by fine, named_alike (.of_eq ranking_den), ?_⟩
  refine ⟨by fine, named_alike (.of_eq acceptExt_den), ?_⟩
  refine ⟨by fine, named_alike (.of_eq acceptParams_den), ?_⟩
  refine ⟨⟨by simp_all, rfl, by fine, by rw [acceptElem_den]; exact fun w cs => tab_never w cs⟩, ?_, ?_⟩
  · show Alike (listD _) _
    rw [acceptElem_den]
    exact tab_list (fun _ _ => nofun)
  refine ⟨by fine, by one, ?_⟩
  refine ⟨by fine, named_alike (.of_eq (name_den _)), ?_⟩
  refine ⟨⟨by simp_all, rfl, by fine, by rw [charsetElem_den]; exact fun w cs => tab_never w cs⟩, ?_, ?_⟩
  · show Alike (list1D _) _
    rw [charsetElem_den]
    exact tab_list1 (fun _ _ => nofun)
  refine ⟨by fine, by one, ?_⟩
  refine ⟨by fine, named_alike (.of_eq codings_den), ?_⟩
  refine ⟨⟨by simp_all, rfl, by fine, by rw [codingElem_den]; exact fun w cs => tab_never w cs⟩, ?_, ?_⟩
  · show Alike (listD _) _
    rw [codingElem_den]
    exact tab_list (fun _ _ => nofun)
  refine ⟨by fine, by one, ?_⟩
  refine ⟨by fine, named_alike (.of_eq number_one'), ?_⟩
  refine ⟨by fine, named_alike (.of_eq retry_den), ?_⟩
  refine ⟨⟨by simp_all, rfl, by fine, fun w cs => tab_never w cs⟩, tab_list (fun _ _ => nofun), ?_⟩
  refine ⟨by fine, by one, ?_⟩
  refine ⟨⟨by simp_all, rfl, by fine, fun w cs => tab_never w cs⟩, tab_list1 (fun _ _ => nofun), ?_⟩
  refine ⟨by fine, by one, ?_⟩
  refine ⟨by fine, by one, ?_⟩
  refine ⟨by fine, by one, ?_⟩
  refine ⟨by fine, named_alike (.of_eq number_one'), ?_⟩
  refine ⟨⟨by simp_all, rfl, by fine, fun w cs => tab_never w cs⟩, tab_list1 (fun _ _ => nofun), ?_⟩
  refine ⟨by fine, named_alike (.of_eq vary_den), ?_⟩
  refine ⟨by fine, named_alike (.of_eq expect_den), ?_⟩
  trivial

end Httpolice.Lemmas
