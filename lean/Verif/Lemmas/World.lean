import Verif.Spec.Written
import Verif.Lemmas.Calendar
import Verif.Lemmas.Settings
import Verif.Lemmas.Views

/-!
# Values as the checks see them
-/

namespace Httpolice.Lemmas

open Httpolice.Model Httpolice.Spec

/-! ## Entries -/

/-- What the value of an entry is, whatever is reported. -/
def Valued {α : Type} (f : Entry → Parsed GVal) (Ok : α → Prop) (print : α → Str) (Is : α → Parsed GVal → Prop) : Prop :=
  ∀ e, (∀ x, Ok x → e.value = print x → Is x (f e)) ∧
    ((¬ ∃ x, Ok x ∧ e.value = print x) → f e = .unavailable (some e.value))

/-- Parsing gives such values, whatever it complains about. -/
def Comes {α : Type} (p : SymParser) (Ok : α → Prop) (print : α → Str) (IsValue : α → GVal → Prop) : Prop :=
  Takes p Ok print ∧ ∀ x, Ok x → ∃ v cs as, p (print x) = .ok (.val v, cs, as) ∧ IsValue x v

section
variable {α : Type} {p : SymParser} {Ok : α → Prop} {print : α → Str} {value : α → GVal} {IsValue : α → GVal → Prop}
  {notes : α → List PyComplaint}

theorem comes_reads (h : Reads p Ok print value notes) : Comes p Ok print (fun x v => v = value x) :=
  ⟨h.1, fun x hx => let ⟨cs, as, h1, _⟩ := h.2 x hx; ⟨_, cs, as, h1, rfl⟩⟩

theorem comes_readsAs (h : ReadsAs p Ok print IsValue notes) : Comes p Ok print IsValue :=
  ⟨h.1, fun x hx => let ⟨v, cs, as, h1, h2, _⟩ := h.2 x hx; ⟨v, cs, as, h1, h2⟩⟩

theorem valued_plain {key : String} (h : Comes p Ok print IsValue)
    (hv : ∀ x v, Ok x → IsValue x v → IsReal v ∨ ∃ s, v = unavailableObj s) :
    Valued (fun e => ((knownKind key p plainProcess).parse e).1) Ok print (fun x r => ∃ v, IsValue x v ∧ Sees v r) := by
  intro e
  refine ⟨fun x hx ex => ?_, fun hn => ?_⟩
  · obtain ⟨v, cs, as, h1, h2⟩ := h.2 x hx
    rw [← ex] at h1
    refine ⟨v, h2, ?_⟩
    rcases hv x v hx h2 with hr | ⟨s, rfl⟩
    · show Sees v (readEntry _ _ _ _).1
      rw [readEntry_real h1 hr]
      exact sees_real hr
    · show Sees _ (readEntry _ _ _ _).1
      rw [readEntry_unavailable h1]
      exact .unavailable s
  · obtain ⟨err, he⟩ := (h.1 e.value).2.mpr hn
    show (readEntry _ _ _ _).1 = _
    rw [readEntry_error he]

theorem valued_entries {k : HeaderKind GVal} {Result : Entry → α → Parsed GVal × List Note → Prop} {Is : α → Parsed GVal → Prop}
    (h : ReadsEntries k Ok print Result) (hr : ∀ e x r, Ok x → Result e x r → Is x r.1) :
    Valued (fun e => (k.parse e).1) Ok print Is :=
  fun e => ⟨fun x hx ex => hr e x _ hx ((h e).1 x hx ex), fun hn => congrArg Prod.fst ((h e).2 hn)⟩

end

/-- The value of a header that gives one. -/
theorem one_is {α V : Type} {f : Entry → Parsed GVal} {Ok : α → Prop} {print : α → Str} {Is : α → Parsed GVal → Prop}
    {g : GVal → Option V} {said : α → Option V} (h : Valued f Ok print Is)
    (hs : ∀ x r, Ok x → Is x r → oneOf g r = said x) : OneIs (fun e => oneOf g (f e)) Ok print said := by
  intro e v
  constructor
  · intro hv
    by_cases hx : ∃ x, Ok x ∧ e.value = print x
    · obtain ⟨x, h1, h2⟩ := hx
      exact ⟨x, h1, h2, by rw [← hs x _ h1 ((h e).1 x h1 h2)]; exact hv⟩
    · have hv' : oneOf g (f e) = some v := hv
      rw [(h e).2 hx] at hv'
      cases hv'
  · rintro ⟨x, h1, h2, h3⟩
    rw [← h3]
    exact hs x _ h1 ((h e).1 x h1 h2)

theorem pairwise2_unique {β V : Type} {R : β → V → Prop} (hu : ∀ b v w, R b v → R b w → v = w) :
    ∀ {l : List β} {m n : List V}, Pairwise2 R l m → Pairwise2 R l n → m = n
  | _, _, _, .nil, .nil => rfl
  | _, _, _, .cons h1 h2, .cons k1 k2 => by rw [hu _ _ _ h1 k1, pairwise2_unique hu h2 k2]

theorem pairwise2_map {β V : Type} {R : β → V → Prop} {g : GVal → V} {Is : β → GVal → Prop} {l : List β} {vs : List GVal}
    (h : Pairwise2 Is l vs) (hg : ∀ b ∈ l, ∀ v, Is b v → R b (g v)) : Pairwise2 R l (vs.map g) := by
  induction h with
  | nil => exact .nil
  | cons h1 _ ih => exact .cons (hg _ (.head _) _ h1) (ih fun b hb => hg b (.tail _ hb))

theorem pairwise2_being {β V : Type} {g : β → V} {l : List β} {m : List V} : Pairwise2 (Being g) l m ↔ m = l.map g := by
  constructor
  · intro h
    induction h with
    | nil => rfl
    | cons h1 _ ih => rw [ih, List.map_cons, h1]
  · rintro rfl
    induction l with
    | nil => exact .nil
    | cons b l ih => exact .cons rfl ih

theorem pairwise2_of_map {β : Type} {g : β → GVal} (l : List β) : Pairwise2 (fun b v => v = g b) l (l.map g) := by
  induction l with
  | nil => exact .nil
  | cons b l ih => exact .cons rfl ih

/-- The value of a header that gives a list. -/
theorem list_is {α β V : Type} {f : Entry → Parsed GVal} {Ok : α → Prop} {print : α → Str} {elems : α → List β}
    {Is : β → GVal → Prop} {g : GVal → V} {Said : β → V → Prop}
    (h : Valued f Ok print (fun x r => ∃ vs, r = .list vs ∧ Pairwise2 Is (elems x) vs))
    (hs : ∀ x, Ok x → ∀ b ∈ elems x, ∀ v, Is b v → Said b (g v)) (hu : ∀ b v w, Said b v → Said b w → v = w) :
    ListIs (fun e => someOf g (f e)) Ok print elems Said := by
  intro e
  by_cases hx : ∃ x, Ok x ∧ e.value = print x
  · obtain ⟨x, h1, h2⟩ := hx
    obtain ⟨vs, h3, h4⟩ := (h e).1 x h1 h2
    have h5 := pairwise2_map h4 (hs x h1)
    refine ⟨fun l => ?_, fun hn => absurd ⟨x, h1, h2⟩ hn, fun v hv => ?_⟩
    · show someOf g (f e) = _ ↔ _
      rw [h3]
      constructor
      · intro hl
        refine ⟨x, h1, h2, ?_⟩
        cases hl
        exact h5
      · rintro ⟨y, k1, k2, k3⟩
        obtain ⟨ws, k4, k5⟩ := (h e).1 y k1 k2
        rw [h3] at k4
        cases k4
        show Parsed.list _ = _
        rw [pairwise2_unique hu k3 (pairwise2_map k5 (hs y k1))]
    · have hv' : someOf g (f e) = _ := hv
      rw [h3] at hv'
      cases hv'
  · have hf := (h e).2 hx
    refine ⟨fun l => ?_, fun _ => ?_, fun v hv => ?_⟩
    · constructor
      · intro hl
        have hl' : someOf g (f e) = _ := hl
        rw [hf] at hl'
        cases hl'
      · rintro ⟨y, k1, k2, _⟩
        exact absurd ⟨y, k1, k2⟩ hx
    · show someOf g (f e) = _
      rw [hf]
      rfl
    · have hv' : someOf g (f e) = _ := hv
      rw [hf] at hv'
      cases hv'

theorem being_unique {β V : Type} {g : β → V} : ∀ b v w, Being g b v → Being g b w → v = w := fun _ _ _ h k => h.trans k.symm

/-- Lists without anything to look up. -/
theorem list_plain {α β V : Type} {p : SymParser} {key : String} {Ok : α → Prop} {print : α → Str} {elems : α → List β}
    {Is : β → GVal → Prop} {g : GVal → V} {Said : β → V → Prop}
    (h : Comes p Ok print (fun x v => ∃ vs, v = .list vs ∧ Pairwise2 Is (elems x) vs))
    (hs : ∀ x, Ok x → ∀ b ∈ elems x, ∀ v, Is b v → Said b (g v)) (hu : ∀ b v w, Said b v → Said b w → v = w) :
    ListIs (fun e => someOf g ((knownKind key p plainProcess).parse e).1) Ok print elems Said := by
  refine list_is (Is := Is) (f := fun e => ((knownKind key p plainProcess).parse e).1) (fun e => ?_) hs hu
  have := valued_plain (key := key) h (by rintro x _ _ ⟨vs, rfl, _⟩; exact .inl nofun) e
  refine ⟨fun x hx ex => ?_, this.2⟩
  obtain ⟨_, ⟨vs, rfl, h2⟩, h3⟩ := this.1 x hx ex
  refine ⟨vs, ?_, h2⟩
  replace h3 : Sees _ ((knownKind key p plainProcess).parse e).1 := h3
  show ((knownKind key p plainProcess).parse e).1 = _
  generalize ((knownKind key p plainProcess).parse e).1 = r at h3 ⊢
  cases h3 with
  | list => rfl
  | single h => exact absurd rfl (h vs)

/-- Lists where the elements are known. -/
theorem list_reads {α β V : Type} {p : SymParser} {key : String} {Ok : α → Prop} {print : α → Str} {elems : α → List β}
    {value : β → GVal} {notes : α → List PyComplaint} {g : GVal → V} {said : β → V}
    (h : Reads p Ok print (fun x => .list ((elems x).map value)) notes)
    (hs : ∀ x, Ok x → ∀ b ∈ elems x, g (value b) = said b) :
    ListIs (fun e => someOf g ((knownKind key p plainProcess).parse e).1) Ok print elems (Being said) := by
  refine list_plain (Is := fun b v => v = value b) ?_ ?_ being_unique
  · exact ⟨h.1, fun x hx => let ⟨cs, as, h1, _⟩ := h.2 x hx; ⟨_, cs, as, h1, _, rfl, pairwise2_of_map _⟩⟩
  · rintro x hx b hb _ rfl
    exact hs x hx b hb

/-- One value, known. -/
theorem one_reads {α V : Type} {p : SymParser} {key : String} {Ok : α → Prop} {print : α → Str} {value : α → GVal}
    {notes : α → List PyComplaint} {g : GVal → Option V} {said : α → Option V} (h : Reads p Ok print value notes)
    (hv : ∀ x, Ok x → (IsReal (value x) ∧ g (value x) = said x) ∨ ∃ s, value x = unavailableObj s ∧ said x = none) :
    OneIs (fun e => oneOf g ((knownKind key p plainProcess).parse e).1) Ok print said := by
  refine one_is (f := fun e => ((knownKind key p plainProcess).parse e).1) (valued_plain (comes_reads h) ?_) ?_
  · rintro x _ hx rfl
    exact (hv x hx).imp And.left fun ⟨s, h, _⟩ => ⟨s, h⟩
  · rintro x r hx ⟨_, rfl, hr⟩
    rcases hv x hx with ⟨h1, h2⟩ | ⟨s, h1, h2⟩
    · rw [← h2]
      generalize value x = v at *
      cases hr with
      | list => rfl
      | unavailable s => exact absurd rfl (h1 _)
      | single => rfl
    · rw [h1] at hr
      rw [h2]
      generalize hw : unavailableObj s = w at hr
      cases hr with
      | list => cases hw
      | unavailable => rfl
      | single _ h => exact absurd hw.symm (h s)

/-! ## Values -/

theorem numeral_back (w : Str) : wholeNumber (.int (numeral w)) = some (numeral w) := rfl

theorem realInt (n : Int) : IsReal (.int n) := nofun

theorem realText (s : Str) : IsReal (.text s) := nofun

theorem realList (l : List GVal) : IsReal (.list l) := nofun

theorem realObj {cls : Str} {args : List GVal} (h : cls ≠ str "Unavailable") : IsReal (.obj cls args) :=
  fun _ e => h (GVal.obj.inj e).1

theorem seconds_back {x : Stamp} (h : x.Real) : dateSeconds x.value = some x.seconds := by
  obtain ⟨⟨h1, h2, h3, h4, _⟩, _⟩ := id h
  rw [Stamp.value, if_pos h, Stamp.datetime, dateSeconds, if_pos rfl, Stamp.seconds]
  obtain ⟨y, hy⟩ : ∃ y, x.year = y + 1 := ⟨x.year - 1, by omega⟩
  simp only [Int.toNat_natCast]
  rw [daysBeforeMonth_eq _ h2 h3, hy, daysBeforeYear_eq, Nat.add_sub_cancel]
  congr 5
  omega

theorem stamp_cases (x : Stamp) : (x.Real ∧ IsReal x.value ∧ dateSeconds x.value = some x.seconds) ∨
    (¬ x.Real ∧ ∃ s, x.value = unavailableObj s) := by
  by_cases h : x.Real
  · refine .inl ⟨h, ?_, seconds_back h⟩
    rw [Stamp.value, if_pos h]
    exact realObj (by decide)
  · refine .inr ⟨h, ?_⟩
    rw [Stamp.value, if_neg h]
    exact ⟨_, rfl⟩

theorem tag_back (x : Spec.EntityTag) : entityTagOf x.value = some x.said := by
  obtain ⟨w, t⟩ := x
  cases w
  · rw [Spec.EntityTag.value, entityTagOf, if_pos rfl]
    have : ¬ (str "False" = str "True") := by decide
    simp [EntityTag.said, this]
  · rw [Spec.EntityTag.value, entityTagOf, if_pos rfl]
    simp [EntityTag.said]

theorem stamp_no_tag (x : Stamp) : entityTagOf x.value = none := by
  unfold Stamp.value
  split
  · rfl
  · rfl

theorem thousandths_back {x : Weight} (h : x.Ok) : thousandths x.text = x.thousandths := by
  obtain ⟨one, ds⟩ := x
  cases ds with
  | none => cases one <;> rfl
  | some ds =>
    obtain ⟨h1, h2⟩ := h ds rfl
    have main : fractionOf [100, 10, 1] ds = numeral ((ds ++ [48, 48, 48]).take 3) := by
      match ds, h1 with
      | [], _ => rfl
      | [a], _ => simp [fractionOf, numeral]; omega
      | [a, b], _ => simp [fractionOf, numeral]; omega
      | [a, b, c], _ => simp [fractionOf, numeral]; omega
      | _ :: _ :: _ :: _ :: _, h1 => simp at h1
    cases one
    · show 1000 * (48 - 48) + fractionOf [100, 10, 1] ds = _
      rw [main]
      simp [Weight.thousandths]
    · show 1000 * (49 - 48) + fractionOf [100, 10, 1] ds = _
      rw [main]
      simp [Weight.thousandths]

theorem weight_back {x : Ranking} (h : x.Ok) : weightOf x.value = some x.thousandths := by
  show (if str "float" = str "float" then some (thousandths x.weight.text) else none) = _
  rw [if_pos rfl, thousandths_back h.2.2.2]
  rfl

theorem attrs_back (l : List Attr) : dictPairs (multi (l.map Attr.entry)) = l.map fun p => (p.name, p.value.content) := by
  simp [dictPairs, Spec.multi, Attr.entry, unpackPair, strText, nameValue]

theorem params_back (l : List Param) : dictPairs (multi (l.map Param.entry)) = l.map fun p => (p.name, p.value.content) := by
  simp [dictPairs, Spec.multi, Param.entry, unpackPair, strText, nameValue]

theorem disp_back (l : List DispParam) : dictPairs (multi (l.map DispParam.entry)) = l.map fun p => (p.name, p.value.said) := by
  simp only [dictPairs, Spec.multi, List.map_map]
  refine List.map_congr_left fun p _ => ?_
  obtain ⟨n, b, a, v⟩ := p
  cases v <;> rfl

theorem details_back (x : Details) : authParamsOf x.value = x.said := by
  cases x with
  | nothing => rfl
  | token _ x => rfl
  | params _ l =>
    show AuthParams.params (dictPairs (multi (l.elems.map Param.entry))) = _
    rw [params_back]
    rfl

theorem warning_said (x : WarningSyn) : x.Said (warningOf x.value) := by
  obtain ⟨c, a, m, d⟩ := x
  cases d with
  | none => exact ⟨rfl, rfl⟩
  | some d =>
    obtain ⟨f, d⟩ := d
    have hn : d.value ≠ .none := by unfold Stamp.value; split <;> nofun
    have : warningOf (WarningSyn.value ⟨c, a, m, some (f, d)⟩) =
        ⟨numeral c, match dateSeconds d.value with | some t => .val t | none => .unavailable⟩ := by
      show warningOf (.obj _ [.obj _ [.int (numeral c)], _, _, d.value]) = _
      generalize d.value = v at hn
      cases v <;> first | exact absurd rfl hn | rfl
    rw [this]
    refine ⟨rfl, fun hr => ?_, fun hr => ?_⟩
    · rw [seconds_back hr]
    · obtain ⟨s, hs⟩ := (stamp_cases d).resolve_left (fun h => hr h.1) |>.2
      rw [hs]
      rfl

theorem warning_unique (x : WarningSyn) (v w : WarningValue) (hv : x.Said v) (hw : x.Said w) : v = w := by
  obtain ⟨c, a, m, d⟩ := x
  obtain ⟨v1, v2⟩ := v
  obtain ⟨w1, w2⟩ := w
  obtain ⟨h1, h2⟩ := hv
  obtain ⟨k1, k2⟩ := hw
  simp only at h1 h2 k1 k2
  subst h1 k1
  congr 1
  cases d with
  | none => exact h2.trans k2.symm
  | some d =>
    by_cases hr : d.2.Real
    · exact (h2.1 hr).trans (k2.1 hr).symm
    · exact (h2.2 hr).trans (k2.2 hr).symm

/-! ## Arguments -/

theorem takenAs_unique {A : Type} {place : Place A} (hp : ∀ b R, place = .reads b R → ∀ s a a', R s a → R s a' → a = a')
    {o : Option Str} {a b : ArgVal A} (h : TakenAs place o a) (k : TakenAs place o b) : a = b := by
  cases h with
  | flag => cases k; rfl
  | unwanted => cases k; rfl
  | missing => cases k; rfl
  | without => cases k; rfl
  | good h =>
    cases k with
    | good k => rw [hp _ _ rfl _ _ _ h k]
    | bad k => exact absurd h (k _)
  | bad h =>
    cases k with
    | good k => exact absurd k (h _)
    | bad k => rfl
  | nothing => cases k; rfl
  | anything => cases k; rfl

/-- A place is typed as another one. -/
inductive Retyped {A : Type} (g : GVal → Option A) : ArgPlace → Place A → Prop
  | flag : Retyped g .flag .flag
  | free : Retyped g .free .free
  | reads {b : Bool} {R : ArgReading} {Q : Str → A → Prop}
      (h : ∀ s v ns, R s v ns → ∃ a, argumentOf g v = .parsed a ∧ Q s a) (k : ∀ s a, Q s a → ∃ v ns, R s v ns) :
      Retyped g (.reads b R) (.reads b Q)

theorem takenAs_of {A : Type} {g : GVal → Option A} {p : ArgPlace} {q : Place A} (ht : Retyped g p q) {o : Option Str} {v : GVal}
    {ns : List Nat} (h : Argument p o v ns) : TakenAs q o (argumentOf g v) := by
  cases h with
  | flag => cases ht; exact .flag
  | unwanted s => cases ht; exact .unwanted s
  | missing R => cases ht; exact .missing _
  | without R => cases ht; exact .without _
  | good h =>
    cases ht with
    | reads h1 h2 =>
      obtain ⟨a, e1, e2⟩ := h1 _ _ _ h
      rw [e1]
      exact .good e2
  | bad h =>
    cases ht with
    | reads h1 h2 => exact .bad fun a ha => let ⟨v, ns, k⟩ := h2 _ _ ha; h v ns k
  | nothing => cases ht; exact .nothing
  | anything s => cases ht; exact .anything s

theorem word_parsed (s : Str) : argumentOf prefArgOf (nameValue (str "CaseInsensitive") s) = .parsed (.word s) := by
  have : str "CaseInsensitive" ≠ str "Unavailable" := by decide
  simp [argumentOf, nameValue, this, prefArgOf, strText]

theorem retyped_cache (name : Str) : Retyped cacheArgOf (cacheArg name) (cachePlace name) := by
  have num : ∀ b, Retyped cacheArgOf (.reads b NumberArg) (.reads b fun s a => IsNumeral s ∧ a = .num (numeral s)) := fun b =>
    .reads (by rintro s _ _ ⟨h, rfl, _⟩; exact ⟨_, rfl, h, rfl⟩) (by rintro s _ ⟨h, _⟩; exact ⟨_, _, h, rfl, rfl⟩)
  unfold cacheArg cachePlace
  split
  · exact num _
  split
  · exact num _
  split
  · refine .reads ?_ ?_
    · rintro s _ _ ⟨l, h1, h2, rfl, _⟩
      refine ⟨.names l.elems, ?_, l, h1, h2, rfl⟩
      show ArgVal.parsed (CacheArg.names _) = _
      simp [strText, nameValue, Function.comp_def]
    · rintro s _ ⟨l, h1, h2, _⟩
      exact ⟨_, _, l, h1, h2, rfl, rfl⟩
  split
  · exact .flag
  · exact .free

theorem retyped_hsts (name : Str) : Retyped wholeNumber (hstsArg name) (hstsPlace name) := by
  unfold hstsArg hstsPlace
  split
  · exact .reads (by rintro s _ _ ⟨h, rfl, _⟩; exact ⟨_, rfl, h, rfl⟩) (by rintro s _ ⟨h, _⟩; exact ⟨_, _, h, rfl, rfl⟩)
  split
  · exact .flag
  · exact .free

theorem retyped_prefer (name : Str) : Retyped prefArgOf (preferArg name) (preferPlace name) := by
  have word : ∀ ws, Retyped prefArgOf (.reads true (ChoiceArg ws)) (.reads true fun s a => AmongWords s ws ∧ a = .word s) := fun ws =>
    .reads (by rintro s _ _ ⟨h, rfl, _⟩; exact ⟨_, word_parsed s, h, rfl⟩) (by rintro s _ ⟨h, _⟩; exact ⟨_, _, h, rfl, rfl⟩)
  unfold preferArg preferPlace
  split
  · exact .flag
  split
  · exact word _
  split
  · exact .reads (by rintro s _ _ ⟨h, rfl, _⟩; exact ⟨_, rfl, h, rfl⟩) (by rintro s _ ⟨h, _⟩; exact ⟨_, _, h, rfl, rfl⟩)
  split
  · exact word _
  · exact .free

theorem cachePlace_unique (name : Str) : ∀ b R, cachePlace name = .reads b R → ∀ s a a', R s a → R s a' → a = a' := by
  intro b R h
  unfold cachePlace at h
  split at h
  · cases h; rintro s _ _ ⟨_, rfl⟩ ⟨_, rfl⟩; rfl
  split at h
  · cases h; rintro s _ _ ⟨_, rfl⟩ ⟨_, rfl⟩; rfl
  split at h
  · cases h
    rintro s _ _ ⟨l, h1, rfl, rfl⟩ ⟨m, k1, k2, rfl⟩
    rw [nameList_inj l m h1 k1 k2]
  split at h <;> cases h

theorem hstsPlace_unique (name : Str) : ∀ b R, hstsPlace name = .reads b R → ∀ s a a', R s a → R s a' → a = a' := by
  intro b R h
  unfold hstsPlace at h
  split at h
  · cases h; rintro s _ _ ⟨_, rfl⟩ ⟨_, rfl⟩; rfl
  split at h <;> cases h

theorem preferPlace_unique (name : Str) : ∀ b R, preferPlace name = .reads b R → ∀ s a a', R s a → R s a' → a = a' := by
  intro b R h
  unfold preferPlace at h
  split at h
  · cases h
  split at h
  · cases h; rintro s _ _ ⟨_, rfl⟩ ⟨_, rfl⟩; rfl
  split at h
  · cases h; rintro s _ _ ⟨_, rfl⟩ ⟨_, rfl⟩; rfl
  split at h
  · cases h; rintro s _ _ ⟨_, rfl⟩ ⟨_, rfl⟩; rfl
  · cases h

end Httpolice.Lemmas
