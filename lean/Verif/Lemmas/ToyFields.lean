import Verif.Lemmas.ToyMore
import Verif.Lemmas.RawFields

/-!
# Decidable vocabulary of the examples about particular headers
-/

namespace Httpolice.Spec.Toy

open Httpolice.Model Httpolice.Props Httpolice.Lemmas.Check

deriving instance DecidableEq for PrefArg

instance (s : Str) : Decidable (PercentEncoded s) := decidable_of_iff _ (percent_iff s)

instance (E : Env) (l : List Str) : Decidable (Repeats E l) := inferInstanceAs (Decidable (¬_))

instance (ps : List (Str × Str)) : Decidable (Precedes env ps "filename*" "filename") :=
  decidable_of_iff _ (precedes_iff sensible ps (by decide) (by decide) (by decide))

instance (E : Env) (x y : Str × Option Nat) : Decidable (Subsumes E x y) :=
  decidable_of_iff _ (subsumes_iff x y)

instance (s : Str) : Decidable (KnownMethod s) := decidable_of_iff _ (knownMethod_iff s)

instance (s : Str) : Decidable (TokenText s) := decidable_of_iff _ (token_iff s)

instance (c : Nat) : Decidable (UrlsafeDigit c) := inferInstanceAs (Decidable (_ ∨ _))

instance (E : Env) (a b : ArgVal PrefArg) : Decidable (SameArg E a b) := decidable_of_iff _ (sameArg_iff a b)

instance : (a : ArgVal PrefArg) → Decidable (PrefStands a)
  | .raw s => inferInstanceAs (Decidable (s ≠ []))
  | .parsed (.num n) => inferInstanceAs (Decidable (n ≠ 0))
  | .parsed (.word _) => inferInstanceAs (Decidable True)
  | .none => inferInstanceAs (Decidable True)
  | .unavailable _ => inferInstanceAs (Decidable True)

instance (E : Env) (m : Msg) (n v : String) : Decidable (Prefers E m n v) :=
  inferInstanceAs (Decidable (∃ x, Listed _ _ _ _ x ∧ _))

instance (E : Env) (r : Response) (req : Request) (P : Str × Option Str → Prop) [DecidablePred P] :
    Decidable (∃ x, CommonProtocol E r req x ∧ P x) :=
  decidable_of_iff (∃ x, Listed E r.fields "Upgrade" E.grammars.upgrade x ∧
    Listed E req.fields "Upgrade" E.grammars.upgrade x ∧ P x) (by simp only [CommonProtocol, and_assoc])

instance (E : Env) (r : Response) (req : Request) : Decidable (∃ x, CommonProtocol E r req x) :=
  decidable_of_iff (∃ x, CommonProtocol E r req x ∧ True) (by simp)

instance (m : Msg) : Decidable (Twice env m "Host") := decidable_of_iff _ (twice_iff sensible m (by decide))

/-- What `FirstPref` speaks of. -/
def firstPref (E : Env) (m : Msg) (name : String) : Option (ArgVal PrefArg) :=
  ((preferencesOf E m).find? fun d => decide (IsWord E d.1 name)).map Prod.snd

theorem firstPref_iff {E : Env} {m : Msg} {name : String} {a : ArgVal PrefArg} :
    FirstPref E m name a ↔ firstPref E m name = some a := by
  unfold FirstPref firstPref
  rw [Option.map_eq_some_iff]
  simp only [find_first]
  constructor
  · rintro ⟨l, d, l', h1, h2, h3⟩
    exact ⟨(d, a), ⟨l, l', h1, by simpa using h2, fun b hb => by simpa using h3 b hb⟩, rfl⟩
  · rintro ⟨⟨d, b⟩, ⟨l, l', h1, h2, h3⟩, rfl⟩
    exact ⟨l, d, l', h1, by simpa using h2, fun x hx => by simpa using h3 x hx⟩

instance (E : Env) (m : Msg) (n : String) (P : ArgVal PrefArg → Prop) [DecidablePred P] :
    Decidable (∃ a, FirstPref E m n a ∧ P a) :=
  decidable_of_iff (∃ a ∈ firstPref E m n, P a) (by simp only [firstPref_iff, Option.mem_def])

instance (E : Env) (ds : List (Str × ArgVal Nat)) (n : String) (a : ArgVal Nat) :
    Decidable (∃ l d l', ds = l ++ (d, a) :: l' ∧ IsWord E d n ∧ ∀ x ∈ l, ¬IsWord E x.1 n) :=
  decidable_of_iff ((ds.find? fun d => decide (IsWord E d.1 n)).map Prod.snd = some a) (by
    rw [Option.map_eq_some_iff]
    simp only [find_first]
    constructor
    · rintro ⟨⟨d, b⟩, ⟨l, l', h1, h2, h3⟩, rfl⟩
      exact ⟨l, d, l', h1, by simpa using h2, fun x hx => by simpa using h3 x hx⟩
    · rintro ⟨l, d, l', h1, h2, h3⟩
      exact ⟨(d, a), ⟨l, l', h1, by simpa using h2, fun b hb => by simpa using h3 b hb⟩, rfl⟩)

instance (l : List (Option Str)) : Decidable (∃ p, some p ∈ l) :=
  decidable_of_iff (l.filterMap id ≠ []) (by
    simp only [ne_eq, List.filterMap_eq_nil_iff, id]
    constructor
    · intro h
      refine Classical.byContradiction fun hn => h fun a ha => ?_
      cases a with
      | none => rfl
      | some p => exact absurd ⟨p, ha⟩ hn
    · rintro ⟨p, hp⟩ h
      cases h _ hp)

instance (l : List (Option Str)) (P : Str → Prop) [DecidablePred P] : Decidable (∀ p, some p ∈ l → P p) :=
  decidable_of_iff (∀ p ∈ l.filterMap id, P p) (by simp)

instance (E : Env) (req : Request) : Decidable (∃ form, TargetIs E req form) :=
  decidable_of_iff ((req.targetForm E).isSome = true) (by
    simp only [← targetIs_iff, Option.isSome_iff_exists])

instance (l : List Entry) (P : Entry → Prop) [DecidablePred P] : Decidable (∃ e rest, l = e :: rest ∧ P e) :=
  decidable_of_iff (∃ e ∈ l.head?, P e) (by cases l <;> simp)

instance {V : Type} (E : Env) (m : Msg) (n : String) (p : Entry → Parsed V) (P : V → V → Prop)
    [∀ x y, Decidable (P x y)] : Decidable (∃ x y, Listed E m n p x ∧ Listed E m n p y ∧ P x y) :=
  decidable_of_iff (∃ x ∈ listedIn E m n p, ∃ y ∈ listedIn E m n p, P x y) (by
    simp only [listedIn_iff]; grind)

instance {V : Type} (E : Env) (m : Msg) (n : String) (p : Entry → Parsed V) (P : V → Prop)
    [DecidablePred P] : Decidable (∃ v, SoleValue E m n p v ∧ P v) :=
  decidable_of_iff (∃ v ∈ soleVal E m n p, P v) (by simp only [soleVal_iff, Option.mem_def])

end Httpolice.Spec.Toy
