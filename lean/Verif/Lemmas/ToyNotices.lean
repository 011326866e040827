import Verif.Lemmas.Locate
import Verif.Lemmas.RawAnswer
import Verif.Props.Checks

/-!
# The environment of the examples, for statements about notices
-/

namespace Httpolice.Spec.Toy

open Httpolice.Model Httpolice.Props

deriving instance DecidableEq for PyVal

instance (E : Env) (e : Entry) (n : String) : Decidable (HasName E e n) :=
  inferInstanceAs (Decidable (_ = _))

instance (E : Env) (m : Msg) (n : String) : Decidable (Has E m n) :=
  inferInstanceAs (Decidable (∃ e ∈ fieldsFor m n, HasName E e n))

instance (E : Env) (m : Msg) (l : List String) : Decidable (Carries E m l) :=
  inferInstanceAs (Decidable (∃ e ∈ m.headers ++ m.trailers, ∃ n ∈ l, HasName E e n))

instance (r : Request) (l : List String) : Decidable (IsMethod r l) :=
  inferInstanceAs (Decidable (∃ n ∈ l, r.method = str n))

instance (m : Message) (v : String) : Decidable (Version m v) :=
  inferInstanceAs (Decidable (m.version = some (str v)))

instance (r : Response) (n : Int) : Decidable (StatusClass r n) :=
  inferInstanceAs (Decidable (_ ∧ _))

instance : (b : PyVal Str) → Decidable (HasContent b)
  | .none => inferInstanceAs (Decidable False)
  | .unavailable => inferInstanceAs (Decidable True)
  | .val s => inferInstanceAs (Decidable (s ≠ []))

instance (E : Env) (x : Str) (w : String) : Decidable (IsWord E x w) :=
  inferInstanceAs (Decidable (_ = _))

/-- What `LastOf` speaks of. -/
def lastVal {V : Type} (E : Env) (m : Msg) (n : String) (p : Entry → Option V) : Option V :=
  ((fieldsFor m n).reverse.find? fun e => decide (HasName E e n)).bind p

theorem lastVal_iff {V : Type} {E : Env} {m : Msg} {n : String} {p : Entry → Option V} {v : V} :
    LastOf E m n p v ↔ lastVal E m n p = some v := by
  unfold LastOf lastVal
  rw [Option.bind_eq_some_iff]
  constructor
  · rintro ⟨a, e, b, h, hn, hb, hp⟩
    refine ⟨e, ?_, hp⟩
    rw [h, List.reverse_append, List.reverse_cons, List.append_assoc, List.find?_append,
      List.find?_eq_none.2 (by simpa using hb)]
    simp [hn]
  · rintro ⟨e, he, hp⟩
    rw [List.find?_eq_some_iff_append] at he
    obtain ⟨hn, a, b, h, ha⟩ := he
    refine ⟨b.reverse, e, a.reverse, ?_, by simpa using hn, by simpa using ha, hp⟩
    rw [← List.reverse_inj, h]
    simp

instance {V : Type} [DecidableEq V] (E : Env) (m : Msg) (n : String) (p : Entry → Option V) (v : V) :
    Decidable (LastOf E m n p v) := decidable_of_iff' _ lastVal_iff

instance {V : Type} (E : Env) (m : Msg) (n : String) (p : Entry → Option V) (P : V → Prop)
    [DecidablePred P] : Decidable (∃ v, LastOf E m n p v ∧ P v) :=
  decidable_of_iff (∃ v ∈ lastVal E m n p, P v) (by simp only [lastVal_iff, Option.mem_def])

/-- What `Listed` speaks of. -/
def listedIn {V : Type} (E : Env) (m : Msg) (n : String) (p : Entry → Parsed V) : List V :=
  ((fieldsFor m n).filter fun e => decide (HasName E e n)).flatMap fun e => match p e with
    | .list l => l
    | _ => []

theorem listedIn_iff {V : Type} {E : Env} {m : Msg} {n : String} {p : Entry → Parsed V} {v : V} :
    Listed E m n p v ↔ v ∈ listedIn E m n p := by
  unfold Listed listedIn
  simp only [List.mem_flatMap, List.mem_filter, decide_eq_true_eq, and_assoc]
  refine exists_congr fun e => and_congr_right fun _ => and_congr_right fun _ => ?_
  cases p e <;> simp

instance {V : Type} [DecidableEq V] (E : Env) (m : Msg) (n : String) (p : Entry → Parsed V) (v : V) :
    Decidable (Listed E m n p v) := decidable_of_iff' _ listedIn_iff

instance {V : Type} (E : Env) (m : Msg) (n : String) (p : Entry → Parsed V) (P : V → Prop)
    [DecidablePred P] : Decidable (∃ v, Listed E m n p v ∧ P v) :=
  decidable_of_iff (∃ v ∈ listedIn E m n p, P v) (by simp only [listedIn_iff])

instance (E : Env) (m : Msg) (o : String) : Decidable (HasOption E m o) :=
  inferInstanceAs (Decidable (∃ v, Listed _ _ _ _ v ∧ _))

instance (E : Env) (m : Msg) (n : Nat) : Decidable (Warns E m n) :=
  inferInstanceAs (Decidable (∃ v, Listed _ _ _ _ v ∧ _))

instance (E : Env) (m : Msg) (n : String) : Decidable (HasMediaType E m n) :=
  inferInstanceAs (Decidable (∃ v, LastOf _ _ _ _ v ∧ _))

instance (E : Env) (m : Msg) : Decidable (Chunked E m) :=
  inferInstanceAs (Decidable (∃ v, Listed _ _ _ _ v ∧ _))

instance (m : Message) : Decidable (Http1 m) := inferInstanceAs (Decidable (_ ∨ _))

instance (E : Env) (r : Response) (req : Request) : Decidable (EndsWithConnection E r req) :=
  inferInstanceAs (Decidable (_ ∧ _))

instance (E : Env) (req : Request) (f : TargetForm) : Decidable (TargetIs E req f) :=
  decidable_of_iff _ (Httpolice.Lemmas.Check.targetIs_iff req f)

instance (E : Env) (req : Request) : Decidable (ToProxy E req) := inferInstanceAs (Decidable (_ ∧ _))

instance (E : Env) (req : Request) : Decidable (NotToProxy E req) :=
  inferInstanceAs (Decidable (_ ∧ _))

instance (ex : Exchange) (i : Nat) (P : Response → Prop) [DecidablePred P] :
    Decidable (OnResponse ex i P) :=
  decidable_of_iff (∃ r ∈ ex.responses[i]?, P r) (by simp only [OnResponse, Option.mem_def])

instance (ex : Exchange) (P : Request → Prop) [DecidablePred P] : Decidable (OnRequest ex P) :=
  decidable_of_iff (∃ r ∈ ex.request, P r) (by simp only [OnRequest, Option.mem_def])

instance (ex : Exchange) (i : Nat) (P : Response → Request → Prop) [∀ r q, Decidable (P r q)] :
    Decidable (OnAnswer ex i P) :=
  decidable_of_iff (∃ r ∈ ex.responses[i]?, ∃ q ∈ ex.request, P r q)
    (by simp only [OnAnswer, Option.mem_def]; grind)

theorem sensible : Sensible env where
  lower := toy_lower
  acceptPatch := by intro e v h; cases h
  accept := by intro n e v h; cases h
  allow := by intro e v h; cases h
  cacheControl := by intro e v h; cases h
  connection := by intro e v h; cases h
  silence := by intro e v h; cases h
  link := by intro e v h; cases h
  pragma := by intro e v h; cases h
  prefer := by intro e v h; cases h
  preferenceApplied := by intro e v h; cases h
  te := by intro e v h; cases h
  trailer := by intro e v h; cases h
  transferEncoding := by intro e v h; cases h
  upgrade := by intro e v h; cases h
  warning := by intro e v h; cases h
  challenge := by intro e v h; cases h

/-- Nothing is raised when there are no great numbers and no 451. -/
theorem quiet (ex : Exchange) (h : ∀ r ∈ ex.responses, r.status ≠ 451 ∧
    ∀ e ∈ r.fields.headers, (number e.value).getD 0 < 1000000) : exchangeRaises env ex = false := by
  rw [← Bool.not_eq_true, C58_raises env toy_lower (by intro e v h; cases h)]
  rintro ⟨r, hr, ⟨_, d, a, hd, ha, hlt⟩ | ⟨h451, _⟩⟩
  · obtain ⟨e1, he1, hn1, hp1⟩ := lastValue_mem hd
    obtain ⟨e2, he2, hn2, hp2⟩ := lastValue_mem ha
    have h1 := (h r hr).2 e1 he1
    have h2 := (h r hr).2 e2 he2
    rw [show number e1.value = some d from hp1] at h1
    rw [show number e2.value = some a from hp2] at h2
    simp only [Option.getD_some] at h1 h2
    have hlt' : @LT.lt Nat _ 315537897599 (@HAdd.hAdd Nat Nat Nat _ d a) := hlt
    omega
  · exact (h r hr).1 h451

/-- An exchange of messages made by `req` and `resp`. -/
theorem apart (q : Request) (rs : List Response) (hq : q.payload.notes = [])
    (hr : ∀ r ∈ rs, r.payload.notes = []) (id : Nat) : Apart env ⟨some q, rs⟩ id :=
  toy_apart _ _ (by intro _ h; cases h; exact hq) hr

end Httpolice.Spec.Toy
