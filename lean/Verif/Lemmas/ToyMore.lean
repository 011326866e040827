import Verif.Lemmas.ToyNotices
import Verif.Lemmas.RawCaches
import Verif.Lemmas.RawCredentials

/-!
# More decidable vocabulary of the examples
-/

namespace Httpolice.Spec.Toy

open Httpolice.Model Httpolice.Props

deriving instance DecidableEq for ArgVal
deriving instance DecidableEq for CacheArg
deriving instance DecidableEq for AuthParams

instance {V W : Type} (E : Env) (m : Msg) (n : String) (p : Entry → Option V) (m' : Msg) (n' : String)
    (p' : Entry → Option W) (P : V → W → Prop) [∀ v w, Decidable (P v w)] :
    Decidable (∃ v w, LastOf E m n p v ∧ LastOf E m' n' p' w ∧ P v w) :=
  decidable_of_iff (∃ v ∈ lastVal E m n p, ∃ w ∈ lastVal E m' n' p', P v w)
    (by simp only [lastVal_iff, Option.mem_def]; grind)

instance (E : Env) (m : Msg) : Decidable (Aged E m) :=
  inferInstanceAs (Decidable (∃ d a, LastOf _ _ _ _ d ∧ LastOf _ _ _ _ a ∧ _))

instance (E : Env) (m : Msg) : Decidable (WarnsOfCache E m) :=
  inferInstanceAs (Decidable (∃ w, Listed _ _ _ _ w ∧ _))

instance (E : Env) (r : Response) : Decidable (FromCache E r) := inferInstanceAs (Decidable (_ ∧ _))

instance (E : Env) (r : Response) : Decidable (Heuristic E r) := inferInstanceAs (Decidable (_ ∧ _))

/-- The argument of the first directive with the name. -/
def firstArg (E : Env) (m : Msg) (name : String) : Option (ArgVal CacheArg) :=
  ((cacheDirectives E m).find? fun d => decide (IsWord E d.1 name)).map Prod.snd

theorem firstArg_iff {E : Env} {m : Msg} {name : String} {a : ArgVal CacheArg} :
    FirstDirective E m name a ↔ firstArg E m name = some a := by
  unfold FirstDirective firstArg
  rw [Option.map_eq_some_iff]
  simp only [Httpolice.Lemmas.Check.find_first]
  constructor
  · rintro ⟨l, d, l', h1, h2, h3⟩
    exact ⟨(d, a), ⟨l, l', h1, by simpa using h2, fun b hb => by simpa using h3 b hb⟩, rfl⟩
  · rintro ⟨⟨d, b⟩, ⟨l, l', h1, h2, h3⟩, rfl⟩
    exact ⟨l, d, l', h1, by simpa using h2, fun x hx => by simpa using h3 x hx⟩

instance (E : Env) (m : Msg) (n : String) (a : ArgVal CacheArg) : Decidable (FirstDirective E m n a) :=
  decidable_of_iff' _ firstArg_iff

instance (E : Env) (m : Msg) (n : String) : Decidable (Gives E m n) :=
  decidable_of_iff ((firstArg E m n).isSome = true) (by
    simp only [Gives, firstArg_iff, Option.isSome_iff_exists])

instance : (a : ArgVal CacheArg) → Decidable (ArgStands a)
  | .raw s => inferInstanceAs (Decidable (s ≠ []))
  | .parsed (.num n) => inferInstanceAs (Decidable (n ≠ 0))
  | .parsed (.names l) => inferInstanceAs (Decidable (l ≠ []))
  | .none => inferInstanceAs (Decidable True)
  | .unavailable _ => inferInstanceAs (Decidable True)

instance (E : Env) (m : Msg) (n : String) : Decidable (Directs E m n) :=
  decidable_of_iff (∃ a ∈ firstArg E m n, ArgStands a) (by
    simp only [Directs, firstArg_iff, Option.mem_def])

instance (E : Env) (m : Msg) (n : String) : Decidable (DirectsFully E m n) :=
  inferInstanceAs (Decidable (_ ∨ _))

/-- The age limit. -/
def ageLimit (E : Env) (m : Msg) : Option Nat := match firstArg E m "max-age" with
  | some (.parsed (.num n)) => some n
  | some .none => some 1
  | _ => none

theorem ageLimit_iff {E : Env} {m : Msg} {n : Nat} : MaxAge E m n ↔ ageLimit E m = some n := by
  unfold MaxAge ageLimit
  simp only [firstArg_iff]
  cases firstArg E m "max-age" with
  | none => simp
  | some a => cases a with
    | parsed v => cases v <;> simp [eq_comm]
    | none => simp [eq_comm]
    | raw s => simp
    | unavailable s => simp

instance {V : Type} (E : Env) (m : Msg) (h : String) (p : Entry → Option V) (m' : Msg)
    (P : V → Nat → Prop) [∀ v w, Decidable (P v w)] :
    Decidable (∃ v n, LastOf E m h p v ∧ MaxAge E m' n ∧ P v n) :=
  decidable_of_iff (∃ v ∈ lastVal E m h p, ∃ n ∈ ageLimit E m', P v n)
    (by simp only [lastVal_iff, ageLimit_iff, Option.mem_def]; grind)

instance (E : Env) (m : Msg) : Decidable (OverMaxAge E m) :=
  inferInstanceAs (Decidable (_ ∧ ∃ a n, LastOf _ _ _ _ a ∧ MaxAge _ _ n ∧ _))

instance (E : Env) (m : Msg) : Decidable (OverExpires E m) :=
  decidable_of_iff (¬Gives E m "s-maxage" ∧ ¬Gives E m "max-age" ∧
    ∃ a ∈ lastVal E m "Age" E.grammars.age, ∃ e ∈ lastVal E m "Expires" E.grammars.date,
      ∃ d ∈ lastVal E m "Date" E.grammars.date, e < d + a)
    (by simp only [OverExpires, lastVal_iff, Option.mem_def]; grind)

instance (E : Env) (r : Response) : Decidable (Stale E r) := inferInstanceAs (Decidable (_ ∧ _))

instance : (v : PragmaValue) → Decidable (IsNoCache v)
  | .noCache => inferInstanceAs (Decidable True)
  | .extension _ => inferInstanceAs (Decidable (_ = _))

instance (E : Env) (m : Msg) (l : List String) : Decidable (HasDirective E m l) :=
  inferInstanceAs (Decidable (∃ d, Listed _ _ _ _ d ∧ _))

instance {V : Type} (E : Env) (m : Msg) (n : String) (p : Entry → Parsed V) : Decidable (Unmixed E m n p) :=
  decidable_of_iff (∀ e ∈ fieldsFor m n, HasName E e n → (match p e with
    | .single _ => false
    | _ => true) = true) (by
    unfold Unmixed
    refine forall_congr' fun e => forall_congr' fun _ => forall_congr' fun _ => ?_
    cases p e <;> simp)

/-- What `SoleValue` speaks of. -/
def soleVal {V : Type} (E : Env) (m : Msg) (n : String) (p : Entry → Parsed V) : Option V :=
  match (fieldsFor m n).filter fun e => decide (HasName E e n) with
  | [e] => (match p e with
    | .single v => some v
    | _ => none)
  | _ => none

theorem filter_one {α : Type} {p : α → Bool} {l : List α} {a : α} : l.filter p = [a] ↔
    ∃ x y, l = x ++ a :: y ∧ p a = true ∧ ∀ b ∈ x ++ y, p b = false := by
  constructor
  · intro h
    rw [List.filter_eq_cons_iff] at h
    obtain ⟨x, y, rfl, h1, h2, h3⟩ := h
    refine ⟨x, y, rfl, h2, fun b hb => ?_⟩
    rw [List.filter_eq_nil_iff] at h3
    rcases List.mem_append.1 hb with hb | hb
    · simpa using h1 b hb
    · simpa using h3 b hb
  · rintro ⟨x, y, rfl, h2, h3⟩
    rw [List.filter_append, List.filter_cons, if_pos h2,
      List.filter_eq_nil_iff.2 fun b hb => by simp [h3 b (List.mem_append_left _ hb)],
      List.filter_eq_nil_iff.2 fun b hb => by simp [h3 b (List.mem_append_right _ hb)]]
    rfl

theorem soleVal_iff {V : Type} {E : Env} {m : Msg} {n : String} {p : Entry → Parsed V} {v : V} :
    SoleValue E m n p v ↔ soleVal E m n p = some v := by
  unfold SoleValue soleVal
  constructor
  · rintro ⟨a, e, b, h1, h2, h3, h4⟩
    rw [filter_one.2 ⟨a, b, h1, by simpa using h2, fun x hx => by simpa using h4 x hx⟩]
    simp [h3]
  · intro h
    split at h
    · next e he =>
      obtain ⟨a, b, h1, h2, h3⟩ := filter_one.1 he
      refine ⟨a, e, b, h1, by simpa using h2, ?_, fun x hx => by simpa using h3 x hx⟩
      cases hp : p e <;> simp_all
    · cases h

instance {V : Type} (E : Env) (m : Msg) (n : String) (p : Entry → Parsed V) :
    Decidable (∃ v, SoleValue E m n p v) :=
  decidable_of_iff ((soleVal E m n p).isSome = true) (by
    simp only [soleVal_iff, Option.isSome_iff_exists])

instance {V : Type} (E : Env) (m : Msg) (n : String) (p : Entry → Option V) :
    Decidable (∃ v, LastOf E m n p v) :=
  decidable_of_iff ((lastVal E m n p).isSome = true) (by
    simp only [lastVal_iff, Option.isSome_iff_exists])

instance (req : Request) : Decidable (TokenInForm req) :=
  decidable_of_iff (∃ ks ∈ req.payload.formKeys, str "access_token" ∈ ks) (by
    simp only [TokenInForm, Option.mem_def])

instance (E : Env) (ps : List (Str × Str)) (n : String) : Decidable (HasParam E ps n) :=
  inferInstanceAs (Decidable (∃ _ ∈ ps, _))

instance (req : Request) : Decidable (TokenInQuery env req) :=
  decidable_of_iff _ (Httpolice.Lemmas.Check.query_iff sensible req)

instance (P : List (Str × Str) → Prop) [DecidablePred P] :
    (c : AuthParams) → Decidable (∃ ps, c = .params ps ∧ P ps)
  | .params ps => decidable_of_iff (P ps) (by simp)
  | .token68 s => isFalse (by simp)

instance (P : Str → Prop) [DecidablePred P] : (c : AuthParams) → Decidable (∃ s, c = .token68 s ∧ P s)
  | .params ps => isFalse (by simp)
  | .token68 s => decidable_of_iff (P s) (by simp)

instance : (c : AuthParams) → Decidable (∃ ps, c = .params ps)
  | .params ps => isTrue (by simp)
  | .token68 s => isFalse (by simp)

instance : (c : AuthParams) → Decidable (∃ s, c = .token68 s)
  | .params ps => isFalse (by simp)
  | .token68 s => isTrue (by simp)

instance (E : Env) (P : Str → Prop) [DecidablePred P] (c : AuthParams) :
    Decidable (∃ s cs, c = .token68 s ∧ E.b64decode s = some cs ∧ P cs) :=
  decidable_of_iff (∃ s, c = .token68 s ∧ ∃ cs ∈ E.b64decode s, P cs) (by
    simp only [Option.mem_def]; grind)

instance (E : Env) (req : Request) (w : String) (P : AuthParams → Prop) [DecidablePred P] :
    Decidable (∃ c, Credentials E req w c ∧ P c) :=
  decidable_of_iff (∃ hdr ∈ credentialHeaders, ∃ a ∈ lastVal E req.fields hdr E.grammars.authorization,
      IsWord E a.1 w ∧ P a.2) (by
    simp only [← Httpolice.Lemmas.Check.creds_iff, lastVal_iff, Option.mem_def])

instance (E : Env) (r : Response) (w : String) (P : AuthParams → Prop) [DecidablePred P] :
    Decidable (∃ c, Challenges E r w c ∧ P c) :=
  decidable_of_iff (∃ hdr ∈ challengeHeaders, ∃ a ∈ listedIn E r.fields hdr E.grammars.challenge,
      IsWord E a.1 w ∧ P a.2) (by
    simp only [Challenges, listedIn_iff, Prod.exists]
    grind)

instance (E : Env) (r : Response) (P : AuthParams → Prop) [DecidablePred P] :
    Decidable (∃ c, BearerChallenge E r c ∧ P c) :=
  decidable_of_iff (∃ a ∈ listedIn E r.fields "WWW-Authenticate" E.grammars.challenge,
      IsWord E a.1 "Bearer" ∧ P a.2) (by
    simp only [BearerChallenge, listedIn_iff, Prod.exists]
    grind)

instance (E : Env) (r : Response) : Decidable (∃ c, BearerChallenge E r c) :=
  decidable_of_iff (∃ c, BearerChallenge E r c ∧ True) (by simp)

/-- What `FirstParam` speaks of. -/
def firstVal (E : Env) (ps : List (Str × Str)) (name : String) : Option Str :=
  (ps.find? fun d => decide (IsWord E d.1 name)).map Prod.snd

theorem firstVal_iff {E : Env} {ps : List (Str × Str)} {name : String} {v : Str} :
    FirstParam E ps name v ↔ firstVal E ps name = some v := by
  unfold FirstParam firstVal
  rw [Option.map_eq_some_iff]
  simp only [Httpolice.Lemmas.Check.find_first]
  constructor
  · rintro ⟨l, d, l', h1, h2, h3⟩
    exact ⟨(d, v), ⟨l, l', h1, by simpa using h2, fun b hb => by simpa using h3 b hb⟩, rfl⟩
  · rintro ⟨⟨d, b⟩, ⟨l, l', h1, h2, h3⟩, rfl⟩
    exact ⟨l, d, l', h1, by simpa using h2, fun x hx => by simpa using h3 x hx⟩

instance (E : Env) (ps : List (Str × Str)) (n : String) (P : Str → Prop) [DecidablePred P] :
    Decidable (∃ v, FirstParam E ps n v ∧ P v) :=
  decidable_of_iff (∃ v ∈ firstVal E ps n, P v) (by simp only [firstVal_iff, Option.mem_def])

/-- What is in `If-Range`, if it is an entity tag. -/
def rangeTag (E : Env) (m : Msg) : Option EntityTag :=
  match lastVal E m "If-Range" E.grammars.ifRange with
  | some (.tag x) => some x
  | _ => none

theorem rangeTag_iff {E : Env} {m : Msg} {x : EntityTag} :
    LastOf E m "If-Range" E.grammars.ifRange (.tag x) ↔ rangeTag E m = some x := by
  unfold rangeTag
  rw [lastVal_iff]
  cases lastVal E m "If-Range" E.grammars.ifRange with
  | none => simp
  | some v => cases v <;> simp

instance (E : Env) (m : Msg) (P : EntityTag → Prop) [DecidablePred P] :
    Decidable (∃ x, LastOf E m "If-Range" E.grammars.ifRange (.tag x) ∧ P x) :=
  decidable_of_iff (∃ x ∈ rangeTag E m, P x) (by simp only [rangeTag_iff, Option.mem_def])

instance {V : Type} (E : Env) (m : Msg) (m' : Msg) (n : String) (p : Entry → Option V)
    (P : EntityTag → V → Prop) [∀ x y, Decidable (P x y)] :
    Decidable (∃ x y, LastOf E m "If-Range" E.grammars.ifRange (.tag x) ∧ LastOf E m' n p y ∧ P x y) :=
  decidable_of_iff (∃ x ∈ rangeTag E m, ∃ y ∈ lastVal E m' n p, P x y)
    (by simp only [rangeTag_iff]; simp only [lastVal_iff, Option.mem_def]; grind)

instance {V W : Type} (E : Env) (m : Msg) (n : String) (p : Entry → Option (V × W)) (P : V → W → Prop)
    [∀ v w, Decidable (P v w)] : Decidable (∃ v w, LastOf E m n p (v, w) ∧ P v w) :=
  decidable_of_iff (∃ x, LastOf E m n p x ∧ P x.1 x.2) (by simp only [Prod.exists])

end Httpolice.Spec.Toy
