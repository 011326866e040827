import Verif.Model.CheckResponse
import Verif.Props.Blackboard
import Verif.Props.Header

/-!
# What lists of actions of the checks contain
-/

namespace Httpolice.Lemmas.Check

open Httpolice.Model Httpolice.Spec Httpolice.Props

/-- Every action is a complaint allowed by `Q`, or an exception, which presupposes `R`. -/
def Plain (Q : Target → Nat → Prop) (R : Prop) (acts : List Act) : Prop :=
  ∀ a ∈ acts, (∃ t c, a = .op (.complain t c) ∧ Q t c.id) ∨ (a = .raise ∧ R)

/-- A complaint with the ID is made on the target. -/
def Says (t : Target) (id : Nat) (acts : List Act) : Prop :=
  ∃ c : Complaint Ctx, .op (.complain t c) ∈ acts ∧ c.id = id

section
variable {Q : Target → Nat → Prop} {R : Prop}

theorem plain_nil : Plain Q R [] := by intro a h; cases h

theorem plain_append {a b : List Act} (ha : Plain Q R a) (hb : Plain Q R b) : Plain Q R (a ++ b) := by
  intro x hx
  rcases List.mem_append.1 hx with h | h
  · exact ha x h
  · exact hb x h

theorem plain_inOrder_nil : Plain Q R (inOrder []) := by intro a h; cases h

theorem plain_inOrder_cons {a : List Act} {l : List (List Act)} (ha : Plain Q R a)
    (hl : Plain Q R (inOrder l)) : Plain Q R (inOrder (a :: l)) := by
  intro x hx
  simp only [inOrder, List.flatten_cons, List.mem_append] at hx
  rcases hx with h | h
  · exact ha x h
  · exact hl x h

theorem plain_whenever {b : Bool} {a : List Act} (ha : Plain Q R a) : Plain Q R (whenever b a) := by
  unfold whenever
  split
  · exact ha
  · exact plain_nil

theorem plain_whenever' {b : Bool} {a : List Act} (ha : b = true → Plain Q R a) :
    Plain Q R (whenever b a) := by
  unfold whenever
  split
  · next h => exact ha h
  · exact plain_nil

theorem plain_each {α : Type} {l : List α} {f : α → List Act} (h : ∀ x ∈ l, Plain Q R (f x)) :
    Plain Q R (each l f) := by
  intro a ha
  obtain ⟨x, hx, hxa⟩ := List.mem_flatMap.1 ha
  exact h x hx a hxa

theorem plain_say {t : Target} {id : Nat} {ctx : Ctx} (h : Q t id) : Plain Q R (say t id ctx) := by
  intro a ha
  simp only [say, List.mem_singleton] at ha
  exact .inl ⟨t, ⟨id, ctx⟩, ha, h⟩

theorem plain_raise (h : R) : Plain Q R [.raise] := by
  intro a ha
  exact .inr ⟨by simpa using ha, h⟩

theorem Plain.mono {Q' : Target → Nat → Prop} {R' : Prop} {acts : List Act} (h : Plain Q R acts)
    (hq : ∀ t id, Q t id → Q' t id) (hr : R → R') : Plain Q' R' acts := by
  intro a ha
  rcases h a ha with ⟨t, c, rfl, hc⟩ | ⟨rfl, hc⟩
  · exact .inl ⟨t, c, rfl, hq _ _ hc⟩
  · exact .inr ⟨rfl, hr hc⟩

theorem Plain.says {acts : List Act} (h : Plain Q R acts) {t : Target} {id : Nat}
    (hs : Says t id acts) : Q t id := by
  obtain ⟨c, hc, rfl⟩ := hs
  rcases h _ hc with ⟨t', c', he, hq⟩ | ⟨he, _⟩
  · cases he; exact hq
  · cases he

theorem Plain.raises {acts : List Act} (h : Plain Q R acts) (hr : Act.raise ∈ acts) : R := by
  rcases h _ hr with ⟨t', c', he, _⟩ | ⟨_, hr⟩
  · cases he
  · exact hr

theorem Plain.no_silence {acts : List Act} (h : Plain Q R acts) (t : Target) (ids : List Nat) :
    Act.op (.silence t ids) ∉ acts := by
  intro hm
  rcases h _ hm with ⟨t', c', he, _⟩ | ⟨he, _⟩ <;> cases he

end

/-! ## Membership -/

section
variable {t : Target} {id : Nat}

@[simp] theorem says_nil : ¬Says t id [] := by simp [Says]

@[simp] theorem says_append {a b : List Act} :
    Says t id (a ++ b) ↔ Says t id a ∨ Says t id b := by
  simp only [Says, List.mem_append]
  constructor
  · rintro ⟨c, h | h, e⟩
    · exact .inl ⟨c, h, e⟩
    · exact .inr ⟨c, h, e⟩
  · rintro (⟨c, h, e⟩ | ⟨c, h, e⟩)
    · exact ⟨c, .inl h, e⟩
    · exact ⟨c, .inr h, e⟩

@[simp] theorem says_inOrder_nil : ¬Says t id (inOrder []) := by simp [Says, inOrder]

@[simp] theorem says_inOrder_cons {a : List Act} {l : List (List Act)} :
    Says t id (inOrder (a :: l)) ↔ Says t id a ∨ Says t id (inOrder l) := says_append

@[simp] theorem says_whenever {b : Bool} {a : List Act} :
    Says t id (whenever b a) ↔ b = true ∧ Says t id a := by
  unfold whenever
  split <;> simp_all

@[simp] theorem says_each {α : Type} {l : List α} {f : α → List Act} :
    Says t id (each l f) ↔ ∃ x ∈ l, Says t id (f x) := by
  simp only [Says, each, List.mem_flatMap]
  constructor
  · rintro ⟨c, ⟨x, hx, h⟩, e⟩
    exact ⟨x, hx, c, h, e⟩
  · rintro ⟨x, hx, c, h, e⟩
    exact ⟨c, ⟨x, hx, h⟩, e⟩

@[simp] theorem says_say {t' : Target} {id' : Nat} {ctx : Ctx} :
    Says t id (say t' id' ctx) ↔ t = t' ∧ id = id' := by
  simp only [Says, say, List.mem_singleton, Act.op.injEq, BoardOp.complain.injEq]
  constructor
  · rintro ⟨c, ⟨rfl, rfl⟩, rfl⟩
    exact ⟨rfl, rfl⟩
  · rintro ⟨rfl, rfl⟩
    exact ⟨⟨id, ctx⟩, ⟨rfl, rfl⟩, rfl⟩

@[simp] theorem says_silence {t' : Target} {ids : List Nat} :
    ¬Says t id [.op (.silence t' ids)] := by simp [Says]

@[simp] theorem says_raise : ¬Says t id [.raise] := by simp [Says]

end

@[simp] theorem mem_inOrder_cons {x : Act} {a : List Act} {l : List (List Act)} :
    x ∈ inOrder (a :: l) ↔ x ∈ a ∨ x ∈ inOrder l := by simp [inOrder]

@[simp] theorem mem_inOrder_nil {x : Act} : ¬ x ∈ inOrder [] := by simp [inOrder]

@[simp] theorem mem_whenever {x : Act} {b : Bool} {a : List Act} :
    x ∈ whenever b a ↔ b = true ∧ x ∈ a := by
  unfold whenever
  split <;> simp_all

/-! ## Running -/

theorem untilRaise_of_calm {acts : List Act} (h : Act.raise ∉ acts) :
    ∀ o, o ∈ untilRaise acts ↔ Act.op o ∈ acts := by
  induction acts with
  | nil => intro o; simp [untilRaise]
  | cons a acts ih =>
    have hr : Act.raise ∉ acts := fun hm => h (List.mem_cons_of_mem _ hm)
    intro o
    cases a with
    | raise => exact absurd (List.mem_cons_self ..) h
    | op o' => simp [untilRaise, ih hr]

theorem untilRaise_sub (acts : List Act) : ∀ o, o ∈ untilRaise acts → Act.op o ∈ acts := by
  induction acts with
  | nil => intro o h; simp [untilRaise] at h
  | cons a acts ih =>
    intro o h
    cases a with
    | raise => simp [untilRaise] at h
    | op o' =>
      simp only [untilRaise, List.mem_cons] at h
      rcases h with rfl | h
      · exact List.mem_cons_self ..
      · exact List.mem_cons_of_mem _ (ih _ h)

theorem untilRaise_append {a b : List Act} (h : Act.raise ∉ a) :
    untilRaise (a ++ b) = untilRaise a ++ untilRaise b := by
  induction a with
  | nil => rfl
  | cons x a ih =>
    cases x with
    | raise => exact absurd (List.mem_cons_self ..) h
    | op o => simp [untilRaise, ih fun hm => h (List.mem_cons_of_mem _ hm)]

theorem untilRaise_append_raise {a b : List Act} (h : Act.raise ∈ a) :
    untilRaise (a ++ b) = untilRaise a := by
  induction a with
  | nil => cases h
  | cons x a ih =>
    cases x with
    | raise => rfl
    | op o =>
      simp only [List.mem_cons, reduceCtorEq, false_or] at h
      simp [untilRaise, ih h]

theorem mem_reportedOn {t : Target} {ops : List (BoardOp Ctx)} {c : Complaint Ctx} :
    c ∈ reportedOn t ops ↔ .complain t c ∈ ops := by
  induction ops with
  | nil => simp [reportedOn]
  | cons o ops ih =>
    cases o with
    | silence t' ids => simp [reportedOn, ih]
    | complain t' c' =>
      simp only [reportedOn, List.mem_cons, BoardOp.complain.injEq]
      split
      · next h => subst h; simp [ih]
      · next h => simp [ih, Ne.symm h]

/-! ## Header views -/

variable (E : Env)

theorem entriesOf_eq (m : Msg) (name : String) :
    E.entriesOf m name = usable E.lower (E.badForTrailer (str name)) m (str name) := by
  rw [Env.entriesOf, preParse_eq]

theorem present_iff (m : Msg) (name : String) :
    E.present m name = true ↔ usable E.lower (E.badForTrailer (str name)) m (str name) ≠ [] := by
  rw [Env.present, entriesOf_eq]
  simp

theorem absent_iff (m : Msg) (name : String) :
    E.absent m name = true ↔ usable E.lower (E.badForTrailer (str name)) m (str name) = [] := by
  rw [Env.absent, Env.present, entriesOf_eq]
  simp

theorem entryNotes_id {V : Type} {lower : Str → Str} {k : HeaderKind V} {m : Msg} {name : Str}
    {n : Note} (h : n ∈ entryNotes lower k m name) : n.id = 1026 ∨ ∃ e, n ∈ (k.parse e).2 := by
  simp only [entryNotes, List.mem_append, List.mem_flatMap] at h
  rcases h with ⟨e, _, h⟩ | ⟨e, _, h⟩
  · exact .inr ⟨e, h⟩
  · split at h
    · simp only [List.mem_singleton] at h
      exact .inl (by rw [h])
    · exact .inr ⟨e, h⟩

theorem singleNotes_id {V : Type} {lower : Str → Str} {k : HeaderKind V} {m : Msg} {name : Str}
    {n : Note} (h : n ∈ (singleView lower k m name).notes) :
    n.id = 1013 ∨ n.id = 1026 ∨ ∃ e, n ∈ (k.parse e).2 := by
  rw [(C26_single lower k m name).2.2, List.mem_append] at h
  rcases h with h | h
  · exact .inr (entryNotes_id h)
  · split at h
    · simp only [List.mem_singleton] at h
      exact .inl (by rw [h])
    · cases h

theorem multiNotes_id {V : Type} {lower : Str → Str} {k : HeaderKind V} {m : Msg} {name : Str}
    {n : Note} (h : n ∈ (multiView lower k m name).notes) :
    n.id = 1013 ∨ n.id = 1026 ∨ ∃ e, n ∈ (k.parse e).2 := by
  simp only [multiView, preParse_eq] at h
  split at h
  · exact .inr (entryNotes_id h)
  · split at h
    · exact .inr (entryNotes_id h)
    · simp only [List.mem_append, List.mem_singleton] at h
      rcases h with h | h
      · exact .inr (entryNotes_id h)
      · exact .inl (by rw [h])

theorem unknownNotes_id {lower : Str → Str} {bad : Bool} {m : Msg} {name : Str} {n : Note}
    (h : n ∈ (unknownView lower bad m name).notes) : n.id = 1026 := by
  rw [(C26_unknown lower bad m name).2.2] at h
  split at h
  · obtain ⟨e, _, rfl⟩ := List.mem_map.1 h
    rfl
  · cases h

theorem viewNotes_id {m : Msg} {name : Str} {n : Note} (h : n ∈ E.viewNotes m name) :
    n.id = 1013 ∨ n.id = 1026 ∨ ∃ e, n ∈ (E.kind name e).2 := by
  unfold Env.viewNotes at h
  split at h
  · exact singleNotes_id h
  · exact multiNotes_id h
  · exact .inr (.inl (unknownNotes_id h))
  · split at h
    · exact singleNotes_id h
    · exact multiNotes_id h
  · cases h

end Httpolice.Lemmas.Check
