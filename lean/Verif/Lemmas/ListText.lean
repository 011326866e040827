import Verif.Spec.Tab

/-!
# Texts of lists determine what is written
-/

namespace Httpolice.Lemmas

open Httpolice.Model Httpolice.Spec

/-- The text goes on with something that is not in `Q`, or ends. -/
def Stops (Q : Nat → Prop) (l : Str) : Prop := ∀ c l', l = c :: l' → ¬ Q c

theorem Stops.nil {Q : Nat → Prop} : Stops Q [] := nofun

theorem Stops.cons {Q : Nat → Prop} {c : Nat} {l : Str} (h : ¬ Q c) : Stops Q (c :: l) := by
  intro d l' e
  cases e
  exact h

theorem Stops.append {Q : Nat → Prop} {a l : Str} (ha : ∀ c ∈ a, ¬ Q c) (hl : Stops Q l) : Stops Q (a ++ l) := by
  cases a with
  | nil => exact hl
  | cons c a => exact .cons (ha c (.head _))

theorem span_unique {Q : Nat → Prop} {a b l l' : Str} (ha : ∀ c ∈ a, Q c) (hb : ∀ c ∈ b, Q c) (hl : Stops Q l)
    (hl' : Stops Q l') (e : a ++ l = b ++ l') : a = b ∧ l = l' := by
  induction a generalizing b with
  | nil =>
    cases b with
    | nil => exact ⟨rfl, e⟩
    | cons d b => exact absurd (hb d (.head _)) (hl d _ e)
  | cons c a ih =>
    cases b with
    | nil => exact absurd (ha c (.head _)) (hl' c _ e.symm)
    | cons d b =>
      obtain ⟨h1, h2⟩ := List.cons.inj e
      obtain ⟨h3, h4⟩ := ih (fun c hc => ha c (.tail _ hc)) (fun c hc => hb c (.tail _ hc)) h2
      exact ⟨by rw [h1, h3], h4⟩

/-- What may occur in an element of a list. -/
def Unbroken (c : Nat) : Prop := c ≠ 44 ∧ c ≠ 32 ∧ c ≠ 9

/-- A space or a tab. -/
def Blank (c : Nat) : Prop := c = 32 ∨ c = 9

section
variable {α : Type} {P : α → Prop} {t : α → Str}

/-- The tail of a list. -/
def tailText (t : α → Str) (tl : List (Str × Option (Str × α))) : Str :=
  tl.flatMap fun x => x.1 ++ 44 :: slotText t x.2

theorem tail_stops (tl : List (Str × Option (Str × α))) (h : ∀ x ∈ tl, IsOws x.1 ∧ slotOk P x.2) :
    Stops Unbroken (tailText t tl) := by
  cases tl with
  | nil => exact .nil
  | cons x tl =>
    have hx := (h x (.head _)).1
    have : tailText t (x :: tl) = x.1 ++ 44 :: (slotText t x.2 ++ tailText t tl) := by
      simp [tailText, List.flatMap_cons]
    rw [this]
    refine .append (fun c hc hp => ?_) (.cons fun hp => hp.1 rfl)
    rcases hx c hc with rfl | rfl
    · exact hp.2.1 rfl
    · exact hp.2.2 rfl

theorem plain_stops {w l : Str} (hn : w ≠ []) (hw : ∀ c ∈ w, Unbroken c) : Stops Blank (w ++ l) := by
  cases w with
  | nil => exact absurd rfl hn
  | cons c w =>
    refine .cons ?_
    have := hw c (.head _)
    rintro (h | h)
    · exact this.2.1 h
    · exact this.2.2 h

/-- What follows a comma does not look like what follows an empty place. -/
theorem gap_unlike {s : Str} {a : α} {tl : List (Str × Option (Str × α))} {l : Str} (ht : t a ≠ []) (hp : ∀ c ∈ t a, Unbroken c)
    (hs : IsOws s) (h : ∀ x ∈ tl, IsOws x.1 ∧ slotOk P x.2) : tailText t tl ≠ s ++ t a ++ l := by
  intro e
  cases tl with
  | nil =>
    have : (s ++ t a ++ l).length = 0 := by rw [← e]; rfl
    simp only [List.length_append] at this
    exact ht (List.length_eq_zero_iff.mp (by omega))
  | cons x tl =>
    have hx := (h x (.head _)).1
    have e' : x.1 ++ 44 :: (slotText t x.2 ++ tailText t tl) = s ++ (t a ++ l) := by
      have : tailText t (x :: tl) = x.1 ++ 44 :: (slotText t x.2 ++ tailText t tl) := by
        simp [tailText, List.flatMap_cons]
      rw [← this, e, List.append_assoc]
    obtain ⟨_, e2⟩ := span_unique (Q := Blank) hx hs (.cons fun hb => by rcases hb with hb | hb <;> cases hb)
      (plain_stops ht hp) e'
    cases hc : t a with
    | nil => exact ht hc
    | cons d w =>
      rw [hc] at e2
      have : 44 = d := (List.cons.inj e2).1
      exact (hp d (by rw [hc]; exact .head _)).1 this.symm

theorem tail_inj (ht : ∀ a, P a → t a ≠ []) (hp : ∀ a, P a → ∀ c ∈ t a, Unbroken c)
    (hi : ∀ a b, P a → P b → t a = t b → a = b) (tl tl' : List (Str × Option (Str × α)))
    (h : ∀ x ∈ tl, IsOws x.1 ∧ slotOk P x.2) (h' : ∀ x ∈ tl', IsOws x.1 ∧ slotOk P x.2)
    (e : tailText t tl = tailText t tl') : tl = tl' := by
  have hc : ∀ (x : Str × Option (Str × α)) tl, tailText t (x :: tl) = x.1 ++ 44 :: (slotText t x.2 ++ tailText t tl) := by
    intro x tl
    simp [tailText, List.flatMap_cons]
  have comma : ∀ l : Str, Stops Blank (44 :: l) := fun l => .cons fun hb => by rcases hb with hb | hb <;> cases hb
  induction tl generalizing tl' with
  | nil =>
    cases tl' with
    | nil => rfl
    | cons x tl' =>
      have := congrArg List.length e
      rw [hc] at this
      simp [tailText] at this
  | cons x tl ih =>
    cases tl' with
    | nil =>
      have := congrArg List.length e
      rw [hc] at this
      simp [tailText] at this
    | cons y tl' =>
      obtain ⟨⟨hx1, hx2⟩, h3⟩ := List.forall_mem_cons.mp h
      obtain ⟨⟨hy1, hy2⟩, h4⟩ := List.forall_mem_cons.mp h'
      rw [hc, hc] at e
      obtain ⟨e1, e2⟩ := span_unique (Q := Blank) hx1 hy1 (comma _) (comma _) e
      have e2 := (List.cons.inj e2).2
      obtain ⟨o, x⟩ := x
      obtain ⟨o', y⟩ := y
      cases e1
      match x, y with
      | none, none => rw [ih tl' h3 h4 e2]
      | none, some (s, a) => exact absurd e2 (gap_unlike (ht a hy2.2) (hp a hy2.2) hy2.1 h3)
      | some (s, a), none => exact absurd e2.symm (gap_unlike (ht a hx2.2) (hp a hx2.2) hx2.1 h4)
      | some (s, a), some (s', a') =>
        simp only [slotText, List.append_assoc] at e2
        obtain ⟨rfl, e3⟩ := span_unique (Q := Blank) hx2.1 hy2.1 (plain_stops (ht a hx2.2) (hp a hx2.2))
          (plain_stops (ht a' hy2.2) (hp a' hy2.2)) e2
        obtain ⟨e4, e5⟩ := span_unique (hp a hx2.2) (hp a' hy2.2) (tail_stops tl h3) (tail_stops tl' h4) e3
        rw [ih tl' h3 h4 e5, hi a a' hx2.2 hy2.2 e4]

/-- A list is determined by the text, if the elements have neither commas nor blanks. -/
theorem list1_inj (ht : ∀ a, P a → t a ≠ []) (hp : ∀ a, P a → ∀ c ∈ t a, Unbroken c)
    (hi : ∀ a b, P a → P b → t a = t b → a = b) {x y : List1Syn α} (hx : x.Ok P) (hy : y.Ok P)
    (e : x.text t = y.text t) : x = y := by
  obtain ⟨ld, a, tl⟩ := x
  obtain ⟨ld', a', tl'⟩ := y
  obtain ⟨h1, h2, h3⟩ := hx
  obtain ⟨h4, h5, h6⟩ := hy
  have h1 : ∀ s ∈ ld, IsOws s := h1
  have h4 : ∀ s ∈ ld', IsOws s := h4
  have h2 : P a := h2
  have h5 : P a' := h5
  have e : ld.flatMap (fun s => 44 :: s) ++ (t a ++ tailText t tl) =
      ld'.flatMap (fun s => 44 :: s) ++ (t a' ++ tailText t tl') := by
    rw [← List.append_assoc, ← List.append_assoc]
    exact e
  have first : ∀ {b : α} {l l' : Str}, P b → t b ++ l ≠ 44 :: l' := by
    intro b l l' hb e
    cases hc : t b with
    | nil => exact ht b hb hc
    | cons d w =>
      rw [hc] at e
      exact (hp b hb d (by rw [hc]; exact .head _)).1 (List.cons.inj e).1
  have stop : ∀ (ld : List Str) {b : α} {l : Str}, P b → Stops Blank (ld.flatMap (fun s => 44 :: s) ++ (t b ++ l)) := by
    intro ld b l hb
    cases ld with
    | nil => exact plain_stops (w := t b) (ht b hb) (hp b hb)
    | cons s ld => exact .cons fun hb => by rcases hb with hb | hb <;> cases hb
  suffices key : ∀ ld ld' : List Str, (∀ s ∈ ld, IsOws s) → (∀ s ∈ ld', IsOws s) →
      ld.flatMap (fun s => 44 :: s) ++ (t a ++ tailText t tl) = ld'.flatMap (fun s => 44 :: s) ++ (t a' ++ tailText t tl') →
      (⟨ld, a, tl⟩ : List1Syn α) = ⟨ld', a', tl'⟩ from key ld ld' h1 h4 e
  intro ld
  induction ld with
  | nil =>
    intro ld' _ _ e
    cases ld' with
    | nil =>
      obtain ⟨e1, e2⟩ := span_unique (hp a h2) (hp a' h5) (tail_stops tl h3) (tail_stops tl' h6) e
      rw [hi a a' h2 h5 e1, tail_inj ht hp hi tl tl' h3 h6 e2]
    | cons s ld' => exact absurd e (first h2)
  | cons s ld ih =>
    intro ld' k1 k2 e
    cases ld' with
    | nil => exact absurd e.symm (first h5)
    | cons s' ld' =>
      simp only [List.flatMap_cons, List.cons_append, List.append_assoc] at e
      obtain ⟨k3, k4⟩ := List.forall_mem_cons.mp k1
      obtain ⟨k5, k6⟩ := List.forall_mem_cons.mp k2
      obtain ⟨rfl, e2⟩ := span_unique (Q := Blank) k3 k5 (stop ld h2) (stop ld' h5) (List.cons.inj e).2
      have := ih ld' k4 k6 e2
      injection this with j1 j2 j3
      rw [j1, j2, j3]

end

end Httpolice.Lemmas
