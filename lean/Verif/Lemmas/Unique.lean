import Verif.Lemmas.ListText
import Verif.Lemmas.Tab

/-!
# Texts that determine what is written

`Uniq P t F`: if something in `P` is printed by `t`, and then comes a text in `F`, then both can be told from the whole.
-/

namespace Httpolice.Lemmas

open Httpolice.Model Httpolice.Spec

/-- What is printed, and where it ends, can be told from the text. -/
def Uniq {α : Type} (P : α → Prop) (t : α → Str) (F : Str → Prop) : Prop :=
  ∀ a b l l', P a → P b → F l → F l' → t a ++ l = t b ++ l' → a = b ∧ l = l'

/-- The text begins with one of these. -/
def Begins (Q : Nat → Prop) (w : Str) : Prop := ∃ c l, w = c :: l ∧ Q c

theorem Begins.append {Q : Nat → Prop} {w l : Str} (h : Begins Q w) : Begins Q (w ++ l) := by
  obtain ⟨c, w', rfl, hc⟩ := h
  exact ⟨c, w' ++ l, rfl, hc⟩

theorem Begins.stops {Q R : Nat → Prop} {w : Str} (h : Begins Q w) (hr : ∀ c, Q c → ¬ R c) : Stops R w := by
  obtain ⟨c, l, rfl, hc⟩ := h
  exact .cons (hr c hc)

theorem Begins.not_stops {Q R : Nat → Prop} {w : Str} (h : Begins Q w) (hr : ∀ c, Q c → R c) : ¬ Stops R w := by
  obtain ⟨c, l, rfl, hc⟩ := h
  exact fun k => k c l rfl (hr c hc)

theorem Begins.ne {Q R : Nat → Prop} {w v : Str} (h : Begins Q w) (hv : Begins R v) (hr : ∀ c, Q c → ¬ R c) : w ≠ v := by
  rintro rfl
  obtain ⟨c, l, rfl, hc⟩ := h
  obtain ⟨d, l', e, hd⟩ := hv
  cases e
  exact hr c hc hd

theorem Begins.mono {Q R : Nat → Prop} {w : Str} (h : Begins Q w) (hr : ∀ c, Q c → R c) : Begins R w := by
  obtain ⟨c, l, rfl, hc⟩ := h
  exact ⟨c, l, rfl, hr c hc⟩

theorem begins_of_all {Q : Nat → Prop} {w : Str} (hn : w ≠ []) (h : ∀ c ∈ w, Q c) : Begins Q w := by
  cases w with
  | nil => exact absurd rfl hn
  | cons c l => exact ⟨c, l, rfl, h c (.head _)⟩

theorem Stops.mono {Q R : Nat → Prop} {l : Str} (h : Stops R l) (hr : ∀ c, Q c → R c) : Stops Q l :=
  fun c l' e hq => h c l' e (hr c hq)

section
variable {α β : Type} {P : α → Prop} {t : α → Str} {F : Str → Prop} {Q : β → Prop} {t' : β → Str} {G : Str → Prop}

theorem Uniq.inj (h : Uniq P t F) (hF : F []) {a b : α} (ha : P a) (hb : P b) (e : t a = t b) : a = b :=
  (h a b [] [] ha hb hF hF (by rw [e])).1

theorem Uniq.mono {P' : α → Prop} (h : Uniq P t F) (hp : ∀ a, P' a → P a) (hf : ∀ l, G l → F l) : Uniq P' t G :=
  fun a b l l' ha hb hl hl' e => h a b l l' (hp a ha) (hp b hb) (hf l hl) (hf l' hl') e

/-- By another syntax. -/
theorem Uniq.map (h : Uniq P t F) (f : β → α) (hp : ∀ b, Q b → P (f b)) (ht : ∀ b, Q b → t' b = t (f b))
    (hf : ∀ a b, Q a → Q b → f a = f b → a = b) : Uniq Q t' F := by
  intro a b l l' ha hb hl hl' e
  rw [ht a ha, ht b hb] at e
  obtain ⟨h1, h2⟩ := h _ _ l l' (hp a ha) (hp b hb) hl hl' e
  exact ⟨hf a b ha hb h1, h2⟩

theorem uniq_span {R : Nat → Prop} : Uniq (fun w : Str => ∀ c ∈ w, R c) (fun w => w) (Stops R) :=
  fun _ _ _ _ ha hb hl hl' e => span_unique ha hb hl hl' e

theorem uniq_char {R : Nat → Prop} : Uniq R (fun c => [c]) (fun _ => True) :=
  fun _ _ _ _ _ _ _ _ e => List.cons.inj e

/-- One after the other. -/
theorem Uniq.seq (h1 : Uniq P t F) (h2 : Uniq Q t' G) (hf : ∀ b l, Q b → G l → F (t' b ++ l)) :
    Uniq (fun x : α × β => P x.1 ∧ Q x.2) (fun x => t x.1 ++ t' x.2) G := by
  rintro ⟨a, b⟩ ⟨a', b'⟩ l l' ⟨ha, hb⟩ ⟨ha', hb'⟩ hl hl' e
  simp only [List.append_assoc] at e
  obtain ⟨rfl, e2⟩ := h1 _ _ _ _ ha ha' (hf b l hb hl) (hf b' l' hb' hl') e
  obtain ⟨rfl, e3⟩ := h2 _ _ _ _ hb hb' hl hl' e2
  exact ⟨rfl, e3⟩

/-- After a fixed text. -/
theorem Uniq.after (s : Str) (h : Uniq P t F) : Uniq P (fun a => s ++ t a) F := by
  intro a b l l' ha hb hl hl' e
  rw [List.append_assoc, List.append_assoc] at e
  exact h a b l l' ha hb hl hl' (List.append_cancel_left e)

/-- Before a fixed text. -/
theorem Uniq.before (s : Str) (h : Uniq P t F) (hs : ∀ l, G l → F (s ++ l)) : Uniq P (fun a => t a ++ s) G := by
  intro a b l l' ha hb hl hl' e
  rw [List.append_assoc, List.append_assoc] at e
  obtain ⟨h1, h2⟩ := h a b _ _ ha hb (hs l hl) (hs l' hl') e
  exact ⟨h1, List.append_cancel_left h2⟩

/-- Or nothing. -/
theorem Uniq.opt (h : Uniq P t F) (hd : ∀ a l l', P a → F l → F l' → t a ++ l ≠ l') :
    Uniq (optT True P) (optT [] t) F := by
  rintro (_ | a) (_ | b) l l' ha hb hl hl' e
  · exact ⟨rfl, e⟩
  · exact absurd (Eq.symm e) (hd b l' l hb hl' hl)
  · exact absurd e (hd a l l' ha hl hl')
  · obtain ⟨h1, h2⟩ := h a b l l' ha hb hl hl' e
    exact ⟨by rw [h1], h2⟩

/-- One or the other. -/
theorem Uniq.sum (h1 : Uniq P t F) (h2 : Uniq Q t' F) (hd : ∀ a b l l', P a → Q b → F l → F l' → t a ++ l ≠ t' b ++ l') :
    Uniq (Sum.elim P Q) (Sum.elim t t') F := by
  rintro (a | a) (b | b) l l' ha hb hl hl' e
  · obtain ⟨k1, k2⟩ := h1 a b l l' ha hb hl hl' e
    exact ⟨by rw [k1], k2⟩
  · exact absurd e (hd a b l l' ha hb hl hl')
  · exact absurd (Eq.symm e) (hd b a l' l hb ha hl' hl)
  · obtain ⟨k1, k2⟩ := h2 a b l l' ha hb hl hl' e
    exact ⟨by rw [k1], k2⟩

/-- Any number of times. -/
theorem Uniq.many (h : Uniq P t F) (hg : ∀ l, G l → F l) (hf : ∀ a l, P a → F l → F (t a ++ l))
    (hd : ∀ a l l', P a → F l → G l' → t a ++ l ≠ l') :
    Uniq (fun as : List α => ∀ a ∈ as, P a) (fun as => as.flatMap t) G := by
  have key : ∀ (as : List α) l, (∀ a ∈ as, P a) → G l → F (as.flatMap t ++ l) := by
    intro as l ha hl
    induction as with
    | nil => exact hg l hl
    | cons a as ih =>
      obtain ⟨h1, h2⟩ := List.forall_mem_cons.mp ha
      rw [List.flatMap_cons, List.append_assoc]
      exact hf a _ h1 (ih h2)
  intro as
  induction as with
  | nil =>
    intro bs l l' _ hb hl hl' e
    cases bs with
    | nil => exact ⟨rfl, e⟩
    | cons b bs =>
      obtain ⟨h1, h2⟩ := List.forall_mem_cons.mp hb
      simp only [List.flatMap_cons, List.append_assoc, List.flatMap_nil, List.nil_append] at e
      exact absurd e.symm (hd b _ l h1 (key bs l' h2 hl') hl)
  | cons a as ih =>
    intro bs l l' ha hb hl hl' e
    obtain ⟨h1, h2⟩ := List.forall_mem_cons.mp ha
    cases bs with
    | nil =>
      simp only [List.flatMap_cons, List.append_assoc, List.flatMap_nil, List.nil_append] at e
      exact absurd e (hd a _ l' h1 (key as l h2 hl) hl')
    | cons b bs =>
      obtain ⟨k1, k2⟩ := List.forall_mem_cons.mp hb
      simp only [List.flatMap_cons, List.append_assoc] at e
      obtain ⟨rfl, e2⟩ := h a b _ _ h1 k1 (key as l h2 hl) (key bs l' k2 hl') e
      obtain ⟨rfl, e3⟩ := ih bs l l' h2 k2 hl hl' e2
      exact ⟨rfl, e3⟩

end

/-! ## Lists -/

/-- Blanks and then a comma, or the end. -/
def AtComma (l : Str) : Prop := l = [] ∨ ∃ s r, IsOws s ∧ l = s ++ 44 :: r

theorem AtComma.stops {l : Str} (h : AtComma l) : Stops Unbroken l := by
  rcases h with rfl | ⟨s, r, hs, rfl⟩
  · exact .nil
  · refine .append (fun c hc k => ?_) (.cons fun k => k.1 rfl)
    rcases hs c hc with rfl | rfl
    · exact k.2.1 rfl
    · exact k.2.2 rfl

theorem uniq_ows : Uniq IsOws (fun s => s) (Stops Blank) := uniq_span

theorem blank_comma (l : Str) : Stops Blank (44 :: l) := .cons (by unfold Blank; decide)

theorem atComma_unlike {s w l : Str} (hs : IsOws s) (hw : Begins Unbroken w) : ¬ AtComma (s ++ (w ++ l)) := by
  have hb : Stops Blank (w ++ l) := hw.append.stops fun c hc k => by
    rcases k with rfl | rfl
    · exact hc.2.1 rfl
    · exact hc.2.2 rfl
  rintro (h | ⟨s', r, hs', h⟩)
  · obtain ⟨c, w', rfl, _⟩ := hw
    simp at h
  · obtain ⟨_, h⟩ := span_unique (Q := Blank) hs hs' hb (blank_comma r) h
    obtain ⟨c, w', rfl, hc⟩ := hw
    exact hc.1 (List.cons.inj h).1

section
variable {α : Type} {P : α → Prop} {t : α → Str} {F : Str → Prop}

theorem uniq_slot (h : Uniq P t F) (hF : ∀ l, AtComma l → F l) (hb : ∀ a, P a → Begins Unbroken (t a)) :
    Uniq (slotOk P) (slotText t) AtComma := by
  have hblank : ∀ {a l}, P a → Stops Blank (t a ++ l) := fun ha => (hb _ ha).append.stops fun c hc k => by
    rcases k with rfl | rfl
    · exact hc.2.1 rfl
    · exact hc.2.2 rfl
  rintro (_ | ⟨s, a⟩) (_ | ⟨s', b⟩) l l' ha hb' hl hl' e
  · exact ⟨rfl, e⟩
  · have e : l = s' ++ t b ++ l' := e
    rw [List.append_assoc] at e
    exact absurd (e ▸ hl) (atComma_unlike hb'.1 (hb b hb'.2))
  · have e : s ++ t a ++ l = l' := e
    rw [List.append_assoc] at e
    exact absurd (e ▸ hl') (atComma_unlike ha.1 (hb a ha.2))
  · have e : s ++ t a ++ l = s' ++ t b ++ l' := e
    rw [List.append_assoc, List.append_assoc] at e
    obtain ⟨rfl, e2⟩ := span_unique (Q := Blank) ha.1 hb'.1 (hblank ha.2) (hblank hb'.2) e
    obtain ⟨rfl, e3⟩ := h a b l l' ha.2 hb'.2 (hF l hl) (hF l' hl') e2
    exact ⟨rfl, e3⟩

/-- Lists with one element at least, up to the end. -/
theorem uniq_list1 (h : Uniq P t F) (hF : ∀ l, AtComma l → F l) (hb : ∀ a, P a → Begins Unbroken (t a)) :
    Uniq (fun l : List1Syn α => l.Ok P) (fun l => l.text t) (fun l => l = []) := by
  have item : Uniq (fun x : Str × Option (Str × α) => IsOws x.1 ∧ slotOk P x.2)
      (fun x => x.1 ++ (([44] : Str) ++ slotText t x.2)) AtComma :=
    Uniq.seq uniq_ows ((uniq_slot h hF hb).after [44]) (fun b l _ _ => blank_comma _)
  have tail : Uniq (fun tl : List (Str × Option (Str × α)) => ∀ x ∈ tl, IsOws x.1 ∧ slotOk P x.2)
      (fun tl => tl.flatMap fun x => x.1 ++ (([44] : Str) ++ slotText t x.2)) (fun l => l = []) := by
    refine Uniq.many item (fun l hl => .inl hl) ?_ ?_
    · intro x l hx _
      exact .inr ⟨x.1, slotText t x.2 ++ l, hx.1, by simp⟩
    · rintro x l _ hx _ rfl
      simp
  have lead : Uniq (fun ss : List Str => ∀ s ∈ ss, IsOws s) (fun ss => ss.flatMap fun s => ([44] : Str) ++ s)
      (Begins Unbroken) := by
    refine Uniq.many (F := Stops Blank) (uniq_ows.after [44]) ?_ (fun a l _ _ => blank_comma _) ?_
    · intro l hl
      exact hl.stops fun c hc k => by
        rcases k with rfl | rfl
        · exact hc.2.1 rfl
        · exact hc.2.2 rfl
    · rintro s l _ _ _ ⟨c, r, rfl, hc⟩ e
      exact hc.1 (List.cons.inj e).1.symm
  have all := Uniq.seq lead (Uniq.seq h tail (G := fun l => l = []) ?_) (fun b l hb' _ => (hb b.1 hb'.1).append.append)
  · refine Uniq.map all (fun l => (l.lead, l.head, l.tail)) (fun l h => h) (fun l _ => ?_) ?_
    · show l.lead.flatMap _ ++ _ ++ _ = l.lead.flatMap _ ++ (_ ++ l.tail.flatMap _)
      rw [List.append_assoc]
      rfl
    · rintro ⟨a, b, c⟩ ⟨a', b', c'⟩ _ _ e
      simp only [Prod.mk.injEq] at e
      obtain ⟨rfl, rfl, rfl⟩ := e
      rfl
  · rintro tl l htl rfl
    refine hF _ ?_
    cases tl with
    | nil => exact .inl rfl
    | cons x tl => exact .inr ⟨x.1, _, (htl x (.head _)).1, by simp [List.append_assoc]; rfl⟩

/-- Blanks and then a comma or the end. -/
def AtEnd (l : Str) : Prop := ∃ s r, IsOws s ∧ (r = [] ∨ Begins (· = 44) r) ∧ l = s ++ r

theorem AtComma.atEnd {l : Str} (h : AtComma l) : AtEnd l := by
  rcases h with rfl | ⟨s, r, hs, rfl⟩
  · exact ⟨[], [], nofun, .inl rfl, rfl⟩
  · exact ⟨s, 44 :: r, hs, .inr ⟨44, r, rfl, rfl⟩, rfl⟩

theorem AtEnd.stops {l : Str} (h : AtEnd l) : Stops Unbroken l := by
  obtain ⟨s, r, hs, hr, rfl⟩ := h
  refine .append (fun c hc k => ?_) ?_
  · rcases hs c hc with rfl | rfl
    · exact k.2.1 rfl
    · exact k.2.2 rfl
  · rcases hr with rfl | h
    · exact .nil
    · exact h.stops fun c hc => by subst hc; exact fun k => k.1 rfl

theorem uniq_place (h : Uniq P t F) (hF : ∀ l, AtEnd l → F l) (hb : ∀ a, P a → Begins Unbroken (t a)) :
    Uniq (placeOk P) (placeText t) (fun l => l = [] ∨ Begins (· = 44) l) := by
  have stop : ∀ l, (l = [] ∨ Begins (· = 44) l) → Stops Blank l := by
    rintro l (rfl | h)
    · exact .nil
    · exact h.stops fun c hc => by subst hc; unfold Blank; decide
  have stop' : ∀ l, (l = [] ∨ Begins (· = 44) l) → Stops Unbroken l := by
    rintro l (rfl | h)
    · exact .nil
    · exact h.stops fun c hc => by subst hc; exact fun k => k.1 rfl
  have none : ∀ {a s l l'}, P a → (l' = [] ∨ Begins (· = 44) l') → t a ++ s ++ l ≠ l' := by
    intro a s l l' ha hl' e
    refine ((hb a ha).append (l := s ++ l)).not_stops (R := Unbroken) (fun c hc => hc) ?_
    rw [← List.append_assoc, e]
    exact stop' l' hl'
  rintro (_ | ⟨a, s⟩) (_ | ⟨b, s'⟩) l l' ha hb' hl hl' e
  · exact ⟨rfl, e⟩
  · exact absurd (Eq.symm e) (none hb'.1 hl)
  · exact absurd e (none ha.1 hl')
  · have e : t a ++ s ++ l = t b ++ s' ++ l' := e
    rw [List.append_assoc, List.append_assoc] at e
    have hs : ∀ {s l}, IsOws s → (l = [] ∨ Begins (· = 44) l) → AtEnd (s ++ l) := fun hs hl => ⟨_, _, hs, hl, rfl⟩
    obtain ⟨rfl, e2⟩ := h a b _ _ ha.1 hb'.1 (hF _ (hs ha.2 hl)) (hF _ (hs hb'.2 hl')) e
    obtain ⟨rfl, e3⟩ := span_unique (Q := Blank) ha.2 hb'.2 (stop l hl) (stop l' hl') e2
    exact ⟨rfl, e3⟩

/-- Lists that may be empty, up to the end. -/
theorem uniq_list (h : Uniq P t F) (hF : ∀ l, AtEnd l → F l) (hb : ∀ a, P a → Begins Unbroken (t a)) :
    Uniq (fun l : ListSyn α => l.Ok P) (fun l => l.text t) (fun l => l = []) := by
  have place := uniq_place h hF hb
  have item : Uniq (fun x : Str × Option (α × Str) => IsOws x.1 ∧ placeOk P x.2)
      (fun x => ([44] : Str) ++ (x.1 ++ placeText t x.2)) (fun l => l = [] ∨ Begins (· = 44) l) := by
    refine (Uniq.seq uniq_ows place ?_).after [44]
    rintro (_ | ⟨a, s⟩) l ha hl
    · rcases hl with rfl | hl
      · exact .nil
      · exact hl.stops fun c hc => by subst hc; unfold Blank; decide
    · show Stops Blank (t a ++ s ++ l)
      rw [List.append_assoc]
      exact ((hb a ha.1).append).stops fun c hc k => by
        rcases k with rfl | rfl
        · exact hc.2.1 rfl
        · exact hc.2.2 rfl
  have rest : Uniq (fun tl : List (Str × Option (α × Str)) => ∀ x ∈ tl, IsOws x.1 ∧ placeOk P x.2)
      (fun tl => tl.flatMap fun x => ([44] : Str) ++ (x.1 ++ placeText t x.2)) (fun l => l = []) := by
    refine Uniq.many item (fun l hl => .inl hl) (fun x l _ _ => .inr ⟨44, _, rfl, rfl⟩) ?_
    rintro x l _ _ _ rfl
    simp
  have all := Uniq.seq place rest ?_
  · refine Uniq.map all (fun l => (l.first, l.rest)) (fun l h => h) (fun l _ => ?_) ?_
    · show _ ++ l.rest.flatMap _ = _ ++ l.rest.flatMap _
      congr 1
    · rintro ⟨a, b⟩ ⟨a', b'⟩ _ _ e
      simp only [Prod.mk.injEq] at e
      obtain ⟨rfl, rfl⟩ := e
      rfl
  · rintro tl l htl rfl
    cases tl with
    | nil => exact .inl rfl
    | cons x tl => exact .inr ⟨44, _, rfl, rfl⟩

end

end Httpolice.Lemmas
