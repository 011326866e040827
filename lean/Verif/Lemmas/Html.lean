import Verif.Spec.Html

/-!
# Lemmas about the HTML report
-/

namespace Httpolice.Lemmas
open Httpolice.Model Httpolice.Spec Httpolice.Props

/-! ## Numbers -/

/-- Objects have the numbers of their places in the list. -/
def AgreesWith (f : Nat → Nat) (seen : List Nat) : Prop := ∀ o ∈ seen, f o = seen.idxOf o

theorem agrees_prefix {f : Nat → Nat} {s t : List Nat} (h : AgreesWith f t) (hp : s <+: t) :
    AgreesWith f s := by
  obtain ⟨u, rfl⟩ := hp
  intro o ho
  rw [h o (List.mem_append_left _ ho), List.idxOf_append, if_pos ho]

theorem anonymize_grows (seen : List Nat) (o : Nat) : seen <+: (anonymize seen o).2 := by
  unfold anonymize
  split
  · exact List.prefix_refl _
  · exact ⟨[o], rfl⟩

theorem anonymize_with {f : Nat → Nat} {seen : List Nat} {o : Nat}
    (h : AgreesWith f (anonymize seen o).2) : (anonymize seen o).1 = f o := by
  unfold anonymize at h ⊢
  split at h
  next hc =>
    rw [if_pos hc]
    exact (h o (by simpa using hc)).symm
  next hc =>
    rw [if_neg hc]
    have hm : o ∉ seen := by simpa using hc
    rw [h o (by simp), List.idxOf_append, if_neg hm]
    simp

theorem anonymizeAll_grows (os : List Nat) (seen : List Nat) : seen <+: (anonymizeAll seen os).2 := by
  induction os generalizing seen with
  | nil => exact List.prefix_refl _
  | cons o os ih => exact (anonymize_grows seen o).trans (ih _)

theorem anonymizeAll_with {f : Nat → Nat} (os : List Nat) {seen : List Nat}
    (h : AgreesWith f (anonymizeAll seen os).2) : (anonymizeAll seen os).1 = os.map f := by
  induction os generalizing seen with
  | nil => rfl
  | cons o os ih =>
    simp only [anonymizeAll] at h ⊢
    rw [ih h, anonymize_with (agrees_prefix h (anonymizeAll_grows _ _)), List.map_cons]

theorem numberAttr_grows (seen : List Nat) (a : HAttr) : seen <+: (numberAttr seen a).2 := by
  cases a with
  | lit s => exact List.prefix_refl _
  | place o => exact anonymize_grows _ _
  | links os => exact anonymizeAll_grows _ _

theorem numberAttr_with {f : Nat → Nat} {seen : List Nat} {a : HAttr}
    (h : AgreesWith f (numberAttr seen a).2) : (numberAttr seen a).1 = attrWith f a := by
  cases a with
  | lit s => rfl
  | place o =>
    simp only [numberAttr] at h ⊢
    rw [anonymize_with h, attrWith]
  | links os =>
    simp only [numberAttr] at h ⊢
    rw [anonymizeAll_with os h, attrWith, List.map_map]
    rfl

theorem numberAttrs_grows (as : List (Str × HAttr)) (seen : List Nat) :
    seen <+: (numberAttrs seen as).2 := by
  induction as generalizing seen with
  | nil => exact List.prefix_refl _
  | cons a as ih => exact (numberAttr_grows seen a.2).trans (ih _)

theorem numberAttrs_with {f : Nat → Nat} (as : List (Str × HAttr)) {seen : List Nat}
    (h : AgreesWith f (numberAttrs seen as).2) :
    (numberAttrs seen as).1 = as.map fun a => (a.1, attrWith f a.2) := by
  induction as generalizing seen with
  | nil => rfl
  | cons a as ih =>
    obtain ⟨k, a⟩ := a
    simp only [numberAttrs] at h ⊢
    rw [ih h, numberAttr_with (agrees_prefix h (numberAttrs_grows _ _)), List.map_cons]

mutual

theorem number_grows : (h : Html) → (seen : List Nat) → seen <+: (number seen h).2
  | .text _, _ => List.prefix_refl _
  | .elem _ as cs, seen => (numberAttrs_grows as seen).trans (numbers_grows cs _)

theorem numbers_grows : (hs : List Html) → (seen : List Nat) → seen <+: (numbers seen hs).2
  | [], _ => List.prefix_refl _
  | h :: hs, seen => (number_grows h seen).trans (numbers_grows hs _)

end

mutual

theorem number_with {f : Nat → Nat} : (h : Html) → (seen : List Nat) →
    AgreesWith f (number seen h).2 → (number seen h).1 = docWith f h
  | .text _, _, _ => rfl
  | .elem _ as cs, seen, ha => by
    simp only [number, docWith] at ha ⊢
    rw [numbers_with cs _ ha, numberAttrs_with as (agrees_prefix ha (numbers_grows _ _))]

theorem numbers_with {f : Nat → Nat} : (hs : List Html) → (seen : List Nat) →
    AgreesWith f (numbers seen hs).2 → (numbers seen hs).1 = docsWith f hs
  | [], _, _ => rfl
  | h :: hs, seen, ha => by
    simp only [numbers, docsWith] at ha ⊢
    rw [numbers_with hs _ ha, number_with h _ (agrees_prefix ha (numbers_grows _ _))]

end

/-- Numbers for objects in the list, and others for all others. -/
def numberedBy (seen : List Nat) (o : Nat) : Nat :=
  if o ∈ seen then seen.idxOf o else seen.length + o

theorem numberedBy_agrees (seen : List Nat) : AgreesWith (numberedBy seen) seen :=
  fun o ho => by rw [numberedBy, if_pos ho]

theorem numberedBy_distinct (seen : List Nat) : Distinct (numberedBy seen) := by
  intro a b h
  unfold numberedBy at h
  split at h
  next ha =>
    have h1 := List.idxOf_lt_length_of_mem ha
    split at h
    next hb =>
      have e1 := List.getElem_idxOf h1
      have h2 := List.idxOf_lt_length_of_mem hb
      have e2 := List.getElem_idxOf h2
      rw [← e1, ← e2]
      congr 1
    next hb => omega
  next ha =>
    split at h
    next hb => have := List.idxOf_lt_length_of_mem hb; omega
    next hb => omega

/-- The list after several reports. -/
def seenAfter (seen : List Nat) : List (List HExch) → List Nat
  | [] => seen
  | es :: rest => seenAfter (htmlReport seen es).2 rest

theorem seenAfter_grows (runs : List (List HExch)) (seen : List Nat) :
    seen <+: seenAfter seen runs := by
  induction runs generalizing seen with
  | nil => exact List.prefix_refl _
  | cons es rest ih => exact (numbers_grows (exchangeDivs es) seen).trans (ih _)

theorem reportsFrom_with {f : Nat → Nat} (runs : List (List HExch)) (seen : List Nat)
    (h : AgreesWith f (seenAfter seen runs)) :
    reportsFrom seen runs = runs.map fun es => docsWith f (exchangeDivs es) := by
  induction runs generalizing seen with
  | nil => rfl
  | cons es rest ih =>
    rw [reportsFrom, ih _ h, List.map_cons]
    congr 1
    exact numbers_with _ _ (agrees_prefix h (seenAfter_grows _ _))

/-! ## Other identities -/

theorem anonymize_moved {σ : Nat → Nat} (hs : Distinct σ) (seen : List Nat) (o : Nat) :
    anonymize (seen.map σ) (σ o) = ((anonymize seen o).1, (anonymize seen o).2.map σ) := by
  have hm : σ o ∈ seen.map σ ↔ o ∈ seen := by
    constructor
    · intro h
      obtain ⟨x, hx, he⟩ := List.mem_map.1 h
      rwa [← hs _ _ he]
    · exact List.mem_map_of_mem
  have hi : (seen.map σ).idxOf (σ o) = seen.idxOf o := by
    clear hm
    induction seen with
    | nil => rfl
    | cons x seen ih =>
      rw [List.map_cons, List.idxOf_cons, List.idxOf_cons, ih]
      by_cases hx : x = o
      · subst hx; simp
      · have : σ x ≠ σ o := fun e => hx (hs _ _ e)
        rw [beq_false_of_ne this, beq_false_of_ne hx]
  unfold anonymize
  by_cases h : o ∈ seen
  · have h1 : seen.contains o = true := by simpa using h
    have h2 : (seen.map σ).contains (σ o) = true := by simpa using hm.2 h
    rw [if_pos h1, if_pos h2, hi]
  · have h1 : ¬ seen.contains o = true := by simpa using h
    have h2 : ¬ (seen.map σ).contains (σ o) = true := by
      intro h'
      exact h (hm.1 (by simpa using h'))
    rw [if_neg h1, if_neg h2]
    simp

theorem anonymizeAll_moved {σ : Nat → Nat} (hs : Distinct σ) (os : List Nat) (seen : List Nat) :
    anonymizeAll (seen.map σ) (os.map σ) =
      ((anonymizeAll seen os).1, (anonymizeAll seen os).2.map σ) := by
  induction os generalizing seen with
  | nil => rfl
  | cons o os ih => simp only [List.map_cons, anonymizeAll, anonymize_moved hs, ih]

theorem numberAttrs_moved {σ : Nat → Nat} (hs : Distinct σ) (as : List (Str × HAttr))
    (seen : List Nat) :
    numberAttrs (seen.map σ) (as.map fun a => (a.1, attrMoved σ a.2)) =
      ((numberAttrs seen as).1, (numberAttrs seen as).2.map σ) := by
  induction as generalizing seen with
  | nil => rfl
  | cons a as ih =>
    obtain ⟨k, a⟩ := a
    have : numberAttr (seen.map σ) (attrMoved σ a) =
        ((numberAttr seen a).1, (numberAttr seen a).2.map σ) := by
      cases a with
      | lit s => rfl
      | place o => simp only [attrMoved, numberAttr, anonymize_moved hs]
      | links os => simp only [attrMoved, numberAttr, anonymizeAll_moved hs]
    simp only [List.map_cons, numberAttrs, this, ih]

mutual

theorem number_moved {σ : Nat → Nat} (hs : Distinct σ) : (h : Html) → (seen : List Nat) →
    number (seen.map σ) (moved σ h) = ((number seen h).1, (number seen h).2.map σ)
  | .text _, _ => rfl
  | .elem _ as cs, seen => by
    simp only [moved, number, numberAttrs_moved hs, numbers_moved hs cs]

theorem numbers_moved {σ : Nat → Nat} (hs : Distinct σ) : (l : List Html) → (seen : List Nat) →
    numbers (seen.map σ) (movedAll σ l) = ((numbers seen l).1, (numbers seen l).2.map σ)
  | [], _ => rfl
  | h :: l, seen => by
    simp only [movedAll, numbers, number_moved hs h, numbers_moved hs l]

end

/-! ## Text -/

theorem printable_legible (s : Str) : printable s = legible s := by
  unfold printable legible
  congr 1
  funext c
  simp only [unprintable_iff]

theorem legible_append (s t : Str) : legible (s ++ t) = legible s ++ legible t := List.map_append

theorem legible_flatMap {α : Type} (xs : List α) (g : α → Str) :
    legible (xs.flatMap g) = xs.flatMap fun x => legible (g x) := by
  induction xs with
  | nil => rfl
  | cons x xs ih => rw [List.flatMap_cons, legible_append, ih, List.flatMap_cons]

theorem legible_clean (s : Str) : ∀ c ∈ legible s, ¬ Forbidden c := by
  rw [← printable_legible]
  exact (C42_printable_clean s).2.1

theorem legible_id {s : Str} (h : ∀ c ∈ s, ¬ Forbidden c) : legible s = s := by
  rw [← printable_legible]
  exact (C42_printable_clean s).2.2.1 h

theorem decimal_clean (n : Nat) : ∀ c ∈ decimalText n, ¬ Forbidden c := by
  intro c hc
  have : 48 ≤ c ∧ c ≤ 57 := by
    rw [decimalText, str, List.mem_map] at hc
    obtain ⟨x, hx, rfl⟩ := hc
    have e : (toString n).toList = Nat.toDigits 10 n := by
      rw [show toString n = n.repr from rfl, Nat.repr]
      exact String.toList_ofList
    rw [e] at hx
    have := Nat.isDigit_of_mem_toDigits (by omega) (by omega) hx
    simp only [Char.isDigit, Bool.and_eq_true, decide_eq_true_eq] at this
    have h1 : (48 : Nat) ≤ x.val.toNat := this.1
    have h2 : x.val.toNat ≤ 57 := this.2
    exact ⟨h1, h2⟩
  unfold Forbidden
  omega

/-! ## Documents -/

theorem docsWith_append (f : Nat → Nat) (a b : List Html) :
    docsWith f (a ++ b) = docsWith f a ++ docsWith f b := by
  induction a with
  | nil => rfl
  | cons x a ih => rw [List.cons_append, docsWith, ih, docsWith, List.cons_append]

theorem docsWith_map (f : Nat → Nat) (a : List Html) : docsWith f a = a.map (docWith f) := by
  induction a with
  | nil => rfl
  | cons x a ih => rw [docsWith, ih, List.map_cons]

theorem docsWith_flatMap {α : Type} (f : Nat → Nat) (xs : List α) (g : α → List Html) :
    docsWith f (xs.flatMap g) = xs.flatMap fun x => docsWith f (g x) := by
  induction xs with
  | nil => rfl
  | cons x xs ih => rw [List.flatMap_cons, docsWith_append, ih, List.flatMap_cons]

theorem textsIn_append (a b : List Doc) : textsIn (a ++ b) = textsIn a ++ textsIn b := by
  induction a with
  | nil => rfl
  | cons x a ih => rw [List.cons_append, textsIn, ih, textsIn, List.append_assoc]

theorem textsIn_flatMap {α : Type} (xs : List α) (g : α → List Doc) :
    textsIn (xs.flatMap g) = xs.flatMap fun x => textsIn (g x) := by
  induction xs with
  | nil => rfl
  | cons x xs ih => rw [List.flatMap_cons, textsIn_append, ih, List.flatMap_cons]

theorem nodesIn_append (a b : List Doc) : nodesIn (a ++ b) = nodesIn a ++ nodesIn b := by
  induction a with
  | nil => rfl
  | cons x a ih => rw [List.cons_append, nodesIn, ih, nodesIn, List.append_assoc]

theorem classed_append (c : String) (a b : List Doc) :
    classed c (a ++ b) = classed c a ++ classed c b := by
  unfold classed
  rw [nodesIn_append, List.filter_append]

theorem elements_append (c : String) (a b : List Doc) :
    elements c (a ++ b) = elements c a ++ elements c b := by
  unfold elements
  rw [nodesIn_append, List.filter_append]

theorem pointers_append (a b : List Doc) : pointers (a ++ b) = pointers a ++ pointers b := by
  unfold pointers
  rw [nodesIn_append, List.filterMap_append]

theorem pointers_flatMap {α : Type} (xs : List α) (g : α → List Doc) :
    pointers (xs.flatMap g) = xs.flatMap fun x => pointers (g x) := by
  induction xs with
  | nil => rfl
  | cons x xs ih => rw [List.flatMap_cons, pointers_append, ih, List.flatMap_cons]

theorem classed_nil (c : String) : classed c [] = [] := rfl
theorem elements_nil (c : String) : elements c [] = [] := rfl
theorem pointers_nil : pointers [] = [] := rfl

theorem classed_cons (c : String) (d : Doc) (ds : List Doc) :
    classed c (d :: ds) = classed c [d] ++ classed c ds := classed_append c [d] ds

theorem elements_cons (c : String) (d : Doc) (ds : List Doc) :
    elements c (d :: ds) = elements c [d] ++ elements c ds := elements_append c [d] ds

theorem pointers_cons (d : Doc) (ds : List Doc) :
    pointers (d :: ds) = pointers [d] ++ pointers ds := pointers_append [d] ds

theorem classed_elem (c : String) (t : Str) (as : List (Str × Str)) (cs : List Doc) :
    classed c [.elem t as cs] =
      (if as.lookup (str "class") = some (str c) then [.elem t as cs] else []) ++ classed c cs := by
  have e : nodesIn [.elem t as cs] = .elem t as cs :: nodesIn cs := by simp [nodesIn, nodesOf]
  unfold classed
  rw [e, List.filter_cons]
  by_cases h : as.lookup (str "class") = some (str c)
  · rw [if_pos (decide_eq_true (p := attrOf "class" (.elem t as cs) = some (str c)) h), if_pos h]
    rfl
  · rw [if_neg (fun hh => h (of_decide_eq_true (p := attrOf "class" (.elem t as cs) = some (str c)) hh)), if_neg h]
    rfl

theorem classed_text (c : String) (s : Str) : classed c [.text s] = [] := by
  simp [classed, nodesIn, nodesOf, attrOf]

theorem elements_elem (c : String) (t : Str) (as : List (Str × Str)) (cs : List Doc) :
    elements c [.elem t as cs] =
      (if t = str c then [.elem t as cs] else []) ++ elements c cs := by
  have e : nodesIn [.elem t as cs] = .elem t as cs :: nodesIn cs := by simp [nodesIn, nodesOf]
  unfold elements
  rw [e, List.filter_cons]
  by_cases h : t = str c
  · rw [if_pos (decide_eq_true (p := nameOf (.elem t as cs) = str c) h), if_pos h]
    rfl
  · rw [if_neg (fun hh => h (of_decide_eq_true (p := nameOf (.elem t as cs) = str c) hh)), if_neg h]
    rfl

theorem elements_text (s : Str) : elements "h2" [.text s] = [] := by
  simp (decide := true) [elements, nodesIn, nodesOf, nameOf]

theorem pointers_elem (t : Str) (as : List (Str × Str)) (cs : List Doc) :
    pointers [.elem t as cs] =
      (match as.lookup (str "data-ref-to") with
        | some r => [(r, textsIn cs)]
        | none => []) ++ pointers cs := by
  simp only [pointers, nodesIn, nodesOf, List.append_nil, List.filterMap_cons, attrOf]
  cases as.lookup (str "data-ref-to") <;> simp [textIn]

theorem pointers_text (s : Str) : pointers [.text s] = [] := by
  simp [pointers, nodesIn, nodesOf, attrOf]

/-! ## Parts without classes and references -/

/-- Nothing in these nodes has a class or refers to anything, and nothing is a first line. -/
def Unmarked (ds : List Doc) : Prop :=
  ∀ d ∈ nodesIn ds, attrOf "class" d = none ∧ attrOf "data-ref-to" d = none ∧ nameOf d ≠ str "h2"

theorem quiet_append {a b : List Doc} (ha : Unmarked a) (hb : Unmarked b) : Unmarked (a ++ b) := by
  intro d hd
  rw [nodesIn_append, List.mem_append] at hd
  exact hd.elim (ha d) (hb d)

theorem quiet_nil : Unmarked [] := fun _ h => by cases h

theorem unmarked_flatMap {α : Type} {xs : List α} {g : α → List Doc} (h : ∀ x ∈ xs, Unmarked (g x)) :
    Unmarked (xs.flatMap g) := by
  induction xs with
  | nil => exact quiet_nil
  | cons x xs ih =>
    rw [List.flatMap_cons]
    exact quiet_append (h x List.mem_cons_self) (ih fun y hy => h y (List.mem_cons_of_mem _ hy))

theorem quiet_text (s : Str) : Unmarked [.text s] := by
  intro d hd
  simp only [nodesIn, nodesOf, List.append_nil, List.mem_singleton] at hd
  subst hd
  exact ⟨rfl, rfl, by simp (decide := true) [nameOf]⟩

theorem quiet_elem {t : Str} {as : List (Str × Str)} {cs : List Doc}
    (h1 : as.lookup (str "class") = none) (h2 : as.lookup (str "data-ref-to") = none)
    (h3 : t ≠ str "h2") (hc : Unmarked cs) : Unmarked [.elem t as cs] := by
  intro d hd
  simp only [nodesIn, nodesOf, List.append_nil, List.mem_cons] at hd
  rcases hd with rfl | hd
  · exact ⟨h1, h2, h3⟩
  · exact hc d hd

theorem quiet_classed {ds : List Doc} (h : Unmarked ds) (c : String) : classed c ds = [] := by
  unfold classed
  rw [List.filter_eq_nil_iff]
  intro d hd
  simp [(h d hd).1]

theorem quiet_elements {ds : List Doc} (h : Unmarked ds) : elements "h2" ds = [] := by
  unfold elements
  rw [List.filter_eq_nil_iff]
  intro d hd
  simp [(h d hd).2.2]

theorem quiet_pointers {ds : List Doc} (h : Unmarked ds) : pointers ds = [] := by
  unfold pointers
  rw [List.filterMap_eq_nil_iff]
  intro d hd
  simp [(h d hd).2.1]

end Httpolice.Lemmas
