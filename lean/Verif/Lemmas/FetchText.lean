import Verif.Lemmas.Fetch

/-!
# Texts of Forwarded, nodes and scopes determine what is written
-/

namespace Httpolice.Lemmas

open Httpolice.Model Httpolice.Spec

/-! ## Lists whose elements may be empty -/

section
variable {α : Type} {P : α → Prop} {t : α → Str}

/-- What is between two commas. -/
def closeSeg (s : Str) (o : Option α) (w : Str) : Str × Option (α × Str) :=
  match o with
  | none => (s ++ w, none)
  | some a => (s, some (a, w))

/-- An element that is not empty. -/
def keepFull (t : α → Str) (a : α) : Option α := if t a = [] then none else some a

def tailSegs (t : α → Str) : Str → Option α → List (Str × Option (Str × α)) → List (Str × Option (α × Str))
  | s, o, [] => [closeSeg s o []]
  | s, o, (w, none) :: tl => closeSeg s o w :: tailSegs t [] none tl
  | s, o, (w, some (s', a)) :: tl => closeSeg s o w :: tailSegs t s' (keepFull t a) tl

def leadSegs (t : α → Str) (a : α) (tl : List (Str × Option (Str × α))) : Str → List Str → List (Str × Option (α × Str))
  | s, [] => tailSegs t s (keepFull t a) tl
  | s, s' :: ss => (s, none) :: leadSegs t a tl s' ss

def segs (t : α → Str) (l : List1Syn α) : ListSyn α := ⟨none, leadSegs t l.head l.tail [] l.lead⟩

/-- The text of an element that may be left out. -/
abbrev keptText (t : α → Str) : Option α → Str := optT [] t

theorem keep_text (a : α) : keptText t (keepFull t a) = t a := by
  unfold keepFull
  split <;> simp_all [optT]

theorem close_text (s : Str) (o : Option α) (w : Str) :
    (closeSeg s o w).1 ++ placeText t (closeSeg s o w).2 = s ++ (keptText t o ++ w) := by
  cases o <;> simp [closeSeg, placeText, optT]

theorem tail_text (s : Str) (o : Option α) (tl : List (Str × Option (Str × α))) :
    (tailSegs t s o tl).flatMap (fun x => 44 :: x.1 ++ placeText t x.2) =
      44 :: (s ++ (keptText t o ++ tl.flatMap (fun x => x.1 ++ 44 :: slotText t x.2))) := by
  have one : ∀ (s : Str) (o : Option α) (w : Str), 44 :: (closeSeg s o w).1 ++ placeText t (closeSeg s o w).2 =
      44 :: (s ++ (keptText t o ++ w)) := by
    intro s o w
    rw [List.cons_append, close_text]
  induction tl generalizing s o with
  | nil =>
    show (44 :: (closeSeg s o []).1 ++ placeText t (closeSeg s o []).2) ++ [] = _
    rw [one]
    simp
  | cons x tl ih =>
    obtain ⟨w, _ | ⟨s', a⟩⟩ := x
    · show (44 :: (closeSeg s o w).1 ++ placeText t (closeSeg s o w).2) ++ (tailSegs t [] none tl).flatMap _ = _
      rw [one, ih]
      simp [slotText, optT]
    · show (44 :: (closeSeg s o w).1 ++ placeText t (closeSeg s o w).2) ++ (tailSegs t s' (keepFull t a) tl).flatMap _ = _
      rw [one, ih, keep_text]
      simp [slotText]

theorem segs_text (l : List1Syn α) : (segs t l).text t = 44 :: l.text t := by
  obtain ⟨lead, a, tl⟩ := l
  have key : ∀ (s : Str), (leadSegs t a tl s lead).flatMap (fun x => 44 :: x.1 ++ placeText t x.2) =
      44 :: (s ++ (lead.flatMap (fun s => 44 :: s) ++ (t a ++ tl.flatMap (fun x => x.1 ++ 44 :: slotText t x.2)))) := by
    induction lead with
    | nil =>
      intro s
      show (tailSegs t s (keepFull t a) tl).flatMap _ = _
      rw [tail_text, keep_text]
      rfl
    | cons s' ss ih =>
      intro s
      show _ ++ (leadSegs t a tl s' ss).flatMap _ = _
      rw [ih s']
      simp [placeText]
  show [] ++ (leadSegs t a tl [] lead).flatMap _ = _
  rw [List.nil_append, key []]
  simp [List1Syn.text]

/-- The elements that are not empty. -/
abbrev Filled (P : α → Prop) (t : α → Str) (a : α) : Prop := P a ∧ t a ≠ []

theorem keep_ok {a : α} (h : P a) : optT True (Filled P t) (keepFull t a) := by
  unfold keepFull
  split
  · trivial
  · exact ⟨h, ‹_›⟩

theorem close_ok {s : Str} {o : Option α} {w : Str} (hs : IsOws s) (ho : optT True (Filled P t) o) (hw : IsOws w) :
    IsOws (closeSeg s o w).1 ∧ placeOk (Filled P t) (closeSeg s o w).2 := by
  cases o with
  | none => exact ⟨fun c hc => (List.mem_append.mp hc).elim (hs c) (hw c), trivial⟩
  | some a => exact ⟨hs, ho, hw⟩

theorem tail_ok {s : Str} {o : Option α} {tl : List (Str × Option (Str × α))} (hs : IsOws s) (ho : optT True (Filled P t) o)
    (ht : ∀ x ∈ tl, IsOws x.1 ∧ slotOk P x.2) : ∀ x ∈ tailSegs t s o tl, IsOws x.1 ∧ placeOk (Filled P t) x.2 := by
  induction tl generalizing s o with
  | nil => exact List.forall_mem_cons.mpr ⟨close_ok hs ho nofun, nofun⟩
  | cons x tl ih =>
    obtain ⟨h1, h2⟩ := ht x (.head _)
    have ht' := fun y hy => ht y (.tail _ hy)
    obtain ⟨w, _ | ⟨s', a⟩⟩ := x
    · exact List.forall_mem_cons.mpr ⟨close_ok hs ho h1, ih nofun trivial ht'⟩
    · exact List.forall_mem_cons.mpr ⟨close_ok hs ho h1, ih h2.1 (keep_ok h2.2) ht'⟩

theorem segs_ok {l : List1Syn α} (h : l.Ok P) : (segs t l).Ok (Filled P t) := by
  obtain ⟨lead, a, tl⟩ := l
  obtain ⟨k1, k2, k3⟩ := h
  refine ⟨trivial, ?_⟩
  show ∀ x ∈ leadSegs t a tl [] lead, _
  have key : ∀ (s : Str), IsOws s → ∀ x ∈ leadSegs t a tl s lead, IsOws x.1 ∧ placeOk (Filled P t) x.2 := by
    have h2 : P a := k2
    have h3 : ∀ x ∈ tl, IsOws x.1 ∧ slotOk P x.2 := k3
    have h1 : ∀ s ∈ lead, IsOws s   := k1
    clear k1 k2 k3
    induction lead with
    | nil => exact fun s hs => tail_ok hs (keep_ok h2) h3
    | cons s' ss ih =>
      intro s hs
      have hk := List.forall_mem_cons.mp h1
      exact List.forall_mem_cons.mpr ⟨⟨hs, trivial⟩, ih hk.2 s' hk.1⟩
  exact key [] nofun

/-- The elements in segments. -/
def segElems (l : List (Str × Option (α × Str))) : List α := l.filterMap fun x => x.2.map Prod.fst

theorem close_elems (s : Str) (o : Option α) (w : Str) (l : List (Str × Option (α × Str))) :
    segElems (closeSeg s o w :: l) = o.toList ++ segElems l := by
  cases o <;> rfl

theorem keep_elems (a : α) : (keepFull t a).toList = [a].filter fun x => t x ≠ [] := by
  unfold keepFull
  split <;> simp_all

theorem tail_elems (s : Str) (o : Option α) (tl : List (Str × Option (Str × α))) : segElems (tailSegs t s o tl) =
    o.toList ++ (tl.filterMap fun x => x.2.map Prod.snd).filter fun x => t x ≠ [] := by
  induction tl generalizing s o with
  | nil => exact close_elems s o [] []
  | cons x tl ih =>
    obtain ⟨w, _ | ⟨s', a⟩⟩ := x
    · show segElems (closeSeg s o w :: tailSegs t [] none tl) = _
      rw [close_elems, ih]
      rfl
    · show segElems (closeSeg s o w :: tailSegs t s' (keepFull t a) tl) = _
      rw [close_elems, ih, keep_elems, ← List.filter_append]
      rfl

theorem segs_elems (l : List1Syn α) : segElems (segs t l).rest = l.elems.filter fun x => t x ≠ [] := by
  obtain ⟨lead, a, tl⟩ := l
  have key : ∀ s : Str, segElems (leadSegs t a tl s lead) = (List1Syn.mk lead a tl).elems.filter fun x => t x ≠ [] := by
    have : ∀ (ss : List Str) (s : Str), segElems (leadSegs t a tl s ss) =
        (a :: tl.filterMap fun x => x.2.map Prod.snd).filter fun x => t x ≠ [] := by
      intro ss
      induction ss with
      | nil =>
        intro s
        show segElems (tailSegs t s (keepFull t a) tl) = _
        rw [tail_elems, keep_elems, ← List.filter_append]
        rfl
      | cons s' ss ih => exact fun s => ih s'
    exact this lead
  exact key []

/-- The text determines the elements that are not empty. -/
theorem full_elems (h : Uniq P t AtEnd) (hb : ∀ a, P a → t a ≠ [] → Begins Unbroken (t a)) {x y : List1Syn α} (hx : x.Ok P)
    (hy : y.Ok P) (e : x.text t = y.text t) : (x.elems.filter fun a => t a ≠ []) = y.elems.filter fun a => t a ≠ [] := by
  have := (uniq_list (P := Filled P t) (h.mono (fun _ h => h.1) fun _ h => h) (fun _ h => h) fun a ha => hb a ha.1 ha.2).inj rfl
    (segs_ok (t := t) hx) (segs_ok (t := t) hy) (by rw [segs_text, segs_text, e])
  rw [← segs_elems, ← segs_elems, this]

end

/-! ## Forwarded -/

theorem uniq_pair : Uniq (Attr.Ok IsToken) Attr.text AtBreak := by
  refine ((uniq_setting (Name := IsToken) fun _ h => h).mono (fun _ h => h) fun _ h => h.unset).map
    (fun a : Attr => (⟨a.name, some a.value⟩ : Setting)) ?_ ?_ ?_
  · exact fun a h => ⟨h.1, fun _ e => by cases e; exact h.2⟩
  · exact fun a _ => List.append_assoc _ _ _
  · rintro ⟨a, b⟩ ⟨a', b'⟩ _ _ e
    cases e
    rfl

/-- At a semicolon right here, or blanks and then a comma or the end. -/
abbrev AtHop (l : Str) : Prop := Begins (· = 59) l ∨ AtEnd l

theorem atHop_break {l : Str} (h : AtHop l) : AtBreak l := by
  rcases h with ⟨c, r, rfl, rfl⟩ | h
  · exact ⟨[], _, nofun, .inr ⟨_, r, rfl, .inl rfl⟩, rfl⟩
  · exact h.atBreak

theorem pair_begins {a : Attr} (h : a.Ok IsToken) : Begins IsTchar a.text := (token_begins h.1).append.append

theorem uniq_optPair : Uniq (optT True (Attr.Ok IsToken)) (optT [] Attr.text) AtHop := by
  refine Uniq.opt (uniq_pair.mono (fun _ h => h) fun _ => atHop_break) fun a l l' ha _ hl' e => ?_
  have h1 : Begins IsTchar l' := by
    rw [← e]
    exact (pair_begins ha).append
  refine h1.not_stops (fun _ h => .inl h) (atHop_break hl').unset

theorem hop_text (o : Option Attr) (l : List (Option Attr)) : (HopSyn.mk o l).text =
    optT [] Attr.text o ++ l.flatMap fun o => [59] ++ optT [] Attr.text o := by
  have h : ∀ o : Option Attr, optPairText o = optT [] Attr.text o := fun o => by cases o <;> rfl
  unfold HopSyn.text
  simp only [h]
  rfl

theorem uniq_hop : Uniq HopSyn.Ok HopSyn.text AtEnd := by
  have many := Uniq.many (uniq_optPair.after [59]) (G := AtEnd) (fun _ hl => .inr hl) (fun _ _ _ _ => .inl ⟨59, _, rfl, rfl⟩)
    (fun o l l' _ _ hl' e => by
      have : Begins (· = 59) l' := by
        rw [← e]
        exact ⟨59, _, rfl, rfl⟩
      exact this.not_stops (R := Unbroken) (fun c hc => by subst hc; unfold Unbroken; decide) hl'.stops)
  refine (Uniq.seq uniq_optPair many ?_).map (fun x : HopSyn => (x.first, x.rest)) ?_ ?_ ?_
  · rintro (_ | ⟨o, os⟩) l _ hl
    · exact .inr hl
    · exact .inl ⟨59, _, rfl, rfl⟩
  · rintro ⟨o, l⟩ h
    obtain ⟨h1, h2⟩ := hop_ok.mp h
    have : ∀ o, optPairOk o → optT True (Attr.Ok IsToken) o := fun o h => by
      cases o with
      | none => trivial
      | some a => exact h a rfl
    exact ⟨this o h1, fun x hx => this x (h2 x hx)⟩
  · rintro ⟨o, l⟩ _
    exact hop_text o l
  · rintro ⟨a, b⟩ ⟨a', b'⟩ _ _ e
    simp only [Prod.mk.injEq] at e
    obtain ⟨rfl, rfl⟩ := e
    rfl

theorem hop_begins (x : HopSyn) (h : x.Ok) (hn : x.text ≠ []) : Begins Unbroken x.text := by
  obtain ⟨_ | a, _ | ⟨o, l⟩⟩ := x
  · exact absurd rfl hn
  · exact ⟨59, _, rfl, by unfold Unbroken; decide⟩
  all_goals
    have ha : a.Ok IsToken := h a (.head _)
    exact (token_unbroken ha.1).append.append.append

theorem hops_same {x y : List1Syn HopSyn} (hx : x.Ok HopSyn.Ok) (hy : y.Ok HopSyn.Ok)
    (e : x.text HopSyn.text = y.text HopSyn.text) : x.hops = y.hops := full_elems uniq_hop hop_begins hx hy e

/-! ## Nodes -/

theorem hidden_colon {w : Str} (h : IsHidden w) : ∀ c ∈ w, c ≠ 58 := by
  obtain ⟨v, _, h, rfl⟩ := h
  have hs : str "._-" = [46, 95, 45] := by decide +kernel
  rw [hs] at h
  intro c hc
  rcases List.mem_cons.mp hc with rfl | hc
  · decide
  · rcases h c hc with h | h | h
    · unfold IsLetter at h; omega
    · unfold IsDigit at h; omega
    · simp only [List.mem_cons, List.not_mem_nil, or_false] at h
      omega

theorem uriDigit_colon {c : Nat} (h : 48 ≤ c ∧ c ≤ 57 ∨ c = 46) : c ≠ 58 := by omega

theorem ipv4_chars {w : Str} (h : IsIPv4 w) : (∀ c ∈ w, c ≠ 58) ∧ Begins (fun c => 48 ≤ c ∧ c ≤ 57) w := by
  obtain ⟨a, b, c, d, h1, h2, h3, h4, rfl⟩ := h
  have hs : str "." = [46] := by decide +kernel
  rw [hs]
  refine ⟨fun x hx => ?_, (begins_of_all h1.1.1 h1.1.2).append.append.append.append.append.append⟩
  simp only [List.mem_append, List.mem_singleton] at hx
  rcases hx with (((((hx | hx) | hx) | hx) | hx) | hx) | hx
  · exact uriDigit_colon (.inl (h1.1.2 x hx))
  · exact uriDigit_colon (.inr hx)
  · exact uriDigit_colon (.inl (h2.1.2 x hx))
  · exact uriDigit_colon (.inr hx)
  · exact uriDigit_colon (.inl (h3.1.2 x hx))
  · exact uriDigit_colon (.inr hx)
  · exact uriDigit_colon (.inl (h4.1.2 x hx))

theorem ipv4_close {w : Str} (h : IsIPv4 w) : ∀ c ∈ w, c ≠ 93 := by
  intro c hc
  rcases encoded_mem (ipv4_encoded h) hc with (k | k) | k | k
  · rcases k with k | k | k
    · unfold IsLetter at k; omega
    · unfold IsDigit at k; omega
    · rintro rfl
      revert k
      decide +kernel
  · rintro rfl
    revert k
    unfold SubDelim
    decide +kernel
  · omega
  · unfold IsHexDigit IsDigit at k; omega

theorem colons_close {l : List Str} (h : ∀ w ∈ l, ∀ c ∈ w, c ≠ 93) : ∀ c ∈ colons l, c ≠ 93 := by
  induction l with
  | nil => exact nofun
  | cons w l ih =>
    obtain ⟨h1, h2⟩ := List.forall_mem_cons.mp h
    cases l with
    | nil => exact h1
    | cons v l =>
      intro c hc
      rcases List.mem_append.mp (show c ∈ w ++ 58 :: colons (v :: l) from hc) with hc | hc
      · exact h1 c hc
      · rcases List.mem_cons.mp hc with rfl | hc
        · decide
        · exact ih h2 c hc

theorem piece_close {w : Str} (h : IsPiece w) : ∀ c ∈ w, c ≠ 93 := fun c hc e => by
  have := h.2.2 c hc
  unfold IsHexDigit IsDigit at this
  omega

theorem pieces_close {p : Pieces} (h : p.Ok) : ∀ c ∈ p.text, c ≠ 93 := by
  refine colons_close fun w hw => ?_
  rcases List.mem_append.mp hw with hw | hw
  · exact piece_close (h.1 w hw)
  · exact ipv4_close (h.2 w (by simpa using hw))

theorem ipv6_close {w : Str} (h : IsIPv6 w) : ∀ c ∈ w, c ≠ 93 := by
  rcases h with ⟨p, hp, _, rfl⟩ | ⟨front, p, hf, hp, _, rfl⟩
  · exact pieces_close hp
  · intro c hc
    rcases List.mem_append.mp hc with hc | hc
    · rcases List.mem_append.mp hc with hc | hc
      · exact colons_close (fun u hu => piece_close (hf u hu)) c hc
      · rintro rfl
        revert hc
        decide +kernel
    · exact pieces_close hp c hc

theorem unknown_chars {w : Str} (h : SameWord w (str "unknown")) : Begins (fun c => c = 85 ∨ c = 117) w := by
  have hs : str "unknown" = [117, 110, 107, 110, 111, 119, 110] := by decide +kernel
  rw [hs] at h
  obtain _ | ⟨h1, _⟩ := h
  unfold SameLetter at h1
  exact ⟨_, _, rfl, by omega⟩

theorem hidden_begins {w : Str} (h : IsHidden w) : Begins (· = 95) w := by
  obtain ⟨v, _, _, rfl⟩ := h
  exact ⟨95, v, rfl, rfl⟩

/-- Before a port. -/
abbrev AtPort (l : Str) : Prop := l = [] ∨ Begins (· = 58) l

theorem uniq_nodeName : Uniq NodeName.Ok NodeName.text AtPort := by
  have stop : ∀ l, AtPort l → Stops (fun c => c ≠ 58) l := by
    rintro l (rfl | h)
    · exact .nil
    · exact h.stops fun c hc k => k hc
  have u1 : Uniq IsIPv4 (fun w => w) AtPort := uniq_span.mono (fun _ h => (ipv4_chars h).1) stop
  have u2 : Uniq IsIPv6 (fun w => [91] ++ (w ++ [93])) AtPort :=
    ((uniq_span (R := fun c => c ≠ 93)).mono (P' := IsIPv6) (G := Begins (· = 93)) (fun w h => ipv6_close h) (fun l h => h.stops fun c hc k => k hc)).before [93] (fun l _ => ⟨93, l, rfl, rfl⟩) |>.after [91]
  have u3 : Uniq (fun w => SameWord w (str "unknown")) (fun w => w) AtPort := (uniq_sameWord _).mono (fun _ h => h) fun _ _ => trivial
  have u4 : Uniq IsHidden (fun w => w) AtPort := uniq_span.mono (fun _ h => hidden_colon h) stop
  have all := Uniq.sum (Uniq.sum u1 u3 fun a b l l' ha hb _ _ =>
      (ipv4_chars ha).2.append.ne (unknown_chars hb).append fun c h k => by omega)
    (Uniq.sum u2 u4 fun a b l l' ha hb _ _ => Begins.ne (Q := (· = 91)) ⟨91, _, rfl, rfl⟩ (hidden_begins hb).append
      fun c h k => by omega) ?_
  · refine all.map (fun | .ipv4 w => .inl (.inl w) | .unknown w => .inl (.inr w) | .ipv6 w => .inr (.inl w) | .hidden w => .inr (.inr w))
      ?_ ?_ ?_
    · rintro (w | w | w | w) h <;> exact h
    · rintro (w | w | w | w) h <;> simp [NodeName.text]
    · rintro (w | w | w | w) (v | v | v | v) _ _ e <;> simp_all
  · have k1 : ∀ a l, Sum.elim IsIPv4 (fun w => SameWord w (str "unknown")) a →
        Begins (fun c => 48 ≤ c ∧ c ≤ 57 ∨ c = 85 ∨ c = 117) (Sum.elim (fun w => w) (fun w => w) a ++ l) := by
      rintro (w | w) l h
      · exact (ipv4_chars h).2.append.mono fun _ => .inl
      · exact (unknown_chars h).append.mono fun _ => .inr
    have k2 : ∀ a l, Sum.elim IsIPv6 IsHidden a →
        Begins (fun c => c = 91 ∨ c = 95) (Sum.elim (fun w => [91] ++ (w ++ [93])) (fun w => w) a ++ l) := by
      rintro (w | w) l h
      · exact ⟨91, _, rfl, .inl rfl⟩
      · exact (hidden_begins h).append.mono fun _ => .inr
    exact fun a b l l' ha hb _ _ => (k1 a l ha).ne (k2 b l' hb) fun c h k => by omega

theorem nodePort_inj {x y : NodePort} (hx : x.Ok) (hy : y.Ok) (e : x.text = y.text) : x = y := by
  have k : ∀ {w : Str}, IsNumeral w → Begins (fun c => 48 ≤ c ∧ c ≤ 57) w := fun h => begins_of_all h.1 h.2
  rcases x with w | w <;> rcases y with v | v
  · cases e; rfl
  · exact absurd e ((k hx.1).ne (hidden_begins hy) fun c h k => by omega)
  · exact absurd e ((hidden_begins hx).ne (k hy.1) fun c h k => by omega)
  · cases e; rfl

theorem node_inj (x y : NodeSyn) (hx : x.Ok) (hy : y.Ok) (e : x.text = y.text) : x = y := by
  obtain ⟨n, p⟩ := x
  obtain ⟨m, q⟩ := y
  have port : ∀ o : Option NodePort, AtPort (before (str ":") (o.map NodePort.text)) := by
    rintro (_ | o)
    · exact .inl rfl
    · exact .inr ⟨58, _, rfl, rfl⟩
  obtain ⟨rfl, e2⟩ := uniq_nodeName n m _ _ hx.1 hy.1 (port p) (port q) e
  congr 1
  rcases p with _ | p <;> rcases q with _ | q
  · rfl
  · cases e2
  · cases e2
  · rw [nodePort_inj (hx.2 p rfl) (hy.2 q rfl) (List.append_cancel_left (as := str ":") e2)]

/-! ## Scopes -/

theorem scope_inj (x y : ScopeSyn) (hx : x.Ok) (hy : y.Ok) (e : x.text = y.text) : x = y := by
  have word : Uniq IsScopeToken (fun w => w) (fun l => l = [] ∨ Begins (· = 32) l) := by
    refine uniq_span.mono (fun _ h => h.2) ?_
    rintro l (rfl | h)
    · exact .nil
    · exact h.stops fun c hc k => by subst hc; exact absurd k.1 (by decide)
  have many := Uniq.many (word.after [32]) (G := fun l => l = []) (fun _ h => .inl h) (fun _ _ _ _ => .inr ⟨32, _, rfl, rfl⟩)
    (fun _ _ _ _ _ hl' e => by subst hl'; cases e)
  have all := Uniq.seq word many (by
    rintro (_ | ⟨w, ws⟩) l _ hl
    · exact .inl hl
    · exact .inr ⟨32, _, rfl, rfl⟩)
  obtain ⟨a, l⟩ := x
  obtain ⟨b, m⟩ := y
  have hx := List.forall_mem_cons.mp hx
  have hy := List.forall_mem_cons.mp hy
  have := all.inj rfl (a := (a, l)) (b := (b, m)) hx hy e
  cases this
  rfl

end Httpolice.Lemmas
