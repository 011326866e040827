import Verif.Lemmas.Negotiation

/-!
# Texts determine media types and preferences
-/

namespace Httpolice.Lemmas

open Httpolice.Model Httpolice.Spec

/-- As a parameter of the other kind. -/
abbrev attrParam (x : (Str × Str) × Attr) : (Str × Str) × Param := (x.1, ⟨x.2.name, [], [], x.2.value⟩)

theorem attrParam_ok {Name : Str → Prop} {l : SemiSyn Attr} (h : SemiSyn.Ok (Attr.Ok Name) l) :
    SemiSyn.Ok (Param.Ok Name) (l.map attrParam) := by
  intro y hy
  obtain ⟨x, hx, rfl⟩ := List.mem_map.mp hy
  exact ⟨(h x hx).1, (h x hx).2.1, nofun, nofun, (h x hx).2.2⟩

theorem attrParam_text (l : SemiSyn Attr) : SemiSyn.text Attr.text l = SemiSyn.text Param.text (l.map attrParam) := by
  simp [SemiSyn.text, List.flatMap_map, Attr.text, Param.text]

theorem attrParam_inj {l m : SemiSyn Attr} (e : l.map attrParam = m.map attrParam) : l = m := by
  refine (List.map_inj_right ?_).mp e
  rintro ⟨s, n, v⟩ ⟨s', n', v'⟩ e
  simp only [attrParam, Prod.mk.injEq, Param.mk.injEq, true_and] at e
  obtain ⟨rfl, rfl, rfl⟩ := e
  rfl

theorem uniq_attrs {Name : Str → Prop} {F : Str → Prop} (h : Uniq (SemiSyn.Ok (Param.Ok Name)) (SemiSyn.text Param.text) F) :
    Uniq (SemiSyn.Ok (Attr.Ok Name)) (SemiSyn.text Attr.text) F :=
  h.map (List.map attrParam) (fun _ => attrParam_ok) (fun l _ => attrParam_text l) (fun _ _ _ _ => attrParam_inj)

theorem uniq_media {Name : Str → Prop} {F : Str → Prop} (hF : ∀ l, F l → Stops IsTchar l)
    (h : Uniq (SemiSyn.Ok (Param.Ok Name)) (SemiSyn.text Param.text) F) : Uniq (MediaSyn.Ok Name) MediaSyn.text F := by
  have hs : str "/" = [47] := by decide +kernel
  have tail := Uniq.seq uniq_token (uniq_attrs h) (fun l r hl hr => semis_stop tchar_semis hl (hF r hr))
  refine (Uniq.seq uniq_token (tail.after [47]) (fun _ _ _ _ => .cons fun k => (tchar_ne k).2.2.2.2.2.2.1 rfl)).map
    (fun x => (x.type_, x.subtype, x.params)) (fun x h => h) (fun x _ => by simp [MediaSyn.text, MediaSyn.name, hs]) ?_
  rintro ⟨a, b, c⟩ ⟨a', b', c'⟩ _ _ e
  simp only [Prod.mk.injEq] at e
  obtain ⟨rfl, rfl, rfl⟩ := e
  rfl

theorem media_inj (x y : MediaSyn) (hx : x.Ok IsToken) (hy : y.Ok IsToken) (e : x.text = y.text) : x = y := by
  refine (uniq_media (F := fun l => l = []) (fun l h => by subst h; exact .nil)
    (uniq_semis_end (uniq_param fun _ h => h) ?_ (param_blank fun _ h => h) ?_)).inj rfl hx hy e
  · rintro l (h | rfl)
    · exact h.stops
    · exact .nil
  · rintro l rfl ⟨s, r, _, e⟩
    simp at e

theorem AtSemi.unset {l : Str} (h : AtSemi l) : Unset l := by
  obtain ⟨s, r, hs, rfl⟩ := h
  refine .append (fun c hc k => ?_) (.cons ?_)
  · rcases hs c hc with rfl | rfl
    · exact k.elim (fun k => (tchar_ne k).2.2.1 rfl) (by decide)
    · exact k.elim (fun k => (tchar_ne k).2.2.2.1 rfl) (by decide)
  · exact fun k => k.elim (fun k => (tchar_ne k).2.2.2.2.2.1 rfl) (by decide)

theorem uniq_exts : Uniq (SemiSyn.Ok (Setting.Ok IsToken)) (SemiSyn.text Setting.text) AtEnd :=
  uniq_semis_end (uniq_setting fun _ h => h) (fun _ h => h.elim AtSemi.unset end_unset)
    (fun _ _ h => not_blank (Q := IsTchar) (fun _ hc => ⟨(tchar_ne hc).2.2.1, (tchar_ne hc).2.2.2.1⟩) (token_begins h.1).append)
    (fun _ => end_semi)

theorem uniq_accept : Uniq AcceptSyn.Ok AcceptSyn.text AtEnd := by
  have dec : ∀ c, Decimal c → c ≠ 32 ∧ c ≠ 9 ∧ c ≠ 59 := by
    intro c h
    unfold Decimal at h
    omega
  have rank := Uniq.seq uniq_ranking uniq_exts
    (fun l r hl hr => semis_stop dec hl (hr.stops.mono fun _ => decimal_unbroken))
  have opt := rank.opt (fun x l l' hx _ hl' e => end_semi hl' (by
    rw [← e, List.append_assoc]
    exact ranking_semi hx.1 _))
  have media := uniq_media (F := AtRank) (fun _ h => h.stops) (uniq_params_rank (Name := NotQ) fun _ h => h)
  refine (Uniq.seq media opt ?_).map (fun x => (x.range, x.rank)) ?_ ?_ ?_
  · rintro (_ | ⟨r, l⟩) l' h hl
    · exact .inl hl
    · show AtRank (r.text ++ _ ++ _)
      rw [List.append_assoc]
      exact rank_at h.1 _
  · rintro ⟨m, _ | ⟨r, l⟩⟩ h
    · exact ⟨h.1, trivial⟩
    · exact ⟨h.1, h.2 r l rfl⟩
  · rintro ⟨m, _ | ⟨r, l⟩⟩ h <;> rfl
  · rintro ⟨m, o⟩ ⟨m', o'⟩ _ _ e
    simp only [Prod.mk.injEq] at e
    obtain ⟨rfl, rfl⟩ := e
    rfl

theorem media_begins {Name : Str → Prop} {x : MediaSyn} (h : x.Ok Name) : Begins Unbroken x.text := by
  unfold MediaSyn.text MediaSyn.name
  exact (token_unbroken h.1).append.append.append

theorem accepts_inj (x y : ListSyn AcceptSyn) (hx : x.Ok AcceptSyn.Ok) (hy : y.Ok AcceptSyn.Ok)
    (e : x.text AcceptSyn.text = y.text AcceptSyn.text) : x = y :=
  (uniq_list uniq_accept (fun _ h => h) (fun _ h => (media_begins h.1).append)).inj rfl hx hy e

theorem uniq_ranked : Uniq RankedSyn.Ok RankedSyn.text AtEnd := by
  refine (Uniq.seq uniq_token uniq_rank (fun o l ho hl => (opt_rank ho hl).stops)).map (fun x => (x.name, x.rank)) ?_ ?_ ?_
  · exact fun x h => ⟨h.1, optRank_ok.mp h.2⟩
  · rintro ⟨n, _ | r⟩ _ <;> rfl
  · rintro ⟨n, o⟩ ⟨n', o'⟩ _ _ e
    simp only [Prod.mk.injEq] at e
    obtain ⟨rfl, rfl⟩ := e
    rfl

theorem rankeds_inj (x y : ListSyn RankedSyn) (hx : x.Ok RankedSyn.Ok) (hy : y.Ok RankedSyn.Ok)
    (e : x.text RankedSyn.text = y.text RankedSyn.text) : x = y :=
  (uniq_list uniq_ranked (fun _ h => h) (fun _ h => (token_unbroken h.1).append)).inj rfl hx hy e

theorem rankeds1_inj (x y : List1Syn RankedSyn) (hx : x.Ok RankedSyn.Ok) (hy : y.Ok RankedSyn.Ok)
    (e : x.text RankedSyn.text = y.text RankedSyn.text) : x = y :=
  (uniq_list1 uniq_ranked (fun _ h => h.atEnd) (fun _ h => (token_unbroken h.1).append)).inj rfl hx hy e

/-- The day of the week begins with a letter. -/
theorem stamp_begins {f : DateFormat} {x : Stamp} (h : x.Fits f) : Begins (fun c => 65 ≤ c) (x.text f) := by
  have short : ∀ k < 7, Begins (fun c => 65 ≤ c) (shortDays.getD k []) := by
    intro k hk
    refine begins_of_all ?_ ?_
    · revert k; decide +kernel
    · revert k; decide +kernel
  have long : ∀ k < 7, Begins (fun c => 65 ≤ c) (longDays.getD k []) := by
    intro k hk
    refine begins_of_all ?_ ?_
    · revert k; decide +kernel
    · revert k; decide +kernel
  cases f <;> unfold Stamp.text <;> simp only [List.append_assoc]
  · exact (short _ h.1).append
  · exact (long _ h.1).append
  · exact (short _ h.1).append
  · exact (short _ h.1).append

theorem retry_inj (hd : ∀ x y : DateFormat × Stamp, x.2.Fits x.1 → y.2.Fits y.1 → x.2.text x.1 = y.2.text y.1 → x = y)
    (x y : RetrySyn) (hx : x.Ok) (hy : y.Ok) (e : x.text = y.text) : x = y := by
  have unlike : ∀ {f : DateFormat} {s : Stamp} {w : Str}, s.Fits f → IsNumeral w → s.text f ≠ w := by
    intro f s w hs hw
    refine (stamp_begins hs).ne (begins_of_all hw.1 hw.2) (fun c hc k => ?_)
    omega
  rcases x with ⟨f, s⟩ | w <;> rcases y with ⟨f', s'⟩ | w'
  · have := hd (f, s) (f', s') hx hy e
    cases this
    rfl
  · exact absurd e (unlike hx hy)
  · exact absurd e.symm (unlike hy hx)
  · obtain rfl : w = w' := e
    rfl

/-! ## Lists with flags -/

section
variable {α β : Type}

/-- The same list with other elements. -/
def mapList (f : α → β) (l : ListSyn α) : ListSyn β :=
  ⟨l.first.map fun x => (f x.1, x.2), l.rest.map fun x => (x.1, x.2.map fun y => (f y.1, y.2))⟩

theorem mapList_text {t : β → Str} (f : α → β) (l : ListSyn α) : (mapList f l).text t = l.text fun a => t (f a) := by
  have place : ∀ o : Option (α × Str), placeText t (o.map fun x => (f x.1, x.2)) = placeText (fun a => t (f a)) o := by
    rintro (_ | ⟨a, s⟩) <;> rfl
  unfold ListSyn.text mapList
  simp only [place, List.flatMap_map]

theorem mapList_elems (f : α → β) (l : ListSyn α) : (mapList f l).elems = l.elems.map f := by
  obtain ⟨o, r⟩ := l
  unfold ListSyn.elems mapList
  simp only [List.map_map]
  have : (r.map (Prod.snd ∘ fun x : Str × Option (α × Str) => (x.1, x.2.map fun y => (f y.1, y.2)))) =
      (r.map Prod.snd).map (Option.map fun y => (f y.1, y.2)) := by
    rw [List.map_map]
    rfl
  rw [this, ← List.map_cons (f := Option.map fun y : α × Str => (f y.1, y.2)), List.filterMap_map, List.map_filterMap]
  congr 1
  funext o
  rcases o with _ | ⟨a, s⟩ <;> rfl

theorem mapList_gaps (f : α → β) (l : ListSyn α) : (mapList f l).Gaps ↔ l.Gaps := by
  obtain ⟨o, r⟩ := l
  unfold ListSyn.Gaps mapList
  simp

theorem mapList_ok {P : α → Prop} {Q : β → Prop} {f : α → β} (h : ∀ a, P a → Q (f a)) {l : ListSyn α} (hl : l.Ok P) :
    (mapList f l).Ok Q := by
  have place : ∀ o : Option (α × Str), placeOk P o → placeOk Q (o.map fun x => (f x.1, x.2)) := by
    rintro (_ | ⟨a, s⟩) k
    · trivial
    · exact ⟨h a k.1, k.2⟩
  refine ⟨place _ hl.1, fun x hx => ?_⟩
  obtain ⟨y, hy, rfl⟩ := List.mem_map.mp hx
  exact ⟨(hl.2 y hy).1, place _ (hl.2 y hy).2⟩

theorem mapList_notes {c : β → List PyComplaint} (f : α → β) (l : ListSyn α) :
    (mapList f l).notes c = l.notes fun a => c (f a) := by
  unfold ListSyn.notes gapNotes
  rw [mapList_elems, List.flatMap_map]
  simp only [mapList_gaps]

theorem elems_ok {P : α → Prop} {l : ListSyn α} (h : l.Ok P) : ∀ a ∈ l.elems, P a := by
  intro a ha
  unfold ListSyn.elems at ha
  obtain ⟨o, ho, e⟩ := List.mem_filterMap.mp ha
  rcases o with _ | ⟨b, s⟩
  · cases e
  · obtain rfl : b = a := Option.some.inj e
    rcases List.mem_cons.mp ho with ho | ho
    · have := h.1
      rw [← ho] at this
      exact this.1
    · obtain ⟨x, hx, e⟩ := List.mem_map.mp ho
      have := (h.2 x hx).2
      rw [e] at this
      exact this.1

theorem pairwise_map {R : β → GVal → Prop} {f : α → β} {v : α → GVal} {l : List α} (h : ∀ a ∈ l, R (f a) (v a)) :
    Pairwise2 R (l.map f) (l.map v) := by
  induction l with
  | nil => exact .nil
  | cons a l ih => exact .cons (h a (.head _)) (ih fun b hb => h b (.tail _ hb))

/-- By another syntax, with several values. -/
theorem readsAs_of_some {parse : Str → Parsing} {P : α → Prop} {t : α → Str} {v : α → GVal} {c : α → List PyComplaint}
    {Q : β → Prop} {t' : β → Str} {R : β → GVal → Prop} {c' : β → List PyComplaint}
    (h : ReadsSome parse P t v c) (hu : ∀ x y, Q x → Q y → t' x = t' y → x = y) (f : α → β) (g : β → α)
    (hp : ∀ a, P a → Q (f a)) (ht : ∀ a, t a = t' (f a)) (hg : ∀ b, Q b → P (g b)) (hfg : ∀ b, f (g b) = b)
    (hv : ∀ a, P a → R (f a) (v a)) (hc : ∀ a, c a = c' (f a)) : ReadsAs parse Q t' R c' := by
  have key : ∀ data, (∃ x, P x ∧ data = t x) ↔ ∃ x, Q x ∧ data = t' x := by
    intro data
    constructor
    · rintro ⟨x, h1, rfl⟩
      exact ⟨f x, hp x h1, ht x⟩
    · rintro ⟨x, h1, rfl⟩
      exact ⟨g x, hg x h1, by rw [ht, hfg]⟩
  refine ⟨fun data => ⟨(h.1 data).1.trans (key data), (h.1 data).2.trans (not_congr (key data))⟩, fun x hx => ?_⟩
  obtain ⟨⟨node, cs, as⟩, hr⟩ := (h.1 (t' x)).1.mpr ((key _).mpr ⟨x, hx, rfl⟩)
  obtain ⟨y, h1, h2, h3, h4⟩ := h.2 _ _ _ _ hr
  obtain rfl : x = f y := hu x (f y) hx (hp y h1) (h2.trans (ht y))
  exact ⟨v y, cs, as, by rw [hr, h3], hv y h1, by rw [← hc]; exact h4⟩

end

/-- The same for lists of something with a flag. -/
theorem readsAs_flags {α : Type} {parse : Str → Parsing} {Q : α → Prop} {Flag : α → Prop} {t : α → Str}
    {v : α × Bool → GVal} {R : α → GVal → Prop} {c : α → List PyComplaint} {P : α × Bool → Prop}
    (hP : ∀ x, P x ↔ Q x.1 ∧ (x.2 = true → Flag x.1))
    (h : ReadsSome parse (ListSyn.Ok P) (ListSyn.text fun x => t x.1) (ListSyn.value v) (ListSyn.notes fun x => c x.1))
    (hu : ∀ x y : ListSyn α, x.Ok Q → y.Ok Q → x.text t = y.text t → x = y) (hv : ∀ x, P x → R x.1 (v x)) :
    ReadsAs parse (ListSyn.Ok Q) (ListSyn.text t) (ListSyn.IsValue R) (ListSyn.notes c) := by
  refine readsAs_of_some h hu (mapList Prod.fst) (mapList fun a => (a, false)) (fun l => mapList_ok fun x hx => ((hP x).mp hx).1)
    (fun l => (mapList_text Prod.fst l).symm) (fun l => mapList_ok (f := fun a => (a, false)) fun a ha => (hP (a, false)).mpr ⟨ha, nofun⟩) ?_ ?_
    (fun l => (mapList_notes Prod.fst l).symm)
  · rintro ⟨o, r⟩
    unfold mapList
    simp only [List.map_map]
    congr 1
    · rcases o with _ | ⟨a, s⟩ <;> rfl
    · have : ((fun x : Str × Option ((α × Bool) × Str) => (x.1, x.2.map fun y => (y.1.1, y.2))) ∘
          fun x : Str × Option (α × Str) => (x.1, x.2.map fun y => ((y.1, false), y.2))) = id := by
        funext ⟨s, o⟩
        rcases o with _ | ⟨a, s'⟩ <;> rfl
      rw [this, List.map_id]
  · intro l hl
    refine ⟨l.elems.map v, rfl, ?_⟩
    rw [mapList_elems]
    exact pairwise_map fun x hx => hv x (elems_ok hl x hx)

end Httpolice.Lemmas
