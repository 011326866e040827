import Verif.Lemmas.Views

/-!
# Entries of particular headers
-/

namespace Httpolice.Lemmas

open Httpolice.Model Httpolice.Spec

variable {d : Delims} {e : Entry}

/-! ## Delimiters -/

theorem isReal_list (l : List GVal) : IsReal (.list l) := nofun

theorem isReal_obj {cls : Str} {args : List GVal} (h : cls ≠ str "Unavailable") : IsReal (.obj cls args) := by
  intro args' he
  cases he
  exact h rfl

theorem shows_list1 {α : Type} {val : α → GVal} {texts : α → List Str} {Ok : α → Prop} (h : ∀ x, Ok x → Shows d e (val x) (texts x))
    {l : List1Syn α} (hl : l.Ok Ok) : Shows d e (l.value val) (l.elems.flatMap texts) := by
  refine shows_list (showsAll_map fun x hx => h x ?_)
  rcases List.mem_cons.mp hx with rfl | hx
  · exact hl.2.1
  · obtain ⟨y, hy, he⟩ := List.mem_filterMap.mp hx
    have := (hl.2.2 y hy).2
    cases hs : y.2 with
    | none => rw [hs] at he; cases he
    | some z => rw [hs] at he this; cases he; exact this.2

theorem view_elems_ok {α : Type} {Ok : α → Prop} {l : ListSyn α} (hl : l.Ok Ok) : ∀ x ∈ l.elems, Ok x := by
  intro x hx
  obtain ⟨o, ho, he⟩ := List.mem_filterMap.mp hx
  have : placeOk Ok o := by
    rcases List.mem_cons.mp ho with rfl | ho
    · exact hl.1
    · obtain ⟨y, hy, rfl⟩ := List.mem_map.mp ho
      exact (hl.2 y hy).2
  cases o with
  | none => cases he
  | some z => cases he; exact this.1

theorem elems1_ok {α : Type} {Ok : α → Prop} {l : List1Syn α} (hl : l.Ok Ok) : ∀ x ∈ l.elems, Ok x := by
  intro x hx
  rcases List.mem_cons.mp hx with rfl | hx
  · exact hl.2.1
  · obtain ⟨y, hy, he⟩ := List.mem_filterMap.mp hx
    have := (hl.2.2 y hy).2
    cases hs : y.2 with
    | none => rw [hs] at he; cases he
    | some z => rw [hs] at he this; cases he; exact this.2

theorem shows_listSyn {α : Type} {val : α → GVal} {texts : α → List Str} {Ok : α → Prop}
    (h : ∀ x, Ok x → Shows d e (val x) (texts x)) {l : ListSyn α} (hl : l.Ok Ok) :
    Shows d e (l.value val) (l.elems.flatMap texts) :=
  shows_list (showsAll_map fun x hx => h x (view_elems_ok hl x hx))

theorem showsAll_pairwise {α : Type} {IsValue : α → GVal → Prop} {texts : α → List Str} {l : List α} {vs : List GVal}
    (h : Pairwise2 IsValue l vs) (hs : ∀ x ∈ l, ∀ v, IsValue x v → Shows d e v (texts x)) : ShowsAll d e vs (l.flatMap texts) := by
  induction h with
  | nil => exact showsAll_nil
  | cons h _ ih => exact showsAll_cons (hs _ (.head _) _ h) (ih fun x hx => hs x (.tail _ hx))

theorem shows_multi {l : List GVal} {ss : List Str} (h : ShowsAll d e l ss) : Shows d e (multi l) ss :=
  shows_obj (.inr (by decide)) (showsAll_one (shows_list h))

theorem attr_shows {Name : Str → Prop} (hn : ∀ w, Name w → IsToken w) {a : Attr} (h : a.Ok Name) :
    Shows d e a.entry a.value.quotes :=
  shows_tuple (showsAll_two (a := []) (shows_name (by decide) (hn _ h.1)) (shows_word h.2))

theorem semi_elems {α : Type} {P : α → Prop} {l : SemiSyn α} (h : l.Ok P) : ∀ x ∈ l.elems, P x := by
  intro x hx
  obtain ⟨y, hy, rfl⟩ := List.mem_map.mp hx
  exact (h y hy).2

theorem params_shows {Name : Str → Prop} (hn : ∀ w, Name w → IsToken w) {l : SemiSyn Attr} (h : l.Ok (Attr.Ok Name)) :
    Shows d e (multi (l.elems.map Attr.entry)) (l.elems.flatMap fun a => a.value.quotes) :=
  shows_multi (showsAll_map fun a ha => attr_shows hn (semi_elems h a ha))

theorem mediaName_plain {Name : Str → Prop} {x : MediaSyn} (h : x.Ok Name) : 44 ∉ x.name ∧ 59 ∉ x.name := by
  have h1 := token_no_delims h.1
  have h2 := token_no_delims h.2.1
  unfold MediaSyn.name
  constructor <;> simp only [List.mem_append, not_or] <;> refine ⟨⟨?_, by decide⟩, ?_⟩
  · exact h1.1
  · exact h2.1
  · exact h1.2
  · exact h2.2

theorem media_shows {Name : Str → Prop} (hn : ∀ w, Name w → IsToken w) {x : MediaSyn} (h : x.Ok Name) {name : GVal}
    (hv : name = nameValue (str "MediaType") x.name ∨ name = .text x.name) :
    Shows d e (.obj (str "Parametrized") [name, multi (x.params.elems.map Attr.entry)]) x.quotes := by
  have h0 : Shows d e (.text x.name) [] := shows_plain (mediaName_plain h).1 (mediaName_plain h).2
  have h1 : Shows d e name [] := by
    rcases hv with rfl | rfl
    · exact shows_obj (.inl (by decide)) (showsAll_one h0)
    · exact h0
  exact shows_obj (.inr (by decide)) (showsAll_two (a := []) h1 (params_shows hn h.2.2))

theorem setting_shows {x : Setting} (h : x.Ok IsToken) : Shows d e x.entry x.quotes := by
  unfold Setting.entry Setting.quotes
  refine shows_tuple (showsAll_two (a := []) (shows_token h.1) ?_)
  have := h.2
  cases hv : x.value with
  | none => exact shows_none
  | some w => exact shows_word (this w hv)

theorem weight_shows (r : Ranking) : Shows d e r.value [] := shows_other (by decide)

theorem accept_shows {x : AcceptSyn} (h : x.Ok) {v : GVal} (hv : x.IsValue v) : Shows d e v x.quotes := by
  have h1 : Shows d e x.extras (match x.rank with | none => [] | some (_, l) => l.elems.flatMap Setting.quotes) := by
    refine shows_multi ?_
    cases hr : x.rank with
    | none => exact showsAll_nil
    | some rl =>
      obtain ⟨r, l⟩ := rl
      have ok := h.2 r l hr
      have q : Shows d e (.tuple [nameValue (str "CaseInsensitive") (str "q"), r.value]) [] :=
        shows_tuple (showsAll_two (a := []) (b := []) (shows_obj (.inl (by decide)) (showsAll_one (shows_plain (by decide) (by decide))))
          (weight_shows r))
      exact showsAll_cons q (showsAll_map fun s hs => setting_shows (semi_elems ok.2 s hs))
  rcases hv with rfl | ⟨_, rfl⟩
  · exact shows_obj (.inr (by decide)) (showsAll_two (media_shows (fun _ h => h.1) h.1 (.inl rfl)) h1)
  · exact shows_obj (.inr (by decide)) (showsAll_two (media_shows (fun _ h => h.1) h.1 (.inr rfl)) h1)

theorem coding_shows {x : CodingSyn} (h : x.Ok) : Shows d e x.value x.quotes := by
  refine shows_obj (.inr (by decide)) (showsAll_two (a := []) (shows_name (by decide) h.1) ?_)
  refine shows_multi (showsAll_map fun p hp => ?_)
  have := semi_elems h.2.1 p hp
  exact shows_tuple (showsAll_two (a := []) (shows_token this.1) (shows_word this.2.2.2))

theorem te_shows {x : TeSyn} (h : x.Ok) : Shows d e x.value x.quotes := by
  cases x with
  | trailers w =>
    refine shows_name (by decide) (sameWord_token (v := str "trailers") ⟨by decide, ?_⟩ h)
    decide
  | coding c r =>
    have := coding_shows (d := d) (e := e) h.1
    clear h
    refine shows_obj (.inr (by decide)) ?_
    cases r with
    | none => simpa [TeSyn.quotes] using showsAll_two this shows_none
    | some r => simpa [TeSyn.quotes] using showsAll_two this (weight_shows r)

theorem hop_shows {x : Hop} (h : x.Ok) : Shows d e x.value x.texts := by
  have h1 : Shows d e (.obj (str "Versioned") [.text (x.name.getD (str "HTTP")), .text x.version]) [] := by
    refine shows_obj (.inr (by decide)) (showsAll_two (a := []) (b := []) ?_ (shows_token h.2.1))
    cases hn : x.name with
    | none => exact shows_plain (by decide) (by decide)
    | some n => exact shows_token (h.1 n hn)
  refine shows_tuple (showsAll_cons (a := []) h1 (showsAll_two (a := [x.host]) (shows_text _) ?_))
  cases x.comment with
  | none => exact shows_none
  | some c => exact shows_text _

theorem warning_shows {x : WarningSyn} : Shows d e x.value x.texts := by
  refine shows_obj (.inr (by decide)) (showsAll_cons (a := []) (shows_other (by decide))
    (showsAll_cons (a := [x.agent]) (shows_text _) (showsAll_cons (a := [x.message.content]) (b := []) (shows_text _) (showsAll_one ?_))))
  cases x.date with
  | none => exact shows_none
  | some fd =>
    obtain ⟨f, s⟩ := fd
    show Shows d e s.value []
    unfold Stamp.value
    split
    · exact shows_other (by decide)
    · exact shows_other (by decide)

end Httpolice.Lemmas
