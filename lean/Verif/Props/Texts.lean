import Verif.Spec.Texts
import Verif.Props.Payload
import Verif.Props.AnswerNotices
import Verif.Props.AuthNotices
import Verif.Props.CacheNotices
import Verif.Props.DirectiveNotices
import Verif.Props.FieldNotices
import Verif.Props.MessageNotices

/-!
# C94: notices in terms of what is written
-/

namespace Httpolice.Props

open Httpolice.Model Httpolice.Spec Httpolice.Lemmas Httpolice.Lemmas.Check

/-! ## Places -/

/-- What is said of the value is said of what is written. -/
theorem one_text {E : Env} {α V : Type} {G : Entry → Option V} {Ok : α → Prop} {print : α → Str} {said : α → Option V}
    (h : OneIs G Ok print said) (m : Msg) (name : String) {P : V → Prop} {Q : α → Prop}
    (hp : ∀ x, Ok x → ((∃ v, said x = some v ∧ P v) ↔ Q x)) :
    (∃ v, LastOf E m name G v ∧ P v) ↔ ∃ x, LastText E.lower m name Ok print x ∧ Q x := by
  constructor
  · rintro ⟨v, ⟨a, e, b, h1, h2, h3, h4⟩, hP⟩
    obtain ⟨x, k1, k2, k3⟩ := (h e v).1 h4
    exact ⟨x, ⟨a, e, b, h1, h2, h3, k1, k2⟩, (hp x k1).1 ⟨v, k3, hP⟩⟩
  · rintro ⟨x, ⟨a, e, b, h1, h2, h3, k1, k2⟩, hQ⟩
    obtain ⟨v, k3, hP⟩ := (hp x k1).2 hQ
    exact ⟨v, ⟨a, e, b, h1, h2, h3, (h e v).2 ⟨x, k1, k2, k3⟩⟩, hP⟩

theorem last_text {E : Env} {α V : Type} {G : Entry → Option V} {Ok : α → Prop} {print : α → Str} {said : α → Option V}
    (h : OneIs G Ok print said) (m : Msg) (name : String) (v : V) :
    LastOf E m name G v ↔ ∃ x, LastText E.lower m name Ok print x ∧ said x = some v := by
  constructor
  · rintro ⟨a, e, b, h1, h2, h3, h4⟩
    obtain ⟨x, k1, k2, k3⟩ := (h e v).1 h4
    exact ⟨x, ⟨a, e, b, h1, h2, h3, k1, k2⟩, k3⟩
  · rintro ⟨x, ⟨a, e, b, h1, h2, h3, k1, k2⟩, k3⟩
    exact ⟨a, e, b, h1, h2, h3, (h e v).2 ⟨x, k1, k2, k3⟩⟩

theorem pairwise2_mem {α β : Type} {R : α → β → Prop} {l : List α} {k : List β} (h : Pairwise2 R l k) :
    (∀ y ∈ k, ∃ x ∈ l, R x y) ∧ ∀ x ∈ l, ∃ y ∈ k, R x y := by
  induction h with
  | nil => simp
  | cons h _ ih =>
    constructor
    · intro y hy
      rcases List.mem_cons.1 hy with rfl | hy
      · exact ⟨_, List.mem_cons_self, h⟩
      · obtain ⟨x, hx, hr⟩ := ih.1 y hy
        exact ⟨x, List.mem_cons_of_mem _ hx, hr⟩
    · intro x hx
      rcases List.mem_cons.1 hx with rfl | hx
      · exact ⟨_, List.mem_cons_self, h⟩
      · obtain ⟨y, hy, hr⟩ := ih.2 x hx
        exact ⟨y, List.mem_cons_of_mem _ hy, hr⟩

theorem pairwise2_total {α β : Type} {R : α → β → Prop} (h : ∀ x, ∃ y, R x y) (l : List α) : ∃ k, Pairwise2 R l k := by
  induction l with
  | nil => exact ⟨_, .nil⟩
  | cons x l ih =>
    obtain ⟨y, hy⟩ := h x
    obtain ⟨k, hk⟩ := ih
    exact ⟨_, .cons hy hk⟩

/-- What is said of an element is said of what is written. -/
theorem in_text {E : Env} {α β V : Type} {G : Entry → Parsed V} {Ok : α → Prop} {print : α → Str} {elems : α → List β}
    {Said : β → V → Prop} (h : ListIs G Ok print elems Said) (ht : ∀ x, ∃ v, Said x v) {Each : β → Prop}
    (hk : ∀ l, Ok l → ∀ x ∈ elems l, Each x) (m : Msg) (name : String) {P : V → Prop} {Q : β → Prop}
    (hp : ∀ x v, Each x → Said x v → (P v ↔ Q x)) :
    (∃ v, Listed E m name G v ∧ P v) ↔ ∃ x, InText E.lower m name Ok print elems x ∧ Q x := by
  constructor
  · rintro ⟨v, ⟨e, he, hn, l, hl, hv⟩, hP⟩
    obtain ⟨x, k1, k2, k3⟩ := ((h e).1 l).1 hl
    obtain ⟨y, hy, hs⟩ := (pairwise2_mem k3).1 v hv
    exact ⟨y, ⟨e, he, hn, x, k1, k2, hy⟩, (hp y v (hk x k1 y hy) hs).1 hP⟩
  · rintro ⟨y, ⟨e, he, hn, x, k1, k2, hy⟩, hQ⟩
    obtain ⟨l, hl⟩ := pairwise2_total ht (elems x)
    obtain ⟨v, hv, hs⟩ := (pairwise2_mem hl).2 y hy
    exact ⟨v, ⟨e, he, hn, l, ((h e).1 l).2 ⟨x, k1, k2, hl⟩, hv⟩, (hp y v (hk x k1 y hy) hs).2 hQ⟩

/-- An element is what is written. -/
theorem in_being {E : Env} {α β V : Type} {G : Entry → Parsed V} {Ok : α → Prop} {print : α → Str} {elems : α → List β}
    {g : β → V} (h : ListIs G Ok print elems (Being g)) (m : Msg) (name : String) (v : V) :
    Listed E m name G v ↔ ∃ x, InText E.lower m name Ok print elems x ∧ v = g x := by
  have := in_text (E := E) h (fun x => ⟨g x, rfl⟩) (Each := fun _ => True) (fun _ _ _ _ => trivial) m name (P := fun u => u = v) (Q := fun x => v = g x) (by
    rintro x u _ rfl
    exact eq_comm)
  simpa using this

theorem takenAs_total {A : Type} (place : Place A) (o : Option Str) : ∃ a, TakenAs place o a := by
  cases place with
  | flag => cases o with
    | none => exact ⟨_, .flag⟩
    | some s => exact ⟨_, .unwanted s⟩
  | free => cases o with
    | none => exact ⟨_, .nothing⟩
    | some s => exact ⟨_, .anything s⟩
  | reads required R => cases o with
    | none => cases required with
      | true => exact ⟨_, .missing R⟩
      | false => exact ⟨_, .without R⟩
    | some s =>
      by_cases h : ∃ a, R s a
      · obtain ⟨a, h⟩ := h
        exact ⟨_, .good h⟩
      · exact ⟨_, .bad fun a k => h ⟨a, k⟩⟩

/-! ## Words -/

theorem word_iff {lower : Str → Str} (hl : LowersAscii lower) {w : Str} (hw : ∀ c ∈ w, c < 128) (k : String) :
    lower w = asciiLower (str k) ↔ SameWord w (str k) := by
  rw [hl w hw]
  exact lower_iff

theorem token_below {w : Str} (h : IsToken w) : ∀ c ∈ w, c < 128 := by
  intro c hc
  have h := h.2 c hc
  unfold IsTchar at h
  rw [tchars] at h
  simp only [List.mem_cons, List.not_mem_nil, or_false] at h
  omega

theorem media_below {Name : Str → Prop} {x : MediaSyn} (h : x.Ok Name) : ∀ c ∈ x.name, c < 128 := by
  intro c hc
  unfold MediaSyn.name at hc
  rcases List.mem_append.1 hc with hc | hc
  · rcases List.mem_append.1 hc with hc | hc
    · exact token_below h.1 c hc
    · obtain rfl : c = 47 := by simpa [str] using hc
      decide
  · exact token_below h.2.1 c hc

theorem repeats_iff {E : Env} (hl : LowersAscii E.lower) {l : List Str} (h : ∀ w ∈ l, ∀ c ∈ w, c < 128) :
    Repeats E l ↔ Repeated l := by
  unfold Repeats
  induction l with
  | nil =>
    constructor
    · intro h; exact absurd List.nodup_nil h
    · rintro ⟨a, x, b, y, c, h, _⟩; simp at h
  | cons w l ih =>
    have ih := ih fun v hv => h v (List.mem_cons_of_mem _ hv)
    rw [List.map_cons, List.nodup_cons]
    have : ¬(E.lower w ∉ l.map E.lower ∧ (l.map E.lower).Nodup) ↔ E.lower w ∈ l.map E.lower ∨ ¬(l.map E.lower).Nodup := by
      constructor
      · intro k
        by_cases hm : E.lower w ∈ l.map E.lower
        · exact .inl hm
        · exact .inr fun hn => k ⟨hm, hn⟩
      · rintro (hm | hn) ⟨k1, k2⟩
        · exact k1 hm
        · exact hn k2
    rw [this, ih]
    constructor
    · rintro (hm | ⟨a, x, b, y, c, rfl, hs⟩)
      · obtain ⟨v, hv, he⟩ := List.mem_map.1 hm
        obtain ⟨b, c, rfl⟩ := List.append_of_mem hv
        rw [hl v (h v (by simp)), hl w (h w (by simp))] at he
        exact ⟨[], w, b, v, c, rfl, lower_iff.1 he.symm⟩
      · exact ⟨w :: a, x, b, y, c, rfl, hs⟩
    · rintro ⟨a, x, b, y, c, he, hs⟩
      cases a with
      | nil =>
        simp only [List.nil_append, List.cons_append, List.cons.injEq] at he
        obtain ⟨rfl, rfl⟩ := he
        left
        refine List.mem_map.2 ⟨y, by simp, ?_⟩
        rw [hl y (h y (by simp)), hl w (h w (by simp))]
        exact (lower_iff.2 hs).symm
      | cons a' a =>
        simp only [List.cons_append, List.cons.injEq] at he
        obtain ⟨rfl, rfl⟩ := he
        exact .inr ⟨a, x, b, y, c, by simp, hs⟩

theorem among_iff {lower : Str → Str} (hl : LowersAscii lower) {w : Str} (hw : ∀ c ∈ w, c < 128) (ks : List String) :
    (∃ k ∈ ks, lower w = asciiLower (str k)) ↔ AmongWords w ks :=
  exists_congr fun k => and_congr_right fun _ => word_iff hl hw k

/-! ## Credentials and challenges -/

theorem said_params {d : Details} {ps : List (Str × Str)} :
    d.said = .params ps ↔ ∃ l, d.pairs = some l ∧ ps = l.map fun p => (p.name, p.value.content) := by
  cases d with
  | nothing =>
    constructor
    · intro h; cases h; exact ⟨[], rfl, rfl⟩
    · rintro ⟨l, h, rfl⟩; obtain rfl := Option.some.inj h; rfl
  | token s x =>
    constructor
    · intro h; cases h
    · rintro ⟨l, h, _⟩; cases h
  | params s k =>
    constructor
    · intro h; cases h; exact ⟨_, rfl, rfl⟩
    · rintro ⟨l, h, rfl⟩; obtain rfl := Option.some.inj h; rfl

theorem said_token {d : Details} : (∃ s, d.said = .token68 s) ↔ d.pairs = none := by
  cases d with
  | nothing => exact ⟨fun ⟨_, h⟩ => (by cases h), fun h => (by cases h)⟩
  | token s x => exact ⟨fun _ => rfl, fun _ => ⟨_, rfl⟩⟩
  | params s k => exact ⟨fun ⟨_, h⟩ => (by cases h), fun h => (by cases h)⟩

theorem pairs_below {x : AuthSyn} (hx : x.Ok) {l : List Param} (h : x.details.pairs = some l) : ∀ p ∈ l, ∀ c ∈ p.name, c < 128 := by
  obtain ⟨s, d⟩ := x
  have hd := hx.2
  cases d with
  | nothing => obtain rfl := Option.some.inj h; simp
  | token s x => cases h
  | params s k =>
    obtain rfl := Option.some.inj h
    exact fun p hp => token_below (elems_ok hd.2 p hp).1

section

variable {W : World} (hW : Ready W) {base : Env} (hl : LowersAscii base.lower)
variable {L : Libs} {given : Target → Assigned} {ex : Exchange}

/-! ## Messages before and after reading the payload -/

theorem on_request {P : Request → Prop} (h : ∀ req p, P { req with payload := p } ↔ P req) :
    OnRequest (loadPayloads L (W.all base) W.codings given ex) P ↔ OnRequest ex P := by
  show (∃ _, _) ↔ ∃ _, _
  unfold loadPayloads
  simp only [Option.map_eq_some_iff]
  constructor
  · rintro ⟨_, ⟨req, hr, rfl⟩, hp⟩
    exact ⟨req, hr, (h _ _).1 hp⟩
  · rintro ⟨req, hr, hp⟩
    exact ⟨_, ⟨req, hr, rfl⟩, (h _ _).2 hp⟩

theorem on_response {i : Nat} {P : Response → Prop} (h : ∀ r p, P { r with payload := p } ↔ P r) :
    OnResponse (loadPayloads L (W.all base) W.codings given ex) i P ↔ OnResponse ex i P := by
  show (∃ _, _) ↔ ∃ _, _
  unfold loadPayloads
  simp only [List.getElem?_mapIdx, Option.map_eq_some_iff]
  constructor
  · rintro ⟨_, ⟨r, hr, rfl⟩, hp⟩
    exact ⟨r, hr, (h _ _).1 hp⟩
  · rintro ⟨r, hr, hp⟩
    exact ⟨_, ⟨r, hr, rfl⟩, (h _ _).2 hp⟩

theorem on_answer {i : Nat} {P : Response → Request → Prop}
    (h : ∀ r req p q, P { r with payload := p } { req with payload := q } ↔ P r req) :
    OnAnswer (loadPayloads L (W.all base) W.codings given ex) i P ↔ OnAnswer ex i P := by
  show (∃ _ _, _) ↔ ∃ _ _, _
  unfold loadPayloads
  simp only [List.getElem?_mapIdx, Option.map_eq_some_iff]
  constructor
  · rintro ⟨_, _, ⟨r, hr, rfl⟩, ⟨req, hq, rfl⟩, hp⟩
    exact ⟨r, req, hr, hq, (h _ _ _ _).1 hp⟩
  · rintro ⟨r, req, hr, hq, hp⟩
    exact ⟨_, _, ⟨r, hr, rfl⟩, ⟨req, hq, rfl⟩, (h _ _ _ _).2 hp⟩

theorem on_message {t : Target} {P : Message → Prop} (h : ∀ m p, P { m with payload := p } ↔ P m) :
    OnMessage (loadPayloads L (W.all base) W.codings given ex) t P ↔ OnMessage ex t P := by
  cases t with
  | exch => exact .rfl
  | req => exact on_request fun _ _ => h _ _
  | resp i => exact on_response fun _ _ => h _ _

theorem message_congr {t : Target} {P Q : Message → Prop} (h : ∀ m, P m ↔ Q m) : OnMessage ex t P ↔ OnMessage ex t Q := by
  cases t with
  | exch => exact .rfl
  | req => exact exists_congr fun _ => and_congr_right fun _ => h _
  | resp i => exact exists_congr fun _ => and_congr_right fun _ => h _

theorem request_congr {P Q : Request → Prop} (h : ∀ m, P m ↔ Q m) : OnRequest ex P ↔ OnRequest ex Q :=
  exists_congr fun _ => and_congr_right fun _ => h _

theorem response_congr {i : Nat} {P Q : Response → Prop} (h : ∀ m, P m ↔ Q m) : OnResponse ex i P ↔ OnResponse ex i Q :=
  exists_congr fun _ => and_congr_right fun _ => h _

theorem answer_congr {i : Nat} {P Q : Response → Request → Prop} (h : ∀ r req, P r req ↔ Q r req) :
    OnAnswer ex i P ↔ OnAnswer ex i Q :=
  exists_congr fun _ => exists_congr fun _ => and_congr_right fun _ => and_congr_right fun _ => h _ _

theorem one_all {α V : Type} {G : Entry → Option V} {Ok : α → Prop} {print : α → Str} {said : α → Option V}
    (h : OneIs G Ok print said) (m : Msg) (name : String) {P : V → Prop} {Q : α → Prop}
    (hp : ∀ x, Ok x → ((∃ v, said x = some v ∧ P v) ↔ Q x)) :
    (∃ v, LastOf (W.all base) m name G v ∧ P v) ↔ ∃ x, LastText base.lower m name Ok print x ∧ Q x := by
  have := one_text (E := W.all base) h m name hp
  rwa [all_lower] at this

theorem in_all {α β V : Type} {G : Entry → Parsed V} {Ok : α → Prop} {print : α → Str} {elems : α → List β}
    {Said : β → V → Prop} (h : ListIs G Ok print elems Said) (ht : ∀ x, ∃ v, Said x v) {Each : β → Prop}
    (hk : ∀ l, Ok l → ∀ x ∈ elems l, Each x) (m : Msg) (name : String) {P : V → Prop} {Q : β → Prop}
    (hp : ∀ x v, Each x → Said x v → (P v ↔ Q x)) :
    (∃ v, Listed (W.all base) m name G v ∧ P v) ↔ ∃ x, InText base.lower m name Ok print elems x ∧ Q x := by
  have := in_text (E := W.all base) h ht hk m name hp
  rwa [all_lower] at this

theorem being_all {α β V : Type} {G : Entry → Parsed V} {Ok : α → Prop} {print : α → Str} {elems : α → List β}
    {g : β → V} (h : ListIs G Ok print elems (Being g)) (m : Msg) (name : String) (v : V) :
    Listed (W.all base) m name G v ↔ ∃ x, InText base.lower m name Ok print elems x ∧ v = g x := by
  have := in_being (E := W.all base) h m name v
  rwa [all_lower] at this

theorem word_all (hl : LowersAscii base.lower) {w : Str} (hw : ∀ c ∈ w, c < 128) (k : String) :
    IsWord (W.all base) w k ↔ SameWord w (str k) := by
  unfold IsWord
  rw [all_lower]
  exact word_iff hl hw k

theorem repeats_all (hl : LowersAscii base.lower) {l : List Str} (h : ∀ w ∈ l, ∀ c ∈ w, c < 128) : Repeats (W.all base) l ↔ Repeated l :=
  repeats_iff (all_ascii hl) h

theorem param_all (hl : LowersAscii base.lower) {α : Type} {l : List α} {n : α → Str} (v : α → Str)
    (h : ∀ p ∈ l, ∀ c ∈ n p, c < 128) (k : String) :
    HasParam (W.all base) (l.map fun p => (n p, v p)) k ↔ ∃ p ∈ l, SameWord (n p) (str k) := by
  unfold HasParam
  constructor
  · rintro ⟨_, hq, hw⟩
    obtain ⟨p, hp, rfl⟩ := List.mem_map.1 hq
    exact ⟨p, hp, (word_all hl (h p hp) k).1 hw⟩
  · rintro ⟨p, hp, hw⟩
    exact ⟨_, List.mem_map.2 ⟨p, hp, rfl⟩, (word_all hl (h p hp) k).2 hw⟩

theorem all_deprecated (t : Str) : (W.all base).mediaDeprecated t = deprecatedMedia.any fun k => base.lower (str k) == base.lower t := rfl

theorem all_patch (t : Str) :
    (W.all base).mediaPatch t = (patchMedia.find? fun p => base.lower (str p.1) == base.lower t).map Prod.snd := rfl

theorem all_library (s : Str) : (W.all base).productLibrary s = libraryProducts.any fun k => str k == s := rfl

theorem lower_any (hl : LowersAscii base.lower) {w : Str} (hw : ∀ c ∈ w, c < 128) {k : String} (hk : (str k).all (· < 128) = true) :
    (base.lower (str k) == base.lower w) = true ↔ SameWord w (str k) := by
  rw [beq_iff_eq, hl w hw, hl (str k) (by simpa using hk)]
  exact eq_comm.trans lower_iff

theorem deprecated_iff (hl : LowersAscii base.lower) {w : Str} (hw : ∀ c ∈ w, c < 128) :
    (W.all base).mediaDeprecated w = true ↔ AmongWords w deprecatedTypes := by
  rw [all_deprecated, List.any_eq_true]
  have h : ∀ k ∈ deprecatedMedia, (str k).all (· < 128) = true := by decide +kernel
  have hs : ∀ k, k ∈ deprecatedMedia ↔ k ∈ deprecatedTypes := fun _ => .rfl
  constructor
  · rintro ⟨k, hk, hh⟩
    exact ⟨k, (hs k).1 hk, (lower_any hl hw (h k hk)).1 hh⟩
  · rintro ⟨k, hk, hh⟩
    exact ⟨k, (hs k).2 hk, (lower_any hl hw (h k ((hs k).2 hk))).2 hh⟩

theorem patch_iff (hl : LowersAscii base.lower) {w : Str} (hw : ∀ c ∈ w, c < 128) :
    (W.all base).mediaPatch w = some false ↔ AmongWords w notPatches := by
  have h : ∀ p ∈ patchMedia, (str p.1).all (· < 128) = true := by decide +kernel
  have hs : ∀ k, (k, false) ∈ patchMedia ↔ k ∈ notPatches := by
    intro k
    simp [patchMedia, notPatches]
  have hd : ∀ p ∈ patchMedia, ∀ q ∈ patchMedia, asciiLower (str p.1) = asciiLower (str q.1) → p = q := by decide +kernel
  rw [all_patch, Option.map_eq_some_iff]
  constructor
  · rintro ⟨p, hp, he⟩
    have hm := List.mem_of_find?_eq_some hp
    obtain ⟨k, b⟩ := p
    obtain rfl : b = false := he
    have hb := List.find?_some hp
    exact ⟨k, (hs k).1 hm, (lower_any hl hw (h _ hm)).1 hb⟩
  · rintro ⟨k, hk, hh⟩
    have hm := (hs k).2 hk
    cases hf : patchMedia.find? fun p => base.lower (str p.1) == base.lower w with
    | none =>
      have := List.find?_eq_none.1 hf _ hm
      exact absurd ((lower_any hl hw (h _ hm)).2 hh) this
    | some q =>
      have hq := List.mem_of_find?_eq_some hf
      have hb := List.find?_some hf
      have hb := (lower_any hl hw (h _ hq)).1 hb
      obtain rfl := hd (k, false) hm q hq ((lower_iff.2 hh).symm.trans (lower_iff.2 hb))
      exact ⟨_, rfl, rfl⟩

theorem library_iff (s : Str) : (W.all base).productLibrary s = true ↔ ∃ k ∈ libraries, s = str k := by
  rw [all_library, List.any_eq_true]
  refine exists_congr fun k => and_congr .rfl ?_
  rw [beq_iff_eq]
  exact eq_comm

theorem first_all (hl : LowersAscii base.lower) {α : Type} {l : List α} {n v : α → Str}
    (h : ∀ p ∈ l, ∀ c ∈ n p, c < 128) (k : String) (w : Str) :
    FirstParam (W.all base) (l.map fun p => (n p, v p)) k w ↔
      ∃ a p b, l = a ++ p :: b ∧ SameWord (n p) (str k) ∧ (∀ q ∈ a, ¬SameWord (n q) (str k)) ∧ v p = w := by
  unfold FirstParam
  constructor
  · rintro ⟨a, m, b, he, hw, hn⟩
    obtain ⟨a', r, rfl, ha, hr⟩ := List.map_eq_append_iff.1 he
    obtain ⟨p, b', rfl, hp, hb⟩ := List.map_eq_cons_iff.1 hr
    subst ha hb
    simp only [Prod.mk.injEq] at hp
    obtain ⟨rfl, rfl⟩ := hp
    refine ⟨a', p, b', rfl, (word_all hl (h p (by simp)) k).1 hw, ?_, rfl⟩
    intro q hq hs
    exact hn _ (List.mem_map.2 ⟨q, hq, rfl⟩) ((word_all hl (h q (by simp [hq])) k).2 hs)
  · rintro ⟨a, p, b, rfl, hw, hn, rfl⟩
    refine ⟨a.map fun p => (n p, v p), n p, b.map fun p => (n p, v p), by simp, (word_all hl (h p (by simp)) k).2 hw, ?_⟩
    intro x hx hs
    obtain ⟨q, hq, rfl⟩ := List.mem_map.1 hx
    exact hn q hq ((word_all hl (h q (by simp [hq])) k).1 hs)

/-- What is said of the dates. -/
theorem time_all (m : Msg) {name : String}
    (hn : name ∈ ["Date", "Expires", "If-Modified-Since", "If-Unmodified-Since", "Last-Modified"]) (t : Nat)
    (G : Literate base.lower (W.all base).grammars) :
    LastOf (W.all base) m name (W.all base).grammars.date t ↔ TimeText base.lower m name t := by
  unfold LastOf TimeText LastText HasName
  rw [all_lower]
  constructor
  · rintro ⟨a, e, b, h1, h2, h3, h4⟩
    obtain ⟨f, x, k1, k2, k3, k4⟩ := (G.date e ⟨name, hn, h2⟩ t).1 h4
    exact ⟨(f, x), ⟨a, e, b, h1, h2, h3, k1, k2⟩, k3, k4⟩
  · rintro ⟨⟨f, x⟩, ⟨a, e, b, h1, h2, h3, k1, k2⟩, k3, k4⟩
    exact ⟨a, e, b, h1, h2, h3, (G.date e ⟨name, hn, h2⟩ t).2 ⟨f, x, k1, k2, k3, k4⟩⟩

theorem has_all (m : Msg) (name : String) : Has (W.all base) m name ↔ HeaderGiven base.lower m name := by
  unfold Has HeaderGiven HasName
  rw [all_lower]
  rfl

include hW hl

/-- What is told of headers. -/
theorem all_literate : Literate base.lower (W.all base).grammars := by
  have h := C89_literate hW hl (link := fun e => someOf linkRelOf (W.read "Link" e))
  unfold World.all World.env World.around
  dsimp only
  exact h

/-- What is said of a policy. -/
theorem policy_all (m : Msg) {P : List (Str × ArgVal Nat) → Prop} {Q : HstsSyn → Prop}
    (h : ∀ x ds, x.Ok → Pairwise2 HstsSaid x.dirs ds → (P ds ↔ Q x)) :
    (∃ ds, LastOf (W.all base) m "Strict-Transport-Security" (W.all base).grammars.strictTransportSecurity ds ∧ P ds) ↔
      ∃ x, PolicyText base.lower m x ∧ Q x := by
  have G := (all_literate hW hl).strictTransportSecurity
  unfold LastOf PolicyText LastText HasName
  rw [all_lower]
  constructor
  · rintro ⟨ds, ⟨a, e, b, h1, h2, h3, h4⟩, hp⟩
    obtain ⟨x, k1, k2, k3⟩ := (G e ds).1 h4
    exact ⟨x, ⟨a, e, b, h1, h2, h3, k1, k2⟩, (h x ds k1 k3).1 hp⟩
  · rintro ⟨x, ⟨a, e, b, h1, h2, h3, k1, k2⟩, hq⟩
    obtain ⟨ds, k3⟩ := pairwise2_total (R := HstsSaid) (fun d => by
      obtain ⟨v, hv⟩ := takenAs_total (hstsPlace d.name) (d.value.map fun v => v.2.content)
      exact ⟨(d.name, v), rfl, hv⟩) x.dirs
    exact ⟨ds, ⟨a, e, b, h1, h2, h3, (G e ds).2 ⟨x, k1, k2, k3⟩⟩, (h x ds k1 k3).2 hq⟩

omit hW hl in
theorem policy_names {x : HstsSyn} {ds : List (Str × ArgVal Nat)} (h : Pairwise2 HstsSaid x.dirs ds) :
    ds.map Prod.fst = x.dirs.map DirSyn.name := by
  generalize x.dirs = l at h
  induction h with
  | nil => rfl
  | cons h _ ih => rw [List.map_cons, List.map_cons, h.1, ih]

omit hW hl in
theorem dirs_ok {x : HstsSyn} (h : x.Ok) : ∀ d ∈ x.dirs, d.Ok := by
  intro d hd
  unfold HstsSyn.dirs at hd
  obtain ⟨o, ho, he⟩ := List.mem_filterMap.1 hd
  rcases List.mem_cons.1 ho with rfl | ho
  · exact h.1 d he
  · exact semi_elems h.2 o ho d he

omit hW in
theorem policy_name {x : HstsSyn} {ds : List (Str × ArgVal Nat)} (hx : x.Ok) (h : Pairwise2 HstsSaid x.dirs ds) (k : String) :
    (∃ d ∈ ds, IsWord (W.all base) d.1 k) ↔ ∃ d ∈ x.dirs, SameWord d.name (str k) := by
  constructor
  · rintro ⟨d, hd, hw⟩
    obtain ⟨y, hy, hs⟩ := (pairwise2_mem h).1 d hd
    rw [hs.1] at hw
    exact ⟨y, hy, (word_all hl (token_below (dirs_ok hx y hy).1) k).1 hw⟩
  · rintro ⟨y, hy, hw⟩
    obtain ⟨d, hd, hs⟩ := (pairwise2_mem h).2 y hy
    refine ⟨d, hd, ?_⟩
    rw [hs.1]
    exact (word_all hl (token_below (dirs_ok hx y hy).1) k).2 hw

omit hW hl in
theorem warning_total (x : WarningSyn) : ∃ v, WarningSyn.Said x v := by
  cases hd : x.date with
  | none => exact ⟨⟨numeral x.code, .none⟩, rfl, by rw [hd]⟩
  | some p =>
    by_cases hr : p.2.Real
    · exact ⟨⟨numeral x.code, .val p.2.seconds⟩, rfl, by rw [hd]; exact ⟨fun _ => rfl, fun h => absurd hr h⟩⟩
    · exact ⟨⟨numeral x.code, .unavailable⟩, rfl, by rw [hd]; exact ⟨fun h => absurd h hr, fun _ => rfl⟩⟩

omit hW hl in
theorem cache_total (x : Setting) : ∃ v, CacheSaid x v := by
  obtain ⟨v, hv⟩ := takenAs_total (cachePlace x.name) (x.value.map Word.content)
  exact ⟨(x.name, v), rfl, hv⟩

/-- When nothing is reported because a check raises an exception: a date and an age that are beyond the year 9999, or a link that is malformed. -/
theorem C94_raises : exchangeRaises (W.all base) (loadPayloads L (W.all base) W.codings given ex) = true ↔
    ∃ r ∈ ex.responses, (r.status ≠ 103 ∧ ∃ d n, TimeText base.lower r.fields "Date" d ∧ NumberText base.lower r.fields "Age" n ∧
      d + n > 315537897599) ∨ BadLink (W.all base) r := by
  rw [C91_raises hW hl]
  refine exists_congr fun r => and_congr_right fun _ => or_congr (and_congr_right fun _ => ?_) .rfl
  have hlast : ∀ {V : Type} {name : String} {G : Entry → Option V} {v : V}, name ∈ notInTrailers →
      (LastValue (W.all base) r.fields name G v ↔ LastOf (W.all base) r.fields name G v) := by
    intro V name G v hn
    unfold LastValue LastOf fieldsFor
    rw [if_pos hn, List.append_nil]
  refine exists_congr fun d => exists_congr fun n => and_congr ?_ (and_congr ?_ .rfl)
  · exact (hlast (by decide)).trans (time_all r.fields (name := "Date") (by decide) d (all_literate hW hl))
  · have := one_all (W := W) (base := base) (all_literate hW hl).age r.fields "Age" (P := fun v => v = n) (Q := fun w => n = numeral w) fun w _ => by
      constructor
      · rintro ⟨v, h, rfl⟩; exact (Option.some.inj h).symm
      · rintro rfl; exact ⟨_, rfl, rfl⟩
    refine (hlast (by decide)).trans ?_
    simp only [exists_eq_right] at this
    exact this

variable (hok : exchangeRaises (W.all base) (loadPayloads L (W.all base) W.codings given ex) = false)
include hok

/-! ## Media types -/

/-- A media type that is not to be used any more. -/
theorem C94_notice_1035 (t : Target) : ReportedId (W.all base) (loadPayloads L (W.all base) W.codings given ex) t 1035 ↔
    OnMessage ex t fun msg => ∃ x, TypeText base.lower msg.fields x ∧ AmongWords x.name deprecatedTypes := by
  rw [C64_notice_1035 _ (C91_sensible hW hl) _ hok (C91_own hW hl (by decide +kernel)) t]
  refine (on_message fun _ _ => Iff.rfl).trans (message_congr fun msg => ?_)
  refine one_all (all_literate hW hl).contentType _ _ fun x hx => ?_
  simp only [Option.some.injEq, exists_eq_left', deprecated_iff hl (media_below hx)]

/-- Parameters of the same name. -/
theorem C94_notice_1042 (t : Target) : ReportedId (W.all base) (loadPayloads L (W.all base) W.codings given ex) t 1042 ↔
    OnMessage ex t fun msg => ∃ x, TypeText base.lower msg.fields x ∧ Repeated (x.params.elems.map Attr.name) := by
  rw [C64_notice_1042 _ (C91_sensible hW hl) _ hok (C91_own hW hl (by decide +kernel)) t]
  refine (on_message fun _ _ => Iff.rfl).trans (message_congr fun msg => ?_)
  refine one_all (all_literate hW hl).contentType _ _ fun x hx => ?_
  simp only [Option.some.injEq, exists_eq_left', List.map_map]
  refine repeats_all hl ?_
  intro w hw
  obtain ⟨p, hp, rfl⟩ := List.mem_map.1 hw
  exact token_below (semi_elems hx.2.2 p hp).1

/-- JSON with a charset. -/
theorem C94_notice_1280 (t : Target) : ReportedId (W.all base) (loadPayloads L (W.all base) W.codings given ex) t 1280 ↔
    OnMessage ex t fun msg => ∃ x, TypeText base.lower msg.fields x ∧ SameWord x.name (str "application/json") ∧
      ∃ p ∈ x.params.elems, SameWord p.name (str "charset") := by
  rw [C64_notice_1280 _ (C91_sensible hW hl) _ hok (C91_own hW hl (by decide +kernel)) t]
  refine (on_message fun _ _ => Iff.rfl).trans (message_congr fun msg => ?_)
  refine one_all (all_literate hW hl).contentType _ _ fun x hx => ?_
  simp only [Option.some.injEq, exists_eq_left', word_all hl (media_below hx)]
  exact and_congr_right fun _ => param_all hl _ (fun p hp => token_below (semi_elems hx.2.2 p hp).1) _

/-- PATCH with something that is not a patch. -/
theorem C94_notice_1213 : ReportedId (W.all base) (loadPayloads L (W.all base) W.codings given ex) .req 1213 ↔
    OnRequest ex fun req => req.method = str "PATCH" ∧
      ∃ x, TypeText base.lower req.fields x ∧ AmongWords x.name notPatches := by
  rw [C70_notice_1213 _ (C91_sensible hW hl) _ hok (C91_own hW hl (by decide +kernel))]
  refine (on_request fun _ _ => Iff.rfl).trans (request_congr fun req => and_congr_right fun _ => ?_)
  refine one_all (all_literate hW hl).contentType _ _ fun x hx => ?_
  simp only [Option.some.injEq, exists_eq_left', patch_iff hl (media_below hx)]

/-- Such a request that is successful. -/
theorem C94_notice_1214 (i : Nat) : ReportedId (W.all base) (loadPayloads L (W.all base) W.codings given ex) (.resp i) 1214 ↔
    OnAnswer ex i fun r req => req.method = str "PATCH" ∧ StatusClass r 2 ∧
      ∃ x, TypeText base.lower req.fields x ∧ AmongWords x.name notPatches := by
  rw [C70_notice_1214 _ (C91_sensible hW hl) _ hok (C91_own hW hl (by decide +kernel)) i]
  refine (on_answer fun _ _ _ _ => Iff.rfl).trans (answer_congr fun r req => and_congr_right fun _ => and_congr_right fun _ => ?_)
  refine one_all (all_literate hW hl).contentType _ _ fun x hx => ?_
  simp only [Option.some.injEq, exists_eq_left', patch_iff hl (media_below hx)]

/-- `Accept-Patch` with something that is not a patch. -/
theorem C94_notice_1227 (i : Nat) : ReportedId (W.all base) (loadPayloads L (W.all base) W.codings given ex) (.resp i) 1227 ↔
    OnResponse ex i fun r => ∃ x, PatchText base.lower r.fields x ∧ AmongWords x.name notPatches := by
  rw [C70_notice_1227 _ (C91_sensible hW hl) _ hok (C91_own hW hl (by decide +kernel)) i]
  refine (on_response fun _ _ => Iff.rfl).trans (response_congr fun r => ?_)
  refine in_all (all_literate hW hl).acceptPatch (fun x => ⟨_, rfl⟩) (fun l hl => elems1_ok hl) _ _ ?_
  rintro x v hx rfl
  exact patch_iff hl (media_below hx)

/-! ## Products -/

/-- A user agent that is nothing but libraries. -/
theorem C94_notice_1093 : ReportedId (W.all base) (loadPayloads L (W.all base) W.codings given ex) .req 1093 ↔
    OnRequest ex fun req => ∃ x, AgentText base.lower req.fields x ∧ ∀ p ∈ x.all, ∃ k ∈ libraries, p.name = str k := by
  rw [C70_notice_1093 _ (C91_sensible hW hl) _ hok (C91_own hW hl (by decide +kernel))]
  refine (on_request fun _ _ => Iff.rfl).trans (request_congr fun req => ?_)
  refine one_all (all_literate hW hl).userAgent _ _ fun x hx => ?_
  simp only [Option.some.injEq, exists_eq_left', library_iff]
  have hm : ∀ w : Str, some w ∈ (some x.first.name :: x.rest.map fun y => match y.2 with
      | .product p => some p.name | .comment _ => none) ↔ ∃ p ∈ x.all, p.name = w := by
    intro w
    unfold Products.all
    simp only [List.mem_cons, Option.some.injEq, List.mem_map, List.mem_filterMap]
    constructor
    · rintro (rfl | ⟨y, hy, he⟩)
      · exact ⟨_, .inl rfl, rfl⟩
      · cases hc : y.2 with
        | product p =>
          rw [hc] at he
          exact ⟨p, .inr ⟨y, hy, by rw [hc]⟩, Option.some.inj he⟩
        | comment r => rw [hc] at he; cases he
    · rintro ⟨p, rfl | ⟨y, hy, he⟩, rfl⟩
      · exact .inl rfl
      · refine .inr ⟨y, hy, ?_⟩
        cases hc : y.2 with
        | product q =>
          rw [hc] at he
          obtain rfl := Option.some.inj he
          rfl
        | comment r => rw [hc] at he; cases he
  constructor
  · rintro ⟨_, h⟩ p hp
    exact h _ ((hm _).2 ⟨p, hp, rfl⟩)
  · intro h
    refine ⟨⟨_, (hm _).2 ⟨x.first, List.mem_cons_self, rfl⟩⟩, ?_⟩
    intro w hw
    obtain ⟨p, hp, rfl⟩ := (hm w).1 hw
    exact h p hp

/-! ## Content-Disposition -/

/-- Parameters of the same name. -/
theorem C94_notice_1247 (i : Nat) : ReportedId (W.all base) (loadPayloads L (W.all base) W.codings given ex) (.resp i) 1247 ↔
    OnResponse ex i fun r => ∃ x, DispositionText base.lower r.fields x ∧ Repeated (x.params.elems.map DispParam.name) := by
  rw [C70_notice_1247 _ (C91_sensible hW hl) _ hok (C91_own hW hl (by decide +kernel)) i]
  refine (on_response fun _ _ => Iff.rfl).trans (response_congr fun r => ?_)
  refine one_all (all_literate hW hl).contentDisposition _ _ fun x hx => ?_
  simp only [Option.some.injEq, exists_eq_left']
  have hb : ∀ p ∈ x.params.elems, ∀ c ∈ p.name, c < 128 := fun p hp => token_below (semi_elems hx.2 p hp).name
  rw [List.map_map]
  refine repeats_all hl ?_
  intro w hw
  obtain ⟨p, hp, rfl⟩ := List.mem_map.1 hw
  exact hb p hp

/-- A file name that seems to be encoded. -/
theorem C94_notice_1248 (i : Nat) : ReportedId (W.all base) (loadPayloads L (W.all base) W.codings given ex) (.resp i) 1248 ↔
    OnResponse ex i fun r => ∃ x, DispositionText base.lower r.fields x ∧
      ∃ a p b, x.params.elems = a ++ p :: b ∧ SameWord p.name (str "filename") ∧ (∀ q ∈ a, ¬SameWord q.name (str "filename")) ∧
        PercentEncoded p.value.said := by
  rw [C70_notice_1248 _ (C91_sensible hW hl) _ hok (C91_own hW hl (by decide +kernel)) i]
  refine (on_response fun _ _ => Iff.rfl).trans (response_congr fun r => ?_)
  refine one_all (all_literate hW hl).contentDisposition _ _ fun x hx => ?_
  simp only [Option.some.injEq, exists_eq_left']
  have hb : ∀ p ∈ x.params.elems, ∀ c ∈ p.name, c < 128 := fun p hp => token_below (semi_elems hx.2 p hp).name
  simp only [first_all hl hb]
  constructor
  · rintro ⟨_, ⟨a, p, b, h1, h2, h3, rfl⟩, h4⟩
    exact ⟨a, p, b, h1, h2, h3, h4⟩
  · rintro ⟨a, p, b, h1, h2, h3, h4⟩
    exact ⟨_, ⟨a, p, b, h1, h2, h3, rfl⟩, h4⟩

/-- A file name with quotes or backslashes. -/
theorem C94_notice_1249 (i : Nat) : ReportedId (W.all base) (loadPayloads L (W.all base) W.codings given ex) (.resp i) 1249 ↔
    OnResponse ex i fun r => ∃ x, DispositionText base.lower r.fields x ∧
      ∃ a p b, x.params.elems = a ++ p :: b ∧ SameWord p.name (str "filename") ∧ (∀ q ∈ a, ¬SameWord q.name (str "filename")) ∧
        (34 ∈ p.value.said ∨ 92 ∈ p.value.said) := by
  rw [C70_notice_1249 _ (C91_sensible hW hl) _ hok (C91_own hW hl (by decide +kernel)) i]
  refine (on_response fun _ _ => Iff.rfl).trans (response_congr fun r => ?_)
  refine one_all (all_literate hW hl).contentDisposition _ _ fun x hx => ?_
  simp only [Option.some.injEq, exists_eq_left']
  have hb : ∀ p ∈ x.params.elems, ∀ c ∈ p.name, c < 128 := fun p hp => token_below (semi_elems hx.2 p hp).name
  simp only [first_all hl hb]
  constructor
  · rintro ⟨_, ⟨a, p, b, h1, h2, h3, rfl⟩, h4⟩
    exact ⟨a, p, b, h1, h2, h3, h4⟩
  · rintro ⟨a, p, b, h1, h2, h3, h4⟩
    exact ⟨_, ⟨a, p, b, h1, h2, h3, rfl⟩, h4⟩

/-- A file name that is not ASCII. -/
theorem C94_notice_1250 (i : Nat) : ReportedId (W.all base) (loadPayloads L (W.all base) W.codings given ex) (.resp i) 1250 ↔
    OnResponse ex i fun r => ∃ x, DispositionText base.lower r.fields x ∧
      ∃ a p b, x.params.elems = a ++ p :: b ∧ SameWord p.name (str "filename") ∧ (∀ q ∈ a, ¬SameWord q.name (str "filename")) ∧
        ∃ c ∈ p.value.said, 128 ≤ c := by
  rw [C70_notice_1250 _ (C91_sensible hW hl) _ hok (C91_own hW hl (by decide +kernel)) i]
  refine (on_response fun _ _ => Iff.rfl).trans (response_congr fun r => ?_)
  refine one_all (all_literate hW hl).contentDisposition _ _ fun x hx => ?_
  simp only [Option.some.injEq, exists_eq_left']
  have hb : ∀ p ∈ x.params.elems, ∀ c ∈ p.name, c < 128 := fun p hp => token_below (semi_elems hx.2 p hp).name
  simp only [first_all hl hb]
  constructor
  · rintro ⟨_, ⟨a, p, b, h1, h2, h3, rfl⟩, h4⟩
    exact ⟨a, p, b, h1, h2, h3, h4⟩
  · rintro ⟨a, p, b, h1, h2, h3, h4⟩
    exact ⟨_, ⟨a, p, b, h1, h2, h3, rfl⟩, h4⟩

/-- An encoded file name and no plain one. -/
theorem C94_notice_1251 (i : Nat) : ReportedId (W.all base) (loadPayloads L (W.all base) W.codings given ex) (.resp i) 1251 ↔
    OnResponse ex i fun r => ∃ x, DispositionText base.lower r.fields x ∧
      (∃ p ∈ x.params.elems, SameWord p.name (str "filename*")) ∧ ¬∃ p ∈ x.params.elems, SameWord p.name (str "filename") := by
  rw [C70_notice_1251 _ (C91_sensible hW hl) _ hok (C91_own hW hl (by decide +kernel)) i]
  refine (on_response fun _ _ => Iff.rfl).trans (response_congr fun r => ?_)
  refine one_all (all_literate hW hl).contentDisposition _ _ fun x hx => ?_
  simp only [Option.some.injEq, exists_eq_left']
  have hb : ∀ p ∈ x.params.elems, ∀ c ∈ p.name, c < 128 := fun p hp => token_below (semi_elems hx.2 p hp).name
  rw [param_all hl _ hb, param_all hl _ hb]

/-! ## Strict-Transport-Security -/

/-- No age. -/
theorem C94_notice_1218 (i : Nat) : ReportedId (W.all base) (loadPayloads L (W.all base) W.codings given ex) (.resp i) 1218 ↔
    OnResponse ex i fun r => ∃ x, PolicyText base.lower r.fields x ∧ ¬∃ d ∈ x.dirs, SameWord d.name (str "max-age") := by
  rw [C70_notice_1218 _ (C91_sensible hW hl) _ hok (C91_own hW hl (by decide +kernel)) i]
  refine (on_response fun _ _ => Iff.rfl).trans (response_congr fun r => ?_)
  refine policy_all hW hl _ fun x ds hx hd => ?_
  exact not_congr (policy_name hl hx hd _)

/-- Directives of the same name. -/
theorem C94_notice_1220 (i : Nat) : ReportedId (W.all base) (loadPayloads L (W.all base) W.codings given ex) (.resp i) 1220 ↔
    OnResponse ex i fun r => ∃ x, PolicyText base.lower r.fields x ∧ Repeated (x.dirs.map DirSyn.name) := by
  rw [C70_notice_1220 _ (C91_sensible hW hl) _ hok (C91_own hW hl (by decide +kernel)) i]
  refine (on_response fun _ _ => Iff.rfl).trans (response_congr fun r => ?_)
  refine policy_all hW hl _ fun x ds hx hd => ?_
  rw [policy_names hd]
  refine repeats_all hl ?_
  intro w hw
  obtain ⟨d, hd, rfl⟩ := List.mem_map.1 hw
  exact token_below (dirs_ok hx d hd).1

/-! ## Connections -/

/-- An option that is a header for more than this connection. -/
theorem C94_notice_1034 (t : Target) : ReportedId (W.all base) (loadPayloads L (W.all base) W.codings given ex) t 1034 ↔
    OnMessage ex t fun msg => ∃ o, WordText base.lower msg.fields "Connection" o ∧ AmongWords o endToEnd := by
  rw [C64_notice_1034 _ (C91_sensible hW hl) _ hok (C91_own hW hl (by decide +kernel)) t]
  refine (on_message fun _ _ => Iff.rfl).trans (message_congr fun msg => ?_)
  refine in_all (all_literate hW hl).connection (fun x => ⟨_, rfl⟩) (fun l hl => elems1_ok hl) _ _ ?_
  rintro x v hx rfl
  exact exists_congr fun k => and_congr_right fun _ => word_all hl (token_below hx) k

/-- `chunked` in `TE`. -/
theorem C94_notice_1028 : ReportedId (W.all base) (loadPayloads L (W.all base) W.codings given ex) .req 1028 ↔
    OnRequest ex fun req => ∃ x, TeText base.lower req.fields x ∧ SameWord x.name (str "chunked") := by
  rw [C70_notice_1028 _ (C91_sensible hW hl) _ hok (C91_own hW hl (by decide +kernel))]
  refine (on_request fun _ _ => Iff.rfl).trans (request_congr fun req => ?_)
  refine in_all (all_literate hW hl).te (fun x => ⟨_, rfl⟩) (fun l hl => view_elems_ok hl) _ _ ?_
  rintro x v hx rfl
  cases x with
  | trailers w => exact word_all hl (token_below (sameWord_token (v := str "trailers") (by decide +kernel) hx)) _
  | coding c q => exact word_all hl (token_below hx.1.1) _

/-- `h2` as a protocol to change to. -/
theorem C94_notice_1228 (t : Target) : ReportedId (W.all base) (loadPayloads L (W.all base) W.codings given ex) t 1228 ↔
    OnMessage ex t fun msg => ∃ x, UpgradeText base.lower msg.fields x ∧ x.name = str "h2" := by
  rw [C64_notice_1228 _ (C91_sensible hW hl) _ hok (C91_own hW hl (by decide +kernel)) t]
  refine (on_message fun _ _ => Iff.rfl).trans (message_congr fun msg => ?_)
  refine in_all (all_literate hW hl).upgrade (fun x => ⟨_, rfl⟩) (fun l hl => elems1_ok hl) _ _ ?_
  rintro x v hx rfl
  exact .rfl

/-- A weight of an alias of a coding. -/
theorem C94_notice_1116 : ReportedId (W.all base) (loadPayloads L (W.all base) W.codings given ex) .req 1116 ↔
    OnRequest ex fun req => ∃ x, EncodingText base.lower req.fields x ∧ AmongWords x.name ["x-gzip", "x-compress"] ∧ x.rank ≠ none := by
  rw [C70_notice_1116 _ (C91_sensible hW hl) _ hok (C91_own hW hl (by decide +kernel))]
  refine (on_request fun _ _ => Iff.rfl).trans (request_congr fun req => ?_)
  have hc : Called base.lower (str "Accept-Encoding") "Accept-Encoding" := hl _ (by
    have : (str "Accept-Encoding").all (· < 128) = true := by decide +kernel
    simpa using this)
  have G := (all_literate hW hl).acceptEncoding (str "Accept-Encoding") hc
  refine in_all G (fun x => ⟨_, rfl⟩) (fun l hl => view_elems_ok hl) _ _ ?_
  rintro x v hx rfl
  simp only [word_all hl (token_below hx.1), AmongWords, List.mem_cons, List.not_mem_nil, or_false, exists_eq_or_imp, exists_eq_left,
    ne_eq, Option.map_eq_none_iff]

/-! ## Dates -/

/-- A date in the future. -/
theorem C94_notice_1109 (t : Target) : ReportedId (W.all base) (loadPayloads L (W.all base) W.codings given ex) t 1109 ↔
    OnMessage ex t fun msg => ∃ t, TimeText base.lower msg.fields "Date" t ∧ t > base.now + 10 := by
  rw [C64_notice_1109 _ (C91_sensible hW hl) _ hok (C91_own hW hl (by decide +kernel)) t]
  refine (on_message fun _ _ => Iff.rfl).trans (message_congr fun msg => ?_)
  have hnow : (W.all base).now = base.now := by
    unfold World.all World.env World.around
    rfl
  rw [hnow]
  exact exists_congr fun t => and_congr (time_all _ (by decide) _ (all_literate hW hl)) .rfl

/-- Modified after it was sent. -/
theorem C94_notice_1118 (i : Nat) : ReportedId (W.all base) (loadPayloads L (W.all base) W.codings given ex) (.resp i) 1118 ↔
    OnResponse ex i fun r => ∃ d l, TimeText base.lower r.fields "Date" d ∧ TimeText base.lower r.fields "Last-Modified" l ∧ d < l := by
  rw [C66_notice_1118 _ (C91_sensible hW hl) _ hok (C91_own hW hl (by decide +kernel)) i]
  refine (on_response fun _ _ => Iff.rfl).trans (response_congr fun r => ?_)
  refine exists_congr fun d => exists_congr fun l => and_congr (time_all _ (by decide) _ (all_literate hW hl)) (and_congr (time_all _ (by decide) _ (all_literate hW hl)) .rfl)

/-! ## Warnings and caches -/

/-- A warning of an unknown kind. -/
theorem C94_notice_1163 (t : Target) : ReportedId (W.all base) (loadPayloads L (W.all base) W.codings given ex) t 1163 ↔
    OnMessage ex t fun msg => ∃ x, WarningText base.lower msg.fields x ∧ (numeral x.code < 100 ∨ numeral x.code > 299) := by
  rw [C64_notice_1163 _ (C91_sensible hW hl) _ hok (C91_own hW hl (by decide +kernel)) t]
  refine (on_message fun _ _ => Iff.rfl).trans (message_congr fun msg => ?_)
  refine in_all (all_literate hW hl).warning warning_total (fun l hl => elems1_ok hl) _ _ ?_
  rintro x v hx ⟨h, _⟩
  rw [h]

/-- A warning that the response is not fresh, in a request. -/
theorem C94_notice_1165 : ReportedId (W.all base) (loadPayloads L (W.all base) W.codings given ex) .req 1165 ↔
    OnRequest ex fun req => ∃ x, WarningText base.lower req.fields x ∧ 100 ≤ numeral x.code ∧ numeral x.code ≤ 199 := by
  rw [C68_notice_1165 _ (C91_sensible hW hl) _ hok (C91_own hW hl (by decide +kernel))]
  refine (on_request fun _ _ => Iff.rfl).trans (request_congr fun req => ?_)
  refine in_all (all_literate hW hl).warning warning_total (fun l hl => elems1_ok hl) _ _ ?_
  rintro x v hx ⟨h, _⟩
  rw [h]

/-- Directives that are not for requests. -/
theorem C94_notice_1152 : ReportedId (W.all base) (loadPayloads L (W.all base) W.codings given ex) .req 1152 ↔
    OnRequest ex fun req => ∃ x, CacheText base.lower req.fields x ∧ AmongWords x.name notForRequests := by
  rw [C68_notice_1152 _ (C91_sensible hW hl) _ hok (C91_own hW hl (by decide +kernel))]
  refine (on_request fun _ _ => Iff.rfl).trans (request_congr fun req => ?_)
  refine in_all (all_literate hW hl).cacheControl cache_total (fun l hl => elems1_ok hl) _ _ ?_
  rintro x v hx ⟨h, _⟩
  rw [h]
  exact exists_congr fun k => and_congr_right fun _ => word_all hl (token_below hx.1) k

/-- Directives that are not for responses. -/
theorem C94_notice_1153 (i : Nat) : ReportedId (W.all base) (loadPayloads L (W.all base) W.codings given ex) (.resp i) 1153 ↔
    OnResponse ex i fun r => ∃ x, CacheText base.lower r.fields x ∧ AmongWords x.name notForResponses := by
  rw [C68_notice_1153 _ (C91_sensible hW hl) _ hok (C91_own hW hl (by decide +kernel)) i]
  refine (on_response fun _ _ => Iff.rfl).trans (response_congr fun r => ?_)
  refine in_all (all_literate hW hl).cacheControl cache_total (fun l hl => elems1_ok hl) _ _ ?_
  rintro x v hx ⟨h, _⟩
  rw [h]
  exact exists_congr fun k => and_congr_right fun _ => word_all hl (token_below hx.1) k

/-- Directives in a request with a method that has nothing to do with caches. -/
theorem C94_notice_1171 : ReportedId (W.all base) (loadPayloads L (W.all base) W.codings given ex) .req 1171 ↔
    OnRequest ex fun req => IsMethod req uncacheableMethods ∧ ∃ x, CacheText base.lower req.fields x ∧
      AmongWords x.name ["max-age", "max-stale", "min-fresh", "no-cache", "no-store", "only-if-cached"] := by
  rw [C68_notice_1171 _ (C91_sensible hW hl) _ hok (C91_own hW hl (by decide +kernel))]
  refine (on_request fun _ _ => Iff.rfl).trans (request_congr fun req => and_congr_right fun _ => ?_)
  refine in_all (all_literate hW hl).cacheControl cache_total (fun l hl => elems1_ok hl) _ _ ?_
  rintro x v hx ⟨h, _⟩
  rw [h]
  exact exists_congr fun k => and_congr_right fun _ => word_all hl (token_below hx.1) k

/-! ## Allowed methods -/

/-- `Accept-Patch` where PATCH is not allowed. -/
theorem C94_notice_1217 (i : Nat) : ReportedId (W.all base) (loadPayloads L (W.all base) W.codings given ex) (.resp i) 1217 ↔
    OnResponse ex i fun r => r.status ≠ 103 ∧ HeaderGiven base.lower r.fields "Allow" ∧ HeaderGiven base.lower r.fields "Accept-Patch" ∧
      ¬AllowText base.lower r.fields (str "PATCH") := by
  rw [C70_notice_1217 _ (C91_sensible hW hl) _ hok (C91_own hW hl (by decide +kernel)) i]
  refine (on_response fun _ _ => Iff.rfl).trans (response_congr fun r => ?_)
  refine and_congr_right fun _ => and_congr (has_all _ _) (and_congr (has_all _ _) (not_congr ?_))
  refine (being_all (all_literate hW hl).allow _ _ _).trans ?_
  constructor
  · rintro ⟨x, hx, rfl⟩
    exact hx
  · intro h
    exact ⟨_, h, rfl⟩

/-- `Accept-Post` where POST is not allowed. -/
theorem C94_notice_1310 (i : Nat) : ReportedId (W.all base) (loadPayloads L (W.all base) W.codings given ex) (.resp i) 1310 ↔
    OnResponse ex i fun r => r.status ≠ 103 ∧ HeaderGiven base.lower r.fields "Allow" ∧ HeaderGiven base.lower r.fields "Accept-Post" ∧
      ¬AllowText base.lower r.fields (str "POST") := by
  rw [C70_notice_1310 _ (C91_sensible hW hl) _ hok (C91_own hW hl (by decide +kernel)) i]
  refine (on_response fun _ _ => Iff.rfl).trans (response_congr fun r => ?_)
  refine and_congr_right fun _ => and_congr (has_all _ _) (and_congr (has_all _ _) (not_congr ?_))
  refine (being_all (all_literate hW hl).allow _ _ _).trans ?_
  constructor
  · rintro ⟨x, hx, rfl⟩
    exact hx
  · intro h
    exact ⟨_, h, rfl⟩

/-! ## Entity tags -/

/-- A weak tag in `If-Range`. -/
theorem C94_notice_1135 : ReportedId (W.all base) (loadPayloads L (W.all base) W.codings given ex) .req 1135 ↔
    OnRequest ex fun req => ∃ x : Spec.EntityTag, LastText base.lower req.fields "If-Range" IfRangeSyn.Ok IfRangeSyn.text (.tag x) ∧ x.weak = true := by
  rw [C68_notice_1135 _ (C91_sensible hW hl) _ hok (C91_own hW hl (by decide +kernel))]
  refine (on_request fun _ _ => Iff.rfl).trans (request_congr fun req => ?_)
  have h := one_all (W := W) (base := base) (all_literate hW hl).ifRange req.fields "If-Range" (P := fun v => ∃ x, v = .tag x ∧ x.weak = true)
    (Q := fun x => ∃ t, x = .tag t ∧ t.weak = true) (by
      intro x _
      cases x with
      | tag t =>
        constructor
        · rintro ⟨_, hv, y, rfl, hw⟩
          cases hv
          exact ⟨t, rfl, hw⟩
        · rintro ⟨_, h, hw⟩
          cases h
          exact ⟨_, rfl, _, rfl, hw⟩
      | date f d =>
        constructor
        · rintro ⟨v, hv, y, rfl, _⟩
          dsimp only at hv
          split at hv <;> cases hv
        · rintro ⟨_, h, _⟩
          cases h)
  constructor
  · rintro ⟨x, hx, hw⟩
    obtain ⟨_, hy, t, rfl, ht⟩ := h.1 ⟨_, hx, x, rfl, hw⟩
    exact ⟨t, hy, ht⟩
  · rintro ⟨t, ht, hw⟩
    obtain ⟨_, hy, x, rfl, hx⟩ := h.2 ⟨_, ht, t, rfl, hw⟩
    exact ⟨x, hy, hx⟩

/-! ## Silence -/

omit hok in
theorem lists_all (m : Msg) (id : Nat) (marker : Bool) : Lists (W.all base) m id marker ↔
    ∃ x, SilenceText base.lower m x ∧ numeral x.number = id ∧ x.resp.isSome = marker := by
  have G := (all_literate hW hl).httpoliceSilence
  unfold Lists SilenceText HasName
  rw [all_lower]
  constructor
  · rintro ⟨e, l, he, hn, hg, hm⟩
    obtain ⟨x, k1, k2, k3⟩ := ((G e).1 l).1 hg
    obtain ⟨y, hy, hs⟩ := (pairwise2_mem k3).1 _ hm
    have hs : (id, marker) = (numeral y.number, y.resp.isSome) := hs
    simp only [Prod.mk.injEq] at hs
    exact ⟨y, ⟨e, by simpa using he, hn, x, k1, k2, hy⟩, hs.1.symm, hs.2.symm⟩
  · rintro ⟨y, ⟨e, he, hn, x, k1, k2, hy⟩, rfl, rfl⟩
    obtain ⟨l, hk⟩ := pairwise2_total (R := Being fun x : SilenceSyn => (numeral x.number, x.resp.isSome)) (fun _ => ⟨_, rfl⟩) x.elems
    obtain ⟨v, hv, hs⟩ := (pairwise2_mem hk).2 y hy
    have hs : v = (numeral y.number, y.resp.isSome) := hs
    subst hs
    exact ⟨e, l, by simpa using he, hn, ((G e).1 l).2 ⟨x, k1, k2, hk⟩, hv⟩

omit hok in
/-- What is silenced, as it is written. -/
theorem silenced_all (t : Target) (id0 : Nat) :
    SilencedBy (W.all base) (loadPayloads L (W.all base) W.codings given ex) id0 t ↔ SilencedText base.lower ex id0 t := by
  have hreq : ∀ id marker, (∃ req, (loadPayloads L (W.all base) W.codings given ex).request = some req ∧ Lists (W.all base) req.fields id marker) ↔
      ∃ req, ex.request = some req ∧ ∃ x, SilenceText base.lower req.fields x ∧ numeral x.number = id ∧ x.resp.isSome = marker := by
    intro id marker
    exact (on_request (P := fun req => Lists (W.all base) req.fields id marker) fun _ _ => Iff.rfl).trans (request_congr fun req => lists_all hW hl _ _ _)
  cases t with
  | exch => exact .rfl
  | req =>
    refine (hreq id0 false).trans ?_
    simp only [Option.isSome_eq_false_iff, Option.isNone_iff_eq_none]
    rfl
  | resp i =>
    refine or_congr ?_ ((hreq id0 true).trans ?_)
    · have := on_response (L := L) (W := W) (base := base) (given := given) (ex := ex) (i := i) (P := fun r => ∃ marker, Lists (W.all base) r.fields id0 marker)
        fun _ _ => Iff.rfl
      refine Iff.trans ?_ (this.trans (response_congr fun r => ?_))
      · exact exists_congr fun r => ⟨fun ⟨m, h1, h2⟩ => ⟨h1, m, h2⟩, fun ⟨h1, m, h2⟩ => ⟨m, h1, h2⟩⟩
      · simp only [lists_all hW hl]
        exact ⟨fun ⟨_, x, h1, h2, _⟩ => ⟨x, h1, h2⟩, fun ⟨x, h1, h2⟩ => ⟨_, x, h1, h2, rfl⟩⟩
    · simp only [Option.isSome_iff_ne_none]

/-- What is left of the notices: those that are not silenced. -/
theorem C94_visible (t : Target) (c : Complaint Ctx) : Visible (W.all base) (loadPayloads L (W.all base) W.codings given ex) t c ↔
    Reported (W.all base) (loadPayloads L (W.all base) W.codings given ex) t c ∧ ¬SilencedText base.lower ex c.id t := by
  rw [C51_local_silencing _ (all_ascii hl) (fun e v => ((all_literate hW hl).httpoliceSilence e).2.2 v) _ hok t c]
  exact and_congr_right fun _ => not_congr (silenced_all hW hl t c.id)

/-! ## Credentials -/

omit hok in
theorem creds_all (m : Msg) {P : Str × AuthParams → Prop} {Q : AuthSyn → Prop} (h : ∀ x : AuthSyn, x.Ok → (P (x.scheme, x.details.said) ↔ Q x)) :
    (∃ hdr ∈ credentialHeaders, ∃ a, LastOf (W.all base) m hdr (W.all base).grammars.authorization a ∧ P a) ↔
      ∃ x, CredentialsText base.lower m x ∧ Q x := by
  have G := (all_literate hW hl).authorization
  unfold LastOf CredentialsText LastText HasName
  rw [all_lower]
  constructor
  · rintro ⟨hdr, hh, v, ⟨a, e, b, h1, h2, h3, h4⟩, hP⟩
    simp only [credentialHeaders, List.mem_cons, List.not_mem_nil, or_false] at hh
    rcases hh with rfl | rfl
    · obtain ⟨x, k1, k2, rfl⟩ := (G e (.inl h2) v).1 h4
      exact ⟨x, .inl ⟨a, e, b, h1, h2, h3, k1, k2⟩, (h x k1).1 hP⟩
    · obtain ⟨x, k1, k2, rfl⟩ := (G e (.inr h2) v).1 h4
      exact ⟨x, .inr ⟨a, e, b, h1, h2, h3, k1, k2⟩, (h x k1).1 hP⟩
  · rintro ⟨x, ⟨a, e, b, h1, h2, h3, k1, k2⟩ | ⟨a, e, b, h1, h2, h3, k1, k2⟩, hQ⟩
    · exact ⟨_, List.mem_cons_self, _, ⟨a, e, b, h1, h2, h3, (G e (.inl h2) _).2 ⟨x, k1, k2, rfl⟩⟩, (h x k1).2 hQ⟩
    · exact ⟨_, List.mem_cons_of_mem _ List.mem_cons_self, _, ⟨a, e, b, h1, h2, h3, (G e (.inr h2) _).2 ⟨x, k1, k2, rfl⟩⟩, (h x k1).2 hQ⟩

omit hok in
theorem creds_of (req : Request) (scheme : String) {P : AuthParams → Prop} {Q : AuthSyn → Prop} (h : ∀ x : AuthSyn, x.Ok → (P x.details.said ↔ Q x)) :
    (∃ c, Credentials (W.all base) req scheme c ∧ P c) ↔
      ∃ x, CredentialsText base.lower req.fields x ∧ SameWord x.scheme (str scheme) ∧ Q x := by
  have := creds_all (W := W) hW hl req.fields (P := fun a => IsWord (W.all base) a.1 scheme ∧ P a.2) (Q := fun x => SameWord x.scheme (str scheme) ∧ Q x)
    fun x hx => and_congr (word_all hl (token_below hx.1) _) (h x hx)
  rw [← this]
  unfold Credentials
  constructor
  · rintro ⟨c, ⟨hdr, hh, s, h1, h2⟩, h3⟩
    exact ⟨hdr, hh, (s, c), h1, h2, h3⟩
  · rintro ⟨hdr, hh, ⟨s, c⟩, h1, h2, h3⟩
    exact ⟨c, ⟨hdr, hh, s, h1, h2⟩, h3⟩

/-- `Basic` credentials that are parameters. -/
theorem C94_notice_1209 : ReportedId (W.all base) (loadPayloads L (W.all base) W.codings given ex) .req 1209 ↔
    OnRequest ex fun req => ∃ x, CredentialsText base.lower req.fields x ∧ SameWord x.scheme (str "Basic") ∧ ∃ l, x.details.pairs = some l := by
  rw [C69_notice_1209 _ (C91_sensible hW hl) _ hok (C91_own hW hl (by decide +kernel))]
  refine (on_request fun _ _ => Iff.rfl).trans (request_congr fun req => creds_of hW hl req _ fun x hx => ?_)
  simp only [said_params]
  exact ⟨fun ⟨_, l, h, _⟩ => ⟨l, h⟩, fun ⟨l, h⟩ => ⟨_, l, h, rfl⟩⟩

/-- `Bearer` credentials without TLS. -/
theorem C94_notice_1261 : ReportedId (W.all base) (loadPayloads L (W.all base) W.codings given ex) .req 1261 ↔
    OnRequest ex fun req => req.scheme = some (str "http") ∧ ∃ x, CredentialsText base.lower req.fields x ∧ SameWord x.scheme (str "Bearer") := by
  rw [C69_notice_1261 _ (C91_sensible hW hl) _ hok (C91_own hW hl (by decide +kernel))]
  refine (on_request fun _ _ => Iff.rfl).trans (request_congr fun req => ?_)
  rw [creds_of hW hl req _ (P := fun _ => req.scheme = some (str "http")) (Q := fun _ => req.scheme = some (str "http")) fun _ _ => .rfl]
  exact ⟨fun ⟨x, h1, h2, h3⟩ => ⟨h3, x, h1, h2⟩, fun ⟨h3, x, h1, h2⟩ => ⟨x, h1, h2, h3⟩⟩

/-- `Bearer` credentials that are parameters. -/
theorem C94_notice_1262 : ReportedId (W.all base) (loadPayloads L (W.all base) W.codings given ex) .req 1262 ↔
    OnRequest ex fun req => ∃ x, CredentialsText base.lower req.fields x ∧ SameWord x.scheme (str "Bearer") ∧ ∃ l, x.details.pairs = some l := by
  rw [C69_notice_1262 _ (C91_sensible hW hl) _ hok (C91_own hW hl (by decide +kernel))]
  refine (on_request fun _ _ => Iff.rfl).trans (request_congr fun req => creds_of hW hl req _ fun x hx => ?_)
  simp only [said_params]
  exact ⟨fun ⟨_, l, h, _⟩ => ⟨l, h⟩, fun ⟨l, h⟩ => ⟨_, l, h, rfl⟩⟩

/-- Credentials of another scheme that are empty. -/
theorem C94_notice_1274 : ReportedId (W.all base) (loadPayloads L (W.all base) W.codings given ex) .req 1274 ↔
    OnRequest ex fun req => ∃ x, CredentialsText base.lower req.fields x ∧ ¬SameWord x.scheme (str "Basic") ∧
      ¬SameWord x.scheme (str "Bearer") ∧ x.details.pairs = some [] := by
  rw [C69_notice_1274 _ (C91_sensible hW hl) _ hok (C91_own hW hl (by decide +kernel))]
  refine (on_request fun _ _ => Iff.rfl).trans (request_congr fun req => ?_)
  rw [← creds_all hW hl req.fields (P := fun a => ¬IsWord (W.all base) a.1 "Basic" ∧ ¬IsWord (W.all base) a.1 "Bearer" ∧
      (a.2 = .token68 [] ∨ a.2 = .params []))]
  · simp only [Prod.exists]
  · intro x hx
    refine and_congr (not_congr (word_all hl (token_below hx.1) _)) (and_congr (not_congr (word_all hl (token_below hx.1) _)) ?_)
    constructor
    · rintro (h | h)
      · obtain ⟨s, d⟩ := x
        cases d with
        | nothing => rfl
        | token s t =>
          have h : AuthParams.token68 t.text = .token68 [] := h
          simp only [Token68.text, AuthParams.token68.injEq, List.append_eq_nil_iff] at h
          exact absurd h.1 hx.2.2.1
        | params s l => cases h
      · obtain ⟨l, h1, h2⟩ := said_params.1 h
        cases l with
        | nil => exact h1
        | cons p l => cases h2
    · intro h
      exact .inr (said_params.2 ⟨[], h, rfl⟩)

/-! ## Challenges -/

omit hok in
theorem challenges_in (m : Msg) {hdr : String} (hh : hdr ∈ challengeHeaders) (v : Str × AuthParams) :
    Listed (W.all base) m hdr (W.all base).grammars.challenge v ↔
      ∃ x, InText base.lower m hdr (List1Syn.Ok AuthSyn.Ok) (List1Syn.text AuthSyn.text) List1Syn.elems x ∧ v = (x.scheme, x.details.said) := by
  have G := fun (e : Entry) (he : Called base.lower e.name hdr) => ((all_literate hW hl).challenge e (by
    simp only [challengeHeaders, List.mem_cons, List.not_mem_nil, or_false] at hh
    rcases hh with rfl | rfl
    · exact .inl he
    · exact .inr he)).1
  unfold Listed InText HasName
  rw [all_lower]
  constructor
  · rintro ⟨e, he, hn, l, hl, hv⟩
    obtain ⟨x, k1, k2, rfl⟩ := (G e hn l).1 hl
    obtain ⟨y, hy, rfl⟩ := List.mem_map.1 hv
    exact ⟨y, ⟨e, he, hn, x, k1, k2, hy⟩, rfl⟩
  · rintro ⟨y, ⟨e, he, hn, x, k1, k2, hy⟩, rfl⟩
    exact ⟨e, he, hn, _, (G e hn _).2 ⟨x, k1, k2, rfl⟩, List.mem_map.2 ⟨y, hy, rfl⟩⟩

omit hok in
theorem challenges_of (r : Response) (scheme : String) {P : AuthParams → Prop} {Q : AuthSyn → Prop} (h : ∀ x : AuthSyn, x.Ok → (P x.details.said ↔ Q x)) :
    (∃ c, Challenges (W.all base) r scheme c ∧ P c) ↔
      ∃ x, ChallengeText base.lower r.fields x ∧ SameWord x.scheme (str scheme) ∧ Q x := by
  unfold Challenges ChallengeText
  constructor
  · rintro ⟨c, ⟨hdr, hh, s, h1, h2⟩, h3⟩
    obtain ⟨x, hx, e⟩ := (challenges_in hW hl _ hh _).1 h1
    have ok : x.Ok := by
      obtain ⟨_, _, _, l, k, _, hm⟩ := hx
      exact elems1_ok k x hm
    cases e
    exact ⟨x, ⟨hdr, hh, hx⟩, (word_all hl (token_below ok.1) _).1 h2, (h x ok).1 h3⟩
  · rintro ⟨x, ⟨hdr, hh, hx⟩, h2, h3⟩
    have ok : x.Ok := by
      obtain ⟨_, _, _, l, k, _, hm⟩ := hx
      exact elems1_ok k x hm
    exact ⟨_, ⟨hdr, hh, _, (challenges_in hW hl _ hh _).2 ⟨x, hx, rfl⟩, (word_all hl (token_below ok.1) _).2 h2⟩, (h x ok).2 h3⟩

omit hok in
theorem bearer_of (r : Response) {P : AuthParams → Prop} {Q : AuthSyn → Prop} (h : ∀ x : AuthSyn, x.Ok → (P x.details.said ↔ Q x)) :
    (∃ c, BearerChallenge (W.all base) r c ∧ P c) ↔ ∃ x, BearerText base.lower r.fields x ∧ Q x := by
  unfold BearerChallenge BearerText
  have hh : "WWW-Authenticate" ∈ challengeHeaders := List.mem_cons_self
  constructor
  · rintro ⟨c, ⟨s, h1, h2⟩, h3⟩
    obtain ⟨x, hx, e⟩ := (challenges_in hW hl _ hh _).1 h1
    have ok : x.Ok := by
      obtain ⟨_, _, _, l, k, _, hm⟩ := hx
      exact elems1_ok k x hm
    cases e
    exact ⟨x, ⟨hx, (word_all hl (token_below ok.1) _).1 h2⟩, (h x ok).1 h3⟩
  · rintro ⟨x, ⟨hx, h2⟩, h3⟩
    have ok : x.Ok := by
      obtain ⟨_, _, _, l, k, _, hm⟩ := hx
      exact elems1_ok k x hm
    exact ⟨_, ⟨_, (challenges_in hW hl _ hh _).2 ⟨x, hx, rfl⟩, (word_all hl (token_below ok.1) _).2 h2⟩, (h x ok).2 h3⟩

omit hW hl hok in
/-- What is said of the parameters. -/
theorem params_of {x : AuthSyn} {P : List (Str × Str) → Prop} {Q : List Param → Prop}
    (h : ∀ l, x.details.pairs = some l → (P (l.map fun p => (p.name, p.value.content)) ↔ Q l)) :
    (∃ ps, x.details.said = .params ps ∧ P ps) ↔ ∃ l, x.details.pairs = some l ∧ Q l := by
  constructor
  · rintro ⟨ps, h1, h2⟩
    obtain ⟨l, h3, rfl⟩ := said_params.1 h1
    exact ⟨l, h3, (h l h3).1 h2⟩
  · rintro ⟨l, h1, h2⟩
    exact ⟨_, said_params.2 ⟨l, h1, rfl⟩, (h l h1).2 h2⟩

/-- A `Basic` challenge that is not parameters. -/
theorem C94_notice_1273 (i : Nat) : ReportedId (W.all base) (loadPayloads L (W.all base) W.codings given ex) (.resp i) 1273 ↔
    OnResponse ex i fun r => ∃ x, ChallengeText base.lower r.fields x ∧ SameWord x.scheme (str "Basic") ∧ x.details.pairs = none := by
  rw [C69_notice_1273 _ (C91_sensible hW hl) _ hok (C91_own hW hl (by decide +kernel)) i]
  exact (on_response fun _ _ => Iff.rfl).trans (response_congr fun r => challenges_of hW hl r _ fun x hx => said_token)

/-- A `Basic` challenge without a realm. -/
theorem C94_notice_1206 (i : Nat) : ReportedId (W.all base) (loadPayloads L (W.all base) W.codings given ex) (.resp i) 1206 ↔
    OnResponse ex i fun r => ∃ x, ChallengeText base.lower r.fields x ∧ SameWord x.scheme (str "Basic") ∧
      ∃ l, x.details.pairs = some l ∧ ¬∃ p ∈ l, SameWord p.name (str "realm") := by
  rw [C69_notice_1206 _ (C91_sensible hW hl) _ hok (C91_own hW hl (by decide +kernel)) i]
  exact (on_response fun _ _ => Iff.rfl).trans (response_congr fun r => challenges_of hW hl r _ fun x hx =>
    params_of fun l hp => not_congr (param_all hl (fun p : Param => p.value.content) (pairs_below hx hp) _))

/-- A `Basic` challenge with a charset other than UTF-8. -/
theorem C94_notice_1208 (i : Nat) : ReportedId (W.all base) (loadPayloads L (W.all base) W.codings given ex) (.resp i) 1208 ↔
    OnResponse ex i fun r => ∃ x, ChallengeText base.lower r.fields x ∧ SameWord x.scheme (str "Basic") ∧
      ∃ l, x.details.pairs = some l ∧ ∃ p ∈ l, SameWord p.name (str "charset") ∧ base.lower p.value.content ≠ str "utf-8" := by
  rw [C69_notice_1208 _ (C91_sensible hW hl) _ hok (C91_own hW hl (by decide +kernel)) i]
  refine (on_response fun _ _ => Iff.rfl).trans (response_congr fun r => challenges_of hW hl r _ fun x hx => params_of fun l hp => ?_)
  have hu : ∀ w, IsWord (W.all base) w "UTF-8" ↔ base.lower w = str "utf-8" := by
    intro w
    unfold IsWord
    rw [all_lower, show asciiLower (str "UTF-8") = str "utf-8" by decide +kernel]
  constructor
  · rintro ⟨_, hq, h1, h2⟩
    obtain ⟨p, hm, rfl⟩ := List.mem_map.1 hq
    exact ⟨p, hm, (word_all hl (pairs_below hx hp p hm) _).1 h1, fun h => h2 ((hu _).2 h)⟩
  · rintro ⟨p, hm, h1, h2⟩
    exact ⟨_, List.mem_map.2 ⟨p, hm, rfl⟩, (word_all hl (pairs_below hx hp p hm) _).2 h1, fun h => h2 ((hu _).1 h)⟩

/-- A `Basic` challenge with other parameters. -/
theorem C94_notice_1207 (i : Nat) : ReportedId (W.all base) (loadPayloads L (W.all base) W.codings given ex) (.resp i) 1207 ↔
    OnResponse ex i fun r => ∃ x, ChallengeText base.lower r.fields x ∧ SameWord x.scheme (str "Basic") ∧
      ∃ l, x.details.pairs = some l ∧ ∃ p ∈ l, ¬SameWord p.name (str "charset") ∧ ¬SameWord p.name (str "realm") := by
  rw [C69_notice_1207 _ (C91_sensible hW hl) _ hok (C91_own hW hl (by decide +kernel)) i]
  refine (on_response fun _ _ => Iff.rfl).trans (response_congr fun r => challenges_of hW hl r _ fun x hx => params_of fun l hp => ?_)
  constructor
  · rintro ⟨_, hq, h1, h2⟩
    obtain ⟨p, hm, rfl⟩ := List.mem_map.1 hq
    have hw := fun k => word_all (W := W) hl (pairs_below hx hp p hm) k
    exact ⟨p, hm, fun h => h1 ((hw _).2 h), fun h => h2 ((hw _).2 h)⟩
  · rintro ⟨p, hm, h1, h2⟩
    have hw := fun k => word_all (W := W) hl (pairs_below hx hp p hm) k
    exact ⟨_, List.mem_map.2 ⟨p, hm, rfl⟩, fun h => h1 ((hw _).1 h), fun h => h2 ((hw _).1 h)⟩

/-- A `Bearer` challenge without TLS. -/
theorem C94_notice_1263 (i : Nat) : ReportedId (W.all base) (loadPayloads L (W.all base) W.codings given ex) (.resp i) 1263 ↔
    OnAnswer ex i fun r req => req.scheme = some (str "http") ∧ ∃ x, BearerText base.lower r.fields x := by
  rw [C69_notice_1263 _ (C91_sensible hW hl) _ hok (C91_own hW hl (by decide +kernel)) i]
  refine (on_answer fun _ _ _ _ => Iff.rfl).trans (answer_congr fun r req => and_comm.trans (and_congr_right fun _ => ?_))
  have := bearer_of (W := W) hW hl r (P := fun _ => True) (Q := fun _ => True) fun _ _ => .rfl
  simpa only [and_true] using this

/-- A `Bearer` challenge without parameters. -/
theorem C94_notice_1264 (i : Nat) : ReportedId (W.all base) (loadPayloads L (W.all base) W.codings given ex) (.resp i) 1264 ↔
    OnResponse ex i fun r => ∃ x, BearerText base.lower r.fields x ∧ (x.details.pairs = some [] ∨ x.details.pairs = none) := by
  rw [C69_notice_1264 _ (C91_sensible hW hl) _ hok (C91_own hW hl (by decide +kernel)) i]
  refine (on_response fun _ _ => Iff.rfl).trans (response_congr fun r => bearer_of hW hl r fun x hx => or_congr ?_ said_token)
  rw [said_params]
  constructor
  · rintro ⟨l, h1, h2⟩
    cases l with
    | nil => exact h1
    | cons p l => cases h2
  · exact fun h => ⟨[], h, rfl⟩

/-- An error code that goes with another status. -/
theorem C94_notice_1268 (i : Nat) : ReportedId (W.all base) (loadPayloads L (W.all base) W.codings given ex) (.resp i) 1268 ↔
    OnResponse ex i fun r => ∃ x, BearerText base.lower r.fields x ∧ ∃ l, x.details.pairs = some l ∧
      ∃ a p b, l = a ++ p :: b ∧ SameWord p.name (str "error") ∧ (∀ q ∈ a, ¬SameWord q.name (str "error")) ∧
        ∃ y ∈ [("invalid_request", 400), ("invalid_token", 401), ("insufficient_scope", 403)], p.value.content = str y.1 ∧ r.status ≠ y.2 := by
  rw [C69_notice_1268 _ (C91_sensible hW hl) _ hok (C91_own hW hl (by decide +kernel)) i]
  refine (on_response fun _ _ => Iff.rfl).trans (response_congr fun r => bearer_of hW hl r fun x hx => params_of fun l hp => ?_)
  constructor
  · rintro ⟨code, h1, h2⟩
    obtain ⟨a, p, b, k1, k2, k3, rfl⟩ := (first_all hl (pairs_below hx hp) _ _).1 h1
    exact ⟨a, p, b, k1, k2, k3, h2⟩
  · rintro ⟨a, p, b, k1, k2, k3, h2⟩
    exact ⟨_, (first_all hl (pairs_below hx hp) _ _).2 ⟨a, p, b, k1, k2, k3, rfl⟩, h2⟩

/-- An answer to a request with a token that does not say what is wrong. -/
theorem C94_notice_1267 (i : Nat) : ReportedId (W.all base) (loadPayloads L (W.all base) W.codings given ex) (.resp i) 1267 ↔
    OnAnswer ex i fun r req => r.status = 401 ∧
      (∃ x, BearerText base.lower r.fields x ∧ ∃ l, x.details.pairs = some l ∧ l ≠ [] ∧ ¬∃ p ∈ l, SameWord p.name (str "error")) ∧
      ∃ x, LastText base.lower req.fields "Authorization" AuthSyn.Ok AuthSyn.text x ∧ SameWord x.scheme (str "Bearer") := by
  rw [C69_notice_1267 _ (C91_sensible hW hl) _ hok (C91_own hW hl (by decide +kernel)) i]
  refine (on_answer fun _ _ _ _ => Iff.rfl).trans (answer_congr fun r req => and_congr_right fun _ => and_congr ?_ ?_)
  · refine bearer_of hW hl r fun x hx => params_of fun l hp => and_congr (not_congr ?_)
      (not_congr (param_all hl (fun p : Param => p.value.content) (pairs_below hx hp) _))
    exact List.map_eq_nil_iff
  · have G := (all_literate hW hl).authorization
    unfold LastOf LastText HasName
    rw [all_lower]
    constructor
    · rintro ⟨v, ⟨a, e, b, h1, h2, h3, h4⟩, hP⟩
      obtain ⟨x, k1, k2, rfl⟩ := (G e (.inl h2) v).1 h4
      exact ⟨x, ⟨a, e, b, h1, h2, h3, k1, k2⟩, (word_all hl (token_below k1.1) _).1 hP⟩
    · rintro ⟨x, ⟨a, e, b, h1, h2, h3, k1, k2⟩, hQ⟩
      exact ⟨_, ⟨a, e, b, h1, h2, h3, (G e (.inl h2) _).2 ⟨x, k1, k2, rfl⟩⟩, (word_all hl (token_below k1.1) _).2 hQ⟩

end

section Examples

open Httpolice.Spec.Toy

/-- What is written in a header alone. -/
theorem text_alone {α : Type} {Ok : α → Prop} {print : α → Str} {x : α} {name value : String} {n : String}
    (h1 : asciiLower (str n) = asciiLower (str name)) (h2 : Ok x) (h3 : str value = print x) {l : List Entry} (hf : fieldsFor ⟨l, []⟩ name = l)
    (hl : l = [h n value]) : LastText Toy.env.lower ⟨l, []⟩ name Ok print x := by
  subst hl
  exact ⟨[], _, [], hf, h1, nofun, h2, h3⟩

/-- `text/Javascript`, with a parameter twice. -/
private def script : MediaSyn := ⟨str "text", str "Javascript", [(([], []), ⟨str "a", .token (str "1")⟩), (([], []), ⟨str "A", .token (str "2")⟩)]⟩

/-- C94: a media type that is not to be used any more. -/
example {W : World} (hW : Ready W) : ReportedId (W.all Toy.env) (loadPayloads tools (W.all Toy.env) W.codings ungiven
      ⟨some (req "PUT" [h "content-type" "text/Javascript;a=1;A=2"]), []⟩) .req 1035 ∧
    ReportedId (W.all Toy.env) (loadPayloads tools (W.all Toy.env) W.codings ungiven
      ⟨some (req "PUT" [h "content-type" "text/Javascript;a=1;A=2"]), []⟩) .req 1042 := by
  have ht : TypeText Toy.env.lower (req "PUT" [h "content-type" "text/Javascript;a=1;A=2"]).fields script := by
    refine text_alone (by decide +kernel) ?_ (by decide +kernel) rfl rfl
    refine ⟨by unfold IsToken IsTchar; decide +kernel, by unfold IsToken IsTchar; decide +kernel, ?_⟩
    rintro x hx
    simp only [script, List.mem_cons, List.not_mem_nil, or_false] at hx
    rcases hx with rfl | rfl
    · exact ⟨⟨nofun, nofun⟩, show IsToken (str "a") by unfold IsToken IsTchar; decide +kernel, show IsToken (str "1") by unfold IsToken IsTchar; decide +kernel⟩
    · exact ⟨⟨nofun, nofun⟩, show IsToken (str "A") by unfold IsToken IsTchar; decide +kernel, show IsToken (str "2") by unfold IsToken IsTchar; decide +kernel⟩
  constructor
  · exact (C94_notice_1035 hW toy_lower (tools_quiet hW _) .req).mpr ⟨_, rfl, script, ht, by decide +kernel⟩
  · exact (C94_notice_1042 hW toy_lower (tools_quiet hW _) .req).mpr ⟨_, rfl, script, ht, [], str "a", [], str "A", [], rfl, by decide +kernel⟩

/-- C94: `Basic` is not given parameters, and libraries are not the user agent. -/
example {W : World} (hW : Ready W) : ReportedId (W.all Toy.env) (loadPayloads tools (W.all Toy.env) W.codings ungiven
      ⟨some (req "GET" [h "AUTHORIZATION" "basic  user=me"]), []⟩) .req 1209 ∧
    ReportedId (W.all Toy.env) (loadPayloads tools (W.all Toy.env) W.codings ungiven ⟨some (req "GET" [h "user-agent" "okhttp/3"]), []⟩) .req 1093 ∧
    ¬ReportedId (W.all Toy.env) (loadPayloads tools (W.all Toy.env) W.codings ungiven ⟨some (req "GET" []), []⟩) .req 1093 := by
  refine ⟨?_, ?_, ?_⟩
  · refine (C94_notice_1209 hW toy_lower (tools_quiet hW _)).mpr ⟨_, rfl,
      ⟨str "basic", .params (str "  ") ⟨some (⟨str "user", [], [], .token (str "me")⟩, []), []⟩⟩, .inl ?_, by decide +kernel, _, rfl⟩
    refine text_alone (by decide +kernel) ⟨show IsToken (str "basic") by unfold IsToken IsTchar; decide +kernel, ⟨by decide +kernel, by decide +kernel⟩,
      ⟨⟨show IsToken (str "user") by unfold IsToken IsTchar; decide +kernel, nofun, nofun, show IsToken (str "me") by unfold IsToken IsTchar; decide +kernel⟩,
        nofun⟩, nofun⟩ (by decide +kernel) rfl rfl
  · refine (C94_notice_1093 hW toy_lower (tools_quiet hW _)).mpr ⟨_, rfl, ⟨⟨str "okhttp", some (str "3")⟩, []⟩, ?_, by decide +kernel⟩
    refine text_alone (by decide +kernel) ⟨⟨show IsToken (str "okhttp") by unfold IsToken IsTchar; decide +kernel, ?_⟩, nofun⟩ (by decide +kernel) rfl rfl
    rintro v hv
    obtain rfl := Option.some.inj hv
    unfold IsToken IsTchar; decide +kernel
  · intro hr
    obtain ⟨q, hq, x, ⟨a, e, b, h1, _⟩, _⟩ := (C94_notice_1093 hW toy_lower (tools_quiet hW _)).mp hr
    cases hq
    have h1 : ([] : List Entry) = a ++ e :: b := h1
    simp at h1

/-- One response without a date. -/
theorem tools_calm {W : World} (hW : Ready W) (q : Request) (r : Response) (hd : ∀ e ∈ r.fields.headers, ¬Called Toy.env.lower e.name "Date")
    (hs : r.status ≠ 451) : exchangeRaises (W.all Toy.env) (loadPayloads tools (W.all Toy.env) W.codings ungiven ⟨some q, [r]⟩) = false := by
  cases hr : exchangeRaises (W.all Toy.env) (loadPayloads tools (W.all Toy.env) W.codings ungiven ⟨some q, [r]⟩) with
  | false => rfl
  | true =>
    obtain ⟨r', hr, ⟨_, d, n, ⟨_, ⟨a, e, b, h1, h2, _⟩, _⟩, _⟩ | hb⟩ := (C94_raises hW toy_lower).mp hr
    · obtain rfl : r' = r := by simpa using hr
      have h1 : r'.fields.headers ++ [] = a ++ e :: b := h1
      rw [List.append_nil] at h1
      exact absurd h2 (hd e (by rw [h1]; simp))
    · obtain rfl : r' = r := by simpa using hr
      exact absurd hb.1 hs

/-- C94: a challenge to a request that was sent a token. -/
example {W : World} (hW : Ready W) : ReportedId (W.all Toy.env) (loadPayloads tools (W.all Toy.env) W.codings ungiven
      ⟨some (req "GET" [h "Authorization" "Bearer t"]), [resp 401 [h "WWW-authenticate" "basic, bearer a=b"]]⟩) (.resp 0) 1267 ∧
    ReportedId (W.all Toy.env) (loadPayloads tools (W.all Toy.env) W.codings ungiven
      ⟨some (req "GET" [h "Authorization" "Bearer t"]), [resp 401 [h "WWW-authenticate" "basic, bearer a=b"]]⟩) (.resp 0) 1206 := by
  have tok : ∀ {w : Str}, (w ≠ [] ∧ ∀ c ∈ w, tcharBits c = true) → IsToken w := fun hw => sameWord_token hw (sameWord_refl _)
  have hq := tools_calm hW (req "GET" [h "Authorization" "Bearer t"]) (resp 401 [h "WWW-authenticate" "basic, bearer a=b"]) (by
    intro e he
    obtain rfl : e = h "WWW-authenticate" "basic, bearer a=b" := by simpa [resp] using he
    show ¬ asciiLower _ = asciiLower _
    decide +kernel) (by decide)
  let b : AuthSyn := ⟨str "basic", .nothing⟩
  let c : AuthSyn := ⟨str "bearer", .params (str " ") ⟨some (⟨str "a", [], [], .token (str "b")⟩, []), []⟩⟩
  have hc : c.Ok := ⟨tok (by decide +kernel), ⟨by decide +kernel, by decide +kernel⟩, ⟨⟨tok (by decide +kernel), nofun, nofun,
    show IsToken (str "b") from tok (by decide +kernel)⟩, nofun⟩, nofun⟩
  have hl : (⟨[], b, [([], some (str " ", c))]⟩ : List1Syn AuthSyn).Ok AuthSyn.Ok := by
    refine ⟨nofun, ⟨tok (by decide +kernel), trivial⟩, ?_⟩
    intro x hx
    obtain rfl : x = ([], some (str " ", c)) := by simpa using hx
    exact ⟨nofun, by unfold IsOws; decide +kernel, hc⟩
  have hin : ∀ x, x = b ∨ x = c → InText Toy.env.lower (resp 401 [h "WWW-authenticate" "basic, bearer a=b"]).fields "WWW-Authenticate"
      (List1Syn.Ok AuthSyn.Ok) (List1Syn.text AuthSyn.text) List1Syn.elems x := by
    intro x hx
    refine ⟨h "WWW-authenticate" "basic, bearer a=b", by decide +kernel, by show asciiLower _ = asciiLower _; decide +kernel, _, hl, by decide +kernel, ?_⟩
    rcases hx with rfl | rfl
    · exact List.mem_cons_self
    · exact List.mem_cons_of_mem _ List.mem_cons_self
  constructor
  · refine (C94_notice_1267 hW toy_lower hq 0).mpr ⟨_, _, rfl, rfl, rfl, ⟨c, ⟨hin c (.inr rfl), by decide +kernel⟩, _, rfl, nofun, by decide +kernel⟩, 
      ⟨str "Bearer", .token (str " ") ⟨str "t", 0⟩⟩, ?_, by decide +kernel⟩
    refine text_alone (by decide +kernel) ⟨tok (by decide +kernel), ⟨by decide +kernel, by decide +kernel⟩, by decide +kernel, ?_⟩ (by decide +kernel) rfl rfl
    unfold IsToken68Char
    decide +kernel
  · exact (C94_notice_1206 hW toy_lower hq 0).mpr ⟨_, rfl, b, ⟨_, List.mem_cons_self, hin b (.inl rfl)⟩, by decide +kernel, [], rfl, nofun⟩

/-- C94: what is silenced is not visible. -/
example {W : World} (hW : Ready W) (c : Complaint Ctx) (hc : c.id = 1093) : ¬Visible (W.all Toy.env) (loadPayloads tools (W.all Toy.env) W.codings ungiven
    ⟨some (req "GET" [h "user-agent" "okhttp/3", h "httpolice-silence" "1045 RESP, 01093"]), []⟩) .req c := by
  intro hv
  refine ((C94_visible hW toy_lower (tools_quiet hW _) .req c).mp hv).2 ⟨_, rfl, ⟨str "01093", none⟩, ?_, by rw [hc]; decide +kernel, rfl⟩
  refine ⟨h "httpolice-silence" "1045 RESP, 01093", by decide +kernel, by show asciiLower _ = asciiLower _; decide +kernel,
    ⟨some (⟨str "1045", some (str " ", str "RESP")⟩, []), [(str " ", some (⟨str "01093", none⟩, []))]⟩, ?_, by decide +kernel, ?_⟩
  · refine ⟨⟨⟨by unfold IsNumeral; decide +kernel, ?_⟩, nofun⟩, ?_⟩
    · rintro s w hs
      obtain ⟨rfl, rfl⟩ := Prod.mk.inj (Option.some.inj hs)
      exact ⟨by unfold IsRws IsOws; decide +kernel, by decide +kernel⟩
    · rintro x hx
      obtain rfl := List.mem_singleton.mp hx
      exact ⟨by unfold IsOws; decide +kernel, ⟨by unfold IsNumeral; decide +kernel, nofun⟩, nofun⟩
  · exact List.mem_cons_of_mem _ List.mem_cons_self

/-- C94: a date in the year 9999 and an age of two days raise an exception. -/
example {W : World} (hW : Ready W) : exchangeRaises (W.all Toy.env) (loadPayloads tools (W.all Toy.env) W.codings ungiven
    ⟨none, [resp 200 [h "Age" "172800", h "date" "Fri, 31 Dec 9999 00:00:00 GMT"]]⟩) = true := by
  refine (C94_raises hW toy_lower).mpr ⟨_, List.mem_cons_self, .inl ⟨by decide, _, _,
    ⟨(.imf, ⟨4, 9999, 12, 31, 0, 0, 0⟩), ⟨[h "Age" "172800"], _, [], rfl, by show asciiLower _ = asciiLower _; decide +kernel, nofun, ?_, by decide +kernel⟩, ?_, rfl⟩,
    ⟨str "172800", ⟨[], _, [h "date" "Fri, 31 Dec 9999 00:00:00 GMT"], rfl, by show asciiLower _ = asciiLower _; decide +kernel, ?_, by unfold IsNumeral; decide +kernel, by decide +kernel⟩, rfl⟩,
    by decide +kernel⟩⟩
  · decide +kernel
  · decide +kernel
  · rintro y hy
    obtain rfl := List.mem_singleton.mp hy
    show ¬ asciiLower _ = asciiLower _
    decide +kernel

end Examples

end Httpolice.Props
