import Verif.Props.Texts
import Verif.Model.LinkRaise
import Verif.Spec.LinkText

/-!
# C99: what is made of Link headers
-/

namespace Httpolice.Props

open Model Spec Lemmas

/-- The value of a link. -/
def LinkIs (P : LinkParser) (l : LinkSyn) (v : GVal) : Prop :=
  ∃ m, v = .obj (str "Parametrized") [.text l.target, m] ∧
    ((Sound l.entries ∧ ∃ cs, Become P l.entries m cs) ∨ (¬Sound l.entries ∧ ∃ e, m = raisedObj e))

theorem linkIs_same {P : LinkParser} {l l' : LinkSyn} {v : GVal} (h : LinkIs P l v) (ht : l.target = l'.target) (he : l.entries = l'.entries) :
    LinkIs P l' v := by
  unfold LinkIs at h ⊢
  rwa [← ht, ← he]

section
variable {W : World} (hW : Ready W)
include hW

theorem link_comes : ∃ k, W.linkSym .link = .nt k ∧ Comes (fun data => innerParse W.final.grammar (pyOps W.annotate) data k)
    (ListSyn.Ok LinkSyn.Ok) (ListSyn.text LinkSyn.text)
    (fun x v => ∃ vs, v = .list vs ∧ Pairwise2 (LinkIs W.linkParser) x.elems vs) := by
  obtain ⟨k, hk, h1, h2⟩ := C79_link (env := W.link.env) hW.link.1 hW.link.2 W.annotate
  refine ⟨k, hk, h1, fun x hx => ?_⟩
  obtain ⟨y, rs, cs, as, _, _, he, h3, h4, h5⟩ := h2 x hx
  refine ⟨_, cs, as, h4, _, rfl, ?_⟩
  generalize x.elems = l at he ⊢
  generalize y.elems = ys at he h3
  clear h4 h5
  induction h3 generalizing l with
  | nil =>
    cases l with
    | nil => exact .nil
    | cons a l => cases he
  | @cons b r bs rs h _ ih =>
    cases l with
    | nil => cases he
    | cons a l =>
      rw [List.map_cons, List.map_cons, List.cons.injEq, Prod.mk.injEq] at he
      refine .cons ?_ (ih l he.2)
      obtain ⟨m, ds, rfl, h⟩ := h
      refine linkIs_same ⟨m, rfl, ?_⟩ he.1.1 he.1.2
      rcases h with ⟨hs, h⟩ | ⟨hs, h, _⟩
      · exact .inl ⟨hs, _, h⟩
      · exact .inr ⟨hs, h⟩

theorem link_read (e : Entry) :
    (∀ ls, HeaderLinks e ls → ∃ vs, W.read "Link" e = .list vs ∧ Pairwise2 (LinkIs W.linkParser) ls vs) ∧
    ((¬∃ ls, HeaderLinks e ls) → W.read "Link" e = .unavailable (some e.value)) := by
  obtain ⟨k, hk, h⟩ := link_comes hW
  rw [plain_read (key := "Link") (s := W.linkSym .link) rfl hk]
  have := valued_plain (key := "Link") h (by rintro x _ _ ⟨vs, rfl, _⟩; exact .inl nofun) e
  refine ⟨?_, fun hn => this.2 fun ⟨x, hx, ex⟩ => hn ⟨_, x, hx, ex, rfl⟩⟩
  rintro _ ⟨x, hx, ex, rfl⟩
  obtain ⟨_, ⟨vs, rfl, h2⟩, h3⟩ := this.1 x hx ex
  refine ⟨vs, ?_, h2⟩
  dsimp only at h3 ⊢
  generalize ((knownKind "Link" _ plainProcess).parse e).1 = r at h3 ⊢
  cases h3 with
  | list => rfl
  | single h => exact absurd rfl (h _)

omit hW in
theorem raised_iff {P : LinkParser} {l : LinkSyn} {v : GVal} (h : LinkIs P l v) : raisedLink v = true ↔ ¬Sound l.entries := by
  obtain ⟨m, rfl, ⟨hs, cs, rs, _, rfl, _⟩ | ⟨hs, e, rfl⟩⟩ := h
  · simp [raisedLink, multi, hs]
  · simp only [hs, not_false_eq_true, iff_true]
    cases e <;> rfl

/-- **C99**: reading the headers of a message raises an exception just if some link lacks a value that is needed. -/
theorem C99_raises {lower : Str → Str} (hl : LowersAscii lower) (m : Msg) :
    W.linkRaises lower m = true ↔ LacksValue lower m := by
  have hn : lower (str "Link") = asciiLower (str "Link") := hl _ (by decide +kernel)
  unfold World.linkRaises LacksValue Called
  simp only [List.any_eq_true, List.mem_filter, beq_iff_eq, hn]
  constructor
  · rintro ⟨e, ⟨he, hc⟩, h⟩
    refine ⟨e, he, hc, ?_⟩
    by_cases hx : ∃ ls, HeaderLinks e ls
    · obtain ⟨ls, hx⟩ := hx
      obtain ⟨vs, h1, h2⟩ := (link_read hW e).1 ls hx
      rw [h1] at h
      obtain ⟨v, hv, h⟩ := List.any_eq_true.1 h
      obtain ⟨l, hl, hlv⟩ := (pairwise2_mem h2).1 v hv
      exact ⟨ls, hx, l, hl, (raised_iff hlv).1 h⟩
    · rw [(link_read hW e).2 hx] at h
      cases h
  · rintro ⟨e, he, hc, ls, hx, l, hl, hs⟩
    obtain ⟨vs, h1, h2⟩ := (link_read hW e).1 ls hx
    obtain ⟨v, hv, hlv⟩ := (pairwise2_mem h2).2 l hl
    refine ⟨e, ⟨he, hc⟩, ?_⟩
    rw [h1]
    exact List.any_eq_true.2 ⟨v, hv, (raised_iff hlv).2 hs⟩

/-! ## Relations -/

theorem rel_parsed (w : Str) :
    (∀ x : RelsSyn, x.Ok → w = x.text → ∃ cs as, W.linkParser .rel w = .ok (.val x.value, cs, as)) ∧
    ((¬∃ x : RelsSyn, x.Ok ∧ w = x.text) → ∃ e, W.linkParser .rel w = .error e) := by
  obtain ⟨k, hk, hr⟩ := C82_rel hW.order hW.ext.1 .refl W.annotate
  have : W.linkParser .rel = fun data => innerParse (W.ext.run (extDefs W.order)).2.grammar (pyOps W.annotate) data k := by
    unfold World.linkParser
    rw [show (W.ext.run (extDefs W.order)).1 LinkSymbol.rel.name = _ from hk]
    rfl
  rw [this]
  refine ⟨fun x hx e => ?_, fun hn => ?_⟩
  · obtain ⟨cs, as, h, _⟩ := hr.2 x hx
    exact ⟨cs, as, by rw [e]; exact h⟩
  · obtain ⟨e, he⟩ := (hr.1 w).2.2 hn
    exact ⟨_, he⟩

omit hW in
theorem p2_split {α β : Type} {R : α → β → Prop} : ∀ {a b : List α} {c : List β}, Pairwise2 R (a ++ b) c →
    ∃ c1 c2, c = c1 ++ c2 ∧ Pairwise2 R a c1 ∧ Pairwise2 R b c2
  | [], _, c, h => ⟨[], c, rfl, .nil, h⟩
  | _ :: _, _, _, .cons h h' =>
    let ⟨c1, c2, e, h1, h2⟩ := p2_split h'
    ⟨_ :: c1, c2, by rw [e]; rfl, .cons h h1, h2⟩

omit hW in
theorem placed_split {α : Type} (a : List α) (x : α) (b : List α) : ∃ rest, placed (a ++ x :: b) = placed a ++ (a, x) :: rest := by
  induction b using snocInduction with
  | nil => exact ⟨[], placed_snoc a x⟩
  | snoc b y ih =>
    obtain ⟨rest, h⟩ := ih
    refine ⟨rest ++ [(a ++ x :: b, y)], ?_⟩
    rw [show a ++ x :: (b ++ [y]) = (a ++ x :: b) ++ [y] by simp, placed_snoc, h]
    simp

omit hW in
theorem placed_mem {α : Type} {l : List α} {p : List α × α} (h : p ∈ placed l) : p.2 ∈ l := by
  unfold placed at h
  obtain ⟨i, hi, rfl⟩ := List.mem_mapIdx.1 h
  exact List.getElem_mem _

omit hW in
/-- None of these is a `rel`. -/
theorem not_rel {P : LinkParser} {a : List LinkEntry} {rs : List (List GVal × List PyComplaint)}
    (h : Pairwise2 (fun x r => Becomes P x r.1 r.2) (placed a) rs) (hn : ∀ e ∈ a, ¬SameWord e.1 (str "rel")) :
    ∀ v ∈ rs.flatMap Prod.fst,
      ¬(asciiLower (strText (unpackPair v |>.map Prod.fst |>.getD .none)) == str "rel") = true := by
  intro v hv
  obtain ⟨r, hr, hv⟩ := List.mem_flatMap.1 hv
  obtain ⟨p, hp, hb⟩ := (pairwise2_mem h).1 r hr
  rcases hb with ⟨_, h0, _⟩ | ⟨_, u, ds, _, h0, _⟩
  · rw [h0] at hv; cases hv
  · rw [h0, List.mem_singleton] at hv
    subst hv
    intro he
    rw [beq_iff_eq] at he
    exact hn _ (placed_mem hp) (lower_iff.1 (he.trans (by decide +kernel)))

omit hW in
theorem relText_unique {l : LinkSyn} {w w' : Str} (h : RelText l w) (h' : RelText l w') : w = w' := by
  obtain ⟨a, n, v, b, h1, h2, h3, rfl⟩ := h
  obtain ⟨a', n', v', b', k1, k2, k3, rfl⟩ := h'
  rw [h1] at k1
  clear h1
  induction a generalizing a' with
  | nil =>
    cases a' with
    | nil => simp only [List.nil_append, List.cons.injEq, Prod.mk.injEq, Option.some.injEq] at k1; rw [k1.1.2]
    | cons e a' =>
      simp only [List.nil_append, List.cons_append, List.cons.injEq] at k1
      exact absurd h2 (by have := k3 e List.mem_cons_self; rwa [← k1.1] at this)
  | cons e a ih =>
    cases a' with
    | nil =>
      simp only [List.nil_append, List.cons_append, List.cons.injEq] at k1
      exact absurd k2 (by have := h3 e List.mem_cons_self; rwa [k1.1] at this)
    | cons e' a' =>
      simp only [List.cons_append, List.cons.injEq] at k1
      exact ih (fun x hx => h3 x (List.mem_cons_of_mem _ hx)) a' k1.2 (fun x hx => k3 x (List.mem_cons_of_mem _ hx))

omit hW in
/-- The first that is `rel`, if there is one. -/
theorem rel_cases (l : List LinkEntry) : (∀ e ∈ l, ¬SameWord e.1 (str "rel")) ∨
    ∃ a n o b, l = a ++ (n, o) :: b ∧ SameWord n (str "rel") ∧ ∀ e ∈ a, ¬SameWord e.1 (str "rel") := by
  induction l with
  | nil => exact .inl nofun
  | cons e l ih =>
    by_cases h : SameWord e.1 (str "rel")
    · exact .inr ⟨[], e.1, e.2, l, rfl, h, nofun⟩
    · rcases ih with ih | ⟨a, n, o, b, rfl, h1, h2⟩
      · left
        intro x hx
        rcases List.mem_cons.1 hx with rfl | hx
        · exact h
        · exact ih x hx
      · refine .inr ⟨e :: a, n, o, b, rfl, h1, fun x hx => ?_⟩
        rcases List.mem_cons.1 hx with rfl | hx
        · exact h
        · exact h2 x hx

/-- What the checks take from a link. -/
theorem link_rel {l : LinkSyn} {v : GVal} (h : LinkIs W.linkParser l v) (hs : Sound l.entries) :
    (linkRelOf v = .absent ∧ ∀ w, ¬RelText l w) ∨
    (∃ x : RelsSyn, x.Ok ∧ RelText l x.text ∧ linkRelOf v = .rels (x.all.map RelSyn.text)) ∨
    (∃ w, RelText l w ∧ (¬∃ x : RelsSyn, x.Ok ∧ w = x.text) ∧ linkRelOf v = .malformed) := by
  obtain ⟨m, rfl, h⟩ := h
  obtain ⟨cs, rs, hp, rfl, _⟩ : ∃ cs, Become W.linkParser l.entries m cs := by
    rcases h with ⟨_, h⟩ | ⟨h, _⟩
    · exact h
    · exact absurd hs h
  rcases rel_cases l.entries with hn | ⟨a, n, o, b, he, hn, ha⟩
  · left
    refine ⟨?_, ?_⟩
    · unfold linkRelOf multi
      simp only
      rw [List.find?_eq_none.2 (not_rel hp hn)]
    · rintro w ⟨a, n, v, b, he, hr, _⟩
      exact hn (n, some v) (by rw [he]; simp) hr
  · right
    rw [he] at hp
    obtain ⟨rest, hpl⟩ := placed_split a (n, o) b
    rw [hpl] at hp
    obtain ⟨r1, r2, rfl, hp1, hp2⟩ := p2_split hp
    cases hp2 with
    | @cons _ r _ r2 hb hp2 =>
    have hag : ¬Again a n := by
      rintro ⟨_, e, hea, hsw⟩
      exact ha e hea (sameWord_trans hsw hn)
    rcases hb with ⟨h, _⟩ | ⟨_, u, ds, hv, hr, _⟩
    · exact absurd h hag
    have harg : IsArgument n .rel := .rel hn
    have hlack : ¬Lacking (a, (n, o)) := by
      apply hs
      unfold counted
      rw [List.mem_filter, he, hpl]
      exact ⟨by simp, by simpa using hag⟩
    obtain ⟨s, w, hs', ho, hread⟩ : ∃ s w, IsArgument n s ∧ o = some w ∧ ReadAs (W.linkParser s) n w.content u ds := by
      rcases hv with h | ⟨h, _⟩
      · exact h
      · exact absurd harg (h _)
    obtain rfl := argument_only hs' harg
    have ho : o = some w := ho
    subst ho
    have hrt : RelText l w.content := ⟨a, n, w, b, he, hn, ha, rfl⟩
    have hrel : linkRelOf (.obj (str "Parametrized") [.text l.target, multi ((r1 ++ r :: r2).flatMap Prod.fst)]) =
        match (generalizing := false) u with
        | .list rels => .rels (rels.map strText)
        | _ => .malformed := by
      unfold linkRelOf multi
      simp only
      rw [List.flatMap_append, List.flatMap_cons, List.find?_append, List.find?_eq_none.2 (not_rel hp1 ha), hr]
      have : (asciiLower (strText (unpackPair (GVal.tuple [nameValue (str "CaseInsensitive") n, u]) |>.map Prod.fst |>.getD .none)) == str "rel") = true := by
        rw [beq_iff_eq]
        exact (lower_iff.2 hn).trans (by decide +kernel)
      simp only [Option.none_or, List.cons_append, List.nil_append, List.find?_cons, this]
      cases u <;> rfl
    by_cases hx : ∃ x : RelsSyn, x.Ok ∧ w.content = x.text
    · obtain ⟨x, hx, ht⟩ := hx
      obtain ⟨cs, as, hparse⟩ := (rel_parsed hW w.content).1 x hx ht
      refine .inl ⟨x, hx, ht ▸ hrt, ?_⟩
      rcases hread with ⟨node, ds, as', hok, hu, _⟩ | ⟨e, herr, _⟩
      · rw [hparse] at hok
        cases hok
        subst hu
        rw [hrel]
        simp only [GVal.ofNode, RelsSyn.value, RelsSyn.all, List.map_cons, List.map_map]
        have : ∀ y : RelSyn, strText y.value = y.text := by rintro (_ | _) <;> rfl
        simp [this, Function.comp_def]
      · rw [hparse] at herr; cases herr
    · obtain ⟨e, herr⟩ := (rel_parsed hW w.content).2 hx
      refine .inr ⟨_, hrt, hx, ?_⟩
      rcases hread with ⟨node, ds, as', hok, hu, _⟩ | ⟨e, _, hu, _⟩
      · rw [herr] at hok; cases hok
      · subst hu
        rw [hrel]
        rfl

omit hW in
theorem rel_below {x : RelSyn} (h : x.Ok) : ∀ c ∈ x.text, c < 128 := by
  cases x with
  | name w =>
    obtain ⟨c, v, h1, h2, rfl⟩ := h
    intro d hd
    rcases List.mem_cons.1 hd with rfl | hd
    · omega
    · have := h2 d hd
      unfold IsDigit at this
      omega
  | uri w =>
    obtain ⟨u, h1, h2, rfl⟩ := h
    intro c hc
    have := (uri_uriChars h1 c hc).2.1
    omega

omit hW in
theorem rel_ok {x : RelsSyn} (h : x.Ok) : ∀ y ∈ x.all, y.Ok := by
  intro y hy
  rcases List.mem_cons.1 hy with rfl | hy
  · exact h.1
  · obtain ⟨p, hp, rfl⟩ := List.mem_map.1 hy
    exact (h.2 p hp).2

theorem link_says {E : Env} (hl : LowersAscii E.lower) {l : LinkSyn} {v : GVal} (h : LinkIs W.linkParser l v) (hs : Sound l.entries) :
    (linkRelOf v = .malformed ↔ BadRel l) ∧ (IsBlockedBy E (linkRelOf v) ↔ LinkBlockedBy l) := by
  rcases link_rel hW h hs with ⟨h1, h2⟩ | ⟨x, hx, ht, h1⟩ | ⟨w, ht, hn, h1⟩ <;> rw [h1]
  · exact ⟨⟨fun h => LinkRel.noConfusion h, fun ⟨w, hw, _⟩ => absurd hw (h2 w)⟩, ⟨fun ⟨_, h, _⟩ => LinkRel.noConfusion h, fun ⟨x, _, hw, _⟩ => absurd hw (h2 _)⟩⟩
  · refine ⟨⟨fun h => LinkRel.noConfusion h, fun ⟨w, hw, hn⟩ => absurd ⟨x, hx, relText_unique hw ht⟩ hn⟩, ?_, ?_⟩
    · rintro ⟨_, hl', y, hy, he⟩
      cases hl'
      obtain ⟨r, hr, rfl⟩ := List.mem_map.1 hy
      refine ⟨x, hx, ht, ?_⟩
      have hok := rel_ok hx r hr
      rw [hl _ (rel_below hok)] at he
      cases r with
      | name w =>
        have : w = str "blocked-by" := by
          obtain ⟨c, v, g1, g2, rfl⟩ := hok
          have hw : asciiLower (c :: v) = c :: v := by
            unfold asciiLower
            conv => rhs; rw [← List.map_id (c :: v)]
            refine List.map_congr_left fun d hd => ?_
            have hd : ¬(65 ≤ d ∧ d ≤ 90) := by
              rcases List.mem_cons.1 hd with rfl | hd
              · omega
              · have := g2 d hd
                unfold IsDigit at this
                omega
            simp [lowerChar, hd]
          have he : asciiLower (c :: v) = asciiLower (str "blocked-by") := he
          rw [hw] at he
          exact he.trans (by decide +kernel)
        rw [← this]
        exact hr
      | uri w =>
        obtain ⟨u, g1, g2, rfl⟩ := hok
        have hm := uri_colon g2
        have he : asciiLower u.text = asciiLower (str "blocked-by") := he
        have : 58 ∈ asciiLower u.text := List.mem_map.2 ⟨58, hm, by decide +kernel⟩
        rw [he] at this
        exact absurd this (by decide +kernel)
    · rintro ⟨y, hy, hty, hm⟩
      have : y = x := rels_inj y x hy hx (relText_unique hty ht)
      subst this
      exact ⟨_, rfl, _, List.mem_map.2 ⟨_, hm, rfl⟩, hl _ (by decide +kernel)⟩
  · refine ⟨⟨fun _ => ⟨w, ht, hn⟩, fun _ => rfl⟩, ⟨fun ⟨_, h, _⟩ => LinkRel.noConfusion h, fun ⟨x, hx, hw, _⟩ => absurd ⟨x, hx, relText_unique ht hw⟩ hn⟩⟩

omit hW in
theorem p2_split_right {α β : Type} {R : α → β → Prop} : ∀ {c : List α} {a b : List β}, Pairwise2 R c (a ++ b) →
    ∃ c1 c2, c = c1 ++ c2 ∧ Pairwise2 R c1 a ∧ Pairwise2 R c2 b
  | c, [], _, h => ⟨[], c, rfl, .nil, h⟩
  | _, _ :: _, _, .cons h h' =>
    let ⟨c1, c2, e, h1, h2⟩ := p2_split_right h'
    ⟨_ :: c1, c2, by rw [e]; rfl, .cons h h1, h2⟩

omit hW in
theorem p2_join {α β : Type} {R : α → β → Prop} {a a' : List α} {b b' : List β} (h : Pairwise2 R a b) (h' : Pairwise2 R a' b') :
    Pairwise2 R (a ++ a') (b ++ b') := by
  induction h with
  | nil => exact h'
  | cons h _ ih => exact .cons h ih

omit hW in
theorem p2_map_right {α β γ : Type} {R : α → β → Prop} {Q : α → γ → Prop} {f : β → γ} {a : List α} {b : List β} (h : Pairwise2 R a b)
    (hq : ∀ x ∈ a, ∀ y, R x y → Q x (f y)) : Pairwise2 Q a (b.map f) := by
  induction h with
  | nil => exact .nil
  | cons h _ ih => exact .cons (hq _ List.mem_cons_self _ h) (ih fun x hx => hq x (List.mem_cons_of_mem _ hx))

variable {base : Env} (hl : LowersAscii base.lower)
include hl

omit hW hl in
theorem all_links (e : Entry) : (W.all base).grammars.link e = someOf linkRelOf (W.read "Link" e) := by
  unfold World.all World.env World.around World.grammars
  dsimp only

/-- How the checks see a link. -/
def SeenAs (E : Env) (l : LinkSyn) (r : LinkRel) : Prop :=
  (r = .malformed ↔ BadRel l) ∧ (IsBlockedBy E r ↔ LinkBlockedBy l)

theorem links_seen {m : Msg} {ls : List LinkSyn} (hn : ¬LacksValue base.lower m) (h : WrittenLinks base.lower m ls) :
    Pairwise2 (SeenAs (W.all base)) ls (ValueElements (W.all base) m "Link" (W.all base).grammars.link) := by
  obtain ⟨lss, hp, rfl⟩ := h
  unfold ValueElements
  have sub : ∀ e ∈ (m.headers ++ m.trailers).filter fun e => base.lower e.name = asciiLower (str "Link"),
      e ∈ m.headers ++ m.trailers ∧ Called base.lower e.name "Link" := by
    intro e he
    rw [List.mem_filter, decide_eq_true_eq] at he
    exact he
  have hlow : (W.all base).lower = base.lower := all_lower
  have hg : ∀ e, (W.all base).grammars.link e = someOf linkRelOf (W.read "Link" e) := all_links
  simp only [hlow, hg]
  generalize (m.headers ++ m.trailers).filter (fun e => base.lower e.name = asciiLower (str "Link")) = es at hp sub
  induction hp with
  | nil => exact .nil
  | @cons e ls es lss h _ ih =>
    rw [List.flatten_cons, List.flatMap_cons]
    refine p2_join ?_ (ih fun e he => sub e (List.mem_cons_of_mem _ he))
    rcases h with h | ⟨h, rfl⟩
    · obtain ⟨vs, h1, h2⟩ := (link_read hW e).1 ls h
      simp only [h1, someOf]
      refine p2_map_right h2 fun l hls v hv => ?_
      refine link_says hW (E := W.all base) (all_ascii hl) hv (Classical.byContradiction fun hs => hn ?_)
      exact ⟨e, (sub e List.mem_cons_self).1, (sub e List.mem_cons_self).2, ls, h, l, hls, hs⟩
    · simp only [(link_read hW e).2 h, someOf]
      exact .nil

omit hW hl in
theorem links_exist (lower : Str → Str) (m : Msg) : ∃ ls, WrittenLinks lower m ls := by
  obtain ⟨lss, h⟩ := pairwise2_total (R := fun e ls => HeaderLinks e ls ∨ ((¬∃ ls, HeaderLinks e ls) ∧ ls = [])) (fun e => by
    by_cases h : ∃ ls, HeaderLinks e ls
    · exact ⟨_, .inl h.choose_spec⟩
    · exact ⟨[], .inr ⟨h, rfl⟩⟩) ((m.headers ++ m.trailers).filter fun e => lower e.name = asciiLower (str "Link"))
  exact ⟨_, lss, h, rfl⟩

/-- **C99**: the links that make the check of a 451 response raise an exception. -/
theorem C99_bad_link {r : Response} (hn : ¬LacksValue base.lower r.fields) : BadLink (W.all base) r ↔ BadLinkText base.lower r := by
  refine and_congr_right fun _ => ⟨?_, ?_⟩
  · rintro ⟨a, b, he, ha⟩
    obtain ⟨ls, h⟩ := links_exist base.lower r.fields
    have hp := links_seen hW hl hn h
    rw [he] at hp
    obtain ⟨c1, c2, rfl, h1, h2⟩ := p2_split_right hp
    cases h2 with
    | @cons l _ c2 _ h2 _ =>
      refine ⟨c1, l, c2, h, h2.1.1 rfl, fun x hx => ?_⟩
      obtain ⟨y, hy, hs⟩ := (pairwise2_mem h1).2 x hx
      exact fun hb => ha y hy (hs.2.2 hb)
  · rintro ⟨a, l, b, h, hb, ha⟩
    obtain ⟨c1, c2, he, h1, h2⟩ := p2_split (links_seen hW hl hn h)
    cases h2 with
    | @cons _ r' _ c2 h2 _ =>
      rw [h2.1.2 hb] at he
      refine ⟨c1, c2, he, fun x hx => ?_⟩
      obtain ⟨y, hy, hs⟩ := (pairwise2_mem h1).1 x hx
      exact fun hb => ha y hy (hs.2.1 hb)

variable {L : Libs} {given : Target → Assigned} {ex : Exchange}

/-- **C99**: when an exchange is not reported on, because reading its headers or checking it raises an exception. -/
theorem C99_breaks : (exchangeRaises (W.all base) (loadPayloads L (W.all base) W.codings given ex) ||
      W.exchangeLinkRaises base.lower (loadPayloads L (W.all base) W.codings given ex)) = true ↔
    (∃ req, ex.request = some req ∧ LacksValue base.lower req.fields) ∨
    ∃ r ∈ ex.responses, LacksValue base.lower r.fields ∨
      (r.status ≠ 103 ∧ ∃ d n, TimeText base.lower r.fields "Date" d ∧ NumberText base.lower r.fields "Age" n ∧
        d + n > 315537897599) ∨ BadLinkText base.lower r := by
  have hreq : W.exchangeLinkRaises base.lower (loadPayloads L (W.all base) W.codings given ex) = true ↔
      (∃ req, ex.request = some req ∧ LacksValue base.lower req.fields) ∨ ∃ r ∈ ex.responses, LacksValue base.lower r.fields := by
    unfold World.exchangeLinkRaises
    rw [Bool.or_eq_true, List.any_eq_true]
    refine or_congr ?_ ?_
    · obtain ⟨req, rs⟩ := ex
      cases req with
      | none => exact ⟨(fun h => nomatch h), (fun ⟨_, h, _⟩ => nomatch h)⟩
      | some q =>
        refine (C99_raises hW hl q.fields).trans ⟨fun h => ⟨q, rfl, h⟩, ?_⟩
        rintro ⟨_, h, h'⟩
        cases h
        exact h'
    · constructor
      · rintro ⟨r, hr, h⟩
        obtain ⟨i, hi, rfl⟩ := List.mem_mapIdx.1 hr
        exact ⟨_, List.getElem_mem hi, (C99_raises hW hl _).1 h⟩
      · rintro ⟨r, hr, h⟩
        obtain ⟨i, hi, rfl⟩ := List.getElem_of_mem hr
        exact ⟨_, List.mem_mapIdx.2 ⟨i, hi, rfl⟩, (C99_raises hW hl _).2 h⟩
  rw [Bool.or_eq_true, C94_raises hW hl, hreq]
  constructor
  · rintro (⟨r, hr, h | h⟩ | h | ⟨r, hr, h⟩)
    · exact .inr ⟨r, hr, .inr (.inl h)⟩
    · by_cases hn : LacksValue base.lower r.fields
      · exact .inr ⟨r, hr, .inl hn⟩
      · exact .inr ⟨r, hr, .inr (.inr ((C99_bad_link hW hl hn).1 h))⟩
    · exact .inl h
    · exact .inr ⟨r, hr, .inl h⟩
  · rintro (h | ⟨r, hr, h | h | h⟩)
    · exact .inr (.inl h)
    · exact .inr (.inr ⟨r, hr, h⟩)
    · exact .inl ⟨r, hr, .inl h⟩
    · by_cases hn : LacksValue base.lower r.fields
      · exact .inr (.inr ⟨r, hr, hn⟩)
      · exact .inl ⟨r, hr, .inr ((C99_bad_link hW hl hn).2 h)⟩

/-- **C99**: 451 (Unavailable For Legal Reasons) without a link to who blocks it. -/
theorem C99_notice_1243 (hok : exchangeRaises (W.all base) (loadPayloads L (W.all base) W.codings given ex) = false)
    (hn : ∀ r ∈ ex.responses, ¬LacksValue base.lower r.fields) (i : Nat) :
    ReportedId (W.all base) (loadPayloads L (W.all base) W.codings given ex) (.resp i) 1243 ↔
    OnResponse ex i fun r => r.status = 451 ∧
      ¬∃ l, InText base.lower r.fields "Link" (ListSyn.Ok LinkSyn.Ok) (ListSyn.text LinkSyn.text) ListSyn.elems l ∧ LinkBlockedBy l := by
  rw [C66_notice_1243 _ (C91_sensible hW hl) _ hok (C91_own hW hl (by decide +kernel)) i]
  refine (on_response fun _ _ => Iff.rfl).trans (exists_congr fun r => and_congr_right fun hr => and_congr_right fun _ => not_congr ?_)
  have hn := hn r (List.mem_of_getElem? hr)
  have hg : ∀ e, (W.all base).grammars.link e = someOf linkRelOf (W.read "Link" e) := all_links
  have hf : fieldsFor r.fields "Link" = r.fields.headers ++ r.fields.trailers := by
    unfold fieldsFor
    rw [if_neg (by decide +kernel)]
  have seen : ∀ {e ls}, e ∈ fieldsFor r.fields "Link" → Called base.lower e.name "Link" → HeaderLinks e ls →
      ∃ rels, (W.all base).grammars.link e = .list rels ∧ Pairwise2 (SeenAs (W.all base)) ls rels := by
    intro e ls he hc h
    obtain ⟨vs, h1, h2⟩ := (link_read hW e).1 ls h
    refine ⟨vs.map linkRelOf, by rw [hg, h1, someOf], p2_map_right h2 fun l hls v hv => ?_⟩
    refine link_says hW (E := W.all base) (all_ascii hl) hv (Classical.byContradiction fun hs => hn ?_)
    exact ⟨e, hf ▸ he, hc, ls, h, l, hls, hs⟩
  constructor
  · rintro ⟨rel, ⟨e, he, hc, rels, hrel, hm⟩, hb⟩
    have hx : ∃ ls, HeaderLinks e ls := Classical.byContradiction fun h => by
      rw [hg, (link_read hW e).2 h] at hrel
      cases hrel
    obtain ⟨ls, hx⟩ := hx
    obtain ⟨rels', h1, h2⟩ := seen he hc hx
    rw [hrel] at h1
    cases h1
    obtain ⟨l, hls, hs⟩ := (pairwise2_mem h2).1 rel hm
    obtain ⟨x, hok, hv, rfl⟩ := hx
    exact ⟨l, ⟨e, he, hc, x, hok, hv, hls⟩, hs.2.1 hb⟩
  · rintro ⟨l, ⟨e, he, hc, x, hok, hv, hls⟩, hb⟩
    obtain ⟨rels, h1, h2⟩ := seen he hc ⟨x, hok, hv, rfl⟩
    obtain ⟨rel, hm, hs⟩ := (pairwise2_mem h2).2 l hls
    exact ⟨rel, ⟨e, he, hc, rels, h1, hm⟩, hs.2.2 hb⟩

end

open Toy

/-- `</a>` with one parameter. -/
def oneParam (name : String) (value : Option Word) : ListSyn LinkSyn :=
  ⟨some (⟨str "/a", [(([], [32]), ⟨str name, [], value.map ([], ·)⟩)]⟩, []), []⟩

theorem oneParam_ok {name : String} {value : Option Word} (hn : IsToken (str name)) (hv : ∀ w, value = some w → w.Ok) :
    (oneParam name value).Ok LinkSyn.Ok := by
  have sp : IsOws [32] := fun c hc => .inl (List.mem_singleton.mp hc)
  have uri : IsUriReference (str "/a") := ⟨⟨none, none, str "/a", none, none⟩, ⟨nofun, nofun, path_bits _ (by decide +kernel),
    nofun, nofun, nofun, fun _ => by decide +kernel, fun _ _ => by decide +kernel⟩, by decide +kernel⟩
  refine ⟨⟨⟨uri, fun y hy => ?_⟩, nofun⟩, nofun⟩
  obtain rfl := List.mem_singleton.mp hy
  refine ⟨⟨nofun, sp⟩, hn, nofun, fun s w e => ?_⟩
  cases value with
  | none => cases e
  | some v =>
    cases e
    exact ⟨nofun, hv _ rfl⟩

/-- C99: `title` without a value, in a request. -/
example {W : World} (hW : Ready W) (L : Libs) : W.exchangeLinkRaises Toy.env.lower
    (loadPayloads L (W.all Toy.env) W.codings ungiven ⟨some (req "GET" [h "link" "</a>; title"]), []⟩) = true := by
  have hok : exchangeRaises (W.all Toy.env) (loadPayloads L (W.all Toy.env) W.codings ungiven ⟨some (req "GET" [h "link" "</a>; title"]), []⟩) = false := by
    cases hr : exchangeRaises (W.all Toy.env) (loadPayloads L (W.all Toy.env) W.codings ungiven ⟨some (req "GET" [h "link" "</a>; title"]), []⟩) with
    | false => rfl
    | true =>
      obtain ⟨r, hr, _⟩ := (C94_raises hW toy_lower).1 hr
      cases hr
  have := (C99_breaks hW toy_lower (L := L) (given := ungiven) (ex := ⟨some (req "GET" [h "link" "</a>; title"]), []⟩)).2 (.inl ⟨_, rfl,
    h "link" "</a>; title", List.mem_singleton_self _, (by show asciiLower _ = asciiLower _; decide +kernel), _,
    ⟨oneParam "title" none, oneParam_ok (isToken_bits (by decide +kernel)) nofun, by decide +kernel, rfl⟩, _, List.mem_singleton_self _, ?_⟩)
  · rwa [hok, Bool.false_or] at this
  · obtain ⟨x, h1, h2⟩ := (C79_params noParser [(str "title", none)]).2.2.mp ⟨.unbound, rfl⟩
    exact fun hs => hs x h1 h2

/-- C99: `Blocked-By` should have been in lower case; the check of the response raises an exception. -/
example {W : World} (hW : Ready W) (L : Libs) : (exchangeRaises (W.all Toy.env)
      (loadPayloads L (W.all Toy.env) W.codings ungiven ⟨none, [resp 451 [h "link" "</a>; rel=Blocked-By"]]⟩) ||
    W.exchangeLinkRaises Toy.env.lower
      (loadPayloads L (W.all Toy.env) W.codings ungiven ⟨none, [resp 451 [h "link" "</a>; rel=Blocked-By"]]⟩)) = true := by
  have hin : HeaderLinks (h "link" "</a>; rel=Blocked-By") (oneParam "rel" (some (.token (str "Blocked-By")))).elems :=
    ⟨oneParam "rel" (some (.token (str "Blocked-By"))), oneParam_ok (isToken_bits (by decide +kernel))
      (fun w e => by cases e; exact isToken_bits (by decide +kernel)), by decide +kernel, rfl⟩
  have hlinks : WrittenLinks Toy.env.lower (resp 451 [h "link" "</a>; rel=Blocked-By"]).fields
      (oneParam "rel" (some (.token (str "Blocked-By")))).elems := by
    refine ⟨[_], ?_, (List.append_nil _).symm⟩
    have : ([h "link" "</a>; rel=Blocked-By"] ++ []).filter (fun e => Toy.env.lower e.name = asciiLower (str "Link")) =
        [h "link" "</a>; rel=Blocked-By"] := by
      rw [List.append_nil, List.filter_cons_of_pos (by
        rw [decide_eq_true_eq]
        show asciiLower _ = asciiLower _
        decide +kernel)]
      rfl
    show Pairwise2 _ (([h "link" "</a>; rel=Blocked-By"] ++ []).filter _) _
    rw [this]
    exact .cons (.inl hin) .nil
  refine (C99_breaks hW toy_lower).2 (.inr ⟨_, List.mem_singleton_self _, .inr (.inr ⟨rfl, [], _, [], hlinks,
    ⟨str "Blocked-By", ⟨[], str "rel", .token (str "Blocked-By"), [], rfl, by decide +kernel, nofun, rfl⟩, ?_⟩, nofun⟩)⟩)
  · rintro ⟨⟨first, rest⟩, ⟨hf, _⟩, ht⟩
    cases first with
    | name w =>
      obtain ⟨c, v, hc, _, rfl⟩ := hf
      have ht : str "Blocked-By" = c :: _ := ht
      have : c = 66 := (List.cons.inj ht).1.symm
      omega
    | uri w =>
      obtain ⟨x, _, hs, rfl⟩ := hf
      have : 58 ∈ str "Blocked-By" := by
        rw [ht]
        refine List.mem_append_left _ ?_
        show 58 ∈ after (str ":") x.scheme ++ _ ++ _ ++ _ ++ _
        cases hx : x.scheme with
        | none => exact absurd hx hs
        | some s => simp [after, str]
      exact absurd this (by decide +kernel)

/-- C99: nothing says who blocks it. -/
example {W : World} (hW : Ready W) (L : Libs) : ReportedId (W.all Toy.env)
    (loadPayloads L (W.all Toy.env) W.codings ungiven ⟨none, [resp 451 [h "Server" "x"]]⟩) (.resp 0) 1243 := by
  have called : ∀ e ∈ [h "Server" "x"] ++ [], ∀ k ∈ ["Link", "Date"], ¬Called Toy.env.lower e.name k := by
    intro e he k hk
    obtain rfl := List.mem_singleton.1 he
    show ¬asciiLower _ = asciiLower _
    revert k
    decide +kernel
  have hn : ¬LacksValue Toy.env.lower (resp 451 [h "Server" "x"]).fields := fun ⟨e, he, hc, _⟩ => called e he "Link" (by decide) hc
  have hok : ¬(exchangeRaises (W.all Toy.env) (loadPayloads L (W.all Toy.env) W.codings ungiven ⟨none, [resp 451 [h "Server" "x"]]⟩) = true) := by
    intro hr
    rcases (C99_breaks hW toy_lower).1 (by rw [hr]; rfl) with ⟨_, hq, _⟩ | ⟨r, hr, hb⟩
    · cases hq
    obtain rfl := List.mem_singleton.1 hr
    rcases hb with hb | ⟨_, _, _, ⟨_, ⟨a, e, b, he, hc, _⟩, _⟩, _⟩ | ⟨_, a, l, b, ⟨lss, hp, he⟩, _⟩
    · exact hn hb
    · have he : [h "Server" "x"] ++ [] = a ++ e :: b := he
      exact called e (by rw [he]; simp) "Date" (by decide) hc
    · have : ([h "Server" "x"] ++ []).filter (fun e : Entry => Toy.env.lower e.name = asciiLower (str "Link")) = [] := by
        rw [List.filter_eq_nil_iff]
        intro e he hd
        rw [decide_eq_true_eq] at hd
        exact called e he "Link" (by decide) hd
      have hp : Pairwise2 _ (([h "Server" "x"] ++ []).filter (fun e : Entry => Toy.env.lower e.name = asciiLower (str "Link"))) lss := hp
      rw [this] at hp
      cases hp
      simp at he
  refine (C99_notice_1243 hW toy_lower (Bool.not_eq_true _ ▸ hok) (fun r hr => by rwa [List.mem_singleton.1 hr]) 0).2 ⟨_, rfl, rfl, ?_⟩
  rintro ⟨l, ⟨e, he, hc, _⟩, _⟩
  exact called e he "Link" (by decide) hc

end Httpolice.Props
