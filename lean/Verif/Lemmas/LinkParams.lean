import Verif.Lemmas.Hops
import Verif.Spec.Links

/-!
# Parameters of links
-/

namespace Httpolice.Lemmas

open Httpolice.Model Httpolice.Spec

/-- In lower case. -/
abbrev low (n : Str) : Str := n.map litLower

theorem same_low {n w : Str} (h : low w = w) : SameWord n w ↔ low n = w := by
  rw [sameWord_iff, show w.map litLower = w from h]

theorem again_iff {l : List LinkEntry} {n : Str} : Again l n ↔ low n ∈ onceNames ∧ ∃ e ∈ l, low e.1 = low n := by
  have hs : ∀ w ∈ onceNames, low w = w := by decide +kernel
  unfold Again
  simp only [sameWord_iff]
  constructor
  · rintro ⟨⟨w, hw, e⟩, h⟩
    have e : low n = w := e.trans (hs w hw)
    exact ⟨e ▸ hw, h⟩
  · rintro ⟨h1, h2⟩
    exact ⟨⟨low n, h1, (hs _ h1).symm⟩, h2⟩

theorem lookup_mem {n : Str} {s : LinkSymbol} : linkSymbols.lookup n = some s ↔ (n, s) ∈ linkSymbols := by
  constructor
  · intro h
    generalize linkSymbols = l at h
    induction l with
    | nil => cases h
    | cons x l ih =>
      rw [List.lookup_cons] at h
      split at h
      · rename_i e
        cases h
        rw [beq_iff_eq.mp e]
        exact .head _
      · exact .tail _ (ih h)
  · intro h
    have : ∀ x ∈ linkSymbols, linkSymbols.lookup x.1 = some x.2 := by decide +kernel
    exact this _ h

theorem argument_iff {n : Str} {s : LinkSymbol} : IsArgument n s ↔ linkSymbols.lookup (low n) = some s := by
  have h1 : low (str "anchor") = str "anchor" := by decide +kernel
  have h2 : low (str "rel") = str "rel" := by decide +kernel
  have h3 : low (str "rev") = str "rev" := by decide +kernel
  have h4 : low (str "hreflang") = str "hreflang" := by decide +kernel
  have h5 : low (str "type") = str "type" := by decide +kernel
  have h6 : low (str "title*") = str "title*" := by decide +kernel
  rw [lookup_mem]
  constructor
  · rintro (h | h | h | h | h | h)
    · rw [(same_low h1).mp h]; decide +kernel
    · rw [(same_low h2).mp h]; decide +kernel
    · rw [(same_low h3).mp h]; decide +kernel
    · rw [(same_low h4).mp h]; decide +kernel
    · rw [(same_low h5).mp h]; decide +kernel
    · rw [(same_low h6).mp h]; decide +kernel
  · intro h
    unfold linkSymbols at h
    simp only [List.mem_cons, List.not_mem_nil, or_false, Prod.mk.injEq] at h
    rcases h with ⟨e, rfl⟩ | ⟨e, rfl⟩ | ⟨e, rfl⟩ | ⟨e, rfl⟩ | ⟨e, rfl⟩ | ⟨e, rfl⟩
    · exact .anchor ((same_low h1).mpr e)
    · exact .rel ((same_low h2).mpr e)
    · exact .rev ((same_low h3).mpr e)
    · exact .hreflang ((same_low h4).mpr e)
    · exact .type_ ((same_low h5).mpr e)
    · exact .title ((same_low h6).mpr e)

theorem argument_only {n : Str} {s s' : LinkSymbol} (h : IsArgument n s) (h' : IsArgument n s') : s = s' := by
  rw [argument_iff] at h h'
  exact Option.some.inj (h.symm.trans h')

/-! ## Places -/

theorem placed_snoc {α : Type} (l : List α) (x : α) : placed (l ++ [x]) = placed l ++ [(l, x)] := by
  unfold placed
  refine List.ext_getElem (by simp) fun i h1 h2 => ?_
  simp only [List.getElem_mapIdx, List.getElem_append, List.length_mapIdx]
  split
  · rename_i h
    have : (l ++ [x]).take i = l.take i := by
      rw [List.take_append, Nat.sub_eq_zero_of_le (Nat.le_of_lt h)]
      simp
    rw [this]
  · rename_i h
    simp only [List.length_mapIdx, List.length_append, List.length_singleton] at h1
    have : i = l.length := by omega
    subst this
    simp

open Classical in
theorem counted_snoc (l : List LinkEntry) (x : LinkEntry) :
    counted (l ++ [x]) = counted l ++ (if Again l x.1 then [] else [(l, x)]) := by
  unfold counted
  rw [placed_snoc, List.filter_append]
  congr 1
  by_cases h : Again l x.1 <;> simp [h]

theorem lastValue_again {l : List LinkEntry} {x : LinkEntry} (h : Again l x.1) : lastValue (l ++ [x]) = lastValue l := by
  unfold lastValue
  rw [counted_snoc, if_pos h, List.append_nil]

theorem lastValue_new {l : List LinkEntry} {x : LinkEntry} (h : ¬ Again l x.1) :
    lastValue (l ++ [x]) = x.2.or (lastValue l) := by
  unfold lastValue
  rw [counted_snoc, if_neg h, List.filterMap_append, List.filterMap_cons]
  cases x.2 with
  | none => simp
  | some w => simp

theorem pairwise_snoc {α β : Type} {R : α → β → Prop} {l : List α} {m : List β} {a : α} {b : β} (h : Pairwise2 R l m)
    (hab : R a b) : Pairwise2 R (l ++ [a]) (m ++ [b]) := by
  induction h with
  | nil => exact .cons hab .nil
  | cons h _ ih => exact .cons h ih

/-! ## The loop -/

/-- What is known before a round. -/
structure Sofar (P : LinkParser) (l : List LinkEntry) (s : LinkVars) : Prop where
  became : ∃ rs : List (List GVal × List PyComplaint), Pairwise2 (fun x r => Becomes P x r.1 r.2) (placed l) rs ∧
    s.r = rs.flatMap Prod.fst ∧ s.complaints = rs.flatMap Prod.snd
  seen : ∀ k, k ∈ s.seen ↔ k ∈ onceNames ∧ ∃ e ∈ l, low e.1 = k
  parsed : s.parsedAs = (lastValue l).map Word.form
  full : ∀ x ∈ counted l, ¬ Lacking x

theorem sofar_nil {P : LinkParser} : Sofar P [] {} where
  became := ⟨[], .nil, rfl, rfl⟩
  seen := fun k => by simp
  parsed := rfl
  full := nofun

theorem linkArgument_spec {P : LinkParser} {s : LinkSymbol} {n v : Str} :
    ReadAs (P s) n v (linkArgument P s (nameValue (str "CaseInsensitive") n) v).1
      (linkArgument P s (nameValue (str "CaseInsensitive") n) v).2 := by
  unfold linkArgument ReadAs
  rcases h : P s v with e | ⟨node, cs, as⟩
  · refine .inr ⟨e, rfl, rfl, ?_⟩
    have h1 : (str "name" == str "error") = false := by decide +kernel
    have h2 : (str "value" == str "error") = false := by decide +kernel
    have h3 : (str "error" == str "name") = false := by decide +kernel
    have h4 : (str "error" == str "value") = false := by decide +kernel
    simp [mergeContext, List.lookup_cons, h1, h2, h3, h4]
  · exact .inl ⟨node, cs, as, rfl, rfl, rfl⟩

theorem value_spec {P : LinkParser} {e : LinkEntry} {v : GVal} {cs : List PyComplaint}
    (h : linkResult P e.1 (wire e).2 = .ok (v, cs)) : ValueOf P e v cs := by
  obtain ⟨n, o⟩ := e
  unfold linkResult at h
  cases hl : linkSymbols.lookup (low n) with
  | some s =>
    cases o with
    | none => simp [hl, wire] at h
    | some w =>
      simp only [hl, wire, Option.map_some, Except.ok.injEq] at h
      have := linkArgument_spec (P := P) (s := s) (n := n) (v := w.content)
      unfold nameValue at this
      rw [h] at this
      exact .inl ⟨s, w, argument_iff.mpr hl, rfl, this⟩
  | none =>
    have hn : ∀ s, ¬ IsArgument n s := fun s hs => by
      rw [argument_iff, hl] at hs
      cases hs
    cases o with
    | none =>
      simp only [hl, wire, Option.map_none, Except.ok.injEq, Prod.mk.injEq] at h
      exact .inr ⟨hn, h.2.symm, h.1.symm⟩
    | some w =>
      simp only [hl, wire, Option.map_some, Except.ok.injEq, Prod.mk.injEq] at h
      exact .inr ⟨hn, h.2.symm, h.1.symm⟩

theorem value_fails {P : LinkParser} {e : LinkEntry} {err : LinkError}
    (h : linkResult P e.1 (wire e).2 = .error err) : e.2 = none ∧ ∃ s, IsArgument e.1 s := by
  obtain ⟨n, o⟩ := e
  unfold linkResult at h
  cases hl : linkSymbols.lookup (low n) <;> cases o <;> simp [hl, wire] at h
  exact ⟨rfl, _, argument_iff.mpr hl⟩

theorem asks_spec {s : LinkVars} {applies : Bool} {symbol : Str} :
    (∃ b, s.asks applies symbol = .ok b ∧ (b = true ↔ applies = true ∧ s.parsedAs = some symbol)) ∨
      (s.asks applies symbol = .error .unbound ∧ applies = true ∧ s.parsedAs = none) := by
  unfold LinkVars.asks
  cases applies with
  | false => exact .inl ⟨false, rfl, by simp⟩
  | true =>
    cases s.parsedAs with
    | none => exact .inr ⟨rfl, rfl, rfl⟩
    | some x => exact .inl ⟨_, rfl, by simp⟩

theorem bare_form {w : Word} : Word.form w = str "token" ↔ w.IsBare := by
  have : ¬ str "quoted_string" = str "token" := by decide +kernel
  cases w <;> simp [Word.form, Word.IsBare, this]

theorem quoted_form {w : Word} : Word.form w = str "quoted_string" ↔ ¬ w.IsBare := by
  have : ¬ str "token" = str "quoted_string" := by decide +kernel
  cases w <;> simp [Word.form, Word.IsBare, this]

theorem if_iff {α : Type} {p q : Prop} [Decidable p] [Decidable q] (h : p ↔ q) {a b : α} :
    (if p then a else b) = if q then a else b := by
  by_cases k : p
  · rw [if_pos k, if_pos (h.mp k)]
  · rw [if_neg k, if_neg fun k' => k (h.mpr k')]

open Classical in
theorem round_spec {P : LinkParser} {l : List LinkEntry} {s : LinkVars} (h : Sofar P l s) (e : LinkEntry) :
    (∃ s', linkRound P s (wire e) = .ok s' ∧ Sofar P (l ++ [e]) s') ∨
      (∃ err, linkRound P s (wire e) = .error err ∧ ¬ Again l e.1 ∧ Lacking (l, e)) := by
  obtain ⟨rs, h1, h2, h3⟩ := h.became
  unfold linkRound
  simp only [show (wire e).1 = e.1 from rfl]
  by_cases ha : Again l e.1
  · have := again_iff.mp ha
    rw [if_pos ⟨this.1, (h.seen _).mpr this⟩]
    refine .inl ⟨_, rfl, ?_, ?_, ?_, ?_⟩
    · refine ⟨rs ++ [([], [(1225, [(str "name", .other (nameValue (str "CaseInsensitive") e.1))])])], ?_, ?_, ?_⟩
      · rw [placed_snoc]
        exact pairwise_snoc h1 (.inl ⟨ha, rfl, rfl⟩)
      · simp [h2]
      · simp [h3]
        rfl
    · intro k
      rw [h.seen]
      constructor
      · rintro ⟨k1, x, k2, k3⟩
        exact ⟨k1, x, List.mem_append_left _ k2, k3⟩
      · rintro ⟨k1, x, k2, k3⟩
        refine ⟨k1, ?_⟩
        rcases List.mem_append.mp k2 with k2 | k2
        · exact ⟨x, k2, k3⟩
        · obtain rfl := List.mem_singleton.mp k2
          obtain ⟨y, y1, y2⟩ := this.2
          exact ⟨y, y1, y2.trans k3⟩
    · rw [lastValue_again ha]
      exact h.parsed
    · rw [counted_snoc, if_pos ha, List.append_nil]
      exact h.full
  · rw [if_neg fun k => ha (again_iff.mpr ((h.seen _).mp k.2))]
    have hp : (s.enter (e.1.map litLower) (wire e).2).parsedAs = (e.2.or (lastValue l)).map Word.form := by
      unfold LinkVars.enter wire
      cases e.2 with
      | none => exact h.parsed
      | some w => rfl
    have hs : ∀ k, k ∈ (s.enter (e.1.map litLower) (wire e).2).seen ↔ k ∈ onceNames ∧ ∃ x ∈ l ++ [e], low x.1 = k := by
      intro k
      have key : (∃ x ∈ l ++ [e], low x.1 = k) ↔ (∃ x ∈ l, low x.1 = k) ∨ low e.1 = k := by
        constructor
        · rintro ⟨x, hx, e'⟩
          rcases List.mem_append.mp hx with hx | hx
          · exact .inl ⟨x, hx, e'⟩
          · obtain rfl := List.mem_singleton.mp hx
            exact .inr e'
        · rintro (⟨x, hx, e'⟩ | e')
          · exact ⟨x, List.mem_append_left _ hx, e'⟩
          · exact ⟨e, by simp, e'⟩
      rw [key]
      unfold LinkVars.enter
      show k ∈ (if low e.1 ∈ onceNames then low e.1 :: s.seen else s.seen) ↔ _
      by_cases ho : low e.1 ∈ onceNames
      · rw [if_pos ho, List.mem_cons, h.seen]
        constructor
        · rintro (rfl | ⟨k1, k2⟩)
          · exact ⟨ho, .inr rfl⟩
          · exact ⟨k1, .inl k2⟩
        · rintro ⟨k1, k2 | k2⟩
          · exact .inr ⟨k1, k2⟩
          · exact .inl k2.symm
      · rw [if_neg ho, h.seen]
        constructor
        · rintro ⟨k1, k2⟩
          exact ⟨k1, .inl k2⟩
        · rintro ⟨k1, k2 | k2⟩
          · exact ⟨k1, k2⟩
          · exact absurd (k2 ▸ k1) ho
    have hr : (s.enter (e.1.map litLower) (wire e).2).r = rs.flatMap Prod.fst := h2
    have hq : (s.enter (e.1.map litLower) (wire e).2).complaints = rs.flatMap Prod.snd := h3
    generalize s.enter (e.1.map litLower) (wire e).2 = S at hp hs hr hq
    have ht : low (str "title") = str "title" := by decide +kernel
    have hh : low (str "hreflang") = str "hreflang" := by decide +kernel
    have hv : low (str "rev") = str "rev" := by decide +kernel
    have empty : ∀ {o : Option Word}, o.map Word.form = none → o = none := by
      intro o k
      cases o with
      | none => rfl
      | some _ => cases k
    have lacks : ∀ {o o' : Option Word}, o.or o' = none → o = none ∧ o' = none := by
      intro o o' k
      cases o with
      | none => exact ⟨rfl, k⟩
      | some _ => cases k
    have nores : e.2 = none → (∃ s, IsArgument e.1 s) → ∀ r, linkResult P e.1 (wire e).2 ≠ .ok r := by
      rintro k ⟨s, hs⟩ r
      rw [argument_iff] at hs
      simp [linkResult, hs, wire, k]
    rcases asks_spec (s := S) (applies := e.1.map litLower == str "title") (symbol := str "token") with
      ⟨a, ea, ka⟩ | ⟨ea, ka, ka'⟩
    · rcases asks_spec (s := S) (applies := e.1.map litLower == str "hreflang") (symbol := str "quoted_string") with
        ⟨b, eb, kb⟩ | ⟨eb, kb, kb'⟩
      · cases hres : linkResult P e.1 (wire e).2 with
        | error err =>
          refine .inr ⟨err, by simp only [ea, eb, hres]; rfl, ha, ?_⟩
          obtain ⟨k1, k2⟩ := value_fails hres
          exact ⟨k1, .inl k2⟩
        | ok r =>
          obtain ⟨v, cs⟩ := r
          refine .inl ⟨_, by simp only [ea, eb, hres]; rfl, ?_, ?_, ?_, ?_⟩
          · refine ⟨rs ++ [([.tuple [nameValue (str "CaseInsensitive") e.1, v]],
              (formNotes (l, e)).1 ++ cs ++ (formNotes (l, e)).2)], ?_, ?_, ?_⟩
            · rw [placed_snoc]
              exact pairwise_snoc h1 (.inr ⟨ha, v, cs, value_spec hres, rfl, rfl⟩)
            · simp [hr]
              rfl
            · have fa : (if a = true then [((1307, []) : PyComplaint)] else []) = if SameWord e.1 (str "title") ∧
                  ∃ w, e.2.or (lastValue l) = some w ∧ w.IsBare then [(1307, [])] else [] := by
                refine if_iff ?_
                rw [ka, hp, same_low ht, beq_iff_eq, Option.map_eq_some_iff]
                simp only [bare_form]
              have fb : (if b = true then [((1308, []) : PyComplaint)] else []) = if SameWord e.1 (str "hreflang") ∧
                  ∃ w, e.2 = some w ∧ ¬ w.IsBare then [(1308, [])] else [] := by
                refine if_iff ?_
                rw [kb, hp, same_low hh, beq_iff_eq, Option.map_eq_some_iff]
                simp only [quoted_form]
                refine and_congr_right fun k => ?_
                cases ho : e.2 with
                | some w => rfl
                | none => exact absurd hres (nores ho ⟨_, .hreflang ((same_low hh).mpr k)⟩ _)
              have fc : (if (e.1.map litLower == str "rev") = true then [((1226, []) : PyComplaint)] else []) =
                  if SameWord e.1 (str "rev") then [(1226, [])] else [] := by
                refine if_iff ?_
                rw [same_low hv, beq_iff_eq]
              show S.complaints ++ _ = _
              rw [fa, fb, fc, hq]
              simp [formNotes]
          · exact hs
          · rw [lastValue_new ha]
            exact hp
          · rw [counted_snoc, if_neg ha]
            intro x hx
            rcases List.mem_append.mp hx with hx | hx
            · exact h.full x hx
            · obtain rfl := List.mem_singleton.mp hx
              rintro ⟨k1, k2 | ⟨k2, k3⟩⟩
              · exact nores k1 k2 _ hres
              · rw [LinkVars.asks, if_pos (beq_iff_eq.mpr ((same_low ht).mp k2)), hp,
                  show e.2 = none from k1, show lastValue l = none from k3] at ea
                cases ea
      · refine .inr ⟨_, by simp only [ea, eb]; rfl, ha, ?_⟩
        rw [hp] at kb'
        obtain ⟨k1, k2⟩ := lacks (empty kb')
        exact ⟨k1, .inl ⟨_, .hreflang ((same_low hh).mpr (beq_iff_eq.mp kb))⟩⟩
    · refine .inr ⟨_, by simp only [ea]; rfl, ha, ?_⟩
      rw [hp] at ka'
      obtain ⟨k1, k2⟩ := lacks (empty ka')
      exact ⟨k1, .inr ⟨(same_low ht).mpr (beq_iff_eq.mp ka), k2⟩⟩

theorem rounds_spec {P : LinkParser} (rest : List LinkEntry) {l : List LinkEntry} {s : LinkVars} (h : Sofar P l s) :
    (∃ s', (rest.map wire).foldlM (linkRound P) s = .ok s' ∧ Sofar P (l ++ rest) s') ∨
      (∃ err, (rest.map wire).foldlM (linkRound P) s = .error err ∧ ∃ x ∈ counted (l ++ rest), Lacking x) := by
  induction rest generalizing l s with
  | nil => exact .inl ⟨s, rfl, by rw [List.append_nil]; exact h⟩
  | cons e rest ih =>
    rw [List.map_cons, List.foldlM_cons]
    have assoc : l ++ e :: rest = (l ++ [e]) ++ rest := by simp
    rcases round_spec h e with ⟨s', e1, h'⟩ | ⟨err, e1, h1, h2⟩
    · rw [e1, assoc]
      exact ih h'
    · refine .inr ⟨err, by rw [e1]; rfl, (l, e), ?_, h2⟩
      rw [assoc]
      have mem : (l, e) ∈ counted (l ++ [e]) := by
        rw [counted_snoc, if_neg h1]
        simp
      clear ih
      generalize l ++ [e] = l' at mem
      clear assoc
      induction rest generalizing l' with
      | nil => rw [List.append_nil]; exact mem
      | cons f rest ih =>
        rw [show l' ++ f :: rest = (l' ++ [f]) ++ rest by simp]
        refine ih _ ?_
        rw [counted_snoc]
        exact List.mem_append_left _ mem

theorem lookup_rel {s : LinkVars} {l : List LinkEntry} {P : LinkParser} (h : Sofar P l s) :
    s.seen.contains (str "rel") = true ↔ ∃ e ∈ l, SameWord e.1 (str "rel") := by
  have hr : low (str "rel") = str "rel" := by decide +kernel
  rw [List.contains_iff_mem, h.seen]
  simp only [same_low hr]
  exact ⟨fun k => k.2, fun k => ⟨by decide +kernel, k⟩⟩

/-- Either it comes to something, or there is something lacking. -/
theorem process_spec (P : LinkParser) (l : List LinkEntry) :
    (∃ v cs, processParams P (l.map wire) = .ok (v, cs) ∧ (∀ x ∈ counted l, ¬ Lacking x) ∧ Become P l v cs) ∨
      (∃ err, processParams P (l.map wire) = .error err ∧ ∃ x ∈ counted l, Lacking x) := by
  unfold processParams
  rcases rounds_spec l (sofar_nil (P := P)) with ⟨s, e, h⟩ | ⟨err, e, h⟩
  · refine .inl ⟨_, _, by rw [e]; rfl, h.full, ?_⟩
    obtain ⟨rs, h1, h2, h3⟩ := h.became
    refine ⟨rs, h1, by rw [h2]; rfl, ?_⟩
    rw [h3]
    congr 1
    have := lookup_rel h
    by_cases k : ∃ e ∈ l, SameWord e.1 (str "rel")
    · simp only [List.nil_append] at this
      rw [if_pos k, if_pos (this.mpr k)]
    · simp only [List.nil_append] at this
      rw [if_neg k, if_neg fun k' => k (this.mp k')]
  · exact .inr ⟨err, by rw [e]; rfl, h⟩

/-! ## The outcome is determined -/

theorem readAs_only {parse : Str → Parsing} {n w : Str} {v v' : GVal} {cs cs' : List PyComplaint} (h : ReadAs parse n w v cs)
    (h' : ReadAs parse n w v' cs') : v = v' ∧ cs = cs' := by
  rcases h with ⟨a, b, c, e, rfl, rfl⟩ | ⟨a, e, rfl, rfl⟩ <;>
    rcases h' with ⟨a', b', c', e', rfl, rfl⟩ | ⟨a', e', rfl, rfl⟩ <;> rw [e] at e' <;> cases e' <;> exact ⟨rfl, rfl⟩

theorem valueOf_only {P : LinkParser} {e : LinkEntry} {v v' : GVal} {cs cs' : List PyComplaint} (h : ValueOf P e v cs)
    (h' : ValueOf P e v' cs') : v = v' ∧ cs = cs' := by
  rcases h with ⟨s, w, h1, h2, h3⟩ | ⟨h1, rfl, rfl⟩ <;> rcases h' with ⟨s', w', k1, k2, k3⟩ | ⟨k1, rfl, rfl⟩
  · obtain rfl := argument_only h1 k1
    rw [h2] at k2
    cases k2
    exact readAs_only h3 k3
  · exact absurd h1 (k1 s)
  · exact absurd k1 (h1 s')
  · exact ⟨rfl, rfl⟩

theorem becomes_only {P : LinkParser} {x : List LinkEntry × LinkEntry} {v v' : List GVal} {cs cs' : List PyComplaint}
    (h : Becomes P x v cs) (h' : Becomes P x v' cs') : v = v' ∧ cs = cs' := by
  rcases h with ⟨h1, rfl, rfl⟩ | ⟨h1, a, b, h2, rfl, rfl⟩ <;> rcases h' with ⟨k1, rfl, rfl⟩ | ⟨k1, a', b', k2, rfl, rfl⟩
  · exact ⟨rfl, rfl⟩
  · exact absurd h1 k1
  · exact absurd k1 h1
  · obtain ⟨rfl, rfl⟩ := valueOf_only h2 k2
    exact ⟨rfl, rfl⟩

theorem pairwise_only {α β : Type} {R : α → β → Prop} (hr : ∀ a b c, R a b → R a c → b = c) {l : List α} {m n : List β}
    (h : Pairwise2 R l m) (h' : Pairwise2 R l n) : m = n := by
  induction h generalizing n with
  | nil => cases h'; rfl
  | cons h _ ih =>
    cases h' with
    | cons k k' => rw [hr _ _ _ h k, ih k']

theorem become_only {P : LinkParser} {l : List LinkEntry} {v v' : GVal} {cs cs' : List PyComplaint}
    (h : Become P l v cs) (h' : Become P l v' cs') : v = v' ∧ cs = cs' := by
  obtain ⟨rs, h1, rfl, rfl⟩ := h
  obtain ⟨rs', k1, rfl, rfl⟩ := h'
  obtain rfl := pairwise_only (fun a b c hb hc => by
    obtain ⟨e1, e2⟩ := becomes_only hb hc
    exact Prod.ext e1 e2) h1 k1
  exact ⟨rfl, rfl⟩

theorem process_ok {P : LinkParser} {l : List LinkEntry} {v : GVal} {cs : List PyComplaint} :
    processParams P (l.map wire) = .ok (v, cs) ↔ (∀ x ∈ counted l, ¬ Lacking x) ∧ Become P l v cs := by
  rcases process_spec P l with ⟨v', cs', e, h1, h2⟩ | ⟨err, e, x, hx, h⟩
  · rw [e]
    constructor
    · intro k
      cases k
      exact ⟨h1, h2⟩
    · rintro ⟨_, k⟩
      obtain ⟨rfl, rfl⟩ := become_only h2 k
      rfl
  · rw [e]
    constructor
    · intro k
      cases k
    · rintro ⟨k, _⟩
      exact absurd h (k x hx)

end Httpolice.Lemmas
