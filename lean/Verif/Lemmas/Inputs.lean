import Verif.Spec.Inputs

/-!
# Facts about `Model/Inputs.lean`: interleaving
-/

namespace Httpolice.Lemmas
open Httpolice.Model Httpolice.Spec

variable {α : Type}

/-! ## Interleavings -/

theorem interleaving_perm {ls : List (List α)} {out : List α} (h : Interleaving ls out) :
    out.Perm ls.flatten := by
  induction h with
  | done h0 =>
    rename_i ls
    have : ls.flatten = [] := by simpa using h0
    rw [this]
  | @take ls i x l out hi _ ih =>
    obtain ⟨hlt, hget⟩ := List.getElem?_eq_some_iff.1 hi
    have e1 : ls = ls.take i ++ (x :: l) :: ls.drop (i + 1) := by
      rw [← hget, List.getElem_cons_drop, List.take_append_drop]
    have e2 : ls.set i l = ls.take i ++ l :: ls.drop (i + 1) := by
      rw [List.set_eq_take_append_cons_drop, if_pos hlt]
    rw [e2] at ih
    rw [e1]
    simp only [List.flatten_append, List.flatten_cons, List.cons_append] at ih ⊢
    exact (List.Perm.cons x ih).trans List.perm_middle.symm

theorem interleaving_sublist {ls : List (List α)} {out : List α} (h : Interleaving ls out) :
    ∀ l ∈ ls, List.Sublist l out := by
  induction h with
  | done h0 =>
    intro l hl
    rw [h0 l hl]
    exact List.Sublist.slnil
  | @take ls i x l out hi _ ih =>
    intro k hk
    obtain ⟨hlt, hget⟩ := List.getElem?_eq_some_iff.1 hi
    obtain ⟨j, hj, hkj⟩ := List.getElem_of_mem hk
    by_cases hij : i = j
    · subst hij
      rw [← hkj, hget]
      exact List.Sublist.cons_cons x (ih l (by
        rw [List.mem_iff_getElem]
        exact ⟨i, by simpa using hlt, by simp⟩))
    · refine List.Sublist.cons x (ih k ?_)
      rw [List.mem_iff_getElem]
      exact ⟨j, by simpa using hj, by rw [List.getElem_set_ne hij]; exact hkj⟩

theorem interleaving_exists : ∀ (n : Nat) (ls : List (List α)), ls.flatten.length = n →
    ∃ out, Interleaving ls out := by
  intro n
  induction n with
  | zero =>
    intro ls h
    refine ⟨[], .done fun l hl => ?_⟩
    have := List.eq_nil_of_length_eq_zero h
    exact List.flatten_eq_nil_iff.1 this l hl
  | succ n ih =>
    intro ls h
    by_cases h0 : ∀ l ∈ ls, l = []
    · rw [List.flatten_eq_nil_iff.2 h0] at h
      cases h
    · have : ∃ l ∈ ls, l ≠ [] := by
        apply Classical.byContradiction
        intro hc
        exact h0 fun l hl => Classical.byContradiction fun hne => hc ⟨l, hl, hne⟩
      obtain ⟨l, hl, hne⟩ := this
      obtain ⟨i, hi, hli⟩ := List.getElem_of_mem hl
      cases l with
      | nil => exact absurd rfl hne
      | cons x l =>
        have e1 : ls = ls.take i ++ (x :: l) :: ls.drop (i + 1) := by
          rw [← hli, List.getElem_cons_drop, List.take_append_drop]
        have e2 : ls.set i l = ls.take i ++ l :: ls.drop (i + 1) := by
          rw [List.set_eq_take_append_cons_drop, if_pos hi]
        have hlen : (ls.set i l).flatten.length = n := by
          rw [e1] at h
          rw [e2]
          simp only [List.flatten_append, List.flatten_cons, List.length_append,
            List.length_cons] at h ⊢
          omega
        obtain ⟨out, ho⟩ := ih _ hlen
        exact ⟨x :: out, .take (List.getElem?_eq_some_iff.2 ⟨hi, hli⟩) ho⟩

/-! ## The time of an exchange -/

theorem respsTime_ok {hint : Option Int} {rs : List (Option Int × Option Nat)}
    (h : ∀ r ∈ rs, Representable r) :
    respsTime hint rs =
      .ok ((rs.findSome? fun r => r.1.map (· + ((r.2.getD 0 : Nat) : Int))) <|> hint) := by
  induction rs with
  | nil => simp [respsTime]
  | cons r rs ih =>
    have ih := ih fun q hq => h q (List.mem_cons_of_mem _ hq)
    rcases r with ⟨_ | d, a⟩
    · rw [respsTime, ih]
      simp
    · cases a with
      | none => simp [respsTime]
      | some a =>
        have := h (some d, some a) List.mem_cons_self d a rfl
        rw [respsTime, if_neg (by omega)]
        simp

theorem exchangeTime_ok {e : Exch α} {hint : Option Int} (h : ∀ r ∈ e.resps, Representable r) :
    exchangeTime (some e) hint = .ok (ownTime e <|> hint) := by
  rw [exchangeTime, ownTime]
  cases hd : e.reqDate with
  | some d => simp
  | none => simp [respsTime_ok h]

theorem respsTime_result {hint t : Option Int} {rs : List (Option Int × Option Nat)}
    (h : respsTime hint rs = .ok t) :
    t = ((rs.findSome? fun r => r.1.map (· + ((r.2.getD 0 : Nat) : Int))) <|> hint) := by
  induction rs with
  | nil => simpa [respsTime] using h.symm
  | cons r rs ih =>
    rcases r with ⟨_ | d, a⟩
    · rw [respsTime] at h
      simpa using ih h
    · cases a with
      | none => simpa [respsTime] using h.symm
      | some a =>
        rw [respsTime] at h
        split at h
        · cases h
        · simpa using h.symm

theorem exchangeTime_result {e : Exch α} {hint t : Option Int}
    (h : exchangeTime (some e) hint = .ok t) : t = (ownTime e <|> hint) := by
  rw [exchangeTime] at h
  rw [ownTime]
  cases hd : e.reqDate with
  | some d => rw [hd] at h; simpa using h.symm
  | none => rw [hd] at h; simpa using respsTime_result h

/-! ## The search for the earliest position -/

theorem minLoop_some {cs : List (Conn α)} {k i : Nat} {mi : Option Nat} {mt : Option Int}
    (hm : mi = none ↔ mt = none) (h : minLoop cs k mi mt = some i) :
    (∃ j c e, i = k + j ∧ cs[j]? = some c ∧ c.pos = some (none, e)) ∨
    ∃ t, ((mi = some i ∧ mt = some t) ∨
        ∃ j c e, i = k + j ∧ cs[j]? = some c ∧ c.pos = some (some t, e)) ∧
      (∀ m, mt = some m → t ≤ m) ∧
      ∀ c ∈ cs, ∀ t' e, c.pos = some (t', e) → ∃ u, t' = some u ∧ t ≤ u := by
  induction cs generalizing k mi mt with
  | nil =>
    rw [minLoop] at h
    subst h
    cases mt with
    | none => simp at hm
    | some t =>
      exact .inr ⟨t, .inl ⟨rfl, rfl⟩, (fun m hm => by cases hm; omega), fun c hc => by cases hc⟩
  | cons c cs ih =>
    rw [minLoop] at h
    split at h
    next hc =>
      rcases ih hm h with ⟨j, d, e, hi, hd, hp⟩ | ⟨t, h1, h2, h3⟩
      · exact .inl ⟨j + 1, d, e, by omega, by simpa using hd, hp⟩
      · refine .inr ⟨t, ?_, h2, ?_⟩
        · rcases h1 with h1 | ⟨j, d, e, hi, hd, hp⟩
          · exact .inl h1
          · exact .inr ⟨j + 1, d, e, by omega, by simpa using hd, hp⟩
        · intro d hd t' e hp
          rcases List.mem_cons.1 hd with rfl | hd
          · rw [hc] at hp; cases hp
          · exact h3 d hd t' e hp
    next e hc =>
      cases h
      exact .inl ⟨0, c, e, rfl, rfl, hc⟩
    next s e hc =>
      split at h
      next =>
        rcases ih (by simp) h with ⟨j, d, e', hi, hd, hp⟩ | ⟨t, h1, h2, h3⟩
        · exact .inl ⟨j + 1, d, e', by omega, by simpa using hd, hp⟩
        · refine .inr ⟨t, ?_, (fun m hm => by cases hm), ?_⟩
          · rcases h1 with ⟨hk, hs⟩ | ⟨j, d, e', hi, hd, hp⟩
            · cases hk; cases hs
              exact .inr ⟨0, c, e, rfl, rfl, hc⟩
            · exact .inr ⟨j + 1, d, e', by omega, by simpa using hd, hp⟩
          · intro d hd t' e' hp
            rcases List.mem_cons.1 hd with rfl | hd
            · rw [hc] at hp; cases hp
              exact ⟨s, rfl, h2 s rfl⟩
            · exact h3 d hd t' e' hp
      next m =>
        split at h
        next hlt =>
          rcases ih (by simp) h with ⟨j, d, e', hi, hd, hp⟩ | ⟨t, h1, h2, h3⟩
          · exact .inl ⟨j + 1, d, e', by omega, by simpa using hd, hp⟩
          · have hts := h2 s rfl
            refine .inr ⟨t, ?_, fun m' hm' => by cases hm'; omega, ?_⟩
            · rcases h1 with ⟨hk, hs⟩ | ⟨j, d, e', hi, hd, hp⟩
              · cases hk; cases hs
                exact .inr ⟨0, c, e, rfl, rfl, hc⟩
              · exact .inr ⟨j + 1, d, e', by omega, by simpa using hd, hp⟩
            · intro d hd t' e' hp
              rcases List.mem_cons.1 hd with rfl | hd
              · rw [hc] at hp; cases hp
                exact ⟨s, rfl, hts⟩
              · exact h3 d hd t' e' hp
        next hge =>
          rcases ih hm h with ⟨j, d, e', hi, hd, hp⟩ | ⟨t, h1, h2, h3⟩
          · exact .inl ⟨j + 1, d, e', by omega, by simpa using hd, hp⟩
          · have htm := h2 m rfl
            refine .inr ⟨t, ?_, h2, ?_⟩
            · rcases h1 with h1 | ⟨j, d, e', hi, hd, hp⟩
              · exact .inl h1
              · exact .inr ⟨j + 1, d, e', by omega, by simpa using hd, hp⟩
            · intro d hd t' e' hp
              rcases List.mem_cons.1 hd with rfl | hd
              · rw [hc] at hp; cases hp
                exact ⟨s, rfl, by omega⟩
              · exact h3 d hd t' e' hp

theorem minLoop_none {cs : List (Conn α)} {k : Nat} {mi : Option Nat} {mt : Option Int}
    (hm : mi = none ↔ mt = none) (h : minLoop cs k mi mt = none) :
    mi = none ∧ ∀ c ∈ cs, c.pos = none := by
  induction cs generalizing k mi mt with
  | nil =>
    rw [minLoop] at h
    exact ⟨h, fun c hc => by cases hc⟩
  | cons c cs ih =>
    rw [minLoop] at h
    split at h
    next hc =>
      obtain ⟨h1, h2⟩ := ih hm h
      refine ⟨h1, fun d hd => ?_⟩
      rcases List.mem_cons.1 hd with rfl | hd
      · exact hc
      · exact h2 d hd
    next => cases h
    next =>
      split at h
      next => exact absurd (ih (by simp) h).1 (by simp)
      next =>
        split at h
        next => exact absurd (ih (by simp) h).1 (by simp)
        next => exact absurd (hm.1 (ih hm h).1) (by simp)

/-! ## The main loop -/

/-- What a connection will still contribute. -/
def todo (c : Conn α) : List (Exch α) :=
  match c.pos with
  | some (_, some e) => e :: c.rest
  | _ => c.rest

/-- Exhausted connections are exhausted. -/
def Spent (cs : List (Conn α)) : Prop := ∀ c ∈ cs, c.pos = none → c.rest = []

/-- Rounds a connection can still take. -/
def weight (c : Conn α) : Nat :=
  match c.pos with
  | none => 2 * c.rest.length
  | some _ => 2 * c.rest.length + 1

/-- All rounds that can still happen. -/
def weights (cs : List (Conn α)) : Nat := (cs.map weight).sum

theorem sum_set_lt {cs : List (Conn α)} {i : Nat} {c d : Conn α} (hi : cs[i]? = some c)
    (h : weight d < weight c) : weights (cs.set i d) < weights cs := by
  obtain ⟨hlt, hget⟩ := List.getElem?_eq_some_iff.1 hi
  have e1 : cs = cs.take i ++ c :: cs.drop (i + 1) := by
    rw [← hget, List.getElem_cons_drop, List.take_append_drop]
  have e2 : cs.set i d = cs.take i ++ d :: cs.drop (i + 1) := by
    rw [List.set_eq_take_append_cons_drop, if_pos hlt]
  rw [e2]
  conv => rhs; rw [e1]
  simp only [weights, List.map_append, List.map_cons, List.sum_append, List.sum_cons]
  omega

/-- What a round does, in general. -/
inductive RoundIs (cs : List (Conn α)) : Round α → Prop
  | over : (∀ c ∈ cs, c.pos = none) → RoundIs cs ⟨none, .ok none⟩
  /-- a connection without exchanges -/
  | empty {i : Nat} {t : Option Int} : cs[i]? = some ⟨some (t, none), []⟩ →
      RoundIs cs ⟨none, .error .attribute⟩
  /-- the time of the first exchange cannot be computed -/
  | bad {i : Nat} {t : Option Int} {e : Exch α} {rest : List (Exch α)} {err : RErr} :
      cs[i]? = some ⟨some (t, none), e :: rest⟩ → exchangeTime (some e) t = .error err →
      RoundIs cs ⟨none, .error err⟩
  /-- a connection is started -/
  | start {i : Nat} {t : Option Int} {e : Exch α} {rest : List (Exch α)} :
      cs[i]? = some ⟨some (t, none), e :: rest⟩ →
      RoundIs cs ⟨none, .ok (some (cs.set i ⟨some (ownTime e <|> t, some e), rest⟩))⟩
  /-- an exchange is yielded, the last of its connection -/
  | last {i : Nat} {c : Conn α} {e : Exch α} {t : Option Int} {x : Option (Exch α)} :
      cs[i]? = some c → c.pos = some (t, x) → todo c = [e] →
      (x = none → ∃ s, t = some s ∧ ∀ u, (ownTime e <|> t) = some u → u ≤ s) →
      (t = none ∨ ∀ d ∈ cs, ∀ t' e', d.pos = some (t', e') → ∃ s u, t = some s ∧ t' = some u ∧ s ≤ u) →
      RoundIs cs ⟨some e, .ok (some (cs.set i ⟨none, []⟩))⟩
  /-- an exchange is yielded, not the last of its connection -/
  | next {i : Nat} {c : Conn α} {e f : Exch α} {t : Option Int} {x : Option (Exch α)}
      {rest : List (Exch α)} :
      cs[i]? = some c → c.pos = some (t, x) → todo c = e :: f :: rest →
      (x = none → ∃ s, t = some s ∧ ∀ u, (ownTime e <|> t) = some u → u ≤ s) →
      (t = none ∨ ∀ d ∈ cs, ∀ t' e', d.pos = some (t', e') → ∃ s u, t = some s ∧ t' = some u ∧ s ≤ u) →
      RoundIs cs ⟨some e, .ok (some (cs.set i ⟨some (ownTime f <|> t, some f), rest⟩))⟩
  /-- an exchange is yielded, and the time of the next one cannot be computed -/
  | nextBad {i : Nat} {c : Conn α} {e f : Exch α} {t : Option Int} {x : Option (Exch α)}
      {rest : List (Exch α)} {err : RErr} :
      cs[i]? = some c → c.pos = some (t, x) → todo c = e :: f :: rest →
      exchangeTime (some f) t = .error err →
      RoundIs cs ⟨some e, .error err⟩

theorem proceed_is {cs : List (Conn α)} {i : Nat} {c : Conn α} {e : Exch α} {t : Option Int}
    {x : Option (Exch α)} {rest : List (Exch α)}
    (hi : cs[i]? = some c) (hp : c.pos = some (t, x)) (hc : todo c = e :: rest)
    (hs : x = none → ∃ s, t = some s ∧ ∀ u, (ownTime e <|> t) = some u → u ≤ s)
    (hm : t = none ∨ ∀ d ∈ cs, ∀ t' e', d.pos = some (t', e') →
      ∃ s u, t = some s ∧ t' = some u ∧ s ≤ u) :
    RoundIs cs (proceed cs i t e rest) := by
  cases rest with
  | nil => exact .last hi hp hc hs hm
  | cons f rest =>
    rw [proceed]
    split
    next err he => exact .nextBad hi hp hc he
    next u he =>
      rw [exchangeTime_result he]
      exact .next hi hp hc hs hm

theorem round_is (cs : List (Conn α)) : RoundIs cs (round cs) := by
  rw [round]
  split
  next h => exact .over (minLoop_none (by simp) h).2
  next i h =>
    have hmin := minLoop_some (by simp) h
    have hget : ∃ c t x, cs[i]? = some c ∧ c.pos = some (t, x) ∧
        (t = none ∨ ∀ d ∈ cs, ∀ t' e', d.pos = some (t', e') →
          ∃ s u, t = some s ∧ t' = some u ∧ s ≤ u) := by
      rcases hmin with ⟨j, c, e, hi, hc, hp⟩ | ⟨t, h1, _, h3⟩
      · rw [Nat.zero_add] at hi
        subst hi
        exact ⟨c, none, e, hc, hp, .inl rfl⟩
      · rcases h1 with ⟨h1, _⟩ | ⟨j, c, e, hi, hc, hp⟩
        · cases h1
        · rw [Nat.zero_add] at hi
          subst hi
          refine ⟨c, some t, e, hc, hp, .inr fun d hd t' e' hp' => ?_⟩
          obtain ⟨u, hu, htu⟩ := h3 d hd t' e' hp'
          exact ⟨t, u, rfl, hu, htu⟩
    obtain ⟨⟨pos, rest⟩, t, x, hc, hp, hm⟩ := hget
    dsimp only at hp
    subst hp
    rw [hc]
    cases x with
    | some e =>
      exact proceed_is hc rfl rfl (fun h => by cases h) hm
    | none =>
      dsimp only
      cases rest with
      | nil => exact .empty hc
      | cons e rest =>
        rw [startConn]
        split
        next err he => exact .bad hc he
        next n he =>
          have hn := exchangeTime_result he
          split
          next => rw [hn]; exact .start hc
          next hl =>
            refine proceed_is hc rfl rfl (fun _ => ?_) hm
            cases t with
            | none => exact absurd rfl hl
            | some s =>
              refine ⟨s, rfl, fun u hu => ?_⟩
              rw [← hn] at hu
              subst hu
              simpa [startsLater] using hl

theorem round_spent {cs cs' : List (Conn α)} {o : Option (Exch α)} (hs : Spent cs)
    (h : RoundIs cs ⟨o, .ok (some cs')⟩) : Spent cs' := by
  intro d hd hp
  have key : ∀ {i : Nat} {c : Conn α}, (c.pos = none → c.rest = []) → d ∈ cs.set i c →
      d.rest = [] := by
    intro i c hc hd
    rcases List.mem_or_eq_of_mem_set hd with hd | rfl
    · exact hs d hd hp
    · exact hc hp
  cases h
  · exact key (fun h => by cases h) hd
  · exact key (fun _ => rfl) hd
  · exact key (fun h => by cases h) hd

theorem round_weight {cs cs' : List (Conn α)} {o : Option (Exch α)}
    (h : RoundIs cs ⟨o, .ok (some cs')⟩) : weights cs' < weights cs := by
  have todo_len : ∀ {c : Conn α} {t : Option Int} {x : Option (Exch α)}, c.pos = some (t, x) →
      (todo c).length ≤ c.rest.length + 1 := by
    intro c t x hp
    rw [todo, hp]
    cases x <;> simp
  cases h with
  | start hc => exact sum_set_lt hc (by simp [weight])
  | last hc hp ht _ _ =>
    refine sum_set_lt hc ?_
    simp [weight, hp]
  | next hc hp ht _ _ =>
    refine sum_set_lt hc ?_
    have := todo_len hp
    rw [ht] at this
    simp only [weight, hp, List.length_cons] at this ⊢
    omega

theorem todo_set {cs : List (Conn α)} {i : Nat} {c d : Conn α} {x : Exch α}
    {out : List (Exch α)} (hc : cs[i]? = some c) (ht : todo c = x :: todo d)
    (h : Interleaving ((cs.set i d).map todo) out) : Interleaving (cs.map todo) (x :: out) := by
  refine .take (i := i) (l := todo d) (by rw [List.getElem?_map, hc, Option.map_some, ht]) ?_
  rwa [List.map_set] at h

theorem todo_set_same {cs : List (Conn α)} {i : Nat} {c d : Conn α} (hc : cs[i]? = some c)
    (ht : todo c = todo d) : (cs.set i d).map todo = cs.map todo := by
  obtain ⟨hlt, hget⟩ := List.getElem?_eq_some_iff.1 hc
  rw [List.map_set]
  apply List.ext_getElem
  · simp
  · intro j h1 h2
    by_cases hij : i = j
    · subst hij
      simp [hget, ht]
    · rw [List.getElem_set_ne hij]

theorem loop_interleaving {n : Nat} {cs : List (Conn α)} (hs : Spent cs) (hn : weights cs < n) :
    ∃ more, Interleaving (cs.map todo) ((rearrangeLoop n cs).1 ++ more) ∧
      ((rearrangeLoop n cs).2 = .finished → more = []) ∧ (rearrangeLoop n cs).2 ≠ .diverge := by
  induction n generalizing cs with
  | zero => omega
  | succ n ih =>
    have hr := round_is cs
    rw [rearrangeLoop]
    generalize round cs = r at hr ⊢
    obtain ⟨o, nx⟩ := r
    have any : ∀ ls : List (List (Exch α)), ∃ more, Interleaving ls more :=
      fun ls => interleaving_exists _ ls rfl
    match nx, hr with
    | .ok (some cs'), hr =>
      dsimp only
      obtain ⟨more, h1, h2, h3⟩ := ih (round_spent hs hr) (by have := round_weight hr; omega)
      refine ⟨more, ?_, h2, h3⟩
      cases hr with
      | start hc =>
        rw [todo_set_same hc (by simp [todo])] at h1
        exact h1
      | last hc hp ht _ _ => exact todo_set hc (by simpa [todo] using ht) h1
      | next hc hp ht _ _ => exact todo_set hc (by simpa [todo] using ht) h1
    | .ok none, hr =>
      dsimp only
      cases hr with
      | over h =>
        refine ⟨[], .done ?_, fun _ => rfl, by simp⟩
        intro l hl
        obtain ⟨c, hc, rfl⟩ := List.mem_map.1 hl
        simp only [todo, h c hc]
        exact hs c hc (h c hc)
    | .error err, hr =>
      dsimp only
      cases hr with
      | empty | bad =>
        obtain ⟨more, hmore⟩ := any (cs.map todo)
        exact ⟨more, hmore, by simp, by simp⟩
      | nextBad hc hp ht he =>
        rename_i i c e f t x rest
        obtain ⟨more, hmore⟩ := any ((cs.set i ⟨none, f :: rest⟩).map todo)
        exact ⟨more, todo_set hc (by simpa [todo] using ht) hmore, by simp, by simp⟩

/-- Nothing can go wrong. -/
def Fine (cs : List (Conn α)) : Prop :=
  ∀ c ∈ cs, (c.pos.isSome → todo c ≠ []) ∧ ∀ e ∈ todo c, ∀ r ∈ e.resps, Representable r

theorem round_fine {cs cs' : List (Conn α)} {o : Option (Exch α)} (hf : Fine cs)
    (h : RoundIs cs ⟨o, .ok (some cs')⟩) : Fine cs' := by
  intro d hd
  have key : ∀ {i : Nat} {c : Conn α}, d ∈ cs.set i c →
      ((c.pos.isSome → todo c ≠ []) ∧ ∀ e ∈ todo c, ∀ r ∈ e.resps, Representable r) →
      ((d.pos.isSome → todo d ≠ []) ∧ ∀ e ∈ todo d, ∀ r ∈ e.resps, Representable r) := by
    intro i c hd hc
    rcases List.mem_or_eq_of_mem_set hd with hd | rfl
    · exact hf d hd
    · exact hc
  cases h with
  | start hc =>
    have := hf _ (List.mem_of_getElem? hc)
    exact key hd ⟨by simp [todo], this.2⟩
  | last hc hp ht _ _ => exact key hd ⟨by simp, by simp [todo]⟩
  | next hc hp ht _ _ =>
    have := (hf _ (List.mem_of_getElem? hc)).2
    rw [ht] at this
    exact key hd ⟨by simp [todo], fun e he => this e (List.mem_cons_of_mem _ he)⟩

theorem loop_finishes {n : Nat} {cs : List (Conn α)} (hf : Fine cs) (hn : weights cs < n) :
    (rearrangeLoop n cs).2 = .finished := by
  induction n generalizing cs with
  | zero => omega
  | succ n ih =>
    have hr := round_is cs
    rw [rearrangeLoop]
    generalize round cs = r at hr ⊢
    obtain ⟨o, nx⟩ := r
    match nx, hr with
    | .ok (some cs'), hr => exact ih (round_fine hf hr) (by have := round_weight hr; omega)
    | .ok none, hr => rfl
    | .error err, hr =>
      exfalso
      cases hr with
      | empty hc => exact (hf _ (List.mem_of_getElem? hc)).1 rfl rfl
      | bad hc he =>
        have := (hf _ (List.mem_of_getElem? hc)).2 _ List.mem_cons_self
        rw [exchangeTime_ok this] at he
        cases he
      | nextBad hc hp ht he =>
        have := (hf _ (List.mem_of_getElem? hc)).2
        rw [ht] at this
        rw [exchangeTime_ok (this _ (List.mem_cons_of_mem _ List.mem_cons_self))] at he
        cases he

/-! ## Sorted output -/

/-- The positions agree with `time`. -/
def Timely (time : Exch α → Int) (c : Conn α) : Prop :=
  match c.pos with
  | none => True
  | some (t, none) => InTime time t c.rest
  | some (t, some e) => t = some (time e) ∧ InTime time (some (time e)) c.rest

theorem inTime_le {time : Exch α → Int} {p : Int} {l : List (Exch α)}
    (h : InTime time (some p) l) : ∀ e ∈ l, p ≤ time e := by
  induction l generalizing p with
  | nil => intro e he; cases he
  | cons f l ih =>
    obtain ⟨_, h2, h3⟩ := h
    intro e he
    rcases List.mem_cons.1 he with rfl | he
    · exact h2 p rfl
    · exact Int.le_trans (h2 p rfl) (ih h3 e he)

theorem timely_le {time : Exch α → Int} {c : Conn α} {u : Int} {x : Option (Exch α)}
    (h : Timely time c) (hp : c.pos = some (some u, x)) : ∀ e ∈ todo c, u ≤ time e := by
  rw [Timely, hp] at h
  rw [todo, hp]
  cases x with
  | none => exact inTime_le h
  | some f =>
    obtain ⟨h1, h2⟩ := h
    cases h1
    intro e he
    rcases List.mem_cons.1 he with rfl | he
    · exact Int.le_refl _
    · exact inTime_le h2 e he

/-- The times of what a timely connection yields first and later. -/
theorem timely_todo {time : Exch α → Int} {c : Conn α} {t : Option Int} {x : Option (Exch α)}
    {e : Exch α} {rest : List (Exch α)} (h : Timely time c) (hp : c.pos = some (t, x))
    (ht : todo c = e :: rest)
    (hs : x = none → ∃ s, t = some s ∧ ∀ u, (ownTime e <|> t) = some u → u ≤ s) :
    t = some (time e) ∧ InTime time (some (time e)) rest := by
  rw [Timely, hp] at h
  rw [todo, hp] at ht
  cases x with
  | some f =>
    cases ht
    exact h
  | none =>
    dsimp only at h ht
    rw [ht] at h
    obtain ⟨h1, h2, h3⟩ := h
    obtain ⟨s, hts, hle⟩ := hs rfl
    have a := hle _ h1
    have b := h2 s hts
    have : s = time e := by omega
    subst this
    exact ⟨hts, h3⟩

theorem round_timely {time : Exch α → Int} {cs cs' : List (Conn α)} {o : Option (Exch α)}
    (hf : ∀ c ∈ cs, Timely time c) (h : RoundIs cs ⟨o, .ok (some cs')⟩) :
    ∀ c ∈ cs', Timely time c := by
  intro d hd
  have key : ∀ {i : Nat} {c : Conn α}, d ∈ cs.set i c → Timely time c → Timely time d := by
    intro i c hd hc
    rcases List.mem_or_eq_of_mem_set hd with hd | rfl
    · exact hf d hd
    · exact hc
  cases h with
  | start hc =>
    have := hf _ (List.mem_of_getElem? hc)
    obtain ⟨h1, h2, h3⟩ := this
    exact key hd ⟨h1, h3⟩
  | last hc hp ht _ _ => exact key hd trivial
  | next hc hp ht hs _ =>
    obtain ⟨h1, h2, h3, h4⟩ := timely_todo (hf _ (List.mem_of_getElem? hc)) hp ht hs
    exact key hd ⟨by rw [h1]; exact h2, h4⟩

/-- What is yielded is not later than anything else. -/
theorem yield_le {time : Exch α → Int} {cs : List (Conn α)} {i : Nat} {c : Conn α} {e : Exch α}
    {t : Option Int} {x : Option (Exch α)} {rest : List (Exch α)}
    (hf : ∀ c ∈ cs, Timely time c) (hsp : Spent cs) (hc : cs[i]? = some c)
    (hp : c.pos = some (t, x)) (ht : todo c = e :: rest)
    (hs : x = none → ∃ s, t = some s ∧ ∀ u, (ownTime e <|> t) = some u → u ≤ s)
    (hm : t = none ∨ ∀ d ∈ cs, ∀ t' e', d.pos = some (t', e') →
      ∃ s u, t = some s ∧ t' = some u ∧ s ≤ u) :
    ∀ d ∈ cs, ∀ f ∈ todo d, time e ≤ time f := by
  obtain ⟨h1, h2⟩ := timely_todo (hf _ (List.mem_of_getElem? hc)) hp ht hs
  subst h1
  intro d hd f hfd
  rcases hm with hm | hm
  · cases hm
  · cases hdp : d.pos with
    | none =>
      rw [todo, hdp, hsp d hd hdp] at hfd
      cases hfd
    | some q =>
      obtain ⟨t', e'⟩ := q
      obtain ⟨s, u, hs1, hu, hsu⟩ := hm d hd t' e' hdp
      cases hs1
      subst hu
      exact Int.le_trans hsu (timely_le (hf d hd) hdp f hfd)

theorem loop_sorted {time : Exch α → Int} {n : Nat} {cs : List (Conn α)} (hs : Spent cs)
    (hn : weights cs < n) (hf : ∀ c ∈ cs, Timely time c) :
    ((rearrangeLoop n cs).1.map time).Pairwise (· ≤ ·) := by
  induction n generalizing cs with
  | zero => omega
  | succ n ih =>
    have hr := round_is cs
    rw [rearrangeLoop]
    generalize round cs = r at hr ⊢
    obtain ⟨o, nx⟩ := r
    have single : (o.toList.map time).Pairwise (· ≤ ·) := by
      cases o <;> simp
    match nx, hr with
    | .ok none, hr => exact single
    | .error err, hr => exact single
    | .ok (some cs'), hr =>
      have hs' := round_spent hs hr
      have hw : weights cs' < n := by have := round_weight hr; omega
      have ih := ih hs' hw (round_timely hf hr)
      have later : ∀ x ∈ (rearrangeLoop n cs').1, ∃ d ∈ cs', x ∈ todo d := by
        intro x hx
        obtain ⟨more, h1, _, _⟩ := loop_interleaving hs' hw
        have := (interleaving_perm h1).mem_iff.1 (List.mem_append_left _ hx)
        obtain ⟨l, hl, hxl⟩ := List.mem_flatten.1 this
        obtain ⟨d, hd, rfl⟩ := List.mem_map.1 hl
        exact ⟨d, hd, hxl⟩
      dsimp only
      have sub : ∀ {i : Nat} {c d' : Conn α}, cs[i]? = some c → (∀ y ∈ todo d', y ∈ todo c) →
          ∀ d ∈ cs.set i d', ∀ y ∈ todo d, ∃ b ∈ cs, y ∈ todo b := by
        intro i c d' hc hsub d hd y hy
        rcases List.mem_or_eq_of_mem_set hd with hd | rfl
        · exact ⟨d, hd, hy⟩
        · exact ⟨c, List.mem_of_getElem? hc, hsub y hy⟩
      cases hr with
      | start hc => exact ih
      | last hc hp ht h1 h2 =>
        simp only [Option.toList_some, List.cons_append, List.nil_append, List.map_cons,
          List.pairwise_cons]
        refine ⟨?_, ih⟩
        intro y hy
        obtain ⟨x, hx, rfl⟩ := List.mem_map.1 hy
        obtain ⟨d, hd, hxd⟩ := later x hx
        obtain ⟨b, hb, hxb⟩ := sub hc (by simp [todo]) d hd x hxd
        exact yield_le hf hs hc hp ht h1 h2 b hb x hxb
      | next hc hp ht h1 h2 =>
        simp only [Option.toList_some, List.cons_append, List.nil_append, List.map_cons,
          List.pairwise_cons]
        refine ⟨?_, ih⟩
        intro y hy
        obtain ⟨x, hx, rfl⟩ := List.mem_map.1 hy
        obtain ⟨d, hd, hxd⟩ := later x hx
        obtain ⟨b, hb, hxb⟩ := sub hc (by
          intro y hy
          rw [ht]
          exact List.mem_cons_of_mem _ (by simpa [todo] using hy)) d hd x hxd
        exact yield_le hf hs hc hp ht h1 h2 b hb x hxb

end Httpolice.Lemmas
