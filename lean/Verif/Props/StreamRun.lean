import Verif.Spec.StreamRun
import Verif.Props.Run
import Verif.Props.Captures

/-!
# C100: a whole run of the command on streams and captures
-/

namespace Httpolice.Props

open Httpolice.Model Httpolice.Spec Httpolice.Lemmas Httpolice.Lemmas.Check

theorem interleaving_map {α β : Type} (f : α → β) {ls : List (List α)} {out : List α} (h : Interleaving ls out) :
    Interleaving (ls.map (List.map f)) (out.map f) := by
  induction h with
  | done h =>
    refine .done fun l hl => ?_
    obtain ⟨k, hk, rfl⟩ := List.mem_map.1 hl
    rw [h k hk]
    rfl
  | @take ls i x l out hi _ ih =>
    refine .take (i := i) (l := l.map f) ?_ ?_
    · rw [List.getElem?_map, hi]
      rfl
    · rwa [List.map_set] at ih

/-! ## Times -/

section
variable {S : Setup} (hW : Ready S.world) (hl : LowersAscii S.base.lower)
include hW hl

theorem date_iff (m : Msg) (d : Int) : S.date m = some d ↔ ∃ n : Nat, TimeText S.base.lower m "Date" n ∧ d = n := by
  have h : ∀ n, (S.world.all S.base).single m "Date" (S.world.all S.base).grammars.date = .val n ↔ TimeText S.base.lower m "Date" n :=
    fun n => (single_last (all_ascii hl) (by decide +kernel) m _ n).trans (time_all m (name := "Date") (by decide) n (all_literate hW hl))
  unfold Setup.date
  split
  · rename_i n hv
    constructor
    · intro he
      exact ⟨n, (h n).1 hv, (Option.some.inj he).symm⟩
    · rintro ⟨k, hk, rfl⟩
      rw [(h k).2 hk] at hv
      cases hv
      rfl
  · rename_i hv
    refine ⟨nofun, ?_⟩
    rintro ⟨k, hk, rfl⟩
    exact absurd ((h k).2 hk) (hv k)

theorem age_iff (m : Msg) (n : Nat) : S.age m = some n ↔ NumberText S.base.lower m "Age" n := by
  have h : ∀ n, (S.world.all S.base).single m "Age" (S.world.all S.base).grammars.age = .val n ↔ NumberText S.base.lower m "Age" n := by
    intro n
    have := one_all (W := S.world) (base := S.base) (all_literate hW hl).age m "Age" (P := fun v => v = n) (Q := fun w => n = numeral w) fun w _ => by
      constructor
      · rintro ⟨v, h, rfl⟩; exact (Option.some.inj h).symm
      · rintro rfl; exact ⟨_, rfl, rfl⟩
    simp only [exists_eq_right] at this
    exact (single_last (all_ascii hl) (by decide +kernel) m _ n).trans this
  unfold Setup.age
  split
  · rename_i k hv
    constructor
    · intro he
      cases he
      exact (h n).1 hv
    · intro hk
      rw [(h n).2 hk] at hv
      cases hv
      rfl
  · rename_i hv
    exact ⟨nofun, fun hk => absurd ((h n).2 hk) (hv n)⟩

omit hW hl in
/-- Headers are as captured. -/
theorem captured_fields (scheme : Option Str) (y : Yield) :
    (S.exchange scheme y).request.map (fun q => q.fields) = (captured scheme y).request.map (fun q => q.fields) ∧
      (S.exchange scheme y).responses.map (fun r => r.fields) = (captured scheme y).responses.map (fun r => r.fields) := by
  rw [exchange_eq]
  unfold loadPayloads
  constructor
  · cases (captured scheme y).request <;> rfl
  · apply List.ext_getElem
    · simp
    · intro i h1 h2
      simp

omit hW hl in
theorem timed_eq (y : Yield) : S.timed streamScheme y = ⟨y, (captured streamScheme y).request.bind (fun q => S.date q.fields),
    (captured streamScheme y).responses.map fun r => (S.date r.fields, S.age r.fields)⟩ := by
  obtain ⟨h1, h2⟩ := captured_fields (S := S) streamScheme y
  unfold Setup.timed
  have e1 : ∀ o : Option Request, o.bind (fun q => S.date q.fields) = (o.map (fun q => q.fields)).bind S.date := by
    intro o; cases o <;> rfl
  have e2 : ∀ l : List Response, l.map (fun r => (S.date r.fields, S.age r.fields)) = (l.map (fun r => r.fields)).map fun m => (S.date m, S.age m) := by
    intro l; rw [List.map_map]; rfl
  simp only [e1, e2, h1, h2]

theorem fits_iff (y : Yield) : (∀ r ∈ (S.timed streamScheme y).resps, Representable r) ↔ AgesFit S y := by
  rw [timed_eq]
  constructor
  · intro h r hr d n hd hn
    have := h _ (List.mem_map.2 ⟨r, hr, rfl⟩) d n (by rw [(date_iff hW hl r.fields d).2 ⟨d, hd, rfl⟩, (age_iff hW hl r.fields n).2 hn])
    unfold maxTime at this
    omega
  · intro h x hx d n he
    obtain ⟨r, hr, rfl⟩ := List.mem_map.1 hx
    injection he with h1 h2
    obtain ⟨k, hk, rfl⟩ := (date_iff hW hl r.fields d).1 h1
    have := h r hr k n hk ((age_iff hW hl r.fields n).1 h2)
    unfold maxTime
    omega

theorem response_time (r : Response) (t : Nat) :
    (S.date r.fields).map (· + ((((S.age r.fields).getD 0 : Nat)) : Int)) = some (t : Int) ↔ ResponseTime S.base.lower r t := by
  unfold ResponseTime
  constructor
  · intro h
    obtain ⟨d, hd, he⟩ := Option.map_eq_some_iff.1 h
    obtain ⟨k, hk, rfl⟩ := (date_iff hW hl r.fields d).1 hd
    refine ⟨k, hk, ?_⟩
    cases ha : S.age r.fields with
    | none =>
      rw [ha, Option.getD_none] at he
      refine .inr ⟨fun ⟨n, hn⟩ => ?_, by omega⟩
      rw [(age_iff hW hl r.fields n).2 hn] at ha
      cases ha
    | some n =>
      rw [ha, Option.getD_some] at he
      exact .inl ⟨n, (age_iff hW hl r.fields n).1 ha, by omega⟩
  · rintro ⟨d, hd, ⟨n, hn, rfl⟩ | ⟨hn, rfl⟩⟩
    · rw [(date_iff hW hl r.fields d).2 ⟨d, hd, rfl⟩, (age_iff hW hl r.fields n).2 hn]
      simp
    · have : S.age r.fields = none := by
        cases ha : S.age r.fields with
        | none => rfl
        | some n => exact absurd ⟨n, (age_iff hW hl r.fields n).1 ha⟩ hn
      rw [(date_iff hW hl r.fields t).2 ⟨t, hd, rfl⟩, this]
      simp

theorem own_time (y : Yield) : (∀ t : Nat, ownTime (S.timed streamScheme y) = some (t : Int) ↔ Tells S.base.lower (captured streamScheme y) t) ∧
    (ownTime (S.timed streamScheme y) = none ↔ ¬∃ t, Tells S.base.lower (captured streamScheme y) t) ∧
    ∀ x, ownTime (S.timed streamScheme y) = some x → ∃ t : Nat, x = t := by
  have first : ∀ l : List Response, (∃ a r b t, l = a ++ r :: b ∧ (∀ x ∈ a, ¬∃ u, ResponseTime S.base.lower x u) ∧ ResponseTime S.base.lower r t ∧
        (l.map fun r => (S.date r.fields, S.age r.fields)).findSome? (fun r => r.1.map (· + ((r.2.getD 0 : Nat) : Int))) = some (t : Int)) ∨
      ((∀ x ∈ l, ¬∃ u, ResponseTime S.base.lower x u) ∧
        (l.map fun r => (S.date r.fields, S.age r.fields)).findSome? (fun r => r.1.map (· + ((r.2.getD 0 : Nat) : Int))) = none) := by
    intro l
    induction l with
    | nil => exact .inr ⟨nofun, rfl⟩
    | cons r l ih =>
      rw [List.map_cons, List.findSome?_cons]
      by_cases hr : ∃ u, ResponseTime S.base.lower r u
      · obtain ⟨u, hu⟩ := hr
        refine .inl ⟨[], r, l, u, rfl, nofun, hu, ?_⟩
        dsimp only
        rw [(response_time hW hl r u).2 hu]
      · have hn : (S.date r.fields).map (· + ((((S.age r.fields).getD 0 : Nat)) : Int)) = none := by
          cases hd : S.date r.fields with
          | none => rfl
          | some d =>
            obtain ⟨k, hk, rfl⟩ := (date_iff hW hl r.fields d).1 hd
            refine absurd ⟨k + (S.age r.fields).getD 0, (response_time hW hl r _).1 ?_⟩ hr
            rw [hd, Option.map_some]
            simp
        dsimp only
        rw [hn]
        rcases ih with ⟨a, r', b, t, rfl, h1, h2, h3⟩ | ⟨h1, h2⟩
        · exact .inl ⟨r :: a, r', b, t, rfl, fun x hx => (List.mem_cons.1 hx).elim (· ▸ hr) (h1 x), h2, h3⟩
        · exact .inr ⟨fun x hx => (List.mem_cons.1 hx).elim (· ▸ hr) (h1 x), h2⟩
  have uniq : ∀ (r : Response) t u, ResponseTime S.base.lower r t → ResponseTime S.base.lower r u → t = u := by
    intro r t u h1 h2
    have := ((response_time hW hl r t).2 h1).symm.trans ((response_time hW hl r u).2 h2)
    have := Option.some.inj this
    omega
  rw [timed_eq]
  unfold ownTime
  dsimp only
  cases hq : (captured streamScheme y).request.bind (fun q => S.date q.fields) with
  | some d =>
    obtain ⟨q, hq1, hq2⟩ := Option.bind_eq_some_iff.1 hq
    obtain ⟨k, hk, rfl⟩ := (date_iff hW hl q.fields d).1 hq2
    have ht : Tells S.base.lower (captured streamScheme y) k := .inl ⟨q, hq1, hk⟩
    refine ⟨fun t => ⟨fun h => ?_, ?_⟩, ⟨nofun, fun h => absurd ⟨k, ht⟩ h⟩, fun x h => ⟨k, (Option.some.inj h).symm⟩⟩
    · have h : (some (k : Int)) = some (t : Int) := h
      obtain rfl : k = t := by have := Option.some.inj h; omega
      exact ht
    · rintro (⟨q', hq', h'⟩ | ⟨h', _⟩)
      · rw [hq1] at hq'
        cases hq'
        have := (date_iff hW hl q.fields t).2 ⟨t, h', rfl⟩
        rw [hq2] at this
        exact this
      · exact absurd ⟨k, q, hq1, hk⟩ h'
  | none =>
    have hnone : ¬∃ u, RequestTime S.base.lower (captured streamScheme y) u := by
      rintro ⟨u, q, h1, h2⟩
      rw [h1, Option.bind_some, (date_iff hW hl q.fields u).2 ⟨u, h2, rfl⟩] at hq
      cases hq
    show (∀ t : Nat, (List.findSome? _ _) = some (t : Int) ↔ _) ∧ (List.findSome? _ _ = none ↔ _) ∧ ∀ x, List.findSome? _ _ = some x → _
    rcases first (captured streamScheme y).responses with ⟨a, r, b, t, h1, h2, h3, h4⟩ | ⟨h1, h2⟩
    · have ht : Tells S.base.lower (captured streamScheme y) t := .inr ⟨hnone, a, r, b, h1, h2, h3⟩
      rw [h4]
      refine ⟨fun u => ⟨fun h => ?_, ?_⟩, ⟨nofun, fun h => absurd ⟨t, ht⟩ h⟩, fun x h => ⟨t, (Option.some.inj h).symm⟩⟩
      · obtain rfl : t = u := by have := Option.some.inj h; omega
        exact ht
      · rintro (h' | ⟨_, a', r', b', g1, g2, g3⟩)
        · exact absurd ⟨u, h'⟩ hnone
        · rw [h1] at g1
          have : a = a' ∧ r = r' := by
            clear h4 ht h1
            induction a generalizing a' with
            | nil =>
              cases a' with
              | nil => exact ⟨rfl, (List.cons.inj g1).1⟩
              | cons x a' =>
                obtain ⟨rfl, _⟩ := List.cons.inj g1
                exact absurd ⟨t, h3⟩ (g2 _ List.mem_cons_self)
            | cons x a ih =>
              cases a' with
              | nil =>
                obtain ⟨rfl, _⟩ := List.cons.inj g1
                exact absurd ⟨u, g3⟩ (h2 _ List.mem_cons_self)
              | cons x' a' =>
                obtain ⟨rfl, g1'⟩ := List.cons.inj g1
                obtain ⟨rfl, rfl⟩ := ih (fun x hx => h2 x (List.mem_cons_of_mem _ hx)) (a' := a') g1' (fun x hx => g2 x (List.mem_cons_of_mem _ hx))
                exact ⟨rfl, rfl⟩
          obtain ⟨rfl, rfl⟩ := this
          rw [uniq r t u h3 g3]
    · rw [h2]
      have hno : ¬∃ t, Tells S.base.lower (captured streamScheme y) t := by
        rintro ⟨t, h' | ⟨_, a, r, b, g1, _, g3⟩⟩
        · exact hnone ⟨t, h'⟩
        · exact h1 r (by rw [g1]; simp) ⟨t, g3⟩
      exact ⟨fun t => ⟨nofun, fun h => absurd ⟨t, h⟩ hno⟩, ⟨fun _ => hno, fun _ => rfl⟩, nofun⟩

theorem in_time {time : Yield → Int} : ∀ {ys : List Yield} {prev : Option Int}, Advances S time prev ys →
    InTime (fun e : Exch Yield => time e.tag) prev (ys.map (S.timed streamScheme))
  | [], _, _ => trivial
  | y :: ys, prev, ⟨h1, h2, h3⟩ => by
    have htag : (S.timed streamScheme y).tag = y := rfl
    refine ⟨?_, ?_, ?_⟩
    · show (ownTime (S.timed streamScheme y) <|> prev) = some (time y)
      obtain ⟨g1, g2, _⟩ := own_time hW hl y
      rcases h1 with ⟨t, ht, he⟩ | ⟨hn, he⟩
      · rw [(g1 t).2 ht, he]
        rfl
      · rw [g2.2 hn, he]
        rfl
    · exact h2
    · exact in_time h3

/-! ## Connections -/

omit hW hl in
theorem at_iff {D : Disk} {path data : Option Str} : D.at path = some data ↔ Contents D path data := by
  unfold Disk.at Contents
  cases path with
  | none => simp [eq_comm]
  | some p =>
    cases hc : D.contents p <;> simp [hc, eq_comm]

omit hW hl in
theorem flow_iff {a b i o : Option Str} : sniffDirection id a b = some (i, o) ↔ Flow a b i o := by
  classical
  rw [sniff_eq]
  constructor
  · intro h
    split at h
    next h1 => cases h; exact .status1 h1
    next h1 =>
      split at h
      next h2 => cases h; exact .status2 h1 h2
      next h2 =>
        split at h
        next h3 => cases h; exact .request1 h1 h2 h3
        next h3 =>
          split at h
          next h4 => cases h; exact .request2 h1 h2 h3 h4
          next => cases h
  · rintro (h1 | ⟨h1, h2⟩ | ⟨h1, h2, h3⟩ | ⟨h1, h2, h3, h4⟩)
    · rw [if_pos h1]
    · rw [if_neg h1, if_pos h2]
    · rw [if_neg h1, if_neg h2, if_pos h3]
    · rw [if_neg h1, if_neg h2, if_neg h3, if_pos h4]

omit hW hl in
theorem notHttp_iff {a b : Option Str} : sniffDirection id a b = none ↔ NotHttp a b := by
  rw [C39_fails]
  simp only [NotHttp, List.mem_cons, List.not_mem_nil, or_false, forall_eq_or_imp, forall_eq]
  exact ⟨fun ⟨⟨h1, h2⟩, h3, h4⟩ => ⟨⟨h1, h3⟩, h2, h4⟩, fun ⟨⟨h1, h3⟩, h2, h4⟩ => ⟨⟨h1, h2⟩, h3, h4⟩⟩

omit hW hl in
theorem yield_parsed (l : List Yield) : (l.map ConnItem.parsed).map ConnItem.yield = l := by
  rw [List.map_map]
  exact List.map_id l

omit hW hl in
/-- What comes of a pair with a path. -/
theorem connection_iff {D : Disk} {captures : Bool} {pair : PathPair} (hp : pair.1 ≠ none ∨ pair.2.1 ≠ none) {ys : List Yield} :
    S.connection D captures pair = some ys ↔ Conveyed S D captures pair ys := by
  unfold Setup.connection Conveyed
  have key : ∀ a b, Contents D pair.1 a → Contents D pair.2.1 b → (a ≠ none ∨ b ≠ none) := by
    rintro a b (⟨h1, _⟩ | ⟨p, d, _, _, rfl⟩) (⟨h2, _⟩ | ⟨p', d', _, _, rfl⟩)
    · exact absurd h2 (hp.resolve_left (fun h => h h1))
    · exact .inr nofun
    · exact .inl nofun
    · exact .inl nofun
  cases ha : D.at pair.1 with
  | none =>
    refine ⟨nofun, ?_⟩
    rintro ⟨a, b, h1, _⟩
    rw [at_iff.2 h1] at ha
    cases ha
  | some a =>
    cases hb : D.at pair.2.1 with
    | none =>
      refine ⟨nofun, ?_⟩
      rintro ⟨a, b, _, h2, _⟩
      rw [at_iff.2 h2] at hb
      cases hb
    | some b =>
      have hab := key a b (at_iff.1 ha) (at_iff.1 hb)
      have uniq : ∀ {R : Option Str → Option Str → Prop}, (∃ a b, Contents D pair.1 a ∧ Contents D pair.2.1 b ∧ R a b) ↔ R a b := by
        intro R
        constructor
        · rintro ⟨a', b', h1, h2, h⟩
          rw [at_iff.2 h1] at ha
          rw [at_iff.2 h2] at hb
          cases ha
          cases hb
          exact h
        · intro h
          exact ⟨a, b, at_iff.1 ha, at_iff.1 hb, h⟩
      rw [uniq]
      dsimp only
      cases captures with
      | false =>
        rw [C39_given _ _ a b hab, yield_parsed]
        unfold resolveDirection
        simp only [Bool.false_eq_true, if_false, false_and, true_and, false_or]
        unfold Streamed
        generalize parseStreams (S.world.frame S.base.lower S.libs) (a.map SS.new) (b.map SS.new) = r
        obtain ⟨r, e⟩ := r
        cases e with
        | error e => exact ⟨nofun, fun ⟨_, h⟩ => by cases h⟩
        | ok f =>
          constructor
          · intro h; cases h; exact ⟨f, rfl⟩
          · rintro ⟨_, h⟩; cases h; rfl
      | true =>
        simp only [Bool.true_eq_false, false_and, or_false, true_and]
        unfold CapturedPair
        have hbox : (if (true : Bool) ∧ (a = none ∨ b = none) then [ConnItem.box (X := Yield) 1278] else []).map ConnItem.yield =
            if a = none ∨ b = none then [Yield.box 1278] else [] := by
          by_cases h : a = none ∨ b = none
          · rw [if_pos ⟨rfl, h⟩, if_pos h]; rfl
          · rw [if_neg (fun g => h g.2), if_neg h]; rfl
        cases hs : sniffDirection id a b with
        | none =>
          have hn := notHttp_iff.1 hs
          rw [(C39_notice id _ true a b).1 hs, List.map_append, hbox]
          unfold resolveDirection
          simp only [if_true, hs]
          constructor
          · intro h
            have h : some _ = some ys := h
            exact ⟨[.box 1279], (Option.some.inj h).symm, .inl ⟨hn, rfl⟩⟩
          · rintro ⟨rest, rfl, ⟨_, rfl⟩ | ⟨i, o, hf, _⟩⟩
            · rfl
            · rw [flow_iff.2 hf] at hs
              cases hs
        | some io =>
          obtain ⟨i, o⟩ := io
          rw [(C39_notice id _ true a b).2 i o hs, List.map_append, hbox, yield_parsed]
          unfold resolveDirection
          simp only [if_true, hs]
          constructor
          · intro h
            generalize hr : parseStreams (S.world.frame S.base.lower S.libs) (i.map SS.new) (o.map SS.new) = r at h
            obtain ⟨r, e⟩ := r
            cases e with
            | error e => cases h
            | ok f =>
              cases h
              exact ⟨r, rfl, .inr ⟨i, o, flow_iff.1 hs, f, hr⟩⟩
          · rintro ⟨rest, rfl, ⟨hn, _⟩ | ⟨i', o', hf, f, hr⟩⟩
            · rw [notHttp_iff.2 hn] at hs
              cases hs
            · rw [flow_iff.2 hf] at hs
              cases hs
              rw [hr]

omit hW hl in
/-- Something comes of every connection. -/
theorem conveyed_some {D : Disk} {captures : Bool} {pair : PathPair} (hp : pair.1 ≠ none ∨ pair.2.1 ≠ none) {ys : List Yield}
    (h : Conveyed S D captures pair ys) : ys ≠ [] := by
  obtain ⟨a, b, ha, hb, h⟩ := h
  have hab : a ≠ none ∨ b ≠ none := by
    rcases ha with ⟨h1, _⟩ | ⟨p, d, _, _, rfl⟩
    · rcases hb with ⟨h2, _⟩ | ⟨p', d', _, _, rfl⟩
      · exact absurd h2 (hp.resolve_left (fun h => h h1))
      · exact .inr nofun
    · exact .inl nofun
  have some_of : ∀ {i o : Option Str} {ys}, (i ≠ none ∨ o ≠ none) → Streamed S i o ys → ys ≠ [] := by
    rintro i o ys hio ⟨f, hr⟩
    exact C35_connections _ i o ys f hr hio
  rcases h with ⟨_, rest, rfl, ⟨_, rfl⟩ | ⟨i, o, hf, hs⟩⟩ | ⟨_, h⟩
  · simp
  · refine List.append_ne_nil_of_right_ne_nil _ (some_of ?_ hs)
    cases hf with
    | status1 => exact hab.symm
    | status2 => exact hab
    | request1 => exact hab
    | request2 => exact hab.symm
  · exact some_of hab h

omit hW hl in
/-- Every pair has a path. -/
theorem pairs_some {D : Disk} {format : StreamFormat} {paths : List Str} {pairs : List PathPair} (h : D.pairs format paths = .ok pairs) :
    ∀ p ∈ pairs, p.1 ≠ none ∨ p.2.1 ≠ none := by
  have one : ∀ {α : Type} {l : List α} {f : α → PathPair}, (∀ x, (f x).1 ≠ none ∨ (f x).2.1 ≠ none) → ∀ p ∈ l.map f, p.1 ≠ none ∨ p.2.1 ≠ none := by
    intro α l f hf p hp
    obtain ⟨x, _, rfl⟩ := List.mem_map.1 hp
    exact hf x
  cases format with
  | streams =>
    unfold Disk.pairs at h
    dsimp only at h
    split at h
    · cases h
    · cases h
      exact one fun _ => .inl nofun
  | reqStream => cases h; exact one fun _ => .inl nofun
  | respStream => cases h; exact one fun _ => .inr nofun
  | tcpick =>
    unfold Disk.pairs at h
    dsimp only at h
    split at h
    · cases h
    · cases h
      exact one fun _ => .inl nofun
  | tcpflow =>
    unfold Disk.pairs at h
    dsimp only at h
    split at h
    · cases h
    · cases h
      exact one fun _ => .inl nofun

/-! ## Whole runs -/

variable {D : Disk} {format : StreamFormat} {paths : List Str} {pairs : List PathPair} {yss : List (List Yield)}

omit hW hl in
theorem connections_eq (hs : ∀ p ∈ pairs, p.1 ≠ none ∨ p.2.1 ≠ none) {captures : Bool} (hc : Pairwise2 (Conveyed S D captures) pairs yss) :
    S.connections D captures pairs = some (yss.zip (pairs.map (·.2.2))) := by
  induction hc with
  | nil => rfl
  | cons h _ ih =>
    rw [Setup.connections, (connection_iff (hs _ List.mem_cons_self)).2 h, ih fun p hp => hs p (List.mem_cons_of_mem _ hp)]
    rfl

omit hW hl in
theorem pairwise2_length {α β : Type} {R : α → β → Prop} {a : List α} {b : List β} (h : Pairwise2 R a b) : a.length = b.length := by
  induction h with
  | nil => rfl
  | cons _ _ ih => rw [List.length_cons, List.length_cons, ih]

omit hW hl in
theorem run_eq (hp : D.pairs format paths = .ok pairs) (hc : Pairwise2 (Conveyed S D format.captures) pairs yss) :
    S.runFormat D format paths = some (S.runConnections (yss.zip (pairs.map (·.2.2)))) := by
  unfold Setup.runFormat
  rw [hp]
  dsimp only
  rw [connections_eq (pairs_some hp) hc, Option.map_some]

theorem reached_calm {scheme : Option Str} {ys : List Yield} (h : ∀ y ∈ ys, ¬Breaks S scheme y) : S.reached scheme ys = ys := by
  unfold Setup.reached
  induction ys with
  | nil => rfl
  | cons y ys ih =>
    rw [List.takeWhile_cons, if_pos, ih fun z hz => h z (List.mem_cons_of_mem _ hz)]
    rw [Bool.not_eq_true', ← Bool.not_eq_true]
    exact mt (raises_iff hW hl scheme y).1 (h y List.mem_cons_self)

theorem reached_breaks {scheme : Option Str} {before after : List Yield} {y : Yield} (h : ∀ z ∈ before, ¬Breaks S scheme z)
    (hy : Breaks S scheme y) : S.reached scheme (before ++ y :: after) = before := by
  have hc := reached_calm hW hl h
  have hf : (!S.raises scheme y) = false := by rw [(raises_iff hW hl scheme y).2 hy]; rfl
  unfold Setup.reached at hc ⊢
  clear h
  induction before with
  | nil => rw [List.nil_append, List.takeWhile_cons, if_neg (by rw [hf]; nofun)]
  | cons z zs ih =>
    rw [List.takeWhile_cons] at hc
    split at hc
    · rename_i hz
      rw [List.cons_append, List.takeWhile_cons, if_pos hz, ih (List.cons.inj hc).2]
    · cases hc

omit hW hl in
theorem reached_eq (hp : D.pairs format paths = .ok pairs) (hc : Pairwise2 (Conveyed S D format.captures) pairs yss) :
    S.reachedFormat D format paths = some (S.reached streamScheme ((rearrangeByTime
      ((yss.zip (pairs.map (·.2.2))).map fun c => (c.1.map (S.timed streamScheme), c.2))).1.map (·.tag))) := by
  unfold Setup.reachedFormat
  rw [hp]
  dsimp only
  rw [connections_eq (pairs_some hp) hc, Option.map_some]

omit hW hl in
theorem reportAll_boards {scheme : Option Str} (ys : List Yield) :
    (S.reportAll scheme ys).1 = (S.reached scheme ys).map (S.report scheme) := by
  unfold Setup.reached
  induction ys with
  | nil => rfl
  | cons y ys ih =>
    rw [Setup.reportAll, List.takeWhile_cons]
    by_cases h : S.raises scheme y = true
    · rw [if_pos h, if_neg (by simp [h])]
      rfl
    · rw [if_neg h, if_pos (by simp [h])]
      dsimp only
      rw [ih, List.map_cons]

/-- What is shown, with the exchanges that it is made of. -/
theorem run_core (hp : D.pairs format paths = .ok pairs) (hc : Pairwise2 (Conveyed S D format.captures) pairs yss) :
    ∃ out more boards e, S.runFormat D format paths = some (boards, e) ∧ Interleaving yss (out ++ more) ∧
      (S.reachedFormat D format paths = some out ∧ boards = out.map (S.report (some (str "http")))) ∧
      Pairwise2 (ShownAs S) (out.map (some (str "http"), ·)) boards ∧ ((e = .finished ∧ more = []) ∨ e = .otherError) ∧
      ((∀ ys ∈ yss, ∀ y ∈ ys, Steady S y) → e = .finished) ∧
      (e = .finished → ∀ ys ∈ yss, ∀ y ∈ ys, ¬Breaks S (some (str "http")) y) ∧
      ∀ time : Yield → Int, Pairwise2 (fun pair ys => Advances S time pair.2.2 ys) pairs yss → (out.map time).Pairwise (· ≤ ·) := by
  rw [run_eq hp hc, reached_eq hp hc]
  have hlen : yss.length = (pairs.map (·.2.2)).length := by rw [List.length_map, pairwise2_length hc]
  have hz : ((yss.zip (pairs.map (·.2.2))).map fun c => (c.1.map (S.timed streamScheme), c.2)).map (·.1) = yss.map (List.map (S.timed streamScheme)) := by
    rw [List.map_map]
    conv => rhs; rw [← List.map_fst_zip (l₁ := yss) (l₂ := pairs.map (·.2.2)) (by omega), List.map_map]
    rfl
  unfold Setup.runConnections
  generalize hsq : (yss.zip (pairs.map (·.2.2))).map (fun c => (c.1.map (S.timed streamScheme), c.2)) = sqs at hz
  have untag : ∀ l : List (List Yield), (l.map (List.map (S.timed streamScheme))).map (List.map (·.tag)) = l := by
    intro l
    rw [List.map_map]
    conv => rhs; rw [← List.map_id l]
    refine List.map_congr_left fun k _ => ?_
    show (k.map (S.timed streamScheme)).map (·.tag) = k
    rw [List.map_map]
    exact List.map_id k
  obtain ⟨more, h1, h2, h3⟩ := C35_prefix sqs
  have h1 := interleaving_map (·.tag) h1
  rw [hz, untag, List.map_append] at h1
  have calm : (∀ ys ∈ yss, ∀ y ∈ ys, Steady S y) → (rearrangeByTime sqs).2 = .finished := by
    intro hst
    refine (C35_interleaving sqs ?_ ?_).1
    · intro s hs
      have : s.1 ∈ yss.map (List.map (S.timed streamScheme)) := hz ▸ List.mem_map.2 ⟨s, hs, rfl⟩
      obtain ⟨ys, hys, he⟩ := List.mem_map.1 this
      obtain ⟨p, hp', hcv⟩ := (pairwise2_mem hc).1 ys hys
      rw [← he]
      intro hnil
      exact conveyed_some (pairs_some hp p hp') hcv (List.map_eq_nil_iff.1 hnil)
    · intro s hs e he
      have : s.1 ∈ yss.map (List.map (S.timed streamScheme)) := hz ▸ List.mem_map.2 ⟨s, hs, rfl⟩
      obtain ⟨ys, hys, heq⟩ := List.mem_map.1 this
      rw [← heq] at he
      obtain ⟨y, hy, rfl⟩ := List.mem_map.1 he
      exact (fits_iff hW hl y).2 (hst ys hys y hy).2
  have among : ∀ y ∈ (rearrangeByTime sqs).1.map (·.tag), ∃ ys ∈ yss, y ∈ ys := by
    intro y hy
    have := (interleaving_perm h1).mem_iff.1 (List.mem_append_left _ hy)
    obtain ⟨ys, hys, h⟩ := List.mem_flatten.1 this
    exact ⟨ys, hys, h⟩
  have sorted : ∀ time : Yield → Int, Pairwise2 (fun pair ys => Advances S time pair.2.2 ys) pairs yss →
      (((rearrangeByTime sqs).1.map (·.tag)).map time).Pairwise (· ≤ ·) := by
    intro time ht
    rw [List.map_map]
    refine C36_sorted sqs (time ∘ (·.tag)) fun s hs => ?_
    rw [← hsq] at hs
    obtain ⟨c, hcm, rfl⟩ := List.mem_map.1 hs
    have : Advances S time c.2 c.1 := by
      clear hsq hz h1 h2 h3 calm among hs hlen hc hp
      induction ht with
      | nil => cases hcm
      | cons h _ ih =>
        rw [List.map_cons, List.zip_cons_cons] at hcm
        rcases List.mem_cons.1 hcm with rfl | hcm
        · exact h
        · exact ih hcm
    exact in_time hW hl this
  dsimp only
  rcases first_break (P := Breaks S streamScheme) ((rearrangeByTime sqs).1.map (·.tag)) with hno | ⟨before, y, after, he, hno, hb⟩
  · obtain ⟨bs, h4, h5⟩ := reportAll_calm hW hl hno
    have h6 := (reportAll_boards (S := S) (scheme := streamScheme) ((rearrangeByTime sqs).1.map (·.tag)))
    rw [h4, reached_calm hW hl hno] at h6
    rw [h4]
    refine ⟨_, more.map (·.tag), bs, _, rfl, h1, ⟨by rw [reached_calm hW hl hno], h6⟩, h5, ?_, ?_, ?_, sorted⟩
    · simp only [Bool.false_eq_true, if_false]
      cases hr : (rearrangeByTime sqs).2 with
      | finished => exact .inl ⟨rfl, by rw [h2 hr]; rfl⟩
      | raised e => exact .inr rfl
      | diverge => exact .inr rfl
    · intro hst
      rw [calm hst]
      rfl
    · intro hf ys hys y hy
      have hr : (rearrangeByTime sqs).2 = .finished := by
        cases hr : (rearrangeByTime sqs).2 with
        | finished => rfl
        | raised e => rw [hr] at hf; cases hf
        | diverge => rw [hr] at hf; cases hf
      rw [h2 hr, List.map_nil, List.append_nil] at h1
      exact hno y ((interleaving_perm h1).mem_iff.2 (List.mem_flatten.2 ⟨ys, hys, hy⟩))
  · obtain ⟨bs, h4, h5⟩ := reportAll_breaks hW hl (after := after) hno hb
    have h6 := (reportAll_boards (S := S) (scheme := streamScheme) (before ++ y :: after))
    rw [h4, reached_breaks hW hl hno hb] at h6
    refine ⟨before, y :: after ++ more.map (·.tag), bs, .otherError, ?_, ?_, ⟨by rw [he, reached_breaks hW hl hno hb], h6⟩, h5, .inr rfl, ?_, nofun, fun time ht => ?_⟩
    · rw [he, h4]
      rfl
    · rw [he] at h1
      simpa using h1
    · intro hst
      obtain ⟨ys, hys, hy⟩ := among y (by rw [he]; simp)
      exact absurd hb (hst ys hys y hy).1
    · have := sorted time ht
      rw [he, List.map_append] at this
      exact (List.pairwise_append.1 this).1

/-- **C100**: whatever is in the streams, what is shown are exchanges of the connections, each connection in order, with the
right notices; if the run does not end with an exception, then all of them are. -/
theorem C100_run (hp : D.pairs format paths = .ok pairs) (hc : Pairwise2 (Conveyed S D format.captures) pairs yss) :
    ∃ out more boards e, S.runFormat D format paths = some (boards, e) ∧ Interleaving yss (out ++ more) ∧
      Pairwise2 (ShownAs S) (out.map (some (str "http"), ·)) boards ∧ ((e = .finished ∧ more = []) ∨ e = .otherError) ∧
      ((∀ ys ∈ yss, ∀ y ∈ ys, Steady S y) → e = .finished) ∧
      (e = .finished → ∀ ys ∈ yss, ∀ y ∈ ys, ¬Breaks S (some (str "http")) y) ∧
      ∀ time : Yield → Int, Pairwise2 (fun pair ys => Advances S time pair.2.2 ys) pairs yss → (out.map time).Pairwise (· ≤ ·) := by
  obtain ⟨out, more, boards, e, h1, h2, _, h⟩ := run_core hW hl hp hc
  exact ⟨out, more, boards, e, h1, h2, h⟩

/-- **C100**: if everything can be checked and put in its place, every exchange of every connection is shown, once. -/
theorem C100_shown (hp : D.pairs format paths = .ok pairs) (hc : Pairwise2 (Conveyed S D format.captures) pairs yss)
    (hst : ∀ ys ∈ yss, ∀ y ∈ ys, Steady S y) :
    ∃ out boards, S.runFormat D format paths = some (boards, .finished) ∧ Interleaving yss out ∧
      Pairwise2 (ShownAs S) (out.map (some (str "http"), ·)) boards := by
  obtain ⟨out, more, boards, e, h1, h2, h3, h4, h5, _, _⟩ := C100_run hW hl hp hc
  have he := h5 hst
  subst he
  rcases h4 with ⟨_, rfl⟩ | h4
  · rw [List.append_nil] at h2
    exact ⟨out, boards, h1, h2, h3⟩
  · cases h4

/-- **C100**: if time does not go back within the connections, then it does not in what is shown. -/
theorem C100_order (hp : D.pairs format paths = .ok pairs) (hc : Pairwise2 (Conveyed S D format.captures) pairs yss)
    (hst : ∀ ys ∈ yss, ∀ y ∈ ys, Steady S y) {time : Yield → Int}
    (ht : Pairwise2 (fun pair ys => Advances S time pair.2.2 ys) pairs yss) :
    ∃ out boards, S.runFormat D format paths = some (boards, .finished) ∧ Interleaving yss out ∧
      Pairwise2 (ShownAs S) (out.map (some (str "http"), ·)) boards ∧ (out.map time).Pairwise (· ≤ ·) := by
  obtain ⟨out, more, boards, e, h1, h2, h3, h4, h5, _, h7⟩ := C100_run hW hl hp hc
  have he := h5 hst
  subst he
  rcases h4 with ⟨_, rfl⟩ | h4
  · rw [List.append_nil] at h2
    exact ⟨out, boards, h1, h2, h3, h7 time ht⟩
  · cases h4

omit hW hl in
theorem box_known : (∃ row ∈ noticeRows, row.id = 1278) ∧ ∃ row ∈ noticeRows, row.id = 1279 := by decide +kernel

/-- Every notice is in the catalogue. -/
theorem conveyed_catalogued {captures : Bool} {pair : PathPair} {ys : List Yield} (hc : Conveyed S D captures pair ys) {y : Yield}
    (hy : y ∈ ys) {t : Target} {c : Complaint Ctx} (h : ToShow S (some (str "http")) y t c) : ∃ row ∈ noticeRows, row.id = c.id := by
  have box : ∀ id, (∃ row ∈ noticeRows, row.id = id) → y = .box id → ∃ row ∈ noticeRows, row.id = c.id := by
    rintro id hid rfl
    rcases h.1 with ⟨n, hn, rfl⟩ | h
    · cases t with
      | exch => obtain rfl : n = ⟨id, none⟩ := hn; exact hid
      | req => exact hn.elim
      | resp i => exact hn.elim
    · rw [exchange_eq] at h
      exact C92_catalogued hW hl h
  obtain ⟨a, b, _, _, ⟨_, rest, rfl, hr⟩ | ⟨_, f, hr⟩⟩ := hc
  · rcases List.mem_append.1 hy with hy | hy
    · split at hy
      · exact box 1278 box_known.1 (List.mem_singleton.1 hy)
      · cases hy
    · rcases hr with ⟨_, rfl⟩ | ⟨i, o, _, f, hr⟩
      · exact box 1279 box_known.2 (List.mem_singleton.1 hy)
      · exact streams_catalogued hW hl (inb := i) (outb := o) hr hy h
  · exact streams_catalogued hW hl (inb := a) (outb := b) hr hy h

/-- **C100**: the exit status. -/
theorem C100_exit (hp : D.pairs format paths = .ok pairs) (hc : Pairwise2 (Conveyed S D format.captures) pairs yss)
    (hst : ∀ ys ∈ yss, ∀ y ∈ ys, Steady S y) :
    (S.exitFormat D format paths = some (some 0) ∨ S.exitFormat D format paths = some (some 1)) ∧
    (S.exitFormat D format paths = some (some 1) ↔ ∃ threshold, S.failOn = some threshold ∧
      ∃ ys ∈ yss, ∃ y ∈ ys, ∃ t c, ToShow S (some (str "http")) y t c ∧ Grave threshold c.id) := by
  obtain ⟨out, bs, h1, h2, h3⟩ := C100_shown hW hl hp hc hst
  obtain ⟨k1, k2⟩ := C40_status severityOf [] id S.failOn bs .finished nofun
  have hm : bs.map (processExchange [] id) = bs := by
    rw [show processExchange [] id = (id : ExchBoards Ctx → _) from rfl, List.map_id]
  rw [(generate_eq severityOf [] id bs _).1, hm] at k1
  unfold Setup.exitFormat
  rw [h1, Option.map_some]
  simp only [Option.some.injEq] at k1 k2 ⊢
  refine ⟨k2, k1.trans ⟨?_, ?_⟩⟩
  · rintro (h | ⟨T, hT, b, hb, t, obj, c, ho, hcm, hg⟩)
    · cases h
    · obtain ⟨x, hx, hsx⟩ := (p2_mem h3).2 b hb
      obtain ⟨y, hy, rfl⟩ := List.mem_map.1 hx
      obtain ⟨ys, hys, hy⟩ := List.mem_flatten.1 ((interleaving_perm h2).mem_iff.1 hy)
      obtain ⟨p, _, hcv⟩ := (pairwise2_mem hc).1 ys hys
      have hts := (hsx.2 t c).1 ⟨obj, ho, hcm⟩
      exact ⟨T, hT, ys, hys, y, hy, t, c, hts, (grave_iff (conveyed_catalogued hW hl hcv hy hts)).2 hg⟩
  · rintro ⟨T, hT, ys, hys, y, hy, t, c, hts, hg⟩
    obtain ⟨p, _, hcv⟩ := (pairwise2_mem hc).1 ys hys
    have hout := (interleaving_perm h2).mem_iff.2 (List.mem_flatten.2 ⟨ys, hys, hy⟩)
    obtain ⟨b, hb, hsx⟩ := (p2_mem h3).1 _ (List.mem_map.2 ⟨y, hout, rfl⟩)
    obtain ⟨obj, ho, hcm⟩ := (hsx.2 t c).2 hts
    exact .inr ⟨T, hT, b, hb, t, obj, c, ho, hcm, (grave_iff (conveyed_catalogued hW hl hcv hy hts)).1 hg⟩

/-- **C100**: if the run ends with an exception, there is no status. -/
theorem C100_crash (hp : D.pairs format paths = .ok pairs) (hc : Pairwise2 (Conveyed S D format.captures) pairs yss)
    (hb : ∃ ys ∈ yss, ∃ y ∈ ys, Breaks S (some (str "http")) y) : S.exitFormat D format paths = some none := by
  obtain ⟨out, more, boards, e, h1, _, _, h4, _, h6, _⟩ := C100_run hW hl hp hc
  obtain ⟨ys, hys, y, hy, hb⟩ := hb
  rcases h4 with ⟨rfl, _⟩ | rfl
  · exact absurd hb (h6 rfl ys hys y hy)
  · unfold Setup.exitFormat
    rw [h1]
    rfl

omit hW hl in
/-- **C100**: streams are taken as they are given. -/
theorem C100_given :
    (D.pairs .streams paths = .ok pairs ↔ ∃ ps : List (Str × Str), paths = ps.flatMap (fun p => [p.1, p.2]) ∧
      pairs = ps.map fun p => (some p.1, some p.2, none)) ∧
    (D.pairs .reqStream paths = .ok pairs ↔ pairs = paths.map fun p => (some p, none, none)) ∧
    (D.pairs .respStream paths = .ok pairs ↔ pairs = paths.map fun p => (none, some p, none)) ∧
    (paths.length % 2 = 1 → S.runFormat D .streams paths = some ([], .inputError) ∧ S.exitFormat D .streams paths = some (some 1)) := by
  obtain ⟨h1, h2⟩ := C35_arguments paths
  refine ⟨⟨fun h => ?_, ?_⟩, ⟨fun h => by cases h; rfl, fun h => by rw [h]; rfl⟩, ⟨fun h => by cases h; rfl, fun h => by rw [h]; rfl⟩, fun h => ?_⟩
  · unfold Disk.pairs at h
    dsimp only at h
    split at h
    · cases h
    · rename_i ps hps
      cases h
      exact ⟨ps, (h1 ps hps).symm, rfl⟩
  · rintro ⟨ps, rfl, rfl⟩
    have : pairUp (ps.flatMap fun p => [p.1, p.2]) = some ps := by
      clear h1 h2
      induction ps with
      | nil => rfl
      | cons p ps ih =>
        show pairUp (p.1 :: p.2 :: ps.flatMap fun p => [p.1, p.2]) = _
        rw [pairUp, ih]
    unfold Disk.pairs
    dsimp only
    rw [this]
  · have hn := h2.2 h
    have hr : S.runFormat D .streams paths = some ([], .inputError) := by
      unfold Setup.runFormat Disk.pairs
      dsimp only
      rw [hn]
    refine ⟨hr, ?_⟩
    unfold Setup.exitFormat
    rw [hr]
    rfl

omit hW hl in
/-- **C100**: which streams are told apart by their contents and complained about when they are alone: those that are found in
directories, and no others. The pairs of them are the ones that C95 is about. -/
theorem C100_formats :
    (∀ format : StreamFormat, Pairwise2 (Conveyed S D format.captures) pairs yss ↔
      ((format = .tcpick ∨ format = .tcpflow) ∧ Pairwise2 (Conveyed S D true) pairs yss) ∨
      ((format = .streams ∨ format = .reqStream ∨ format = .respStream) ∧ Pairwise2 (Conveyed S D false) pairs yss)) ∧
    (D.pairs .tcpick paths = .ok pairs ↔ ∃ ps, tcpickPairs D.digit D.listing paths = .ok ps ∧ pairs = ps.map fun p => (some p.1, p.2.1, p.2.2)) ∧
    (D.pairs .tcpflow paths = .ok pairs ↔ ∃ ps, tcpflowPairs D.digit D.listing paths = .ok ps ∧ pairs = ps.map fun p => (some p.1, p.2.1, p.2.2)) := by
  refine ⟨fun format => ?_, ?_, ?_⟩
  · cases format <;> simp [StreamFormat.captures]
  · unfold Disk.pairs
    dsimp only
    cases tcpickPairs D.digit D.listing paths with
    | error e => simp
    | ok ps => simp [eq_comm]
  · unfold Disk.pairs
    dsimp only
    cases tcpflowPairs D.digit D.listing paths with
    | error e => simp
    | ok ps => simp [eq_comm]

omit hW hl in
/-- **C100**: names of files that do not fit end the run before anything is reported. -/
theorem C100_names {e : CaptureError} (he : e ≠ .outOfRange) :
    (tcpickPairs D.digit D.listing paths = .error e → S.runFormat D .tcpick paths = some ([], .inputError) ∧
      S.exitFormat D .tcpick paths = some (some 1)) ∧
    (tcpflowPairs D.digit D.listing paths = .error e → S.runFormat D .tcpflow paths = some ([], .inputError) ∧
      S.exitFormat D .tcpflow paths = some (some 1)) := by
  have key : ∀ fmt, D.pairs fmt paths = .error (.capture e) → S.runFormat D fmt paths = some ([], .inputError) ∧
      S.exitFormat D fmt paths = some (some 1) := by
    intro fmt h
    have hr : S.runFormat D fmt paths = some ([], .inputError) := by
      unfold Setup.runFormat
      rw [h]
      cases e with
      | outOfRange => exact absurd rfl he
      | wrongName => rfl
      | duplicate => rfl
    refine ⟨hr, ?_⟩
    unfold Setup.exitFormat
    rw [hr]
    rfl
  constructor
  · intro h
    refine key _ ?_
    unfold Disk.pairs
    dsimp only
    rw [h]
  · intro h
    refine key _ ?_
    unfold Disk.pairs
    dsimp only
    rw [h]

end

/-! ## Examples -/

/-- A request and what comes back, and something else that was captured. -/
def exDisk : Disk where
  digit := fun c => if 48 ≤ c ∧ c ≤ 57 then some (c - 48) else none
  listing := fun _ => [str "tcpick_1_a_b_http.clnt.dat"]
  contents := fun path =>
    if path = str "i" then some (str "HEAD / HTTP/1.1\r\n\r\n")
    else if path = str "o" then some (str "HTTP/1.1 204 OK\r\n\r\nabc")
    else if path = str "d/tcpick_1_a_b_http.clnt.dat" then some (str "SSH") else none

theorem exDisk_streams (W : World) (silence : List Nat) (failOn : Option Severity) :
    ∃ req r, Conveyed (exSetup W silence failOn) exDisk false (some (str "i"), some (str "o"), none) [.exch (some req) [r], .box 1008, .box 1009] ∧
      ∀ y ∈ [Yield.exch (some req) [r], .box 1008, .box 1009], Steady (exSetup W silence failOn) y := by
  have hrun : ∃ req r final, runStreams (W.frame Toy.env.lower tools) (some (str "HEAD / HTTP/1.1\r\n\r\n"))
      (some (str "HTTP/1.1 204 OK\r\n\r\nabc")) = ([.exch (some req) [r], .box 1008, .box 1009], .ok final) ∧
      req.msg.entries ++ req.msg.trailers = [] ∧ r.msg.entries = [] ∧ r.msg.trailers = [] ∧ r.status = 204 :=
    ⟨_, _, _, rfl, rfl, rfl, rfl, rfl⟩
  obtain ⟨req, r, final, hrun, hq, hh, ht, hst⟩ := hrun
  refine ⟨req, r, ⟨_, _, .inr ⟨_, _, rfl, rfl, rfl⟩, .inr ⟨_, _, rfl, rfl, rfl⟩, .inr ⟨rfl, final, hrun⟩⟩, ?_⟩
  have nodate : ∀ d, ¬TimeText Toy.env.lower r.response.fields "Date" d := by
    rintro d ⟨x, ⟨a, e, b, h1, _⟩, _⟩
    have h1 : r.msg.entries ++ [] = a ++ e :: b := h1
    rw [hh] at h1
    simp at h1
  intro y hy
  simp only [List.mem_cons, List.not_mem_nil, or_false] at hy
  constructor
  · rintro (⟨q, hq', e, he, _⟩ | ⟨r', hr', hb⟩)
    · rcases hy with rfl | rfl | rfl
      · cases hq'
        have he : e ∈ req.msg.entries ++ req.msg.trailers := he
        rw [hq] at he
        cases he
      · cases hq'
      · cases hq'
    rcases hy with rfl | rfl | rfl
    · obtain rfl : r' = r.response := by simpa [captured, streamExchange] using hr'
      rcases hb with ⟨e, he, _⟩ | ⟨_, d, n, h, _⟩ | hb
      · have he : e ∈ r.msg.entries ++ r.msg.trailers := he
        rw [hh, ht] at he
        cases he
      · exact nodate d h
      · have h1 : (r.status : Int) = 451 := hb.1
        rw [hst] at h1
        cases h1
    · cases hr'
    · cases hr'
  · rcases hy with rfl | rfl | rfl
    · intro r' hr' d n h
      obtain rfl : r' = r.response := by simpa [captured, streamExchange] using hr'
      exact absurd h (nodate d)
    · nofun
    · nofun

/-- C100: bytes are left over in the outbound stream, which is an error; and a stream without its other half is given. -/
example {W : World} (hW : Ready W) :
    (exSetup W [] (some .error)).exitFormat exDisk .streams [str "i", str "o", str "i", str "o"] = some (some 1) ∧
    (exSetup W [] none).exitFormat exDisk .streams [str "i", str "o"] = some (some 0) ∧
    (exSetup W [] none).exitFormat exDisk .streams [str "i"] = some (some 1) := by
  refine ⟨?_, ?_, (C100_given (pairs := []).2.2.2 rfl).2⟩
  · obtain ⟨req, r, h, hs⟩ := exDisk_streams W [] (some .error)
    have hc := Pairwise2.cons h (Pairwise2.cons h .nil)
    refine ((C100_exit (S := exSetup W [] (some .error)) hW toy_lower (format := .streams)
      ((C100_given (S := exSetup W [] none)).1.2 ⟨[(str "i", str "o"), (str "i", str "o")], rfl, rfl⟩) hc ?_).2).2
      ⟨.error, rfl, _, List.mem_cons_self, .box 1009, by simp, .exch, ⟨1009, []⟩, ?_, ?_⟩
    · intro ys hys
      simp only [List.mem_cons, List.not_mem_nil, or_false, or_self] at hys
      subst hys
      exact hs
    · exact ⟨.inl ⟨⟨1009, none⟩, rfl, rfl⟩, by simp [exSetup], fun h => h⟩
    · exact ⟨noticeRows.find? (·.id = 1009) |>.get (by decide +kernel), by decide +kernel, by decide +kernel, .inl (by decide +kernel)⟩
  · obtain ⟨req, r, h, hs⟩ := exDisk_streams W [] none
    obtain ⟨h0, h1⟩ := C100_exit (S := exSetup W [] none) hW toy_lower (format := .streams)
      ((C100_given (S := exSetup W [] none)).1.2 ⟨[(str "i", str "o")], rfl, rfl⟩) (Pairwise2.cons h .nil) (by
        intro ys hys
        obtain rfl := List.mem_singleton.1 hys
        exact hs)
    refine h0.resolve_right fun h => ?_
    obtain ⟨T, hT, _⟩ := h1.1 h
    cases hT

/-- C100: something that is not HTTP was captured, in one direction. -/
example {W : World} (hW : Ready W) : ∃ out boards, (exSetup W [] none).runFormat exDisk .tcpick [str "d"] = some (boards, .finished) ∧
    Interleaving [[.box 1278, .box 1279]] out ∧ Pairwise2 (ShownAs (exSetup W [] none)) (out.map (some (str "http"), ·)) boards := by
  have hcalm : ∀ n, Steady (exSetup W [] none) (.box n) := by
    intro n
    refine ⟨?_, nofun⟩
    rintro (⟨_, h, _⟩ | ⟨_, h, _⟩) <;> cases h
  refine C100_shown (S := exSetup W [] none) hW toy_lower (format := .tcpick)
    (pairs := [(some (str "d/tcpick_1_a_b_http.clnt.dat"), none, none)]) (by decide +kernel) (.cons ?_ .nil) ?_
  · refine ⟨some (str "SSH"), none, .inr ⟨_, _, rfl, by decide +kernel, rfl⟩, .inl ⟨rfl, rfl⟩, .inl ⟨rfl, [.box 1279], ?_, .inl ⟨?_, rfl⟩⟩⟩
    · rw [if_pos (.inr rfl)]
      rfl
    · exact notHttp_iff.1 (by decide +kernel)
  · intro ys hys y hy
    obtain rfl := List.mem_singleton.1 hys
    simp only [List.mem_cons, List.not_mem_nil, or_false] at hy
    rcases hy with rfl | rfl <;> exact hcalm _

/-- C100: complaint boxes do not tell the time. -/
example (S : Setup) : exDisk.pairs .tcpick [str "d"] = .ok [(some (str "d/tcpick_1_a_b_http.clnt.dat"), none, none)] :=
  (C100_formats (S := S) (yss := [])).2.1.2 ⟨[(str "d/tcpick_1_a_b_http.clnt.dat", none, none)], by decide +kernel, rfl⟩

example (S : Setup) : Advances S (fun _ => 5) (some 5) [.box 1278, .box 1279] := by
  have hn : ∀ n, ¬∃ t, Tells S.base.lower (captured (some (str "http")) (.box n)) t := by
    rintro n ⟨t, ⟨q, h, _⟩ | ⟨_, a, r, b, h, _⟩⟩
    · cases h
    · have h : [] = a ++ r :: b := h
      simp at h
  exact ⟨.inr ⟨hn _, rfl⟩, by rintro p h; cases h; decide, .inr ⟨hn _, rfl⟩, by rintro p h; cases h; decide, trivial⟩

end Httpolice.Props
