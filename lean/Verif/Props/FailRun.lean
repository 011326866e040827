import Verif.Spec.FailRun
import Verif.Props.StreamRun
import Verif.Props.CrashRun

/-!
# C105: a whole run of the command on streams and captures, some of which cannot be read
-/

namespace Httpolice.Props

open Httpolice.Model Httpolice.Spec Httpolice.Lemmas Httpolice.Lemmas.Check

/-! ## Rearranging sequences that fail -/

section
variable {α β : Type} (g : Exch α → Exch β) (bomb : Exch β)

/-- An exchange that makes `_exchange_time` fail, at the end of what will fail. -/
def bombs (fate : Option Fate) : List (Exch β) := if fate.isSome then [bomb] else []

def armed (c : FConn α) : Conn β := ⟨c.pos.map fun p => (p.1, p.2.map g), c.rest.map g ++ bombs bomb c.fate⟩

def armedErr : FErr → RErr
  | .time e => e
  | .fate _ => .overflow

def armedNext : Except FErr (Option (List (FConn α))) → Except RErr (Option (List (Conn β)))
  | .error e => .error (armedErr e)
  | .ok n => .ok (n.map (List.map (armed g bomb)))

def armedEnd : FEnd → REnd
  | .finished => .finished
  | .raised e => .raised (armedErr e)
  | .diverge => .diverge

theorem minLoop_armed (cs : List (FConn α)) (i : Nat) (m : Option Nat) (t : Option Int) :
    minLoop (cs.map (armed g bomb)) i m t = minLoop (cs.map fun c => (⟨c.pos, c.rest⟩ : Conn α)) i m t := by
  induction cs generalizing i m t with
  | nil => rfl
  | cons c cs ih =>
    rw [List.map_cons, List.map_cons, minLoop, minLoop]
    unfold armed
    dsimp only
    cases c.pos with
    | none => exact ih ..
    | some p =>
      obtain ⟨a, b⟩ := p
      cases a with
      | none => rfl
      | some a =>
        dsimp only [Option.map_some]
        cases t with
        | none => exact ih ..
        | some t =>
          dsimp only
          split <;> exact ih ..

variable (hg : ∀ e h, exchangeTime (some (g e)) h = exchangeTime (some e) h)
  (hb : ∀ h, exchangeTime (some bomb) h = .error .overflow)
include hg hb

theorem proceed_armed (cs : List (FConn α)) (i : Nat) (time : Option Int) (ex : Exch α) (rest : List (Exch α)) (fate : Option Fate) :
    proceed (cs.map (armed g bomb)) i time (g ex) (rest.map g ++ bombs bomb fate) =
      ⟨(proceedF cs i time ex rest fate).out.map g, armedNext g bomb (proceedF cs i time ex rest fate).next⟩ := by
  cases rest with
  | nil =>
    cases fate with
    | none =>
      show (⟨_, _⟩ : Round β) = ⟨_, .ok (some _)⟩
      rw [List.map_set]
      rfl
    | some f =>
      show proceed _ _ _ _ [bomb] = _
      unfold proceed
      simp only [hb]
      rfl
  | cons e rest =>
    rw [List.map_cons, List.cons_append]
    unfold proceed proceedF
    simp only [hg]
    cases exchangeTime (some e) time with
    | error err => rfl
    | ok t =>
      dsimp only [armedNext, Option.map_some]
      rw [List.map_set]
      rfl

theorem round_armed (cs : List (FConn α)) :
    Model.round (cs.map (armed g bomb)) = ⟨(roundF cs).out.map g, armedNext g bomb (roundF cs).next⟩ := by
  unfold Model.round roundF
  rw [minLoop_armed]
  cases minLoop (cs.map fun c => (⟨c.pos, c.rest⟩ : Conn α)) 0 none none with
  | none => rfl
  | some i =>
    dsimp only
    rw [List.getElem?_map]
    cases cs[i]? with
    | none => rfl
    | some c =>
      obtain ⟨pos, rest, fate⟩ := c
      cases pos with
      | none => rfl
      | some p =>
        obtain ⟨time, ex⟩ := p
        cases ex with
        | some ex => exact proceed_armed g bomb hg hb ..
        | none =>
          show startConn _ i time (rest.map g ++ bombs bomb fate) = ⟨(startF cs i time rest fate).out.map g, armedNext g bomb (startF cs i time rest fate).next⟩
          cases rest with
          | nil =>
            cases fate with
            | none => rfl
            | some f =>
              show startConn _ _ _ [bomb] = _
              unfold startConn
              simp only [hb]
              rfl
          | cons e rest =>
            rw [List.map_cons, List.cons_append]
            unfold startConn startF
            simp only [hg]
            cases exchangeTime (some e) time with
            | error err => rfl
            | ok t =>
              dsimp only
              split
              · dsimp only [armedNext, Option.map_some]
                rw [List.map_set]
                rfl
              · exact proceed_armed g bomb hg hb ..

theorem loop_armed (n : Nat) (cs : List (FConn α)) :
    rearrangeLoop n (cs.map (armed g bomb)) = ((loopF n cs).1.map g, armedEnd (loopF n cs).2) := by
  induction n generalizing cs with
  | zero => rfl
  | succ n ih =>
    rw [rearrangeLoop, round_armed g bomb hg hb, loopF]
    obtain ⟨o, nx⟩ := roundF cs
    have ho : (o.map g).toList = o.toList.map g := by cases o <;> rfl
    dsimp only
    rw [ho]
    cases nx with
    | error e => rfl
    | ok x =>
      cases x with
      | none => rfl
      | some cs' =>
        dsimp only [armedNext, Option.map_some]
        rw [ih]
        dsimp only
        rw [List.map_append]

theorem rearrange_armed (sqs : List ((List (Exch α) × Option Fate) × Option Int)) :
    rearrangeByTime (sqs.map fun s => (s.1.1.map g ++ bombs bomb s.1.2, s.2)) =
      ((rearrangeFailing sqs).1.map g, armedEnd (rearrangeFailing sqs).2) := by
  unfold rearrangeFailing rearrangeByTime
  rw [← loop_armed g bomb hg hb, List.map_map, List.map_map]
  congr 1
  unfold roundsFor
  rw [List.map_map]
  congr 2
  refine List.map_congr_left fun s _ => ?_
  show 2 * (s.1.1.map g ++ bombs bomb s.1.2).length + 2 = _
  rw [List.length_append, List.length_map]
  cases s.1.2 <;> rfl

end

/-- An interleaving of what remains. -/
theorem interleaving_filterMap {α β : Type} (f : α → Option β) {ls : List (List α)} {out : List α} (h : Interleaving ls out) :
    Interleaving (ls.map (List.filterMap f)) (out.filterMap f) := by
  induction h with
  | done h =>
    refine .done fun l hl => ?_
    obtain ⟨k, hk, rfl⟩ := List.mem_map.1 hl
    rw [h k hk]
    rfl
  | @take ls i x l out hi _ ih =>
    rw [List.map_set] at ih
    cases hx : f x with
    | none =>
      rw [List.filterMap_cons_none hx]
      have : (ls.map (List.filterMap f)).set i (l.filterMap f) = ls.map (List.filterMap f) := by
        apply List.ext_getElem?
        intro j
        rw [List.getElem?_set]
        split
        · rename_i hij
          subst hij
          rw [List.getElem?_map, hi]
          have hlt : i < (ls.map (List.filterMap f)).length := by
            rw [List.length_map]
            exact (List.getElem?_eq_some_iff.1 hi).1
          rw [if_pos hlt, Option.map_some, List.filterMap_cons_none hx]
        · rfl
      rwa [this] at ih
    | some y =>
      rw [List.filterMap_cons_some hx]
      refine .take (i := i) (l := l.filterMap f) ?_ ih
      rw [List.getElem?_map, hi, Option.map_some, List.filterMap_cons_some hx]

/-- How rearranging ends. -/
theorem failing_prefix {α : Type} (sqs : List ((List (Exch α) × Option Fate) × Option Int)) : ∃ more,
    Interleaving (sqs.map (·.1.1.map (·.tag))) ((rearrangeFailing sqs).1.map (·.tag) ++ more) ∧
      ((rearrangeFailing sqs).2 = .finished → more = [] ∧ ∀ s ∈ sqs, s.1.2 = none) ∧ (rearrangeFailing sqs).2 ≠ .diverge := by
  let g : Exch α → Exch (Option α) := fun e => ⟨some e.tag, e.reqDate, e.resps⟩
  let bomb : Exch (Option α) := ⟨none, none, [(some (maxTime + 1), some 0)]⟩
  have hg : ∀ e h, exchangeTime (some (g e)) h = exchangeTime (some e) h := fun e h => rfl
  have hb : ∀ h, exchangeTime (some bomb) h = .error .overflow := by
    intro h
    show respsTime h [(some (maxTime + 1), some 0)] = _
    unfold respsTime
    rw [if_pos (by simp [maxTime])]
  have key := rearrange_armed g bomb hg hb sqs
  obtain ⟨more, h1, h2, h3⟩ := C35_prefix (sqs.map fun s => (s.1.1.map g ++ bombs bomb s.1.2, s.2))
  rw [key] at h1 h2 h3
  dsimp only at h1 h2 h3
  have tags : ∀ l : List (Exch α), (l.map g).filterMap (·.tag) = l.map (·.tag) := by
    intro l
    rw [List.filterMap_map]
    show l.filterMap (fun e => some e.tag) = _
    exact congrFun List.filterMap_eq_map l
  have hi := interleaving_filterMap (·.tag) h1
  rw [List.filterMap_append, tags] at hi
  refine ⟨more.filterMap (·.tag), ?_, fun hf => ?_, ?_⟩
  · have : ((sqs.map fun s => (s.1.1.map g ++ bombs bomb s.1.2, s.2)).map (·.1)).map (List.filterMap (·.tag)) = sqs.map (·.1.1.map (·.tag)) := by
      rw [List.map_map, List.map_map]
      refine List.map_congr_left fun s _ => ?_
      show (s.1.1.map g ++ bombs bomb s.1.2).filterMap (·.tag) = _
      rw [List.filterMap_append, tags]
      cases s.1.2 <;> simp [bombs, bomb]
    rwa [this] at hi
  · have hm := h2 (by rw [hf]; rfl)
    subst hm
    refine ⟨rfl, fun s hs => ?_⟩
    cases hfate : s.1.2 with
    | none => rfl
    | some f =>
      have hmem : bomb ∈ (rearrangeFailing sqs).1.map g ++ [] := by
        refine (interleaving_perm h1).mem_iff.2 (List.mem_flatten.2 ⟨_, List.mem_map.2 ⟨_, List.mem_map.2 ⟨s, hs, rfl⟩, rfl⟩, ?_⟩)
        refine List.mem_append_right _ ?_
        rw [hfate]
        exact List.mem_singleton.2 rfl
      rw [List.append_nil] at hmem
      obtain ⟨e, _, he⟩ := List.mem_map.1 hmem
      have := congrArg Exch.tag he
      cases this
  · intro hd
    rw [hd] at h3
    exact h3 rfl

/-- Nothing fails of itself. -/
theorem failing_whole {α : Type} (x : α) (sqs : List ((List (Exch α) × Option Fate) × Option Int)) (h : ∀ s ∈ sqs, s.1.2 = none) :
    rearrangeByTime (sqs.map fun s => (s.1.1, s.2)) = ((rearrangeFailing sqs).1, armedEnd (rearrangeFailing sqs).2) := by
  have key := rearrange_armed (α := α) id ⟨x, none, [(some (maxTime + 1), some 0)]⟩ (fun _ _ => rfl) (fun h => by
    show respsTime h [(some (maxTime + 1), some 0)] = _
    unfold respsTime
    rw [if_pos (by simp [maxTime])]) sqs
  rw [List.map_id] at key
  rw [← key]
  congr 1
  refine List.map_congr_left fun s hs => ?_
  rw [h s hs]
  simp [bombs]

/-- What holds of the state of rearranging. -/
structure Kept {α : Type} (E : Fate → Prop) (strict : Prop) (c : FConn α) : Prop where
  fate : ∀ f, c.fate = some f → E f
  fits : strict → ∀ e ∈ c.rest, ∀ r ∈ e.resps, Representable r
  start : strict → ∀ t, c.pos = some (t, none) → c.rest ≠ [] ∨ c.fate ≠ none

section
variable {α : Type} {E : Fate → Prop} {strict : Prop}

/-- What holds after a round. -/
def KeptRound (E : Fate → Prop) (strict : Prop) (next : Except FErr (Option (List (FConn α)))) : Prop :=
  match next with
  | .error (.fate f) => E f
  | .error (.time _) => ¬strict
  | .ok none => True
  | .ok (some cs) => ∀ c ∈ cs, Kept E strict c

theorem kept_set {cs : List (FConn α)} (h : ∀ c ∈ cs, Kept E strict c) {c : FConn α} (hc : Kept E strict c) (i : Nat) :
    ∀ d ∈ cs.set i c, Kept E strict d := by
  intro d hd
  rcases List.mem_or_eq_of_mem_set hd with hd | rfl
  · exact h d hd
  · exact hc

theorem kept_at {t : Option Int} {e : Exch α} {rest : List (Exch α)} {fate : Option Fate} (h1 : ∀ f, fate = some f → E f)
    (h2 : strict → ∀ e ∈ rest, ∀ r ∈ e.resps, Representable r) : Kept E strict ⟨some (t, some e), rest, fate⟩ :=
  ⟨h1, h2, fun _ t h => by injection h with h; injection h with _ h; cases h⟩

theorem proceed_kept {cs : List (FConn α)} (h : ∀ c ∈ cs, Kept E strict c) {i : Nat} {time : Option Int} {ex : Exch α} {rest : List (Exch α)}
    {fate : Option Fate} (h1 : ∀ f, fate = some f → E f) (h2 : strict → ∀ e ∈ rest, ∀ r ∈ e.resps, Representable r) :
    KeptRound E strict (proceedF cs i time ex rest fate).next := by
  cases rest with
  | nil =>
    cases fate with
    | none =>
      exact kept_set h (c := ⟨none, [], none⟩) ⟨fun f h => (Option.some_ne_none f h.symm).elim, fun _ e he => (List.not_mem_nil he).elim, fun _ t h => (Option.some_ne_none _ h.symm).elim⟩ i
    | some f => exact h1 f rfl
  | cons e rest =>
    unfold proceedF
    cases ht : exchangeTime (some e) time with
    | error err =>
      simp only [ht]
      show ¬strict
      intro hs
      rw [exchangeTime_ok (h2 hs e List.mem_cons_self)] at ht
      cases ht
    | ok t =>
      simp only [ht]
      exact kept_set h (c := ⟨some (t, some e), rest, fate⟩) (kept_at h1 fun hs x hx => h2 hs x (List.mem_cons_of_mem _ hx)) i

theorem round_kept {cs : List (FConn α)} (h : ∀ c ∈ cs, Kept E strict c) : KeptRound E strict (roundF cs).next := by
  unfold roundF
  split
  · trivial
  · rename_i i _
    split
    · rename_i time ex rest fate hc
      have hk := h _ (List.mem_of_getElem? hc)
      exact proceed_kept h hk.fate hk.fits
    · rename_i time rest fate hc
      have hk := h _ (List.mem_of_getElem? hc)
      cases rest with
      | nil =>
        cases fate with
        | none =>
          intro hs
          rcases hk.start hs time rfl with h' | h' <;> exact h' rfl
        | some f => exact hk.fate f rfl
      | cons e rest =>
        unfold startF
        have hr : strict → ∀ x ∈ rest, ∀ r ∈ x.resps, Representable r := fun hs x hx => hk.fits hs x (List.mem_cons_of_mem _ hx)
        cases ht : exchangeTime (some e) time with
        | error err =>
          simp only [ht]
          show ¬strict
          intro hs
          rw [exchangeTime_ok (hk.fits hs e List.mem_cons_self)] at ht
          cases ht
        | ok t =>
          simp only [ht]
          split
          · exact kept_set h (c := ⟨some (t, some e), rest, fate⟩) (kept_at hk.fate hr) i
          · exact proceed_kept h hk.fate hr
    · trivial

theorem loop_kept {n : Nat} {cs : List (FConn α)} (h : ∀ c ∈ cs, Kept E strict c) :
    (∀ f, (loopF n cs).2 = .raised (.fate f) → E f) ∧ ∀ e, (loopF n cs).2 = .raised (.time e) → ¬strict := by
  induction n generalizing cs with
  | zero => exact ⟨nofun, nofun⟩
  | succ n ih =>
    have hr := round_kept h
    rw [loopF]
    generalize (roundF cs).next = nx at hr
    match nx, hr with
    | .error (.fate f), hr =>
      refine ⟨fun f' h => ?_, fun e h => ?_⟩
      · cases h
        exact hr
      · cases h
    | .error (.time e), hr =>
      refine ⟨fun f' h => ?_, fun e _ => hr⟩
      cases h
    | .ok none, _ => exact ⟨nofun, nofun⟩
    | .ok (some cs'), hr => exact ih hr

end

/-- Which exceptions there can be. -/
theorem failing_raised {α : Type} (sqs : List ((List (Exch α) × Option Fate) × Option Int)) :
    (∀ f, (rearrangeFailing sqs).2 = .raised (.fate f) → ∃ s ∈ sqs, s.1.2 = some f) ∧
      ((∀ s ∈ sqs, s.1.1 ≠ [] ∨ s.1.2 ≠ none) → (∀ s ∈ sqs, ∀ e ∈ s.1.1, ∀ r ∈ e.resps, Representable r) →
        ∀ e, (rearrangeFailing sqs).2 ≠ .raised (.time e)) := by
  have hk : ∀ c ∈ sqs.map (fun s => (⟨some (s.2, none), s.1.1, s.1.2⟩ : FConn α)), Kept (fun f => ∃ s ∈ sqs, s.1.2 = some f)
      ((∀ s ∈ sqs, s.1.1 ≠ [] ∨ s.1.2 ≠ none) ∧ ∀ s ∈ sqs, ∀ e ∈ s.1.1, ∀ r ∈ e.resps, Representable r) c := by
    intro c hc
    obtain ⟨s, hs, rfl⟩ := List.mem_map.1 hc
    exact ⟨fun f hf => ⟨s, hs, hf⟩, fun h => h.2 s hs, fun h t _ => h.1 s hs⟩
  obtain ⟨h1, h2⟩ := loop_kept hk (n := (sqs.map fun s => 2 * (s.1.1.length + s.1.2.toList.length) + 2).sum + 1)
  exact ⟨h1, fun a b e he => h2 e he ⟨a, b⟩⟩

/-! ## What comes of pairs -/

section
variable {S : Setup} {D : Disk}

theorem at_none {path : Option Str} : D.at path = none ↔ Missing D path := by
  unfold Disk.at Missing
  cases path with
  | none => simp
  | some p => simp

theorem contents_none {path data : Option Str} (h : Contents D path data) : path = none ↔ data = none := by
  rcases h with ⟨rfl, rfl⟩ | ⟨p, d, rfl, _, rfl⟩
  · exact ⟨fun _ => rfl, fun _ => rfl⟩
  · exact ⟨nofun, nofun⟩

theorem contents_whole {pair : PathPair} {a b : Option Str} (ha : Contents D pair.1 a) (hb : Contents D pair.2.1 b) : ¬HalfGone D pair := by
  rintro (h | h)
  · rw [← at_none, at_iff.2 ha] at h
    cases h
  · rw [← at_none, at_iff.2 hb] at h
    cases h

theorem parse_cases (i o : Option Str) :
    ((Missing D i ∨ Missing D o) ∧ S.parsePaths D i o = ([], some .environment)) ∨
    ∃ a b, Contents D i a ∧ Contents D o b ∧ ((∃ ys, Streamed S a b ys ∧ S.parsePaths D i o = (ys, none)) ∨
      ∃ ys e, parseStreams (S.world.frame S.base.lower S.libs) (a.map SS.new) (b.map SS.new) = (ys, .error e) ∧
        S.parsePaths D i o = (ys, some .other)) := by
  unfold Setup.parsePaths
  cases hi : D.at i with
  | none => exact .inl ⟨.inl (at_none.1 hi), rfl⟩
  | some a =>
    cases ho : D.at o with
    | none => exact .inl ⟨.inr (at_none.1 ho), rfl⟩
    | some b =>
      refine .inr ⟨a, b, at_iff.1 hi, at_iff.1 ho, ?_⟩
      dsimp only
      unfold Streamed
      generalize parseStreams (S.world.frame S.base.lower S.libs) (a.map SS.new) (b.map SS.new) = r
      obtain ⟨ys, e⟩ := r
      cases e with
      | ok f => exact .inl ⟨ys, ⟨f, rfl⟩, rfl⟩
      | error e => exact .inr ⟨ys, e, rfl, rfl⟩

theorem sniffed_eq (f : Str → Bool) (path : Option Str) : D.sniffed f path = (D.at path).map (pathAnd f) := by
  cases path with
  | none => rfl
  | some p =>
    show (D.contents p).map f = ((D.contents p).map some).map (pathAnd f)
    cases D.contents p <;> rfl

theorem direction_cases (p1 p2 : Option Str) :
    (D.direction p1 p2 = none ∧ (Missing D p1 ∨ Missing D p2)) ∨
    (D.direction p1 p2 = some none ∧ ∃ a b, Contents D p1 a ∧ Contents D p2 b ∧ NotHttp a b) ∨
    (∃ i o, D.direction p1 p2 = some (some (i, o)) ∧ p1 ≠ none ∧ (Missing D i ∨ Missing D o) ∧ (Missing D p1 ∨ Missing D p2) ∧ p2 ≠ none) ∨
    ∃ i o a b x y, D.direction p1 p2 = some (some (i, o)) ∧ Contents D p1 a ∧ Contents D p2 b ∧ Flow a b x y ∧ Contents D i x ∧ Contents D o y := by
  unfold Disk.direction
  simp only [sniffed_eq]
  cases h1 : D.at p1 with
  | none => exact .inl ⟨rfl, .inl (at_none.1 h1)⟩
  | some a =>
    have c1 := at_iff.1 h1
    cases h2 : D.at p2 with
    | none =>
      have m2 := at_none.1 h2
      simp only [Option.map_some, Option.map_none]
      cases hs : pathAnd sniffOutbound a with
      | false => exact .inl ⟨rfl, .inr m2⟩
      | true =>
        refine .inr (.inr (.inl ⟨_, _, rfl, ?_, .inl m2, .inr m2, ?_⟩))
        · intro hn
          rw [(contents_none c1).1 hn] at hs
          cases hs
        · obtain ⟨p, rfl, _⟩ := m2
          nofun
    | some b =>
      have c2 := at_iff.1 h2
      simp only [Option.map_some]
      have flow : ∀ x y, sniffDirection id a b = some (x, y) → Flow a b x y := fun x y => flow_iff.1
      have hn := notHttp_iff (a := a) (b := b)
      have he : sniffDirection id a b = if pathAnd sniffOutbound a then some (b, a) else if pathAnd sniffOutbound b then some (a, b)
        else if pathAnd sniffInbound a then some (a, b) else if pathAnd sniffInbound b then some (b, a) else none := rfl
      cases s1 : pathAnd sniffOutbound a with
      | true =>
        rw [s1] at he
        exact .inr (.inr (.inr ⟨_, _, a, b, _, _, rfl, c1, c2, flow b a he, c2, c1⟩))
      | false =>
        cases s2 : pathAnd sniffOutbound b with
        | true =>
          rw [s1, s2] at he
          exact .inr (.inr (.inr ⟨_, _, a, b, _, _, rfl, c1, c2, flow a b he, c1, c2⟩))
        | false =>
          cases s3 : pathAnd sniffInbound a with
          | true =>
            rw [s1, s2, s3] at he
            exact .inr (.inr (.inr ⟨_, _, a, b, _, _, rfl, c1, c2, flow a b he, c1, c2⟩))
          | false =>
            cases s4 : pathAnd sniffInbound b with
            | true =>
              rw [s1, s2, s3, s4] at he
              exact .inr (.inr (.inr ⟨_, _, a, b, _, _, rfl, c1, c2, flow b a he, c2, c1⟩))
            | false =>
              rw [s1, s2, s3, s4] at he
              exact .inr (.inl ⟨rfl, a, b, c1, c2, hn.1 he⟩)

/-- What comes of a pair is as specified. -/
theorem sequence_cases (captures : Bool) (pair : PathPair) :
    (S.sequence D captures pair = none ∧ HalfGone D pair ∧ captures = true) ∨
    ∃ ys fate, S.sequence D captures pair = some (ys, fate) ∧ Emerges S D captures pair ys fate := by
  unfold Setup.sequence
  cases captures with
  | false =>
    refine .inr ?_
    rw [if_neg Bool.false_ne_true]
    rcases parse_cases (S := S) (D := D) pair.1 pair.2.1 with ⟨hm, h⟩ | ⟨a, b, ha, hb, ⟨ys, hs, h⟩ | ⟨ys, e, hs, h⟩⟩
    · exact ⟨_, _, by rw [h], .missing hm⟩
    · exact ⟨_, _, by rw [h], .whole ⟨a, b, ha, hb, .inr ⟨rfl, hs⟩⟩⟩
    · refine ⟨_, _, by rw [h], ?_⟩
      have := Emerges.failed (S := S) (captures := false) ha hb (.inr ⟨rfl, rfl, rfl⟩) hs
      rwa [if_neg (fun h => Bool.false_ne_true h.1), List.nil_append] at this
  | true =>
    rw [if_pos rfl]
    have box : ∀ a b, Contents D pair.1 a → Contents D pair.2.1 b →
        (if pair.1.isNone || pair.2.1.isNone then [Yield.box 1278] else []) = if a = none ∨ b = none then [Yield.box 1278] else [] := by
      intro a b ha hb
      have : (pair.1.isNone || pair.2.1.isNone) = true ↔ (a = none ∨ b = none) := by
        rw [Bool.or_eq_true, Option.isNone_iff_eq_none, Option.isNone_iff_eq_none, contents_none ha, contents_none hb]
      by_cases h : a = none ∨ b = none
      · rw [if_pos h, if_pos (this.2 h)]
      · rw [if_neg h, if_neg (mt this.1 h)]
    rcases direction_cases (D := D) pair.1 pair.2.1 with ⟨h, hm⟩ | ⟨h, a, b, ha, hb, hn⟩ | ⟨i, o, h, hp1, hio, hm, hp2⟩ | ⟨i, o, a, b, x, y, h, ha, hb, hf, hx, hy⟩
    · exact .inl ⟨by simp only [h], hm, rfl⟩
    · refine .inr ?_
      simp only [h]
      rw [box a b ha hb]
      exact ⟨_, _, rfl, .whole ⟨a, b, ha, hb, .inl ⟨rfl, [.box 1279], rfl, .inl ⟨hn, rfl⟩⟩⟩⟩
    · refine .inr ?_
      simp only [h]
      rcases parse_cases (S := S) (D := D) i o with ⟨_, h⟩ | ⟨a, b, ha, hb, _⟩
      · refine ⟨_, _, rfl, ?_⟩
        rw [h, List.append_nil, if_neg]
        · exact .missing hm
        · rw [Bool.or_eq_true, Option.isNone_iff_eq_none, Option.isNone_iff_eq_none]
          exact fun h => h.elim hp1 hp2
      · exact absurd hio (contents_whole (pair := (i, o, none)) ha hb)
    · refine .inr ?_
      simp only [h]
      rcases parse_cases (S := S) (D := D) i o with ⟨hm, _⟩ | ⟨x', y', hx', hy', hr⟩
      · exact absurd hm (contents_whole (pair := (i, o, none)) hx hy)
      · obtain rfl : x = x' := Option.some.inj ((at_iff.2 hx).symm.trans (at_iff.2 hx'))
        obtain rfl : y = y' := Option.some.inj ((at_iff.2 hy).symm.trans (at_iff.2 hy'))
        rw [box a b ha hb]
        rcases hr with ⟨ys, hs, h⟩ | ⟨ys, e, hs, h⟩
        · exact ⟨_, _, rfl, by rw [h]; exact .whole ⟨a, b, ha, hb, .inl ⟨rfl, ys, rfl, .inr ⟨x, y, hf, hs⟩⟩⟩⟩
        · refine ⟨_, _, rfl, ?_⟩
          rw [h]
          have := Emerges.failed (S := S) (captures := true) ha hb (.inl ⟨rfl, hf⟩) hs
          by_cases hn : a = none ∨ b = none
          · rw [if_pos hn]
            rwa [if_pos ⟨rfl, hn⟩] at this
          · rw [if_neg hn]
            rwa [if_neg fun h => hn h.2] at this

/-- All sequences are as specified, unless one cannot be told apart. -/
theorem sequences_cases (captures : Bool) : ∀ pairs : List PathPair,
    (S.sequences D captures pairs = none ∧ (∃ pair ∈ pairs, HalfGone D pair) ∧ captures = true) ∨
    ∃ cs : List (List Yield × Option Fate), S.sequences D captures pairs = some (cs.zip (pairs.map (·.2.2))) ∧
      Pairwise2 (fun pair c => Emerges S D captures pair c.1 c.2) pairs cs
  | [] => .inr ⟨[], rfl, .nil⟩
  | pair :: pairs => by
    unfold Setup.sequences
    rcases sequence_cases (S := S) (D := D) captures pair with ⟨h, hg, hc⟩ | ⟨ys, fate, h, hc⟩
    · exact .inl ⟨by rw [h], ⟨pair, List.mem_cons_self, hg⟩, hc⟩
    · rw [h]
      dsimp only
      rcases sequences_cases captures pairs with ⟨h', ⟨p, hp, hg⟩, hc'⟩ | ⟨cs, h', hc'⟩
      · exact .inl ⟨by rw [h'], ⟨p, List.mem_cons_of_mem _ hp, hg⟩, hc'⟩
      · exact .inr ⟨(ys, fate) :: cs, by rw [h']; rfl, .cons hc hc'⟩

/-- What comes of a pair cannot be different. -/
theorem comes_whole {captures : Bool} {pair : PathPair} (hp : pair.1 ≠ none ∨ pair.2.1 ≠ none) {ys zs : List Yield} {fate : Option Fate}
    (h : Conveyed S D captures pair ys) (hc : Emerges S D captures pair zs fate) : zs = ys ∧ fate = none := by
  have h' := (connection_iff hp).2 h
  cases hc with
  | whole hw =>
    rw [(connection_iff hp).2 hw] at h'
    exact ⟨Option.some.inj h', rfl⟩
  | missing hm =>
    obtain ⟨a, b, ha, hb, _⟩ := h
    exact absurd hm (contents_whole ha hb)
  | @failed a b i o ws e ha hb hd hr =>
    obtain ⟨a', b', ha', hb', h⟩ := h
    obtain rfl : a = a' := Option.some.inj ((at_iff.2 ha).symm.trans (at_iff.2 ha'))
    obtain rfl : b = b' := Option.some.inj ((at_iff.2 hb).symm.trans (at_iff.2 hb'))
    exfalso
    rcases hd with ⟨rfl, hf⟩ | ⟨rfl, rfl, rfl⟩
    · rcases h with ⟨_, rest, _, ⟨hn, _⟩ | ⟨i', o', hf', f, hr'⟩⟩ | ⟨h, _⟩
      · have := (notHttp_iff.2 hn).symm.trans (flow_iff.2 hf)
        cases this
      · have := (flow_iff.2 hf').symm.trans (flow_iff.2 hf)
        cases this
        rw [hr] at hr'
        cases hr'
      · cases h
    · rcases h with ⟨h, _⟩ | ⟨_, f, hr'⟩
      · cases h
      · rw [hr] at hr'
        cases hr'

end

/-! ## Whole runs -/

section
variable {S : Setup} {D : Disk} {format : StreamFormat} {paths : List Str} {pairs : List PathPair}

theorem sequences_same {captures : Bool} : ∀ {pairs : List PathPair} {conns : List (List Yield × Option Int)},
    (∀ p ∈ pairs, p.1 ≠ none ∨ p.2.1 ≠ none) → S.connections D captures pairs = some conns →
    S.sequences D captures pairs = some (conns.map fun c => ((c.1, none), c.2))
  | [], conns, _, h => by cases h; rfl
  | pair :: pairs, conns, hp, h => by
    unfold Setup.connections at h
    cases h1 : S.connection D captures pair with
    | none => rw [h1] at h; cases h
    | some ys =>
      cases h2 : S.connections D captures pairs with
      | none => rw [h1, h2] at h; cases h
      | some rest =>
        rw [h1, h2] at h
        cases h
        have hc := (connection_iff (hp pair List.mem_cons_self)).1 h1
        unfold Setup.sequences
        rcases sequence_cases (S := S) (D := D) captures pair with ⟨_, hg, _⟩ | ⟨zs, fate, hs, hz⟩
        · obtain ⟨a, b, ha, hb, _⟩ := hc
          exact absurd hg (contents_whole ha hb)
        · obtain ⟨rfl, rfl⟩ := comes_whole (hp pair List.mem_cons_self) hc hz
          rw [hs, sequences_same (fun p h => hp p (List.mem_cons_of_mem _ h)) h2]
          rfl

theorem runSequences_same (conns : List (List Yield × Option Int)) :
    S.runSequences (conns.map fun c => ((c.1, none), c.2)) = S.runConnections conns := by
  unfold Setup.runSequences Setup.runConnections
  rw [List.map_map]
  have hw := failing_whole (Yield.box 0) (conns.map ((fun s => ((s.1.1.map (S.timed streamScheme), s.1.2), s.2)) ∘ fun c => ((c.1, (none : Option Fate)), c.2)))
    (by
      intro s hs
      obtain ⟨c, _, rfl⟩ := List.mem_map.1 hs
      rfl)
  rw [List.map_map] at hw
  have hw' : rearrangeByTime (conns.map fun c => (c.1.map (S.timed streamScheme), c.2)) = _ := hw
  rw [hw']
  have hr := (failing_raised (conns.map ((fun s => ((s.1.1.map (S.timed streamScheme), s.1.2), s.2)) ∘ fun c => ((c.1, (none : Option Fate)), c.2)))).1
  have hr : ∀ f, (rearrangeFailing (conns.map ((fun s => ((s.1.1.map (S.timed streamScheme), s.1.2), s.2)) ∘ fun c => ((c.1, (none : Option Fate)), c.2)))).2 ≠ .raised (.fate f) := by
    intro f hf
    obtain ⟨s, hs, he⟩ := hr f hf
    obtain ⟨c, _, rfl⟩ := List.mem_map.1 hs
    cases he
  generalize rearrangeFailing (conns.map ((fun s => ((s.1.1.map (S.timed streamScheme), s.1.2), s.2)) ∘ fun c => ((c.1, (none : Option Fate)), c.2))) = r at hr
  obtain ⟨out, e⟩ := r
  dsimp only at hr ⊢
  congr 2
  match e, hr with
  | .finished, _ => rfl
  | .raised (.time _), _ => rfl
  | .raised (.fate f), hr => exact absurd rfl (hr f)
  | .diverge, _ => rfl

/-- **C105**: if everything can be read, the run is the one that C100 is about. -/
theorem C105_same {r : List (ExchBoards Ctx) × InputEnd} (h : S.runFormat D format paths = some r) :
    S.runPaths D format paths = some r ∧ S.exitPaths D format paths = S.exitFormat D format paths := by
  have hr : S.runPaths D format paths = some r := by
    unfold Setup.runFormat at h
    unfold Setup.runPaths
    split at h
    · cases h
    · rename_i e hne hp
      cases h
      rw [hp]
      split
      · rename_i h; injection h with h; exact absurd h hne
      · rfl
      · rename_i h; cases h
    · rename_i ps hp
      rw [hp]
      cases hc : S.connections D format.captures ps with
      | none => rw [hc] at h; cases h
      | some conns =>
        rw [hc] at h
        cases h
        dsimp only
        rw [sequences_same (pairs_some hp) hc]
        dsimp only
        rw [runSequences_same]
  refine ⟨hr, ?_⟩
  unfold Setup.exitPaths Setup.exitFormat
  rw [hr, h]

theorem comes_some {captures : Bool} {pair : PathPair} (hp : pair.1 ≠ none ∨ pair.2.1 ≠ none) {ys : List Yield} {fate : Option Fate}
    (h : Emerges S D captures pair ys fate) : ys ≠ [] ∨ fate ≠ none := by
  cases h with
  | whole h => exact .inl (conveyed_some hp h)
  | missing _ => exact .inr nofun
  | failed _ _ _ _ => exact .inr nofun

variable (hW : Ready S.world) (hl : LowersAscii S.base.lower)
include hW hl

/-- **C105**: whatever is in the files, and whether or not they are there: what is shown are exchanges of the connections, each
connection in order, with the right notices; the run ends normally only if all connections were read to their ends and all of
their exchanges are shown; it ends with a message if a file is not there; an exception escapes only if the analysis of a
connection raises it, or an exchange cannot be checked or put in its place. -/
theorem C105_run (hp : D.pairs format paths = .ok pairs) :
    ((format = .tcpick ∨ format = .tcpflow) ∧ (∃ pair ∈ pairs, HalfGone D pair) ∧ S.runPaths D format paths = some ([], .inputError)) ∨
    ∃ cs : List (List Yield × Option Fate), Pairwise2 (fun pair c => Emerges S D format.captures pair c.1 c.2) pairs cs ∧
      ∃ out more boards e, S.runPaths D format paths = some (boards, e) ∧ Interleaving (cs.map (·.1)) (out ++ more) ∧
        Pairwise2 (ShownAs S) (out.map (some (str "http"), ·)) boards ∧
        ((e = .finished ∧ more = [] ∧ ∀ c ∈ cs, c.2 = none) ∨ (e = .inputError ∧ ∃ c ∈ cs, c.2 = some .environment) ∨
          (e = .otherError ∧ ((∃ c ∈ cs, c.2 = some .other) ∨ ∃ c ∈ cs, ∃ y ∈ c.1, ¬Steady S y))) := by
  unfold Setup.runPaths
  rw [hp]
  dsimp only
  rcases sequences_cases (S := S) (D := D) format.captures pairs with ⟨h, hg, hc⟩ | ⟨cs, h, hc⟩
  · refine .inl ⟨?_, hg, by rw [h]⟩
    cases format <;> simp [StreamFormat.captures] at hc ⊢
  · refine .inr ⟨cs, hc, ?_⟩
    rw [h]
    dsimp only
    have hlen : cs.length = (pairs.map (·.2.2)).length := by rw [List.length_map, pairwise2_length hc]
    unfold Setup.runSequences
    generalize hsq : (cs.zip (pairs.map (·.2.2))).map (fun s => ((s.1.1.map (S.timed streamScheme), s.1.2), s.2)) = sqs
    have hz : sqs.map (·.1) = cs.map fun c => (c.1.map (S.timed streamScheme), c.2) := by
      rw [← hsq, List.map_map]
      conv => rhs; rw [← List.map_fst_zip (l₁ := cs) (l₂ := pairs.map (·.2.2)) (by omega), List.map_map]
      rfl
    have back : ∀ s ∈ sqs, ∃ c ∈ cs, s.1.1 = c.1.map (S.timed streamScheme) ∧ s.1.2 = c.2 := by
      intro s hs
      have : s.1 ∈ cs.map fun c => (c.1.map (S.timed streamScheme), c.2) := hz ▸ List.mem_map.2 ⟨s, hs, rfl⟩
      obtain ⟨c, hcm, he⟩ := List.mem_map.1 this
      exact ⟨c, hcm, by rw [← he], by rw [← he]⟩
    have forth : ∀ c ∈ cs, ∃ s ∈ sqs, s.1.2 = c.2 := by
      intro c hcm
      have : (c.1.map (S.timed streamScheme), c.2) ∈ sqs.map (·.1) := hz ▸ List.mem_map.2 ⟨c, hcm, rfl⟩
      obtain ⟨s, hs, he⟩ := List.mem_map.1 this
      exact ⟨s, hs, by rw [he]⟩
    obtain ⟨more, h1, h2, h3⟩ := failing_prefix sqs
    obtain ⟨r1, r2⟩ := failing_raised sqs
    have htags : sqs.map (·.1.1.map (·.tag)) = cs.map (·.1) := by
      have : sqs.map (·.1.1.map (·.tag)) = (sqs.map (·.1)).map (·.1.map (·.tag)) := by rw [List.map_map]; rfl
      rw [this, hz, List.map_map]
      refine List.map_congr_left fun c _ => ?_
      show (c.1.map (S.timed streamScheme)).map (·.tag) = c.1
      rw [List.map_map]
      exact List.map_id c.1
    rw [htags] at h1
    have among : ∀ y ∈ (rearrangeFailing sqs).1.map (·.tag), ∃ c ∈ cs, y ∈ c.1 := by
      intro y hy
      have := (interleaving_perm h1).mem_iff.1 (List.mem_append_left _ hy)
      obtain ⟨ys, hys, h⟩ := List.mem_flatten.1 this
      obtain ⟨c, hcm, rfl⟩ := List.mem_map.1 hys
      exact ⟨c, hcm, h⟩
    have timely : (∀ c ∈ cs, ∀ y ∈ c.1, Steady S y) → ∀ e, (rearrangeFailing sqs).2 ≠ .raised (.time e) := by
      intro hst
      refine r2 ?_ ?_
      · intro s hs
        obtain ⟨c, hcm, e1, e2⟩ := back s hs
        obtain ⟨p, hpm, hcv⟩ := (pairwise2_mem hc).1 c hcm
        rw [e1, e2]
        rcases comes_some (pairs_some hp p hpm) hcv with h | h
        · exact .inl fun hn => h (List.map_eq_nil_iff.1 hn)
        · exact .inr h
      · intro s hs e he
        obtain ⟨c, hcm, e1, _⟩ := back s hs
        rw [e1] at he
        obtain ⟨y, hy, rfl⟩ := List.mem_map.1 he
        exact (fits_iff hW hl y).2 (hst c hcm y hy).2
    dsimp only
    rcases first_break (P := Breaks S streamScheme) ((rearrangeFailing sqs).1.map (·.tag)) with hno | ⟨before, y, after, he, hno, hb⟩
    · obtain ⟨bs, h4, h5⟩ := reportAll_calm hW hl hno
      rw [h4]
      refine ⟨_, more, bs, _, rfl, h1, h5, ?_⟩
      simp only [Bool.false_eq_true, if_false]
      cases hr : (rearrangeFailing sqs).2 with
      | finished =>
        obtain ⟨g1, g2⟩ := h2 hr
        refine .inl ⟨rfl, g1, fun c hcm => ?_⟩
        obtain ⟨s, hs, he⟩ := forth c hcm
        rw [← he, g2 s hs]
      | diverge => exact absurd hr h3
      | raised e =>
        cases e with
        | fate f =>
          obtain ⟨s, hs, he⟩ := r1 f hr
          obtain ⟨c, hcm, _, e2⟩ := back s hs
          rw [e2] at he
          cases f with
          | environment => exact .inr (.inl ⟨rfl, c, hcm, he⟩)
          | other => exact .inr (.inr ⟨rfl, .inl ⟨c, hcm, he⟩⟩)
        | time e =>
          refine .inr (.inr ⟨rfl, .inr ?_⟩)
          apply Classical.byContradiction
          intro hn
          refine timely (fun c hcm y hy => ?_) e hr
          apply Classical.byContradiction
          intro hs
          exact hn ⟨c, hcm, y, hy, hs⟩
    · obtain ⟨bs, h4, h5⟩ := reportAll_breaks hW hl (after := after) hno hb
      obtain ⟨c, hcm, hy⟩ := among y (by rw [he]; simp)
      refine ⟨before, y :: after ++ more, bs, .otherError, ?_, ?_, h5, .inr (.inr ⟨rfl, .inr ⟨c, hcm, y, hy, fun h => h.1 hb⟩⟩)⟩
      · rw [he, h4]
        rfl
      · rw [he] at h1
        simpa using h1

/-- **C105**: status 0 is only returned if all files could be read, the analysis of none failed, and everything is shown. -/
theorem C105_zero (h : S.exitPaths D format paths = some (some 0)) :
    ∃ pairs yss out boards, D.pairs format paths = .ok pairs ∧ Pairwise2 (Conveyed S D format.captures) pairs yss ∧
      S.runPaths D format paths = some (boards, .finished) ∧ Interleaving yss out ∧
      Pairwise2 (ShownAs S) (out.map (some (str "http"), ·)) boards := by
  have hrun : ∃ boards, S.runPaths D format paths = some (boards, .finished) := by
    unfold Setup.exitPaths at h
    cases hr : S.runPaths D format paths with
    | none => rw [hr] at h; cases h
    | some r =>
      obtain ⟨boards, e⟩ := r
      rw [hr] at h
      cases e with
      | finished => exact ⟨boards, rfl⟩
      | inputError => cases h
      | otherError => cases h
  obtain ⟨bs, hr⟩ := hrun
  cases hp : D.pairs format paths with
  | error e =>
    unfold Setup.runPaths at hr
    rw [hp] at hr
    split at hr
    · cases hr
    · cases hr
    · rename_i h; cases h
  | ok pairs =>
    rcases C105_run hW hl hp with ⟨_, _, h'⟩ | ⟨cs, hc, out, more, boards, e, h1, h2, h3, h4⟩
    · rw [hr] at h'
      cases h'
    · rw [hr] at h1
      cases h1
      rcases h4 with ⟨_, rfl, hn⟩ | ⟨h4, _⟩ | ⟨h4, _⟩
      · rw [List.append_nil] at h2
        refine ⟨pairs, cs.map (·.1), out, bs, rfl, ?_, hr, h2, h3⟩
        clear hr h2 h3 hp h
        induction hc with
        | nil => exact .nil
        | @cons pair c ps cs hc _ ih =>
          refine .cons ?_ (ih fun c h => hn c (List.mem_cons_of_mem _ h))
          have hnc := hn c List.mem_cons_self
          obtain ⟨ys, fate⟩ := c
          cases hc with
          | whole h => exact h
          | missing _ => cases hnc
          | failed _ _ _ _ => cases hnc
      · cases h4
      · cases h4

/-- **C105**: if a file is not there, and nothing else is wrong, the run ends with a message and status 1; what was shown until
then are exchanges of the connections, each in order. -/
theorem C105_missing (hp : D.pairs format paths = .ok pairs) (hg : ∃ pair ∈ pairs, HalfGone D pair)
    (hc : ∀ pair ∈ pairs, HalfGone D pair ∨ ∃ ys, Conveyed S D format.captures pair ys ∧ ∀ y ∈ ys, Steady S y) :
    ∃ boards, S.runPaths D format paths = some (boards, .inputError) ∧ S.exitPaths D format paths = some (some 1) := by
  have key : ∃ boards, S.runPaths D format paths = some (boards, .inputError) := by
    rcases C105_run hW hl hp with ⟨_, _, h⟩ | ⟨cs, hcs, out, more, boards, e, h1, h2, h3, h4⟩
    · exact ⟨_, h⟩
    · have what : ∀ c ∈ cs, (c = ([], some .environment)) ∨ (c.2 = none ∧ ∀ y ∈ c.1, Steady S y) := by
        intro c hcm
        obtain ⟨pair, hpm, hcv⟩ := (pairwise2_mem hcs).1 c hcm
        obtain ⟨ys, fate⟩ := c
        rcases hc pair hpm with hm | ⟨zs, hz, hst⟩
        · cases hcv with
          | whole h =>
            obtain ⟨a, b, ha, hb, _⟩ := h
            exact absurd hm (contents_whole ha hb)
          | missing _ => exact .inl rfl
          | failed ha hb _ _ => exact absurd hm (contents_whole ha hb)
        · obtain ⟨rfl, rfl⟩ := comes_whole (pairs_some hp pair hpm) hz hcv
          exact .inr ⟨rfl, hst⟩
      rcases h4 with ⟨rfl, _, hn⟩ | ⟨rfl, _⟩ | ⟨_, ⟨c, hcm, he⟩ | ⟨c, hcm, y, hy, hs⟩⟩
      · obtain ⟨pair, hpm, hm⟩ := hg
        obtain ⟨c, hcm, hcv⟩ := (p2_mem hcs).1 pair hpm
        obtain ⟨ys, fate⟩ := c
        have hnc : fate = none := hn _ hcm
        subst hnc
        cases hcv with
        | whole h =>
          obtain ⟨a, b, ha, hb, _⟩ := h
          exact absurd hm (contents_whole ha hb)
      · exact ⟨boards, h1⟩
      · rcases what c hcm with rfl | ⟨h, _⟩
        · cases he
        · rw [h] at he; cases he
      · rcases what c hcm with rfl | ⟨_, h⟩
        · cases hy
        · exact absurd (h y hy) hs
  obtain ⟨boards, h⟩ := key
  refine ⟨boards, h, ?_⟩
  unfold Setup.exitPaths
  rw [h]
  rfl

/-- **C105**: no exception escapes unless the analysis of a connection raises it, or an exchange cannot be checked or put in its
place. -/
theorem C105_escapes (h : S.exitPaths D format paths = some none) :
    ∃ pairs, D.pairs format paths = .ok pairs ∧ ∃ pair ∈ pairs, ∃ ys fate, Emerges S D format.captures pair ys fate ∧
      (fate = some .other ∨ ∃ y ∈ ys, ¬Steady S y) := by
  have hrun : ∃ boards, S.runPaths D format paths = some (boards, .otherError) := by
    unfold Setup.exitPaths at h
    cases hr : S.runPaths D format paths with
    | none => rw [hr] at h; cases h
    | some r =>
      obtain ⟨boards, e⟩ := r
      rw [hr] at h
      cases e with
      | finished => cases h
      | inputError => cases h
      | otherError => exact ⟨boards, rfl⟩
  obtain ⟨bs, hr⟩ := hrun
  cases hp : D.pairs format paths with
  | error e =>
    unfold Setup.runPaths at hr
    rw [hp] at hr
    split at hr
    · cases hr
    · cases hr
    · rename_i h; cases h
  | ok pairs =>
    refine ⟨pairs, rfl, ?_⟩
    rcases C105_run hW hl hp with ⟨_, _, h'⟩ | ⟨cs, hc, out, more, boards, e, h1, h2, h3, h4⟩
    · rw [hr] at h'
      cases h'
    · rw [hr] at h1
      cases h1
      rcases h4 with ⟨h4, _⟩ | ⟨h4, _⟩ | ⟨_, ⟨c, hcm, he⟩ | ⟨c, hcm, y, hy, hs⟩⟩
      · cases h4
      · cases h4
      · obtain ⟨pair, hpm, hcv⟩ := (pairwise2_mem hc).1 c hcm
        exact ⟨pair, hpm, c.1, c.2, hcv, .inl he⟩
      · obtain ⟨pair, hpm, hcv⟩ := (pairwise2_mem hc).1 c hcm
        exact ⟨pair, hpm, c.1, c.2, hcv, .inr ⟨y, hy, hs⟩⟩

/-- **C105**: an exception escapes only if some file has a line that says a number below -1, as a chunk size would be written, or
an exchange cannot be checked or put in its place. -/
theorem C105_cause (h : S.exitPaths D format paths = some none) :
    ∃ pairs, D.pairs format paths = .ok pairs ∧ ∃ pair ∈ pairs,
      (∃ path data, (pair.1 = some path ∨ pair.2.1 = some path) ∧ D.contents path = some data ∧ BelowMinusOne data) ∨
      ∃ ys fate, Emerges S D format.captures pair ys fate ∧ ∃ y ∈ ys, ¬Steady S y := by
  obtain ⟨pairs, hp, pair, hpm, ys, fate, hem, hc⟩ := C105_escapes hW hl h
  refine ⟨pairs, hp, pair, hpm, ?_⟩
  rcases hc with rfl | hc
  · cases hem with
    | @failed a b i o ws e ha hb hd hr =>
      refine .inl ?_
      have key : ∀ d, (a = some d ∨ b = some d) → BelowMinusOne d →
          ∃ path data, (pair.1 = some path ∨ pair.2.1 = some path) ∧ D.contents path = some data ∧ BelowMinusOne data := by
        rintro d (rfl | rfl) hd
        · rcases ha with ⟨_, h⟩ | ⟨p, d', h1, h2, h3⟩
          · cases h
          · cases h3
            exact ⟨p, d, .inl h1, h2, hd⟩
        · rcases hb with ⟨_, h⟩ | ⟨p, d', h1, h2, h3⟩
          · cases h
          · cases h3
            exact ⟨p, d, .inr h1, h2, hd⟩
      have hio : (i = a ∧ o = b) ∨ (i = b ∧ o = a) := by
        rcases hd with ⟨_, hf⟩ | ⟨_, h1, h2⟩
        · cases hf with
          | status1 => exact .inr ⟨rfl, rfl⟩
          | status2 => exact .inl ⟨rfl, rfl⟩
          | request1 => exact .inl ⟨rfl, rfl⟩
          | request2 => exact .inr ⟨rfl, rfl⟩
        · exact .inl ⟨h1.symm, h2.symm⟩
      have hbelow := (C103_only_below (S.world.frame S.base.lower S.libs) i o e (by
        show (parseStreams _ _ _).2 = _
        rw [hr])).2
      rcases hio with ⟨rfl, rfl⟩ | ⟨rfl, rfl⟩
      · rcases hbelow with ⟨d, h1, h2⟩ | ⟨d, h1, h2⟩
        · exact key d (.inl h1) h2
        · exact key d (.inr h1) h2
      · rcases hbelow with ⟨d, h1, h2⟩ | ⟨d, h1, h2⟩
        · exact key d (.inr h1) h2
        · exact key d (.inl h1) h2
  · exact .inr ⟨ys, fate, hem, hc⟩

end

/-! ## What a missing file hides -/

theorem minLoop_unknown {α : Type} {c : Conn α} {rest : List (Conn α)} {x : Option (Exch α)} (hc : c.pos = some (none, x)) :
    ∀ (dones : List (Conn α)) (i : Nat) (m : Option Nat) (t : Option Int), (∀ d ∈ dones, ∃ t y, d.pos = some (some t, y)) →
      minLoop (dones ++ c :: rest) i m t = some (i + dones.length)
  | [], i, m, t, _ => by
    rw [List.nil_append, minLoop, hc]
    rfl
  | d :: dones, i, m, t, h => by
    obtain ⟨u, y, hd⟩ := h d List.mem_cons_self
    have ih := fun m t => minLoop_unknown (rest := rest) hc dones (i + 1) m t fun d hd => h d (List.mem_cons_of_mem _ hd)
    have he : i + (d :: dones).length = i + 1 + dones.length := by rw [List.length_cons]; omega
    rw [List.cons_append, minLoop, hd, he]
    dsimp only
    cases t with
    | none => exact ih ..
    | some t =>
      dsimp only
      split <;> exact ih ..

theorem round_unknown {α : Type} {c : FConn α} {dones rest : List (FConn α)} (hc : c.pos = some (none, none))
    (h : ∀ d ∈ dones, ∃ t y, d.pos = some (some t, y)) :
    roundF (dones ++ c :: rest) = startF (dones ++ c :: rest) dones.length none c.rest c.fate := by
  unfold roundF
  rw [List.map_append, List.map_cons, minLoop_unknown (x := none) (by exact hc)]
  · simp only [Nat.zero_add, List.length_map]
    rw [List.getElem?_append_right (Nat.le_refl _), Nat.sub_self, List.getElem?_cons_zero]
    obtain ⟨p, r, f⟩ := c
    cases hc
    rfl
  · intro d hd
    obtain ⟨e, he, rfl⟩ := List.mem_map.1 hd
    exact h e he

theorem loop_hidden {α : Type} {after : List (FConn α)} : ∀ (before : List (List (Exch α) × Option Fate)) (n : Nat) (dones : List (FConn α)),
    before.length < n → (∀ d ∈ dones, ∃ t y, d.pos = some (some t, y)) →
    (∀ c ∈ before, ∃ e es t, c.1 = e :: es ∧ exchangeTime (some e) none = .ok (some t)) →
    loopF n (dones ++ (before.map (fun c => (⟨some (none, none), c.1, c.2⟩ : FConn α)) ++ ⟨some (none, none), [], some .environment⟩ :: after)) =
      ([], .raised (.fate .environment))
  | [], n + 1, dones, _, hd, _ => by
    rw [List.map_nil, List.nil_append, loopF, round_unknown rfl hd]
    rfl
  | (c, f) :: before, n + 1, dones, hn, hd, hb => by
    obtain ⟨e, es, t, he, ht⟩ := hb _ List.mem_cons_self
    dsimp only at he
    subst he
    rw [List.map_cons, List.cons_append, loopF, round_unknown rfl hd]
    unfold startF
    simp only [ht, startsLater, if_true]
    have ih := loop_hidden (after := after) before n (dones ++ [⟨some (some t, some e), es, f⟩]) (by rw [List.length_cons] at hn; omega)
      (by
        intro d hdm
        rcases List.mem_append.1 hdm with h | h
        · exact hd d h
        · rw [List.mem_singleton.1 h]
          exact ⟨t, some e, rfl⟩)
      (fun c hc => hb c (List.mem_cons_of_mem _ hc))
    rw [List.append_assoc, List.singleton_append] at ih
    have hset : ∀ (c c' : FConn α) l, (dones ++ c :: l).set dones.length c' = dones ++ c' :: l := by
      intro c c' l
      rw [List.set_append_right _ _ (Nat.le_refl _), Nat.sub_self]
      rfl
    rw [hset, ih]
    rfl

section
variable {S : Setup} {D : Disk} {format : StreamFormat} {paths : List Str}

theorem comes_unique {captures : Bool} {pair : PathPair} (hp : pair.1 ≠ none ∨ pair.2.1 ≠ none) {ys zs : List Yield} {f f' : Option Fate}
    (h : Emerges S D captures pair ys f) (h' : Emerges S D captures pair zs f') : ys = zs ∧ f = f' := by
  cases h with
  | whole h =>
    obtain ⟨h1, h2⟩ := comes_whole hp h h'
    exact ⟨h1.symm, h2.symm⟩
  | missing hm =>
    cases h' with
    | whole h =>
      obtain ⟨a, b, ha, hb, _⟩ := h
      exact absurd hm (contents_whole ha hb)
    | missing _ => exact ⟨rfl, rfl⟩
    | failed ha hb _ _ => exact absurd hm (contents_whole ha hb)
  | @failed a b i o ws e ha hb hd hr =>
    cases h' with
    | whole h =>
      obtain ⟨_, h2⟩ := comes_whole hp h (Emerges.failed ha hb hd hr)
      cases h2
    | missing hm => exact absurd hm (contents_whole ha hb)
    | @failed a' b' i' o' ws' e' ha' hb' hd' hr' =>
      obtain rfl : a = a' := Option.some.inj ((at_iff.2 ha).symm.trans (at_iff.2 ha'))
      obtain rfl : b = b' := Option.some.inj ((at_iff.2 hb).symm.trans (at_iff.2 hb'))
      have hio : i = i' ∧ o = o' := by
        rcases hd with ⟨h1, h2⟩ | ⟨h1, h2, h3⟩
        · rcases hd' with ⟨_, h4⟩ | ⟨h4, _⟩
          · have := (flow_iff.2 h2).symm.trans (flow_iff.2 h4)
            cases this
            exact ⟨rfl, rfl⟩
          · rw [h1] at h4
            cases h4
        · rcases hd' with ⟨h4, _⟩ | ⟨_, h4, h5⟩
          · rw [h1] at h4
            cases h4
          · exact ⟨h2.symm.trans h4, h3.symm.trans h5⟩
      obtain ⟨rfl, rfl⟩ := hio
      rw [hr] at hr'
      cases hr'
      exact ⟨rfl, rfl⟩

theorem pairwise2_append {α β : Type} {R : α → β → Prop} : ∀ {a b : List α} {l : List β}, Pairwise2 R (a ++ b) l →
    ∃ l1 l2, l = l1 ++ l2 ∧ Pairwise2 R a l1 ∧ Pairwise2 R b l2
  | [], _, l, h => ⟨[], l, rfl, .nil, h⟩
  | _ :: _, _, _, .cons h h' => by
    obtain ⟨l1, l2, rfl, h1, h2⟩ := pairwise2_append h'
    exact ⟨_ :: l1, l2, rfl, .cons h h1, h2⟩

include S in
/-- Streams that are given have no hints. -/
theorem given_hints (hf : format = .streams ∨ format = .reqStream ∨ format = .respStream) {pairs : List PathPair}
    (hp : D.pairs format paths = .ok pairs) : format.captures = false ∧ ∀ p ∈ pairs, p.2.2 = none := by
  obtain ⟨h1, h2, h3, _⟩ := C100_given (S := S) (D := D) (paths := paths) (pairs := pairs)
  rcases hf with rfl | rfl | rfl
  · refine ⟨rfl, fun p hpm => ?_⟩
    obtain ⟨ps, _, rfl⟩ := h1.1 hp
    obtain ⟨x, _, rfl⟩ := List.mem_map.1 hpm
    rfl
  · refine ⟨rfl, fun p hpm => ?_⟩
    rw [h2.1 hp] at hpm
    obtain ⟨x, _, rfl⟩ := List.mem_map.1 hpm
    rfl
  · refine ⟨rfl, fun p hpm => ?_⟩
    rw [h3.1 hp] at hpm
    obtain ⟨x, _, rfl⟩ := List.mem_map.1 hpm
    rfl

/-- **C105**: if a file that is given is not there, and the first exchange of every connection before it tells the time, then nothing
is shown, whatever comes of the connections. -/
theorem C105_hidden (hW : Ready S.world) (hl : LowersAscii S.base.lower)
    (hf : format = .streams ∨ format = .reqStream ∨ format = .respStream) {before after : List PathPair} {pair : PathPair}
    (hp : D.pairs format paths = .ok (before ++ pair :: after)) (hg : HalfGone D pair)
    (hb : ∀ p ∈ before, ∃ y ys fate, Emerges S D false p (y :: ys) fate ∧ AgesFit S y ∧
      ∃ t, Tells S.base.lower (captured (some (str "http")) y) t) :
    S.runPaths D format paths = some ([], .inputError) := by
  obtain ⟨hcap, hints⟩ := given_hints (S := S) hf hp
  have hsome := pairs_some hp
  unfold Setup.runPaths
  rw [hp, hcap]
  dsimp only
  rcases sequences_cases (S := S) (D := D) false (before ++ pair :: after) with ⟨_, _, h⟩ | ⟨cs, h, hc⟩
  · cases h
  · obtain ⟨csb, cs2, rfl, hcb, hc2⟩ := pairwise2_append hc
    cases hc2 with
    | @cons _ c _ csa hcp hca =>
      obtain ⟨ys, fate⟩ := c
      obtain ⟨h1, h2⟩ := comes_unique (hsome pair (by simp)) hcp (.missing hg)
      dsimp only at h1 h2
      subst h1 h2
      have hlen : (csb ++ (([], some Fate.environment) : List Yield × Option Fate) :: csa).length = ((before ++ pair :: after).map (·.2.2)).length := by
        rw [List.length_map, pairwise2_length hc]
      have hz : ∀ (cs : List (List Yield × Option Fate)) (hs : List (Option Int)), cs.length = hs.length → (∀ h ∈ hs, h = none) →
          cs.zip hs = cs.map fun c => (c, none) := by
        intro cs
        induction cs with
        | nil => intro hs _ _; rfl
        | cons c cs ih =>
          intro hs hl hn
          cases hs with
          | nil => cases hl
          | cons x hs =>
            rw [List.zip_cons_cons, List.map_cons, ih hs (by simpa using hl) fun h hm => hn h (List.mem_cons_of_mem _ hm), hn x List.mem_cons_self]
      rw [h, hz _ _ hlen (by
        intro x hx
        obtain ⟨p, hpm, rfl⟩ := List.mem_map.1 hx
        exact hints p hpm)]
      dsimp only
      unfold Setup.runSequences
      have key : rearrangeFailing (((csb ++ (([], some Fate.environment) : List Yield × Option Fate) :: csa).map fun c => (c, (none : Option Int))).map
          fun s => ((s.1.1.map (S.timed streamScheme), s.1.2), s.2)) = ([], .raised (.fate .environment)) := by
        unfold rearrangeFailing
        have hlp := loop_hidden (after := csa.map fun c => (⟨some (none, none), c.1.map (S.timed streamScheme), c.2⟩ : FConn Yield))
          (csb.map fun c => (c.1.map (S.timed streamScheme), c.2))
          (((((csb ++ (([], some Fate.environment) : List Yield × Option Fate) :: csa).map fun c => (c, (none : Option Int))).map
            fun s => ((s.1.1.map (S.timed streamScheme), s.1.2), s.2)).map fun s => 2 * (s.1.1.length + s.1.2.toList.length) + 2).sum + 1) []
          (by
            have hsum : ∀ l : List ((List (Exch Yield) × Option Fate) × Option Int),
                l.length ≤ (l.map fun s => 2 * (s.1.1.length + s.1.2.toList.length) + 2).sum := by
              intro l
              induction l with
              | nil => exact Nat.le_refl _
              | cons x l ih => rw [List.length_cons, List.map_cons, List.sum_cons]; omega
            have := hsum (((csb ++ (([], some Fate.environment) : List Yield × Option Fate) :: csa).map fun c => (c, (none : Option Int))).map
              fun s => ((s.1.1.map (S.timed streamScheme), s.1.2), s.2))
            rw [List.length_map, List.length_map, List.length_append] at this
            rw [List.length_map]
            omega)
          nofun
          (by
            intro c hcm
            obtain ⟨d, hdm, rfl⟩ := List.mem_map.1 hcm
            obtain ⟨p, hpm, hdc⟩ := (pairwise2_mem hcb).1 d hdm
            obtain ⟨y, ys, fate, hy, hfit, t, ht⟩ := hb p hpm
            obtain ⟨e1, _⟩ := comes_unique (hsome p (List.mem_append_left _ hpm)) hdc hy
            refine ⟨S.timed streamScheme y, ys.map (S.timed streamScheme), t, by rw [e1]; rfl, ?_⟩
            rw [exchangeTime_ok ((fits_iff hW hl y).2 hfit), ((own_time hW hl y).1 t).2 ht]
            rfl)
        rw [List.nil_append, List.map_map] at hlp
        rw [← hlp]
        congr 1 <;> simp [List.map_map, Function.comp_def]
      rw [key]
      rfl

end

/-! ## Examples -/

/-- A request with a date, and one on which the analysis fails. -/
def exGap : Disk where
  digit := fun _ => none
  listing := fun _ => []
  contents := fun path =>
    if path = str "q" then some (str "GET / HTTP/1.1\r\nDate: Sun, 06 Nov 1994 08:49:37 GMT\r\n\r\n")
    else if path = str "c" then some (str ("POST / HTTP/1.1\r\nTransfer-Encoding: chunked\r\n\r\n2\r\nab\r\n" ++ " -0x1_0\t;x=y\r\nGET\r\n"))
    else none

/-- C105: a file of the second connection is not there. -/
example {W : World} (hW : Ready W) :
    (exSetup W [] none).exitPaths exDisk .streams [str "i", str "o", str "i", str "nofile"] = some (some 1) := by
  obtain ⟨req, r, h, hs⟩ := exDisk_streams W [] none
  have hgone : HalfGone exDisk (some (str "i"), some (str "nofile"), none) := .inr ⟨_, rfl, by decide +kernel⟩
  obtain ⟨_, _, h1⟩ := C105_missing (S := exSetup W [] none) hW toy_lower (format := .streams)
    ((C100_given (S := exSetup W [] none) (D := exDisk)).1.2 ⟨[(str "i", str "o"), (str "i", str "nofile")], rfl, rfl⟩)
    ⟨_, List.mem_cons_of_mem _ List.mem_cons_self, hgone⟩
    (by
      intro p hp
      simp only [List.map_cons, List.map_nil, List.mem_cons, List.not_mem_nil, or_false] at hp
      rcases hp with rfl | rfl
      · exact .inr ⟨_, h, hs⟩
      · exact .inl hgone)
  exact h1

/-- C105: everything is there. -/
example {W : World} (hW : Ready W) : (exSetup W [] none).exitPaths exDisk .streams [str "i", str "o"] = some (some 0) := by
  obtain ⟨req, r, h, hs⟩ := exDisk_streams W [] none
  have hp := (C100_given (S := exSetup W [] none) (D := exDisk)).1.2 ⟨[(str "i", str "o")], rfl, rfl⟩
  have hst : ∀ ys ∈ [[Yield.exch (some req) [r], .box 1008, .box 1009]], ∀ y ∈ ys, Steady (exSetup W [] none) y := by
    intro ys hys
    obtain rfl := List.mem_singleton.1 hys
    exact hs
  obtain ⟨h0, h1⟩ := C100_exit (S := exSetup W [] none) hW toy_lower (format := .streams) hp (Pairwise2.cons h .nil) hst
  obtain ⟨out, boards, hr, _⟩ := C100_shown (S := exSetup W [] none) hW toy_lower (format := .streams) hp (Pairwise2.cons h .nil) hst
  refine (C105_same (S := exSetup W [] none) hr).2.trans ?_
  refine h0.resolve_right fun h => ?_
  obtain ⟨T, hT, _⟩ := h1.1 h
  cases hT

/-- C105: a request with a date is not shown if the next file is not there. -/
example {W : World} (hW : Ready W) : (exSetup W [] none).runPaths exGap .reqStream [str "q", str "nofile"] = some ([], .inputError) := by
  have hrun : ∃ req final, runStreams (W.frame Toy.env.lower tools) (some (str "GET / HTTP/1.1\r\nDate: Sun, 06 Nov 1994 08:49:37 GMT\r\n\r\n"))
      none = ([.exch (some req) []], .ok final) ∧ req.msg.entries = [⟨str "Date", str "Sun, 06 Nov 1994 08:49:37 GMT"⟩] ∧ req.msg.trailers = [] :=
    ⟨_, _, rfl, rfl, rfl⟩
  obtain ⟨req, final, hrun, he, ht⟩ := hrun
  refine C105_hidden (S := exSetup W [] none) hW toy_lower (.inr (.inl rfl)) (before := [(some (str "q"), none, none)])
    (pair := (some (str "nofile"), none, none)) (after := []) rfl (.inl ⟨_, rfl, by decide +kernel⟩) ?_
  intro p hp
  obtain rfl := List.mem_singleton.1 hp
  refine ⟨.exch (some req) [], [], none, .whole ⟨_, none, .inr ⟨_, _, rfl, rfl, rfl⟩, .inl ⟨rfl, rfl⟩, .inr ⟨rfl, final, hrun⟩⟩, nofun, _, .inl ⟨_, rfl,
    (.imf, rfcDate), ⟨[], ⟨str "Date", str "Sun, 06 Nov 1994 08:49:37 GMT"⟩, [], ?_, ?_, nofun, ?_, ?_⟩, ?_, rfl⟩⟩
  · show req.msg.entries ++ [] = _
    rw [he]
    rfl
  · show Called Toy.env.lower (str "Date") "Date"
    unfold Called
    decide +kernel
  · decide +kernel
  · decide +kernel
  · decide +kernel

/-- C105: an exception escapes. -/
example {W : World} (hW : Ready W) : (exSetup W [] none).exitPaths exGap .reqStream [str "c"] = some none := by
  have hte : (W.frame Toy.env.lower tools).te (str "chunked") = some [.chunked] :=
    ((frame_te hW (lower := Toy.env.lower) (L := tools) (str "chunked")).1 _ chunked_listed).trans (by decide +kernel)
  have hcs : codings (W.frame Toy.env.lower tools) [⟨str "Transfer-Encoding", str "chunked"⟩] = [.chunked] := by
    unfold codings
    rw [show withName "Transfer-Encoding" [⟨str "Transfer-Encoding", str "chunked"⟩]
      = [⟨str "Transfer-Encoding", str "chunked"⟩] by decide +kernel]
    simp only [List.flatMap_cons, List.flatMap_nil, hte]
    rfl
  have hrun := C103_request_fails (W.frame Toy.env.lower tools) _ _ _ _ _ exChunks _ _ (str "GET\r\n") none exHeading_ok (by rw [hcs]; rfl) exChunks_ok
    (by decide) exLine_ok minus_example (by decide)
  rw [← exInbound] at hrun
  have hc : exGap.at (some (str "c")) = some (some (str ("POST / HTTP/1.1\r\nTransfer-Encoding: chunked\r\n\r\n2\r\nab\r\n" ++ " -0x1_0\t;x=y\r\nGET\r\n"))) := by
    decide +kernel
  have hpar : (exSetup W [] none).parsePaths exGap (some (str "c")) none = ([], some .other) := by
    unfold Setup.parsePaths
    rw [hc]
    dsimp only [Disk.at]
    rw [show parseStreams ((exSetup W [] none).world.frame (exSetup W [] none).base.lower (exSetup W [] none).libs) (Option.map SS.new _) (Option.map SS.new none) = _ from hrun]
  unfold Setup.exitPaths Setup.runPaths
  rw [show exGap.pairs .reqStream [str "c"] = .ok [(some (str "c"), none, none)] from rfl]
  dsimp only [StreamFormat.captures, Setup.sequences, Setup.sequence]
  rw [if_neg Bool.false_ne_true, hpar]
  rfl

end Httpolice.Props
