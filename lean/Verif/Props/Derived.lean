import Verif.Model.Derived

/-!
# C50: derived properties

Getters may read each other in any way. If there is a cycle of properties that wait for each other then reading
one of them does not return (`RecursionError`), so the theorems are about reads that return.
-/

namespace Httpolice.Props

open Httpolice.Model

section
variable {V C : Type} {getters : Nat → Getter V C}

/-- With the values in `m`, running the getter comes to the rest `g`. -/
inductive Reach (m : Nat → Option V) : Getter V C → Getter V C → Prop
  | refl {g : Getter V C} : Reach m g g
  | read {n : Nat} {v : V} {next : V → Getter V C} {g : Getter V C} : m n = some v → Reach m (next v) g →
      Reach m (.read n next) g
  | complain {c : C} {h g : Getter V C} : Reach m h g → Reach m (.complain c h) g

/-- All values stay. -/
def Keeps (m m' : Nat → Option V) : Prop := ∀ n v, m n = some v → m' n = some v

theorem Reach.trans {m : Nat → Option V} {a b c : Getter V C} (h1 : Reach m a b) (h2 : Reach m b c) :
    Reach m a c := by
  induction h1 with
  | refl => exact h2
  | read hv _ ih => exact .read hv (ih h2)
  | complain _ ih => exact .complain (ih h2)

theorem Reach.keeps {m m' : Nat → Option V} {a b : Getter V C} (h : Reach m a b) (hk : Keeps m m') :
    Reach m' a b := by
  induction h with
  | refl => exact .refl
  | read hv _ ih => exact .read (hk _ _ hv) ih
  | complain _ ih => exact .complain ih

/-- The getter of `b` comes to reading `n`. -/
def Waits (getters : Nat → Getter V C) (m : Nat → Option V) (b n : Nat) : Prop :=
  ∃ next, Reach m (getters b) (.read n next)

theorem run_waits {d n : Nat} {m : Nat → Option V} {g : Getter V C} {next : V → Getter V C}
    (h : Reach m g (.read n next)) : ∀ s r, s.memo = m → g.run (readProp getters (d + 1)) s = some r →
      ∃ s' r', s'.memo = m ∧ readProp getters (d + 1) n s' = some r' := by
  generalize hg : Getter.read n next = g' at h
  induction h with
  | refl =>
    subst hg
    intro s r hs hr
    rw [Getter.run] at hr
    split at hr
    · cases hr
    · next h => exact ⟨s, _, hs, h⟩
  | @read k v next' g hv _ ih =>
    intro s r hs hr
    have hread : readProp getters (d + 1) k s = some (v, s) := by
      rw [readProp, hs, hv]
    rw [Getter.run, hread] at hr
    exact ih hg s r hs hr
  | @complain c _ _ _ ih =>
    intro s r hs hr
    exact ih hg (s.happens (.complains c)) r hs hr

/-- Properties that wait for each other are never read. -/
theorem cycle_fails {m : Nat → Option V} {S : Nat → Prop} (hnone : ∀ b, S b → m b = none)
    (hw : ∀ b, S b → ∃ n, S n ∧ Waits getters m b n) :
    ∀ d b s, S b → s.memo = m → readProp getters d b s = none := by
  intro d
  induction d with
  | zero => intros; rfl
  | succ d ih =>
    intro b s hb hs
    obtain ⟨n, hn, next, hreach⟩ := hw b hb
    rw [readProp, hs, hnone b hb]
    dsimp only
    cases hr : (getters b).run (readProp getters d) (s.happens (.starts b)) with
    | none => rfl
    | some r =>
      cases d with
      | zero =>
        exfalso
        have : ∀ (g g' : Getter V C), Reach m g g' → g' = .read n next → ∀ s r,
            g.run (readProp getters 0) s = some r → False := by
          intro g g' hg
          induction hg with
          | refl =>
            rintro rfl s r hr
            rw [Getter.run, readProp] at hr
            cases hr
          | read _ _ _ =>
            intro _ s r hr
            rw [Getter.run, readProp] at hr
            cases hr
          | complain _ ih => exact fun e s r hr => ih e _ r hr
        exact this _ _ hreach rfl _ _ hr
      | succ d =>
        obtain ⟨s', r', hs', hr'⟩ := run_waits hreach (s.happens (.starts b)) r hs hr
        rw [ih n s' hn hs'] at hr'
        cases hr'

/-- Getters in progress, the innermost first, each waiting for the one before it, and the first for `n`. -/
def Chain (getters : Nat → Getter V C) (m : Nat → Option V) : List Nat → Nat → Prop
  | [], _ => True
  | b :: B, n => Waits getters m b n ∧ Chain getters m B b

theorem Chain.keeps {m m' : Nat → Option V} (hk : Keeps m m') : ∀ {B : List Nat} {n : Nat},
    Chain getters m B n → Chain getters m' B n
  | [], _, _ => trivial
  | _ :: _, _, ⟨⟨next, h1⟩, h2⟩ => ⟨⟨next, h1.keeps hk⟩, h2.keeps hk⟩

theorem Chain.next {m : Nat → Option V} : ∀ {B : List Nat} {n : Nat}, Chain getters m B n →
    ∀ b ∈ B, ∃ k, (k = n ∨ k ∈ B) ∧ Waits getters m b k
  | [], _, _ => by intro b hb; cases hb
  | b :: B, n, ⟨h1, h2⟩ => by
    intro x hx
    rcases List.mem_cons.mp hx with rfl | hx
    · exact ⟨n, .inl rfl, h1⟩
    · obtain ⟨k, hk, hw⟩ := h2.next x hx
      refine ⟨k, .inr ?_, hw⟩
      rcases hk with rfl | hk
      · simp
      · simp [hk]

/-- The getters that started. -/
def startsIn (log : List (Event C)) : List Nat := log.filterMap fun
  | .starts n => some n
  | .complains _ => none

/-- What happens between two states, with `B` in progress. -/
structure Between (B : List Nat) (s s' : Memoized V C) : Prop where
  keeps : Keeps s.memo s'.memo
  busy : ∀ b ∈ B, s'.memo b = none
  log : ∃ l, s'.log = s.log ++ l ∧ (startsIn l).Nodup ∧
    ∀ n ∈ startsIn l, s.memo n = none ∧ s'.memo n ≠ none

theorem Between.refl {B : List Nat} {s : Memoized V C} (h : ∀ b ∈ B, s.memo b = none) : Between B s s :=
  ⟨fun _ _ h => h, h, [], by simp, by simp [startsIn], by simp [startsIn]⟩

theorem Between.trans {B : List Nat} {s s' s'' : Memoized V C} (h1 : Between B s s') (h2 : Between B s' s'') :
    Between B s s'' := by
  obtain ⟨l1, e1, d1, n1⟩ := h1.log
  obtain ⟨l2, e2, d2, n2⟩ := h2.log
  have key : ∀ n, s'.memo n ≠ none → s''.memo n ≠ none := by
    intro n hn
    obtain ⟨v, hv⟩ := Option.ne_none_iff_exists'.mp hn
    rw [h2.keeps n v hv]
    simp
  have key' : ∀ n, s'.memo n = none → s.memo n = none := by
    intro n hn
    cases hm : s.memo n with
    | none => rfl
    | some v => rw [h1.keeps n v hm] at hn; cases hn
  refine ⟨fun n v hv => h2.keeps n v (h1.keeps n v hv), h2.busy, l1 ++ l2, by rw [e2, e1, List.append_assoc], ?_, ?_⟩
  · unfold startsIn at *
    rw [List.filterMap_append, List.nodup_append]
    refine ⟨d1, d2, fun a ha b hb => ?_⟩
    rintro rfl
    exact (n1 _ ha).2 (n2 _ hb).1
  · intro n hn
    unfold startsIn at *
    rw [List.filterMap_append, List.mem_append] at hn
    rcases hn with hn | hn
    · exact ⟨(n1 n hn).1, key n (n1 n hn).2⟩
    · exact ⟨key' n (n2 n hn).1, (n2 n hn).2⟩

theorem Between.complains {B : List Nat} {s : Memoized V C} {c : C} (h : ∀ b ∈ B, s.memo b = none) :
    Between B s (s.happens (.complains c)) :=
  ⟨fun _ _ h => h, h, [.complains c], rfl, by simp [startsIn], by simp [startsIn]⟩

/-- Running (the rest of) the getter of `top`, if reading is as expected. -/
theorem run_between {d top : Nat} {B : List Nat}
    (ih : ∀ name s v s', (∀ b ∈ top :: B, s.memo b = none) → Chain getters s.memo (top :: B) name →
      readProp getters d name s = some (v, s') → Between (top :: B) s s' ∧ s'.memo name = some v) :
    ∀ (g : Getter V C) s v s', (∀ b ∈ top :: B, s.memo b = none) → Chain getters s.memo B top →
      Reach s.memo (getters top) g → g.run (readProp getters d) s = some (v, s') → Between (top :: B) s s' := by
  intro g
  induction g with
  | ret v =>
    intro s v s' hb _ _ hr
    cases hr
    exact .refl hb
  | complain c g ihg =>
    intro s v s' hb hc hg hr
    exact (Between.complains hb).trans (ihg _ v s' hb hc (hg.trans (.complain .refl)) hr)
  | read n next ihg =>
    intro s v s' hb hc hg hr
    rw [Getter.run] at hr
    split at hr
    · cases hr
    · next v1 s1 hread =>
      obtain ⟨h1, h2⟩ := ih n s v1 s1 hb ⟨⟨next, hg⟩, hc⟩ hread
      exact h1.trans (ihg v1 s1 v s' h1.busy (hc.keeps h1.keeps)
        ((hg.keeps h1.keeps).trans (.read h2 .refl)) hr)

theorem read_between : ∀ (d name : Nat) (B : List Nat) (s : Memoized V C) (v : V) (s' : Memoized V C),
    (∀ b ∈ B, s.memo b = none) → Chain getters s.memo B name →
    readProp getters d name s = some (v, s') → Between B s s' ∧ s'.memo name = some v := by
  intro d
  induction d with
  | zero => intro name B s v s' _ _ h; cases h
  | succ d ih =>
    intro name B s v s' hb hc hr
    have hr' := hr
    rw [readProp] at hr
    cases hm : s.memo name with
    | some w =>
      rw [hm] at hr
      cases hr
      exact ⟨.refl hb, hm⟩
    | none =>
      rw [hm] at hr
      dsimp only at hr
      split at hr
      · cases hr
      · next v1 s1 hrun =>
        cases hr
        by_cases hmem : name ∈ B
        · have := cycle_fails (getters := getters) (m := s.memo) (S := fun b => b ∈ B) hb
            (fun b hb' => by
              obtain ⟨k, hk, hw⟩ := hc.next b hb'
              exact ⟨k, hk.elim (fun e => e ▸ hmem) id, hw⟩) (d + 1) name s hmem rfl
          rw [this] at hr'
          cases hr'
        · have hb1 : ∀ b ∈ name :: B, (s.happens (.starts name)).memo b = none := by
            intro b hb'
            rcases List.mem_cons.mp hb' with rfl | hb'
            · exact hm
            · exact hb b hb'
          have h1 := run_between (fun n s v s' => ih n (name :: B) s v s') (getters name) _ v s1 hb1 hc .refl hrun
          obtain ⟨l, hl, hd, hn⟩ := h1.log
          refine ⟨⟨?_, ?_, .starts name :: l, ?_, ?_, ?_⟩, ?_⟩
          · intro n w hw
            have : n ≠ name := by rintro rfl; rw [hm] at hw; cases hw
            show (if n = name then some v else s1.memo n) = some w
            rw [if_neg this]
            exact h1.keeps n w hw
          · intro b hb'
            have : b ≠ name := by rintro rfl; exact hmem hb'
            show (if b = name then some v else s1.memo b) = none
            rw [if_neg this]
            exact h1.busy b (by simp [hb'])
          · show s1.log = s.log ++ Event.starts name :: l
            rw [hl]
            simp [Memoized.happens]
          · show (name :: startsIn l).Nodup
            refine List.nodup_cons.mpr ⟨fun h => ?_, hd⟩
            exact (hn name h).2 (h1.busy name (by simp))
          · intro n hn'
            have hn' : n = name ∨ n ∈ startsIn l := List.mem_cons.mp hn'
            show s.memo n = none ∧ (if n = name then some v else s1.memo n) ≠ none
            rcases hn' with rfl | hn'
            · exact ⟨hm, by simp⟩
            · refine ⟨(hn n hn').1, ?_⟩
              split
              · simp
              · exact (hn n hn').2
          · show (if name = name then some v else s1.memo name) = some v
            simp

/-- What an access does, as seen from outside. -/
structure Step (s s' : Memoized V C) (a : Access V) : Prop where
  keeps : ∀ n v, (∀ w, a ≠ .set n w) → s.memo n = some v → s'.memo n = some v
  log : ∃ l, s'.log = s.log ++ l ∧ (startsIn l).Nodup ∧ ∀ n ∈ startsIn l, s.memo n = none ∧ s'.memo n ≠ none
  stays : ∀ n, s.memo n ≠ none → s'.memo n ≠ none

theorem access_step {d : Nat} {s s' : Memoized V C} {a : Access V} {v : Option V}
    (h : accessProp getters d s a = some (v, s')) : Step s s' a := by
  cases a with
  | get name =>
    simp only [accessProp, Option.map_eq_some_iff] at h
    obtain ⟨⟨w, s1⟩, h1, h2⟩ := h
    cases h2
    have hb := (read_between d name [] s w s1 nofun trivial h1).1
    refine ⟨fun n v _ => hb.keeps n v, hb.log, fun n hn => ?_⟩
    obtain ⟨v, hv⟩ := Option.ne_none_iff_exists'.mp hn
    rw [hb.keeps n v hv]
    simp
  | set name w =>
    simp only [accessProp, Option.some.injEq, Prod.mk.injEq] at h
    obtain ⟨-, rfl⟩ := h
    refine ⟨fun n v hn hv => ?_, ⟨[], by simp [Memoized.put], by simp [startsIn], by simp [startsIn]⟩, fun n hn => ?_⟩
    · have : n ≠ name := by rintro rfl; exact hn w rfl
      show (if n = name then some w else s.memo n) = some v
      rw [if_neg this]
      exact hv
    · show (if n = name then some w else s.memo n) ≠ none
      split
      · simp
      · exact hn

theorem accesses_steps {d : Nat} : ∀ (as : List (Access V)) (s s' : Memoized V C) (vs : List V),
    accessProps getters d s as = some (vs, s') →
    (∀ n v, (∀ w, Access.set n w ∉ as) → s.memo n = some v → s'.memo n = some v) ∧
    (∀ n, s.memo n ≠ none → s'.memo n ≠ none) ∧
    ∃ l, s'.log = s.log ++ l ∧ (startsIn l).Nodup ∧ ∀ n ∈ startsIn l, s.memo n = none ∧ s'.memo n ≠ none := by
  intro as
  induction as with
  | nil =>
    intro s s' vs h
    cases h
    exact ⟨fun _ _ _ h => h, fun _ h => h, [], by simp, by simp [startsIn], by simp [startsIn]⟩
  | cons a as ih =>
    intro s s' vs h
    rw [accessProps] at h
    split at h
    · cases h
    · next v s1 h1 =>
      split at h
      · cases h
      · next vs2 s2 h2 =>
        cases h
        have st := access_step h1
        obtain ⟨k2, y2, l2, e2, d2, n2⟩ := ih _ _ _ h2
        obtain ⟨l1, e1, d1, n1⟩ := st.log
        refine ⟨fun n v hn hv => k2 n v (fun w hw => hn w (by simp [hw])) (st.keeps n v (fun w hw => hn w (by simp [hw])) hv),
          fun n hn => y2 n (st.stays n hn), l1 ++ l2, by rw [e2, e1, List.append_assoc], ?_, ?_⟩
        · unfold startsIn at *
          rw [List.filterMap_append, List.nodup_append]
          refine ⟨d1, d2, fun a ha b hb => ?_⟩
          rintro rfl
          exact (n1 _ ha).2 (n2 _ hb).1
        · intro n hn
          unfold startsIn at *
          rw [List.filterMap_append, List.mem_append] at hn
          rcases hn with hn | hn
          · exact ⟨(n1 n hn).1, y2 n (n1 n hn).2⟩
          · refine ⟨?_, (n2 n hn).2⟩
            by_cases h0 : s.memo n = none
            · exact h0
            · exact absurd (n2 n hn).1 (st.stays n h0)

/-- **C50**: in any series of accesses to a new message, no getter starts more than once. -/
theorem C50_once (d : Nat) (as : List (Access V)) (vs : List V) (s : Memoized V C)
    (h : accessProps getters d .new as = some (vs, s)) (n : Nat) :
    (startsIn s.log).count n ≤ 1 := by
  obtain ⟨-, -, l, hl, hd, -⟩ := accesses_steps as _ _ _ h
  rw [hl]
  exact List.nodup_iff_count.mp hd n

/-- **C50**: a property that was read keeps its value in any later accesses, unless something is assigned to it,
and reading it again has no effect. -/
theorem C50_same (d : Nat) (s s1 s2 : Memoized V C) (n : Nat) (v : V) (as : List (Access V)) (vs : List V)
    (hget : accessProp getters d s (.get n) = some (some v, s1))
    (has : accessProps getters d s1 as = some (vs, s2)) (hset : ∀ w, Access.set n w ∉ as) :
    accessProp getters (d + 1) s2 (.get n) = some (some v, s2) := by
  simp only [accessProp, Option.map_eq_some_iff] at hget
  obtain ⟨⟨w, s3⟩, h1, h2⟩ := hget
  cases h2
  have hm := (read_between d n [] s _ _ nofun trivial h1).2
  have hm := (accesses_steps as _ _ _ has).1 n w hset hm
  simp only [accessProp, readProp, hm, Option.map_some]

/-- **C50**: a property that was assigned has the value last assigned, whether it was read before or not, its
getter does not start any more, and reading it has no effect. -/
theorem C50_assigned (d : Nat) (s s2 : Memoized V C) (n : Nat) (v : V) (as : List (Access V)) (vs : List V)
    (has : accessProps getters d s (.set n v :: as) = some (vs, s2)) (hset : ∀ w, Access.set n w ∉ as) :
    accessProp getters (d + 1) s2 (.get n) = some (some v, s2) ∧
      ∃ l, s2.log = s.log ++ l ∧ Event.starts n ∉ l := by
  simp only [accessProps, accessProp] at has
  split at has
  · cases has
  · next vs' s' h =>
    cases has
    obtain ⟨h1, -, l, hl, -, hn⟩ := accesses_steps as _ _ _ h
    have hp : (s.put n v).memo n = some v := by simp [Memoized.put]
    refine ⟨?_, l, hl, fun hmem => ?_⟩
    · simp only [accessProp, readProp, h1 n v hset hp, Option.map_some]
    · have := (hn n (List.mem_filterMap.mpr ⟨_, hmem, rfl⟩)).1
      rw [hp] at this
      cases this

end

/-! ## Concrete cases -/

/-- `decoded_body`, `guessed_charset`, `unicode_body` (0, 1, 2), roughly (message.py 71-121); 3 reads itself. -/
def toyGetters : Nat → Getter Nat Nat
  | 0 => .complain 1037 (.ret 5)
  | 1 => .read 0 fun v => .ret (v + 1)
  | 2 => .read 0 fun v => .read 1 fun w => .ret (v + w)
  | n => .read n fun v => .ret v

/-- The state is a function, so what is seen of it. -/
def seen (r : Option (List Nat × Memoized Nat Nat)) : Option (List Nat × List (Event Nat) × List (Option Nat)) :=
  r.map fun p => (p.1, p.2.log, [0, 1, 2, 3].map p.2.memo)

example : seen (accessProps toyGetters 10 .new [.get 2, .get 0, .set 0 7, .get 2, .get 0]) =
    some ([11, 5, 11, 7], [.starts 2, .starts 0, .complains 1037, .starts 1], [some 7, some 6, some 11, none]) ∧
  seen (accessProps toyGetters 10 .new [.set 0 7, .get 2]) =
    some ([15], [.starts 2, .starts 1], [some 7, some 8, some 15, none]) ∧
  seen (accessProps toyGetters 10 .new [.get 3]) = none := by decide

end Httpolice.Props
