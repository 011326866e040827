import Verif.Model.Cli
import Verif.Props.Blackboard

/-!
# C40: exit status (`httpolice/cli.py`)
-/

namespace Httpolice.Props
open Httpolice.Model Httpolice.Spec

/-- Severities ordered as documented: debug, comment, error. -/
def AtLeast : Severity → Severity → Prop
  | .debug, _ => True
  | .comment, s => s ≠ .debug
  | .error, s => s = .error

/-- What was reported on an exchange and its messages, before it reached the command (by the parser)
and when it was checked. -/
structure History (Ctx : Type) where
  hasReq : Bool
  n : Nat
  parsing : List (BoardOp Ctx)
  checking : List (BoardOp Ctx)

/-- A notice of an exchange that the report shows when the IDs `silence` are silenced. -/
def Reported {Ctx : Type} (silence : List Nat) (h : History Ctx) (c : Complaint Ctx) : Prop :=
  ∃ t, Exists h.hasReq h.n t ∧ c ∈ reportedOn t (h.parsing ++ h.checking) ∧ c.id ∉ silence ∧
    ¬ SilencedOn t (h.parsing ++ h.checking) c.id

section
variable {Ctx : Type}

theorem update_count (n : Counter) (xs : List Severity) (s : Severity) :
    n.update xs s = n s + xs.count s := by
  induction xs generalizing n with
  | nil => simp [Counter.update]
  | cons x xs ih =>
    have : n.update (x :: xs) =
        Counter.update (fun s => if s = x then n s + 1 else n s) xs := rfl
    rw [this, ih, List.count_cons]
    by_cases h : s = x
    · simp [h]; omega
    · have h' : ¬ x = s := fun e => h e.symm
      simp [h, h']

theorem generate_eq (severity : Nat → Severity) (silence : List Nat)
    (check : ExchBoards Ctx → ExchBoards Ctx) (exchs : List (ExchBoards Ctx)) (n : Counter) :
    (generateExchanges severity silence check exchs n).1 =
        exchs.map (processExchange silence check) ∧
      ∀ s, (generateExchanges severity silence check exchs n).2 s = n s +
        ((exchs.map (processExchange silence check)).flatMap (·.severities severity)).count s := by
  induction exchs generalizing n with
  | nil => simp [generateExchanges]
  | cons e exchs ih =>
    obtain ⟨h1, h2⟩ := ih (n.update ((processExchange silence check e).severities severity))
    rw [generateExchanges]
    refine ⟨by simp [h1], fun s => ?_⟩
    simp only
    rw [h2, update_count, List.map_cons, List.flatMap_cons, List.count_append]
    omega

theorem atLeast_iff (t s : Severity) : s.value ≥ t.value ↔ AtLeast t s := by
  cases t <;> cases s <;> simp [Severity.value, AtLeast]

theorem mem_severities (severity : Nat → Severity) (e : ExchBoards Ctx) (s : Severity) :
    s ∈ e.severities severity ↔ ∃ t b c, e.get t = some b ∧ c ∈ b.complaints ∧ severity c.id = s := by
  have hb : ∀ b, b ∈ e.boards ↔ ∃ t, e.get t = some b := by
    intro b
    simp only [ExchBoards.boards, List.singleton_append, List.mem_cons, List.mem_append,
      Option.mem_toList]
    constructor
    · rintro (rfl | h | h)
      · exact ⟨.exch, rfl⟩
      · exact ⟨.req, h⟩
      · obtain ⟨i, hi⟩ := List.mem_iff_getElem?.1 h
        exact ⟨.resp i, hi⟩
    · rintro ⟨t, ht⟩
      cases t with
      | exch => exact .inl (Option.some.inj ht).symm
      | req => exact .inr (.inl ht)
      | resp i => exact .inr (.inr (List.mem_iff_getElem?.2 ⟨i, ht⟩))
  simp only [ExchBoards.severities, List.mem_flatMap, List.mem_map, hb]
  constructor
  · rintro ⟨b, ⟨t, ht⟩, c, hc, hs⟩
    exact ⟨t, b, c, ht, hc, hs⟩
  · rintro ⟨t, b, c, ht, hc, hs⟩
    exact ⟨b, ⟨t, ht⟩, c, hc, hs⟩

/-- The exit status is 1 exactly if the input cannot be read, or `--fail-on S` was given and some
notice of at least that severity is visible in the exchanges as reported; otherwise it is 0. -/
theorem C40_status (severity : Nat → Severity) (silence : List Nat)
    (check : ExchBoards Ctx → ExchBoards Ctx) (failOn : Option Severity)
    (exchs : List (ExchBoards Ctx)) (inputEnd : InputEnd) (h : inputEnd ≠ .otherError) :
    (runCli severity silence check failOn exchs inputEnd = some 1 ↔
      inputEnd = .inputError ∨ ∃ S, failOn = some S ∧
        ∃ e ∈ (generateExchanges severity silence check exchs fun _ => 0).1,
          ∃ t b c, e.get t = some b ∧ c ∈ b.complaints ∧ AtLeast S (severity c.id)) ∧
    (runCli severity silence check failOn exchs inputEnd = some 0 ∨
      runCli severity silence check failOn exchs inputEnd = some 1) := by
  cases inputEnd with
  | otherError => exact absurd rfl h
  | inputError => simp [runCli]
  | finished =>
    have hall : ∀ S s, s ∈ Severity.all ∧ True ∧ AtLeast S s ↔ AtLeast S s := by
      intro S s
      cases s <;> simp [Severity.all]
    have key : ∀ S, exitStatus (some S)
        (generateExchanges severity silence check exchs fun _ => 0).2 = 1 ↔
        ∃ e ∈ (generateExchanges severity silence check exchs fun _ => 0).1,
          ∃ t b c, e.get t = some b ∧ c ∈ b.complaints ∧ AtLeast S (severity c.id) := by
      intro S
      obtain ⟨g1, g2⟩ := generate_eq severity silence check exchs fun _ => 0
      have hex : (Severity.all.any fun s => s.value ≥ S.value &&
          (generateExchanges severity silence check exchs fun _ => 0).2 s > 0) = true ↔
          ∃ e ∈ (generateExchanges severity silence check exchs fun _ => 0).1,
          ∃ t b c, e.get t = some b ∧ c ∈ b.complaints ∧ AtLeast S (severity c.id) := by
        rw [g1]
        simp only [List.any_eq_true, Bool.and_eq_true, decide_eq_true_eq, g2, Nat.zero_add,
          gt_iff_lt, List.count_pos_iff, atLeast_iff, List.mem_flatMap, mem_severities]
        constructor
        · rintro ⟨s, _, hs, e, he, t, b, c, ht, hc, rfl⟩
          exact ⟨e, he, t, b, c, ht, hc, hs⟩
        · rintro ⟨e, he, t, b, c, ht, hc, hs⟩
          exact ⟨severity c.id, ((hall S _).2 hs).1, hs, e, he, t, b, c, ht, hc, rfl⟩
      rw [← hex, exitStatus]
      split <;> simp_all
    have bin : ∀ n : Counter, exitStatus failOn n = 0 ∨ exitStatus failOn n = 1 := by
      intro n
      cases failOn with
      | none => exact .inl rfl
      | some S =>
        rw [exitStatus]
        split
        · exact .inr rfl
        · exact .inl rfl
    refine ⟨?_, by simpa [runCli] using bin _⟩
    cases failOn with
    | none => simp [runCli, exitStatus]
    | some S => simpa [runCli] using key S

variable [DecidableEq Ctx]

theorem run_append (e : ExchBoards Ctx) (a b : List (BoardOp Ctx)) :
    e.run (a ++ b) = (e.run a).run b := by
  simp [ExchBoards.run]

theorem reportedOn_append (t : Target) (a b : List (BoardOp Ctx)) :
    reportedOn t (a ++ b) = reportedOn t a ++ reportedOn t b := by
  induction a with
  | nil => rfl
  | cons op a ih =>
    cases op with
    | complain t' c =>
      simp only [List.cons_append, reportedOn]
      split <;> simp [ih]
    | silence t' ids => simpa [reportedOn] using ih

/-- In terms of what was reported while parsing and checking: with `--silence` IDs given, the exit
status is 1 exactly if the input cannot be read, or `--fail-on S` was given and a notice of at least
that severity was reported whose ID is not among those silenced on the command line or on its message
or exchange. -/
theorem C40_reported (severity : Nat → Severity) (silence : List Nat)
    (check : ExchBoards Ctx → ExchBoards Ctx) (failOn : Option Severity)
    (hs : List (History Ctx)) (inputEnd : InputEnd) (h : inputEnd ≠ .otherError)
    (hcheck : ∀ h ∈ hs, ∀ ops, check ((ExchBoards.fresh Ctx h.hasReq h.n).run (h.parsing ++ ops)) =
      (ExchBoards.fresh Ctx h.hasReq h.n).run (h.parsing ++ ops ++ h.checking)) :
    runCli severity silence check failOn
        (hs.map fun h => (ExchBoards.fresh Ctx h.hasReq h.n).run h.parsing) inputEnd = some 1 ↔
      inputEnd = .inputError ∨ ∃ S, failOn = some S ∧
        ∃ h ∈ hs, ∃ c, Reported silence h c ∧ AtLeast S (severity c.id) := by
  rw [(C40_status severity silence check failOn _ inputEnd h).1]
  rw [(generate_eq severity silence check _ _).1]
  -- the final state of an exchange, as a history
  have final : ∀ h ∈ hs, ∃ mid : List (BoardOp Ctx),
      processExchange silence check ((ExchBoards.fresh Ctx h.hasReq h.n).run h.parsing) =
        (ExchBoards.fresh Ctx h.hasReq h.n).run (h.parsing ++ mid ++ h.checking) ∧
      (∀ t, reportedOn t mid = []) ∧
      ∀ t id, SilencedOn t mid id ↔ id ∈ silence := by
    intro h hh
    rw [processExchange]
    split
    next h0 =>
      rw [List.isEmpty_iff] at h0
      subst h0
      have := hcheck h hh []
      rw [List.append_nil] at this
      exact ⟨[], by rw [this, List.append_nil], fun _ => rfl, by simp [SilencedOn]⟩
    next =>
      refine ⟨[.silence .exch silence], ?_, fun _ => rfl, ?_⟩
      · rw [← hcheck h hh [.silence .exch silence], run_append]
        rfl
      · intro t id
        constructor
        · rintro ⟨t', ids, hq, _, h2⟩
          cases List.mem_singleton.1 hq
          exact h2
        · exact fun hid => ⟨.exch, silence, List.mem_singleton.2 rfl, .inr rfl, hid⟩
  have vis : ∀ h ∈ hs, ∀ c : Complaint Ctx,
      (∃ t b, (processExchange silence check
          ((ExchBoards.fresh Ctx h.hasReq h.n).run h.parsing)).get t = some b ∧
        c ∈ b.complaints) ↔ Reported silence h c := by
    intro h hh c
    obtain ⟨mid, hm, hr, hsil⟩ := final h hh
    rw [hm]
    have hrep : ∀ t, reportedOn t (h.parsing ++ mid ++ h.checking) =
        reportedOn t (h.parsing ++ h.checking) := by
      intro t
      rw [reportedOn_append, reportedOn_append, reportedOn_append, hr, List.append_nil]
    have hsl : ∀ t id, SilencedOn t (h.parsing ++ mid ++ h.checking) id ↔
        id ∈ silence ∨ SilencedOn t (h.parsing ++ h.checking) id := by
      intro t id
      rw [← hsil t id]
      simp only [SilencedOn, List.mem_append]
      constructor
      · rintro ⟨t', ids, (hq | hq) | hq, h1, h2⟩
        · exact .inr ⟨t', ids, .inl hq, h1, h2⟩
        · exact .inl ⟨t', ids, hq, h1, h2⟩
        · exact .inr ⟨t', ids, .inr hq, h1, h2⟩
      · rintro (⟨t', ids, hq, h1, h2⟩ | ⟨t', ids, hq | hq, h1, h2⟩)
        · exact ⟨t', ids, .inl (.inr hq), h1, h2⟩
        · exact ⟨t', ids, .inl (.inl hq), h1, h2⟩
        · exact ⟨t', ids, .inr hq, h1, h2⟩
    constructor
    · rintro ⟨t, b, hb, hc⟩
      have hex : Exists h.hasReq h.n t := by
        have := get_run (h.parsing ++ mid ++ h.checking) (ExchBoards.fresh Ctx h.hasReq h.n) t
        rw [hb] at this
        cases t with
        | exch => trivial
        | req =>
          simp only [Exists]
          cases hq : h.hasReq with
          | true => rfl
          | false => simp [ExchBoards.fresh, ExchBoards.get, hq] at this
        | resp i =>
          simp only [Exists]
          apply Classical.byContradiction
          intro hi
          simp [ExchBoards.fresh, ExchBoards.get, hi] at this
      obtain ⟨b', l, h1, h2, h3, _⟩ := C24_silence_exact h.hasReq h.n
        (h.parsing ++ mid ++ h.checking) t hex
      rw [hb] at h1
      cases h1
      obtain ⟨hl, hns⟩ := (h3 c).1 hc
      rw [hsl] at hns
      refine ⟨t, hex, ?_, fun hn => hns (.inl hn), fun hn => hns (.inr hn)⟩
      rw [← hrep t]
      exact (h2.mem c).1 hl
    · rintro ⟨t, hex, hc, hn, hs'⟩
      obtain ⟨b, l, h1, h2, h3, _⟩ := C24_silence_exact h.hasReq h.n
        (h.parsing ++ mid ++ h.checking) t hex
      refine ⟨t, b, h1, (h3 c).2 ⟨?_, ?_⟩⟩
      · apply (h2.mem c).2
        rw [hrep t]
        exact hc
      · rw [hsl]
        rintro (h | h)
        · exact hn h
        · exact hs' h
  constructor
  · rintro (h | ⟨S, hS, e, he, t, b, c, hb, hc, ha⟩)
    · exact .inl h
    · obtain ⟨x, hx, rfl⟩ := List.mem_map.1 he
      obtain ⟨h, hh, rfl⟩ := List.mem_map.1 hx
      exact .inr ⟨S, hS, h, hh, c, (vis h hh c).1 ⟨t, b, hb, hc⟩, ha⟩
  · rintro (h | ⟨S, hS, h, hh, c, hc, ha⟩)
    · exact .inl h
    · obtain ⟨t, b, hb, hc⟩ := (vis h hh c).2 hc
      exact .inr ⟨S, hS, _, List.mem_map_of_mem (List.mem_map_of_mem hh), t, b, c, hb, hc, ha⟩

end

/-- Odd IDs are errors, even ones comments. -/
def sampleSeverity (id : Nat) : Severity := if id % 2 = 1 then .error else .comment

/-- An exchange with a comment on the request, checked with an error on the response. -/
def sampleHistory : History Nat :=
  ⟨true, 1, [.complain .req ⟨1000, 0⟩], [.complain (.resp 0) ⟨1001, 0⟩]⟩

/-- A check that satisfies the hypothesis. -/
def sampleCheck (e : ExchBoards Nat) : ExchBoards Nat := e.run [.complain (.resp 0) ⟨1001, 0⟩]

example : ∀ h ∈ [sampleHistory], ∀ ops,
    sampleCheck ((ExchBoards.fresh Nat h.hasReq h.n).run (h.parsing ++ ops)) =
      (ExchBoards.fresh Nat h.hasReq h.n).run (h.parsing ++ ops ++ h.checking) := by
  intro h hh ops
  rw [List.mem_singleton.1 hh, run_append (Ctx := Nat) _ (_ ++ ops)]
  rfl

example : [[], [1001], [1000, 1001]].map (fun silence =>
    [none, some Severity.comment, some .error].map fun failOn =>
      runCli sampleSeverity silence sampleCheck failOn
        [(ExchBoards.fresh Nat true 1).run sampleHistory.parsing] .finished) =
    [[some 0, some 1, some 1], [some 0, some 1, some 0], [some 0, some 0, some 0]] := by decide

example : runCli sampleSeverity [] sampleCheck none [] .inputError = some 1 := by decide

end Httpolice.Props
