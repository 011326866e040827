import Verif.Model.Blackboard
import Verif.Spec.FirstReports

/-!
# Properties C23, C24, C25: notices on blackboards
-/

namespace Httpolice.Props

open Httpolice.Model Httpolice.Spec

variable {Ctx : Type} [DecidableEq Ctx]

/-! ## Specification -/

/-- The complaints that a history of calls reported on target `t`, in order, repetitions kept. -/
def reportedOn (t : Target) : List (BoardOp Ctx) → List (Complaint Ctx)
  | [] => []
  | .complain t' c :: ops => if t' = t then c :: reportedOn t ops else reportedOn t ops
  | .silence _ _ :: ops => reportedOn t ops

/-- The history silences `id` on `t`: by a call on `t` itself or on the enclosing exchange. -/
def SilencedOn (t : Target) (ops : List (BoardOp Ctx)) (id : Nat) : Prop :=
  ∃ t' ids, BoardOp.silence t' ids ∈ ops ∧ (t' = t ∨ t' = .exch) ∧ id ∈ ids

/-! ## C23 -/

theorem stored_foldl (cs : List (Complaint Ctx)) (b : Board Ctx) (hist : List (Complaint Ctx))
    (h : FirstReports hist b.stored) :
    FirstReports (hist ++ cs) (cs.foldl Board.complain b).stored ∧
      (cs.foldl Board.complain b).silenced = b.silenced := by
  induction cs generalizing b hist with
  | nil => simpa using h
  | cons c cs ih =>
    have key : FirstReports (hist ++ [c]) (b.complain c).stored ∧
        (b.complain c).silenced = b.silenced := by
      unfold Board.complain
      split
      · next hc => exact ⟨h.snoc_old hc, rfl⟩
      · next hc => exact ⟨h.snoc_new hc, rfl⟩
    have := ih (b.complain c) (hist ++ [c]) key.1
    simpa [key.2] using this

/-- **C23**: after any sequence of `complain` calls on a fresh object, its notices are the
reported ones, each once, in the order of their first report. -/
theorem C23_complain_once_in_order (cs : List (Complaint Ctx)) :
    FirstReports cs (cs.foldl Board.complain (Board.new (Ctx := Ctx))).complaints := by
  have h0 : FirstReports ([] : List (Complaint Ctx)) (Board.new (Ctx := Ctx)).stored :=
    ⟨by simp [Board.new], by simp [Board.new], by simp [Board.new]⟩
  have := stored_foldl cs Board.new [] h0
  have hs : (cs.foldl Board.complain (Board.new (Ctx := Ctx))).complaints =
      (cs.foldl Board.complain (Board.new (Ctx := Ctx))).stored := by
    unfold Board.complaints
    rw [this.2]
    simp [Board.new]
  rw [hs]
  simpa using this.1

example : ([⟨1000, 7⟩, ⟨1001, 7⟩, ⟨1000, 7⟩, ⟨1000, 8⟩].foldl Board.complain
    (Board.new (Ctx := Nat))).complaints = [⟨1000, 7⟩, ⟨1001, 7⟩, ⟨1000, 8⟩] := by decide

/-! ## C24 -/

/-- The target exists in an exchange with this shape. -/
def Exists (hasReq : Bool) (n : Nat) : Target → Prop
  | .exch => True
  | .req => hasReq = true
  | .resp i => i < n

/-- What a history does to a single blackboard. -/
def boardStep (t : Target) (b : Board Ctx) : BoardOp Ctx → Board Ctx
  | .complain t' c => if t' = t then b.complain c else b
  | .silence t' ids => if t' = t ∨ t' = .exch then b.silence ids else b

omit [DecidableEq Ctx] in
theorem get_modify (e : ExchBoards Ctx) (t t' : Target) (f : Board Ctx → Board Ctx) :
    (e.modify t' f).get t = if t' = t then (e.get t).map f else e.get t := by
  cases t' <;> cases t <;> simp [ExchBoards.modify, ExchBoards.get, List.getElem?_modify]
  next i j =>
    by_cases h : i = j
    · subst h; simp
    · simp [h]

theorem get_step (e : ExchBoards Ctx) (op : BoardOp Ctx) (t : Target) :
    (e.step op).get t = (e.get t).map (boardStep t · op) := by
  cases op with
  | complain t' c =>
    simp only [ExchBoards.step, get_modify, boardStep]
    split <;> simp
  | silence t' ids =>
    cases t' with
    | exch => cases t <;> simp [ExchBoards.step, ExchBoards.silenceAll, ExchBoards.get, boardStep]
    | req =>
      simp only [ExchBoards.step, get_modify, boardStep]
      by_cases h : Target.req = t <;> simp [h]
    | resp i =>
      simp only [ExchBoards.step, get_modify, boardStep]
      by_cases h : Target.resp i = t <;> simp [h]

theorem get_run (ops : List (BoardOp Ctx)) (e : ExchBoards Ctx) (t : Target) :
    (e.run ops).get t = (e.get t).map (ops.foldl (boardStep t) ·) := by
  induction ops generalizing e with
  | nil => simp [ExchBoards.run]
  | cons op ops ih =>
    have : (e.run (op :: ops)) = (e.step op).run ops := rfl
    rw [this, ih, get_step]
    simp [Function.comp_def]

theorem board_foldl (t : Target) (ops : List (BoardOp Ctx)) (b : Board Ctx)
    (hist : List (Complaint Ctx)) (h : FirstReports hist b.stored) :
    FirstReports (hist ++ reportedOn t ops) (ops.foldl (boardStep t) b).stored ∧
      ∀ id, id ∈ (ops.foldl (boardStep t) b).silenced ↔ id ∈ b.silenced ∨ SilencedOn t ops id := by
  induction ops generalizing b hist with
  | nil => simpa [reportedOn, SilencedOn] using h
  | cons op ops ih =>
    cases op with
    | complain t' c =>
      by_cases ht : t' = t
      · subst ht
        have h1 : FirstReports (hist ++ [c]) (b.complain c).stored ∧
            (b.complain c).silenced = b.silenced := by
          unfold Board.complain
          split
          · next hc => exact ⟨h.snoc_old hc, rfl⟩
          · next hc => exact ⟨h.snoc_new hc, rfl⟩
        have h2 := ih (b.complain c) (hist ++ [c]) h1.1
        simp only [List.foldl_cons, boardStep, if_true, reportedOn]
        refine ⟨by simpa using h2.1, ?_⟩
        intro id
        rw [h2.2 id, h1.2]
        simp [SilencedOn]
      · have h2 := ih b hist h
        simp only [List.foldl_cons, boardStep, if_neg ht, reportedOn]
        refine ⟨h2.1, ?_⟩
        intro id
        rw [h2.2 id]
        simp [SilencedOn]
    | silence t' ids =>
      by_cases ht : t' = t ∨ t' = .exch
      · have h2 := ih (b.silence ids) hist h
        simp only [List.foldl_cons, boardStep, if_pos ht, reportedOn]
        refine ⟨h2.1, ?_⟩
        intro id
        rw [h2.2 id]
        simp only [Board.silence, List.mem_append, SilencedOn, List.mem_cons,
          BoardOp.silence.injEq]
        constructor
        · rintro ((h | h) | ⟨t1, i1, hm, h1, h2⟩)
          · exact Or.inl h
          · exact Or.inr ⟨t', ids, Or.inl ⟨rfl, rfl⟩, ht, h⟩
          · exact Or.inr ⟨t1, i1, Or.inr hm, h1, h2⟩
        · rintro (h | ⟨t1, i1, (⟨rfl, rfl⟩ | hm), h1, h2⟩)
          · exact Or.inl (Or.inl h)
          · exact Or.inl (Or.inr h2)
          · exact Or.inr ⟨t1, i1, hm, h1, h2⟩
      · have h2 := ih b hist h
        simp only [List.foldl_cons, boardStep, if_neg ht, reportedOn]
        refine ⟨h2.1, ?_⟩
        intro id
        rw [h2.2 id]
        simp only [SilencedOn, List.mem_cons, BoardOp.silence.injEq]
        constructor
        · rintro (h | ⟨t1, i1, hm, h1, h2⟩)
          · exact Or.inl h
          · exact Or.inr ⟨t1, i1, Or.inr hm, h1, h2⟩
        · rintro (h | ⟨t1, i1, (⟨rfl, rfl⟩ | hm), h1, h2⟩)
          · exact Or.inl h
          · exact absurd h1 ht
          · exact Or.inr ⟨t1, i1, hm, h1, h2⟩

/-- **C24**: after any interleaving of `complain` and `silence` calls on a fresh exchange and its
messages, the notices visible on an object `t` are exactly those reported on it (each once, by
first report) whose ID was never silenced on `t` or on the exchange - whether before or after
the report. -/
theorem C24_silence_exact (hasReq : Bool) (n : Nat) (ops : List (BoardOp Ctx)) (t : Target)
    (ht : Exists hasReq n t) :
    ∃ b l, ((ExchBoards.fresh Ctx hasReq n).run ops).get t = some b ∧
      FirstReports (reportedOn t ops) l ∧
      (∀ c, c ∈ b.complaints ↔ c ∈ l ∧ ¬ SilencedOn t ops c.id) ∧
      b.complaints.Sublist l := by
  have hget : (ExchBoards.fresh Ctx hasReq n).get t = some Board.new := by
    cases t with
    | exch => rfl
    | req =>
      have : hasReq = true := ht
      simp [ExchBoards.fresh, ExchBoards.get, this]
    | resp i =>
      have : i < n := ht
      simp [ExchBoards.fresh, ExchBoards.get, this]
  have h0 : FirstReports ([] : List (Complaint Ctx)) (Board.new (Ctx := Ctx)).stored :=
    ⟨by simp [Board.new], by simp [Board.new], by simp [Board.new]⟩
  have key := board_foldl t ops Board.new [] h0
  refine ⟨ops.foldl (boardStep t) Board.new, (ops.foldl (boardStep t) Board.new).stored,
    ?_, ?_, ?_, ?_⟩
  · rw [get_run, hget]; rfl
  · simpa using key.1
  · intro c
    have := key.2 c.id
    rw [show (Board.new (Ctx := Ctx)).silenced = [] from rfl] at this
    simp only [List.not_mem_nil, false_or] at this
    simp only [Board.complaints, List.mem_filter, decide_eq_true_eq, this]
  · exact List.filter_sublist

/-- **C24** (order independence): two histories with the same reports on `t` and the same set of
`silence` calls show the same notices on `t`, however the calls are interleaved. -/
theorem C24_interleaving_irrelevant (hasReq : Bool) (n : Nat) (ops ops' : List (BoardOp Ctx))
    (t : Target) (hrep : reportedOn t ops = reportedOn t ops')
    (hsil : ∀ t' ids, BoardOp.silence t' ids ∈ ops ↔ BoardOp.silence t' ids ∈ ops') :
    (((ExchBoards.fresh Ctx hasReq n).run ops).get t).map Board.complaints =
      (((ExchBoards.fresh Ctx hasReq n).run ops').get t).map Board.complaints := by
  have hb : ∀ b : Board Ctx, b = Board.new →
      (ops.foldl (boardStep t) b).complaints = (ops'.foldl (boardStep t) b).complaints := by
    rintro b rfl
    have h0 : FirstReports ([] : List (Complaint Ctx)) (Board.new (Ctx := Ctx)).stored :=
      ⟨by simp [Board.new], by simp [Board.new], by simp [Board.new]⟩
    have hst : ∀ (ops : List (BoardOp Ctx)) (b : Board Ctx),
        (ops.foldl (boardStep t) b).stored =
          ((reportedOn t ops).foldl Board.complain b).stored := by
      intro ops
      induction ops with
      | nil => intro b; rfl
      | cons op ops ih =>
        intro b
        have hcongr : ∀ (cs : List (Complaint Ctx)) (b b' : Board Ctx), b.stored = b'.stored →
            (cs.foldl Board.complain b).stored = (cs.foldl Board.complain b').stored := by
          intro cs
          induction cs with
          | nil => intro b b' h; exact h
          | cons c cs ih2 =>
            intro b b' h
            apply ih2
            unfold Board.complain
            rw [h]
            split <;> simp [h]
        cases op with
        | complain t' c =>
          by_cases ht : t' = t
          · simp [boardStep, reportedOn, ht, ih]
          · simp [boardStep, reportedOn, ht, ih]
        | silence t' ids =>
          simp only [List.foldl_cons, reportedOn, ih]
          apply hcongr
          simp only [boardStep]
          split <;> rfl
    have k1 := board_foldl t ops Board.new [] h0
    have k2 := board_foldl t ops' Board.new [] h0
    unfold Board.complaints
    rw [hst ops, hst ops', hrep]
    apply List.filter_congr
    intro c _
    have e1 := k1.2 c.id
    have e2 := k2.2 c.id
    have : SilencedOn t ops c.id ↔ SilencedOn t ops' c.id := by
      simp [SilencedOn, hsil]
    simp [e1, e2, this]
  rw [get_run, get_run]
  cases hg : (ExchBoards.fresh Ctx hasReq n).get t with
  | none => rfl
  | some b =>
    have hbn : b = Board.new := by
      cases t with
      | exch => simpa [ExchBoards.fresh, ExchBoards.get] using hg.symm
      | req =>
        cases hasReq <;> simp [ExchBoards.fresh, ExchBoards.get] at hg
        exact hg.symm
      | resp i =>
        simp [ExchBoards.fresh, ExchBoards.get, List.getElem?_replicate] at hg
        exact hg.2.symm
    simp [hb b hbn]

example : (((ExchBoards.fresh Nat true 2).run
    [.complain (.resp 1) ⟨1010, 0⟩, .silence .exch [1010, 1020], .complain (.resp 1) ⟨1020, 0⟩,
     .complain (.resp 1) ⟨1030, 0⟩, .silence .req [1030]]).get (.resp 1)).map Board.complaints
    = some [⟨1030, 0⟩] := by decide

/-! ## C25 -/

/-- What the documentation of `Exchange.silence` promises for an iterable. -/
def SilencesEverywhere {Ctx : Type} (e : ExchBoards Ctx) (it : IdIter) : Prop :=
  ∀ t b, (e.silenceIter it).get t = some b → ∀ id ∈ it.ids, id ∈ b.silenced

omit [DecidableEq Ctx] in
theorem silenceChildren_reusable (ids : List Nat) (bs : List (Board Ctx)) :
    silenceChildren bs (.reusable ids) = (bs.map (·.silence ids), .reusable ids) := by
  induction bs with
  | nil => rfl
  | cons b bs ih => simp [silenceChildren, Board.silenceIter, IdIter.consume, ih]

omit [DecidableEq Ctx] in
/-- **C25** (partial): for every re-iterable collection, `Exchange.silence` does exactly what
silencing with the list does; in particular all IDs are silenced on the exchange and all its
messages. Missing from the full property: one-shot iterators, for which it is false
(`C25_false_for_one_shot`). -/
theorem C25_reusable_partial (e : ExchBoards Ctx) (ids : List Nat) :
    e.silenceIter (.reusable ids) = e.silenceAll ids ∧
      SilencesEverywhere e (.reusable ids) := by
  have h1 : e.silenceIter (.reusable ids) = e.silenceAll ids := by
    rcases e with ⟨own, req, resps⟩
    cases req <;>
      simp [ExchBoards.silenceIter, ExchBoards.silenceAll, Board.silenceIter, IdIter.consume,
        silenceChildren_reusable]
  refine ⟨h1, ?_⟩
  intro t b hb id hid
  rw [h1] at hb
  cases t with
  | exch =>
    simp only [ExchBoards.silenceAll, ExchBoards.get, Option.some.injEq] at hb
    subst hb
    simp only [Board.silence, List.mem_append]
    exact Or.inr hid
  | req =>
    simp only [ExchBoards.silenceAll, ExchBoards.get, Option.map_eq_some_iff] at hb
    obtain ⟨b', _, rfl⟩ := hb
    simp only [Board.silence, List.mem_append]
    exact Or.inr hid
  | resp i =>
    simp only [ExchBoards.silenceAll, ExchBoards.get, List.getElem?_map,
      Option.map_eq_some_iff] at hb
    obtain ⟨b', _, rfl⟩ := hb
    simp only [Board.silence, List.mem_append]
    exact Or.inr hid

example : SilencesEverywhere (ExchBoards.fresh Nat true 2) (.reusable [1010]) :=
  (C25_reusable_partial _ _).2

/-- **C25** is false as documented: with a one-shot iterator (a generator) only the exchange
itself is silenced, its messages are not. -/
theorem C25_false_for_one_shot :
    ¬ ∀ (e : ExchBoards Nat) (it : IdIter), SilencesEverywhere e it := by
  intro h
  have := h (ExchBoards.fresh Nat true 0) (.oneShot [1010]) .req
    { stored := [], silenced := [] } (by decide) 1010 (by decide)
  simp at this

end Httpolice.Props
