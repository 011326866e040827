import Verif.Lemmas.CheckViews

/-!
# Checking responses with and without their request
-/

namespace Httpolice.Lemmas.Check

open Httpolice.Model Httpolice.Spec Httpolice.Props

/-- Everything in `a` is in `b`; whatever else is in `b` is a report with one of the IDs. -/
def Below (N : List Nat) (a b : List Act) : Prop :=
  (∀ x ∈ a, x ∈ b) ∧ ∀ x ∈ b, x ∉ a → ∃ t c, x = .op (.complain t c) ∧ c.id ∈ N

section
variable {N : List Nat}

theorem Below.refl (a : List Act) : Below N a a := ⟨fun _ h => h, fun _ h h' => absurd h h'⟩

theorem Below.append {a b a' b' : List Act} (h : Below N a b) (h' : Below N a' b') :
    Below N (a ++ a') (b ++ b') := by
  refine ⟨?_, ?_⟩
  · intro x hx
    rcases List.mem_append.1 hx with hx | hx
    · exact List.mem_append_left _ (h.1 x hx)
    · exact List.mem_append_right _ (h'.1 x hx)
  · intro x hx hn
    rcases List.mem_append.1 hx with hx | hx
    · exact h.2 x hx fun hh => hn (List.mem_append_left _ hh)
    · exact h'.2 x hx fun hh => hn (List.mem_append_right _ hh)

theorem below_cons {a b : List Act} {l l' : List (List Act)} (h : Below N a b)
    (h' : Below N (inOrder l) (inOrder l')) : Below N (inOrder (a :: l)) (inOrder (b :: l')) :=
  h.append h'

theorem below_each {α : Type} {l : List α} {f g : α → List Act} (h : ∀ x ∈ l, Below N (f x) (g x)) :
    Below N (each l f) (each l g) := by
  induction l with
  | nil => exact Below.refl _
  | cons x l ih =>
    exact (h x List.mem_cons_self).append (ih fun y hy => h y (List.mem_cons_of_mem _ hy))

theorem below_whenever {b : Bool} {a a' : List Act} (h : Below N a a') :
    Below N (whenever b a) (whenever b a') := by
  cases b
  · exact Below.refl _
  · exact h

theorem below_say {b b' : Bool} {t : Target} {id : Nat} {ctx : Ctx} (hb : b = true → b' = true)
    (hid : id ∈ N) : Below N (whenever b (say t id ctx)) (whenever b' (say t id ctx)) := by
  cases b with
  | true => rw [hb rfl]; exact Below.refl _
  | false =>
    refine ⟨fun x hx => by simp [whenever] at hx, ?_⟩
    intro x hx _
    simp only [mem_whenever, say, List.mem_singleton] at hx
    exact ⟨t, _, hx.2, hid⟩

/-- From nothing to reports with the IDs. -/
theorem below_nil {t : Target} {b : List Act} (h : Plain (On t N fun _ => False) False b) :
    Below N [] b := by
  refine ⟨fun x hx => absurd hx List.not_mem_nil, ?_⟩
  intro x hx _
  rcases h x hx with ⟨t, c, hx, hc⟩ | ⟨_, h⟩
  · exact ⟨t, c, hx, hc.2.resolve_right id⟩
  · exact h.elim

end

variable (E : Env)

theorem below_checkMessage (t : Target) (msg : Message) (tls : Option Bool)
    (tr : Option Bool × List Act) (status : Option Int) :
    Below needsRequest (checkMessage E t msg none tr status) (checkMessage E t msg tls tr status) := by
  refine below_cons (Below.refl _) (below_cons ?_ (Below.refl _))
  unfold checkAnyMessage
  dsimp only
  iterate 11 refine below_cons (Below.refl _) ?_
  refine below_cons (below_each fun x _ => ?_) (Below.refl _)
  refine below_cons (Below.refl _) (below_cons ?_ (Below.refl _))
  exact below_say (by simp) (by decide)

theorem delimited_alone (i : Nat) (r : Response) :
    (delimitedByClose E ⟨i, r, none⟩).1 ≠ some true ∧ (delimitedByClose E ⟨i, r, none⟩).2 = [] := by
  unfold delimitedByClose
  dsimp only
  split <;> simp

theorem plain_delimited (i : Nat) (r : Response) (q : Option Request) :
    Plain (On (.resp i) needsRequest fun _ => False) False (delimitedByClose E ⟨i, r, q⟩).2 := by
  unfold delimitedByClose
  dsimp only [Placed.here]
  plain

theorem below_checkStatus (i : Nat) (r : Response) (q : Option Request) :
    Below needsRequest (checkStatus E ⟨i, r, none⟩) (checkStatus E ⟨i, r, q⟩) := by
  obtain ⟨h1, h2⟩ := delimited_alone E i r
  unfold checkStatus
  dsimp only [Placed.fields, Placed.here, Placed.status]
  refine below_cons (Below.refl _) (below_cons (Below.refl _) (below_cons ?_ (below_cons ?_
    (Below.refl _))))
  · rw [h2]
    exact below_nil (plain_delimited E i r q)
  · exact below_say (by simp [h1]) (by decide)

theorem below_checkBearer (i : Nat) (r : Response) (q : Option Request) (a : AuthParams) :
    Below needsRequest (checkBearerChallenge E ⟨i, r, none⟩ a)
      (checkBearerChallenge E ⟨i, r, q⟩ a) := by
  cases q with
  | none => exact Below.refl _
  | some req =>
  unfold checkBearerChallenge
  dsimp only [Placed.fields, Placed.here, Placed.status, Placed.isTls]
  refine below_cons (below_say (by simp) (by decide)) (below_cons ?_ (Below.refl _))
  split
  · exact Below.refl _
  · exact Below.refl _
  · refine below_cons (Below.refl _) (below_cons (Below.refl _) (below_cons ?_ (below_cons
      (Below.refl _) (below_cons ?_ (Below.refl _)))))
    · exact below_say (by simp) (by decide)
    · exact below_nil (t := .resp i) (by plain)

theorem below_checkChallenges (i : Nat) (r : Response) (q : Option Request) (hdr : String) :
    Below needsRequest (checkChallenges E ⟨i, r, none⟩ hdr) (checkChallenges E ⟨i, r, q⟩ hdr) := by
  unfold checkChallenges
  refine below_each fun c _ => ?_
  refine below_cons (Below.refl _) (below_cons ?_ (Below.refl _))
  exact below_whenever (below_checkBearer E i r q c.2)

theorem below_checkResponseHeaders (i : Nat) (r : Response) (q : Option Request) :
    Below needsRequest (checkResponseHeaders E ⟨i, r, none⟩) (checkResponseHeaders E ⟨i, r, q⟩) := by
  unfold checkResponseHeaders
  dsimp only [Placed.fields, Placed.here, Placed.status]
  iterate 15 refine below_cons (Below.refl _) ?_
  exact below_cons (below_checkChallenges E i r q _)
    (below_cons (below_checkChallenges E i r q _) (Below.refl _))

theorem below_checkSettled (i : Nat) (r : Response) (q : Option Request) :
    Below needsRequest (checkSettledResponse E ⟨i, r, none⟩) (checkSettledResponse E ⟨i, r, q⟩) := by
  obtain ⟨h1, _⟩ := delimited_alone E i r
  unfold checkSettledResponse
  dsimp only
  iterate 13 refine below_cons (Below.refl _) ?_
  refine below_cons (below_whenever ?_) (Below.refl _)
  refine below_cons (Below.refl _) (below_cons ?_ (below_cons ?_ (Below.refl _)))
  · exact below_say (by simp [Placed.isTls]) (by decide)
  · exact below_say (by simp [h1]) (by decide)

theorem below_itselfRest (i : Nat) (r : Response) (q : Option Request) :
    Below needsRequest (itselfRest E ⟨i, r, none⟩) (itselfRest E ⟨i, r, q⟩) := by
  refine below_cons (below_checkMessage E _ _ _ _ _) (below_cons (below_checkStatus E i r q)
    (below_cons (below_checkResponseHeaders E i r q) (below_cons ?_ (Below.refl _))))
  by_cases h : r.status = 103
  · rw [if_pos (show (⟨i, r, none⟩ : Placed).status = 103 from h),
      if_pos (show (⟨i, r, q⟩ : Placed).status = 103 from h)]
    exact Below.refl _
  · rw [if_neg (show ¬(⟨i, r, none⟩ : Placed).status = 103 from h),
      if_neg (show ¬(⟨i, r, q⟩ : Placed).status = 103 from h)]
    exact below_checkSettled E i r q

/-! ## The checks against the request -/

/-- Everything is known already, or is a report of some kind. -/
def Near (K : List Act) (Q : Target → Nat → Prop) (acts : List Act) : Prop :=
  ∀ a ∈ acts, a ∈ K ∨ ∃ t c, a = .op (.complain t c) ∧ Q t c.id

section
variable {K : List Act} {Q : Target → Nat → Prop}

theorem near_nil : Near K Q (inOrder []) := fun _ h => absurd h mem_inOrder_nil

theorem near_cons {a : List Act} {l : List (List Act)} (h : Near K Q a) (h' : Near K Q (inOrder l)) :
    Near K Q (inOrder (a :: l)) := by
  intro x hx
  rcases mem_inOrder_cons.1 hx with hx | hx
  · exact h x hx
  · exact h' x hx

theorem near_plain {acts : List Act} (h : Plain Q False acts) : Near K Q acts := by
  intro a ha
  rcases h a ha with h | ⟨_, h⟩
  · exact .inr h
  · exact h.elim

theorem near_sub {acts : List Act} (h : ∀ a ∈ acts, a ∈ K) : Near K Q acts := fun a ha => .inl (h a ha)

end

theorem emptyBodyNotice_needs {status : Int} {id : Nat} (h : emptyBodyNotice status = some id) :
    id ∈ needsRequest := by
  unfold emptyBodyNotice at h
  iterate 12
    replace h := ite_some h
    rcases h with h | h
    · rw [h]; decide
  cases h

/-- Reports on the request, or on the response with an ID that needs the request. -/
def Extra (i : Nat) : Target → Nat → Prop := fun t id => t = .req ∨ (t = .resp i ∧ id ∈ needsRequest)

theorem near_on {K acts : List Act} {i : Nat}
    (h : Plain (On (.resp i) needsRequest fun _ => False) False acts) : Near K (Extra i) acts :=
  near_plain (h.mono (fun _ _ h => .inr ⟨h.1, h.2.resolve_right id⟩) id)

theorem near_contextRest (i : Nat) (r : Response) (req : Request) (q q' : Option Request) :
    Near (itselfRest E ⟨i, r, q'⟩) (Extra i) (contextRest E ⟨i, r, q⟩ req) := by
  have htr : ∀ a ∈ (responseTransformed E ⟨i, r, q⟩).2, a ∈ itselfRest E ⟨i, r, q'⟩ := by
    intro a ha
    by_cases h103 : r.status = 103
    · simp [responseTransformed, Placed.status, h103] at ha
    · unfold itselfRest
      refine mem_inOrder_cons.2 (.inl ?_)
      unfold checkMessage
      simp only [mem_inOrder_cons, Placed.status, beq_iff_eq, Option.some.injEq, h103, if_false]
      refine .inr (.inr (.inl ?_))
      unfold checkSettledMessage
      simp only [mem_inOrder_cons]
      exact .inr (.inl ha)
  have hfc : ∀ a ∈ (fromCache E ⟨i, r, q⟩).2, a ∈ itselfRest E ⟨i, r, q'⟩ := by
    intro a ha
    by_cases h103 : r.status = 103
    · simp [fromCache, Placed.status, h103] at ha
    · unfold itselfRest
      simp only [mem_inOrder_cons, Placed.status, h103, if_false]
      refine .inr (.inr (.inr (.inl ?_)))
      unfold checkSettledResponse
      simp only [mem_inOrder_cons]
      iterate 7 right
      exact .inl ha
  have hst : ∀ a ∈ (stale E ⟨i, r, q⟩).2, a ∈ itselfRest E ⟨i, r, q'⟩ := by
    intro a ha
    by_cases h103 : r.status = 103
    · simp [stale, Placed.status, h103] at ha
    · unfold itselfRest
      simp only [mem_inOrder_cons, Placed.status, h103, if_false]
      refine .inr (.inr (.inr (.inl ?_)))
      unfold checkSettledResponse
      simp only [mem_inOrder_cons]
      iterate 11 right
      exact .inl ha
  unfold contextRest
  refine near_cons ?_ (near_cons ?_ (near_cons ?_ (near_cons ?_ near_nil)))
  · unfold checkAgainstRequest
    dsimp only [Placed.here]
    iterate 5 refine near_cons (near_on (by plain)) ?_
    refine near_cons (near_sub htr) ?_
    refine near_cons (near_plain ((plain_isToProxy E (.resp i) req needsRequest).mono ?_ id)) ?_
    · rintro t id (⟨h, h'⟩ | ⟨h, _⟩)
      · exact .inr ⟨h, h'⟩
      · exact .inl h
    iterate 8 refine near_cons (near_on (by plain)) ?_
    refine near_cons (near_on (plain_whenever ?_)) ?_
    · split
      · next id h => exact plain_on_say (emptyBodyNotice_needs h)
      · exact plain_nil
    exact near_on (by plain)
  · unfold checkNegotiation
    exact near_on (by dsimp only [Placed.here]; plain)
  · unfold checkCachedAnswer
    dsimp only [Placed.here]
    refine near_cons (near_sub hfc) (near_cons (near_on (by plain)) (near_cons (near_sub hst) ?_))
    exact near_on (by plain)
  · split
    · exact near_nil
    · unfold checkSettledAnswer
      exact near_on (by dsimp only [Placed.here]; plain)

/-! ## IDs that cannot be reported without the request -/

/-- IDs that a response may get without its request. -/
def aloneIds : List Nat :=
  allItselfIds.filter fun id => !needsRequest.contains id || id == 1046

theorem plain_skip {Q : Target → Nat → Prop} {R : Prop} {b : Bool} {a : List Act} (h : b = false) :
    Plain Q R (whenever b a) := by
  subst h
  exact plain_nil

theorem alone_any (t : Target) (msg : Message) {R : Prop} :
    Plain (On t aloneIds (Foreign E msg)) R (checkAnyMessage E t msg none) := by
  unfold checkAnyMessage
  dsimp only
  refine plain_inOrder_cons ?_ ?_
  · refine plain_each ?_
    intro n hn
    exact plain_say ⟨rfl, .inr (.inr (.inl ⟨n, hn, rfl⟩))⟩
  iterate 10 refine plain_inOrder_cons (by plain) ?_
  refine plain_inOrder_cons (plain_each fun x _ => ?_) plain_inOrder_nil
  exact plain_inOrder_cons (by plain) (plain_inOrder_cons (plain_skip (by simp)) plain_inOrder_nil)

theorem alone_headers (t : Target) (msg : Message) (m : Msg) {R : Prop} (hm : m = msg.fields := by rfl) :
    Plain (On t aloneIds (Foreign E msg)) R (checkHeaders E t m) := by
  unfold checkHeaders
  refine plain_inOrder_cons ?_ (by plain)
  refine plain_each ?_
  intro n _
  refine plain_inOrder_cons (by plain) ?_
  refine plain_inOrder_cons (plain_viewNotes E t msg m n hm) ?_
  plain

theorem alone_bearer {f : Nat → Prop} {R : Prop} (i : Nat) (r : Response) (a : AuthParams) :
    Plain (On (.resp i) aloneIds f) R (checkBearerChallenge E ⟨i, r, none⟩ a) := by
  unfold checkBearerChallenge
  dsimp only [Placed.here, Placed.isTls]
  refine plain_inOrder_cons (plain_skip rfl) (plain_inOrder_cons ?_ plain_inOrder_nil)
  split
  · plain
  · plain
  · refine plain_inOrder_cons (by plain) (plain_inOrder_cons (by plain)
      (plain_inOrder_cons (plain_skip (by simp)) ?_))
    plain

theorem alone_challenges {f : Nat → Prop} {R : Prop} (i : Nat) (r : Response) (hdr : String) :
    Plain (On (.resp i) aloneIds f) R (checkChallenges E ⟨i, r, none⟩ hdr) := by
  unfold checkChallenges
  refine plain_each fun c _ => ?_
  refine plain_inOrder_cons ?_ (plain_inOrder_cons (plain_whenever (alone_bearer E i r c.2))
    plain_inOrder_nil)
  refine plain_whenever ?_
  unfold checkBasicChallenge
  dsimp only [Placed.here]
  plain

theorem alone_itselfRest (i : Nat) (r : Response) :
    Plain (On (.resp i) aloneIds (Foreign E r.toMessage)) True (itselfRest E ⟨i, r, none⟩) := by
  obtain ⟨h1, h2⟩ := delimited_alone E i r
  unfold itselfRest
  refine plain_inOrder_cons ?_ (plain_inOrder_cons ?_ (plain_inOrder_cons ?_
    (plain_inOrder_cons ?_ plain_inOrder_nil)))
  · unfold checkMessage
    refine plain_inOrder_cons (alone_headers E _ _ _) (plain_inOrder_cons (alone_any E _ _)
      (plain_inOrder_cons ?_ plain_inOrder_nil))
    split
    · exact plain_nil
    · exact (plain_checkSettledMessage E _ _ _ (plain_responseTransformed E ⟨i, r, none⟩)).on
        (by decide) (fun _ h => h) id
  · unfold checkStatus
    dsimp only [Placed.here]
    refine plain_inOrder_cons (by plain) (plain_inOrder_cons (by plain) (plain_inOrder_cons ?_
      (plain_inOrder_cons (plain_skip (by simp [h1])) ?_)))
    · rw [h2]; exact plain_nil
    · plain
  · unfold checkResponseHeaders
    dsimp only [Placed.here]
    refine plain_inOrder_cons (by plain) ?_
    refine plain_inOrder_cons (plain_whenever ?_) ?_
    · split
      · refine plain_inOrder_cons ?_ (by plain)
        unfold checkByteranges
        dsimp only [Placed.here]
        plain
      · plain
    iterate 2 refine plain_inOrder_cons (by plain) ?_
    refine plain_inOrder_cons ?_ ?_
    · split
      · split
        · plain
        · exact plain_raise trivial
      · plain
    iterate 10 refine plain_inOrder_cons (by plain) ?_
    exact plain_inOrder_cons (alone_challenges E i r _)
      (plain_inOrder_cons (alone_challenges E i r _) plain_inOrder_nil)
  · split
    · exact plain_nil
    · unfold checkSettledResponse
      dsimp only [Placed.here]
      iterate 7 refine plain_inOrder_cons (by plain) ?_
      refine plain_inOrder_cons ?_ ?_
      · unfold fromCache
        dsimp only [Placed.here]
        split
        · plain
        · split
          · exact plain_raise trivial
          · plain
      refine plain_inOrder_cons (by plain) ?_
      refine plain_inOrder_cons (by unfold heuristicExpiration; dsimp only [Placed.here]; plain) ?_
      refine plain_inOrder_cons (by plain) ?_
      refine plain_inOrder_cons (by unfold stale; dsimp only [Placed.here]; plain) ?_
      refine plain_inOrder_cons (by plain) ?_
      refine plain_inOrder_cons (plain_whenever ?_) (by plain)
      exact plain_inOrder_cons (by plain) (plain_inOrder_cons (plain_skip rfl)
        (plain_inOrder_cons (plain_skip (by simp [h1])) plain_inOrder_nil))

end Httpolice.Lemmas.Check
