import Verif.Lemmas.CheckIds

/-!
# What checking an exchange reports
-/

namespace Httpolice.Lemmas.Check

open Httpolice.Model Httpolice.Spec Httpolice.Props

variable (E : Env)

/-- The object exists in the exchange. -/
def Present (ex : Exchange) (t : Target) : Prop := Exists ex.request.isSome ex.responses.length t

/-- The reports on an object, without exceptions. -/
theorem reported_iff {E : Env} {ex : Exchange} (h : exchangeRaises E ex = false) {t : Target}
    (ht : Present ex t) (c : Complaint Ctx) :
    Reported E ex t c ↔ Act.op (.complain t c) ∈ exchangeActs E ex := by
  have hr : Act.raise ∉ exchangeActs E ex := by
    intro hm
    have : exchangeRaises E ex = true := by simpa [exchangeRaises] using hm
    rw [h] at this
    cases this
  have hget : (ExchBoards.fresh Ctx ex.request.isSome ex.responses.length).get t =
      some Board.new := by
    cases t with
    | exch => rfl
    | req =>
      have : ex.request.isSome = true := ht
      simp [ExchBoards.fresh, ExchBoards.get, this]
    | resp i =>
      have : i < ex.responses.length := ht
      simp [ExchBoards.fresh, ExchBoards.get, this]
  have h0 : FirstReports ([] : List (Complaint Ctx)) (Board.new (Ctx := Ctx)).stored :=
    ⟨by simp [Board.new], by simp [Board.new], by simp [Board.new]⟩
  have key := board_foldl t (untilRaise (exchangeActs E ex)) Board.new [] h0
  unfold Reported checkExchange
  rw [get_run, hget]
  constructor
  · rintro ⟨b, hb, hc⟩
    simp only [Option.map_some, Option.some.injEq] at hb
    subst hb
    have := (key.1.mem c).1 hc
    rw [List.nil_append, mem_reportedOn, untilRaise_of_calm hr] at this
    exact this
  · intro hc
    refine ⟨_, rfl, (key.1.mem c).2 ?_⟩
    rw [List.nil_append, mem_reportedOn, untilRaise_of_calm hr]
    exact hc

/-- What is visible on an object is what is reported and not silenced. -/
theorem visible_iff {E : Env} {ex : Exchange} (h : exchangeRaises E ex = false) {t : Target}
    (ht : Present ex t) (c : Complaint Ctx) :
    Visible E ex t c ↔ Reported E ex t c ∧
      ¬∃ t' ids, Act.op (.silence t' ids) ∈ exchangeActs E ex ∧ (t' = t ∨ t' = .exch) ∧ c.id ∈ ids := by
  have hr : Act.raise ∉ exchangeActs E ex := by
    intro hm
    have : exchangeRaises E ex = true := by simpa [exchangeRaises] using hm
    rw [h] at this
    cases this
  have hget : (ExchBoards.fresh Ctx ex.request.isSome ex.responses.length).get t =
      some Board.new := by
    cases t with
    | exch => rfl
    | req =>
      have : ex.request.isSome = true := ht
      simp [ExchBoards.fresh, ExchBoards.get, this]
    | resp i =>
      have : i < ex.responses.length := ht
      simp [ExchBoards.fresh, ExchBoards.get, this]
  have h0 : FirstReports ([] : List (Complaint Ctx)) (Board.new (Ctx := Ctx)).stored :=
    ⟨by simp [Board.new], by simp [Board.new], by simp [Board.new]⟩
  have key := board_foldl t (untilRaise (exchangeActs E ex)) Board.new [] h0
  have hs := key.2 c.id
  rw [show (Board.new (Ctx := Ctx)).silenced = [] from rfl] at hs
  simp only [List.not_mem_nil, false_or, SilencedOn, untilRaise_of_calm hr] at hs
  unfold Visible Reported checkExchange
  rw [get_run, hget]
  simp only [Option.map_some, Option.some.injEq, exists_eq_left', Board.complaints, List.mem_filter,
    decide_eq_true_eq, hs]

theorem reportedId_iff {E : Env} {ex : Exchange} (h : exchangeRaises E ex = false) {t : Target}
    (ht : Present ex t) (id : Nat) : ReportedId E ex t id ↔ Says t id (exchangeActs E ex) := by
  unfold ReportedId Says
  constructor
  · rintro ⟨c, hc, e⟩
    exact ⟨c, (reported_iff h ht c).1 hc, e⟩
  · rintro ⟨c, hc, e⟩
    exact ⟨c, (reported_iff h ht c).2 hc, e⟩

/-! ## The structure of the checks -/

/-- What precedes the other checks of a request. -/
def requestStart (req : Request) : List Act :=
  each (E.viewNotes req.fields (str "HTTPolice-Silence")) (sayNote .req) ++
  [.op (.silence .req (((silenceItems E req.fields).filter fun x => !x.2).map Prod.fst))]

theorem checkRequest_eq (req : Request) : checkRequest E req = requestStart E req ++ requestRest E req := by
  simp [checkRequest, requestStart, requestRest, inOrder]

/-- What precedes the other checks of a response. -/
def itselfStart (p : Placed) : List Act :=
  each (E.viewNotes p.fields (str "HTTPolice-Silence")) (sayNote p.here) ++
  [.op (.silence p.here ((silenceItems E p.fields).map Prod.fst))]

theorem checkResponseItself_eq (p : Placed) :
    checkResponseItself E p = itselfStart E p ++ itselfRest E p := by
  simp [checkResponseItself, itselfStart, itselfRest, inOrder]

/-- What precedes the checks of a response against its request. -/
def contextStart (p : Placed) (req : Request) : List Act :=
  [.op (.silence p.here (((silenceItems E req.fields).filter fun x => x.2).map Prod.fst))]

theorem checkResponseInContext_eq (p : Placed) (req : Request) :
    checkResponseInContext E p req = contextStart E p req ++ contextRest E p req := by
  simp [checkResponseInContext, contextStart, contextRest, inOrder]

/-- The number of the first response that is not informational. -/
def firstFinal (l : List Response) : Option Nat := l.findIdx? fun r => !isInformational r.status

/-- What is done for the `i`-th response when the first `i` responses are given. -/
def forResponseActs (req : Option Request) (before : List Response) (r : Response) : List Act :=
  (match firstFinal before with
    | some j => say (.resp before.length) 1304 [("previous", .response j)]
    | none => []) ++ checkResponse E ⟨before.length, r, req⟩

theorem checkResponsesFrom_eq (req : Option Request) (before rs : List Response) :
    checkResponsesFrom E req before.length (firstFinal before) rs =
      rs.zipIdx.flatMap fun x => forResponseActs E req (before ++ rs.take x.2) x.1 := by
  induction rs generalizing before with
  | nil => cases firstFinal before <;> rfl
  | cons r rs ih =>
    have hnext : firstFinal (before ++ [r]) = match firstFinal before with
        | some j => some j
        | none => if isInformational r.status then none else some before.length := by
      unfold firstFinal
      rw [List.findIdx?_append]
      cases List.findIdx? (fun r => !isInformational r.status) before with
      | some j => rfl
      | none =>
        cases h : isInformational r.status <;> simp [h, List.findIdx?_cons]
    have hrest := ih (before ++ [r])
    rw [List.length_append, List.length_singleton, hnext] at hrest
    have hshift : (rs.zipIdx (0 + 1)).flatMap (fun x =>
        forResponseActs E req (before ++ (r :: rs).take x.2) x.1) =
        rs.zipIdx.flatMap fun x => forResponseActs E req (before ++ [r] ++ rs.take x.2) x.1 := by
      rw [List.zipIdx_succ, List.flatMap_map]
      simp
    rw [List.zipIdx_cons, List.flatMap_cons, hshift]
    cases hf : firstFinal before with
    | some j =>
      rw [hf] at hrest
      simp only [checkResponsesFrom, hrest, forResponseActs, List.take_zero, List.append_nil, hf,
        List.append_assoc]
    | none =>
      rw [hf] at hrest
      simp only [checkResponsesFrom, hrest, forResponseActs, List.take_zero, List.append_nil, hf,
        List.nil_append]

theorem mem_checkResponses {req : Option Request} {rs : List Response} {a : Act} :
    a ∈ checkResponsesFrom E req 0 none rs ↔
      ∃ i r, rs[i]? = some r ∧ a ∈ forResponseActs E req (rs.take i) r := by
  have h := checkResponsesFrom_eq E req [] rs
  simp only [List.length_nil, List.nil_append] at h
  rw [show firstFinal [] = none from rfl] at h
  rw [h]
  simp only [List.mem_flatMap, Prod.exists, List.mem_zipIdx_iff_getElem?]
  constructor
  · rintro ⟨r, i, hr, ha⟩; exact ⟨i, r, hr, ha⟩
  · rintro ⟨i, r, hr, ha⟩; exact ⟨r, i, hr, ha⟩

theorem mem_checkExpect {i : Nat} {e : Bool} {rs : List Response} {a : Act} :
    a ∈ checkExpectFrom i e rs ↔ ∃ j r, rs[j]? = some r ∧ r.status = 101 ∧ e = true ∧
      (∀ x ∈ rs.take j, x.status ≠ 100) ∧ a = .op (.complain (.resp (i + j)) ⟨1305, []⟩) := by
  induction rs generalizing i e with
  | nil => simp [checkExpectFrom]
  | cons r rs ih =>
    simp only [checkExpectFrom, List.mem_append, mem_whenever, ih]
    constructor
    · rintro (⟨h, ha⟩ | ⟨j, x, hx, hs, he, hb, ha⟩)
      · simp only [Bool.and_eq_true, beq_iff_eq] at h
        refine ⟨0, r, rfl, h.2, ?_, by simp, by simpa [say] using ha⟩
        have h1 := h.1
        rw [if_neg (by rw [h.2]; decide)] at h1
        exact h1
      · split at he
        · cases he
        · next hr =>
          refine ⟨j + 1, x, by simpa using hx, hs, he, ?_, by rw [ha]; congr 3; omega⟩
          intro y hy
          simp only [List.take_succ_cons, List.mem_cons] at hy
          rcases hy with rfl | hy
          · exact hr
          · exact hb y hy
    · rintro ⟨j, x, hx, hs, he, hb, ha⟩
      cases j with
      | zero =>
        simp only [List.getElem?_cons_zero, Option.some.injEq] at hx
        subst hx
        left
        rw [if_neg (by rw [hs]; decide), he, hs]
        exact ⟨rfl, by simpa [say] using ha⟩
      | succ j =>
        right
        refine ⟨j, x, by simpa using hx, hs, ?_, ?_, by rw [ha]; congr 3; omega⟩
        · rw [if_neg (hb r (by simp))]; exact he
        · intro y hy
          exact hb y (by simp [hy])

/-- Everything that is done while checking an exchange. -/
theorem mem_exchangeActs {ex : Exchange} {a : Act} :
    a ∈ exchangeActs E ex ↔
      (∃ req, ex.request = some req ∧ (a ∈ requestStart E req ∨ a ∈ requestRest E req)) ∨
      (∃ i r, ex.responses[i]? = some r ∧ a ∈ forResponseActs E ex.request (ex.responses.take i) r) ∨
      ∃ i r req, ex.responses[i]? = some r ∧ ex.request = some req ∧ r.status = 101 ∧
        expects100 E req = true ∧ (∀ x ∈ ex.responses.take i, x.status ≠ 100) ∧
        a = .op (.complain (.resp i) ⟨1305, []⟩) := by
  unfold exchangeActs
  simp only [mem_inOrder_cons, mem_inOrder_nil, or_false, mem_checkResponses, mem_checkExpect]
  cases h : ex.request with
  | none => simp
  | some req => simp [checkRequest_eq]

end Httpolice.Lemmas.Check
