import Verif.Lemmas.CheckExchange
import Verif.Spec.Catalogue
import Verif.Spec.Notices

/-!
# References in what the checks report
-/

namespace Httpolice.Lemmas.Check

open Httpolice.Model Httpolice.Spec Httpolice.Props

/-- Every complaint among the actions satisfies `Q`. -/
def Kept (Q : Target → Complaint Ctx → Prop) (acts : List Act) : Prop :=
  ∀ t c, Act.op (.complain t c) ∈ acts → Q t c

section
variable {Q : Target → Complaint Ctx → Prop}

theorem kept_nil : Kept Q [] := by intro t c h; cases h

theorem kept_append {a b : List Act} (ha : Kept Q a) (hb : Kept Q b) : Kept Q (a ++ b) := by
  intro t c hx
  rcases List.mem_append.1 hx with h | h
  · exact ha t c h
  · exact hb t c h

theorem kept_inOrder_nil : Kept Q (inOrder []) := by intro t c h; cases h

theorem kept_inOrder_cons {a : List Act} {l : List (List Act)} (ha : Kept Q a)
    (hl : Kept Q (inOrder l)) : Kept Q (inOrder (a :: l)) := by
  intro t c hx
  simp only [inOrder, List.flatten_cons, List.mem_append] at hx
  rcases hx with h | h
  · exact ha t c h
  · exact hl t c h

theorem kept_whenever {b : Bool} {a : List Act} (ha : Kept Q a) : Kept Q (whenever b a) := by
  unfold whenever
  split
  · exact ha
  · exact kept_nil

theorem kept_each {α : Type} {l : List α} {f : α → List Act} (h : ∀ x ∈ l, Kept Q (f x)) :
    Kept Q (each l f) := by
  intro t c ha
  obtain ⟨x, hx, hxa⟩ := List.mem_flatMap.1 ha
  exact h x hx t c hxa

theorem kept_say {t : Target} {id : Nat} {ctx : Ctx} (h : Q t ⟨id, ctx⟩) : Kept Q (say t id ctx) := by
  intro t' c ha
  simp only [say, List.mem_singleton, Act.op.injEq, BoardOp.complain.injEq] at ha
  obtain ⟨rfl, rfl⟩ := ha
  exact h

theorem kept_raise : Kept Q [.raise] := by
  intro t c ha
  simp at ha

theorem kept_silence {t : Target} {ids : List Nat} : Kept Q [.op (.silence t ids)] := by
  intro t c ha
  simp at ha

theorem Kept.mono {Q' : Target → Complaint Ctx → Prop} {acts : List Act} (h : Kept Q acts)
    (hq : ∀ t c, Q t c → Q' t c) : Kept Q' acts := fun t c ha => hq _ _ (h t c ha)

end

/-! ## Deciding that references resolve -/

/-- The kinds of messages that notices are reported on. -/
inductive Who
  | request
  | response
  | either

/-- Follow attributes from a thing. -/
def follow (hasRequest : Bool) (n : Thing) (path : List String) : Option Thing :=
  path.foldl (fun node a => node.bind fun n => getattr hasRequest n a) (some n)

/-- Every reference in the row resolves for a complaint with the keys, made on `self`. -/
def rowFits (self : Thing) (hasRequest : Bool) (keys : List String) (row : NoticeRow) : Bool :=
  !keys.contains "msg" &&
  row.references.all (fun path => match path with
    | [] => false
    | [k] => k == "msg" || keys.contains k
    | k :: rest => k == "msg" && (follow hasRequest self rest).isSome) &&
  (!row.details || keys.contains "error")

/-- The same for an ID. -/
def fitsOn (self : Thing) (hasRequest : Bool) (id : Nat) (keys : List String) : Bool :=
  match noticeFor id with
  | some row => rowFits self hasRequest keys row
  | none => false

/-- The same for all of the kinds of messages. -/
def fits : Who → Bool → Nat → List String → Bool
  | .request, h, id, keys => fitsOn .request h id keys
  | .response, h, id, keys => fitsOn .response h id keys
  | .either, h, id, keys => fitsOn .request h id keys && fitsOn .response h id keys

/-- One thing may stand for the other: there may be no request. -/
def Stands (n n' : Thing) : Prop := n = n' ∨ n = .nothing

theorem getattr_stands {b : Bool} {n n' : Thing} (h : Stands n n') {a : String} {x : Thing}
    (hx : getattr false n a = some x) : ∃ x', getattr b n' a = some x' ∧ Stands x x' := by
  rcases h with rfl | rfl
  · cases b with
    | false => exact ⟨x, hx, .inl rfl⟩
    | true =>
      cases n with
      | response =>
        simp only [getattr] at hx ⊢
        split at hx
        · next h => rw [if_pos h]; exact ⟨x, hx, .inl rfl⟩
        · next h =>
          rw [if_neg h]
          split at hx
          · next h' =>
            rw [if_pos h']
            refine ⟨_, rfl, .inr ?_⟩
            simpa using hx.symm
          · next h' => rw [if_neg h']; exact ⟨x, hx, .inl rfl⟩
      | _ => exact ⟨x, hx, .inl rfl⟩
  · simp [getattr] at hx

theorem follow_none (b : Bool) (path : List String) :
    path.foldl (fun node a => node.bind fun n => getattr b n a) none = none := by
  induction path with
  | nil => rfl
  | cons a path ih => simpa using ih

theorem follow_stands {b : Bool} (path : List String) : ∀ {n n' : Thing}, Stands n n' →
    (follow false n path).isSome = true → (follow b n' path).isSome = true := by
  induction path with
  | nil => intro n n' _ _; rfl
  | cons a path ih =>
    intro n n' h hf
    simp only [follow, List.foldl_cons, Option.bind_some] at hf ⊢
    cases hx : getattr false n a with
    | none => rw [hx, follow_none] at hf; cases hf
    | some x =>
      obtain ⟨x', hx', hs⟩ := getattr_stands (b := b) h hx
      rw [hx] at hf
      rw [hx']
      exact ih hs hf

theorem follow_more {h b : Bool} (hh : h = true → b = true) {n : Thing} {path : List String}
    (hf : (follow h n path).isSome = true) : (follow b n path).isSome = true := by
  cases h with
  | false => exact follow_stands path (.inl rfl) hf
  | true => rw [hh rfl]; exact hf

theorem lookup_of_key {ctx : Ctx} {k : String} (h : k ∈ ctx.map Prod.fst) :
    ∃ d, ctx.lookup k = some d ∧ (k, d) ∈ ctx := by
  induction ctx with
  | nil => cases h
  | cons p ctx ih =>
    obtain ⟨k', d⟩ := p
    by_cases hk : k = k'
    · subst hk; exact ⟨d, by simp, by simp⟩
    · simp only [List.map_cons, List.mem_cons, hk, false_or] at h
      obtain ⟨d', h1, h2⟩ := ih h
      refine ⟨d', ?_, List.mem_cons_of_mem _ h2⟩
      have : (k == k') = false := by simpa using hk
      rw [List.lookup_cons, this]
      exact h1

theorem lookup_no_key {ctx : Ctx} {k : String} (h : k ∉ ctx.map Prod.fst) : ctx.lookup k = none := by
  induction ctx with
  | nil => rfl
  | cons p ctx ih =>
    obtain ⟨k', d⟩ := p
    simp only [List.map_cons, List.mem_cons, not_or] at h
    rw [List.lookup_cons]
    have : (k == k') = false := by simpa using h.1
    simp [this, ih h.2]

theorem shown_of_fitsOn {E : Env} {ex : Exchange} {t : Target} {self : Thing} {h : Bool} {id : Nat}
    {ctx : Ctx} (hself : ctx.lookup "msg" = none → contextGet E ex t ctx "msg" = some self)
    (hh : h = true → ex.request.isSome = true) (hf : fitsOn self h id (ctx.map Prod.fst) = true) :
    Shown E ex t ⟨id, ctx⟩ := by
  unfold fitsOn at hf
  split at hf
  · next row hrow =>
    unfold noticeFor at hrow
    have hid := List.find?_some hrow
    have hmem := List.mem_of_find?_eq_some hrow
    simp only [rowFits, Bool.and_eq_true, Bool.not_eq_true', List.contains_eq_mem,
      decide_eq_false_iff_not, List.all_eq_true, Bool.or_eq_true, decide_eq_true_eq] at hf
    obtain ⟨⟨hm, hr⟩, hd⟩ := hf
    have hg := hself (lookup_no_key hm)
    refine ⟨row, hmem, by simpa using hid, ?_, ?_⟩
    · intro path hp
      have := hr path hp
      split at this
      · cases this
      · next k =>
        show ∃ x, contextGet E ex t ctx k = some x
        rw [Bool.or_eq_true, beq_iff_eq, decide_eq_true_eq] at this
        rcases this with rfl | hk
        · exact ⟨_, hg⟩
        · obtain ⟨d, hd, _⟩ := lookup_of_key hk
          exact ⟨thingOf E ex t d, by simp only [contextGet, hd]⟩
      · next k rest _ =>
        simp only [Bool.and_eq_true, beq_iff_eq] at this
        obtain ⟨rfl, hfo⟩ := this
        have := follow_more hh hfo
        obtain ⟨x, hx⟩ := Option.isSome_iff_exists.1 this
        refine ⟨x, ?_⟩
        rw [← hx]
        show List.foldl _ (contextGet E ex t ctx "msg") rest = _
        rw [hg]
        rfl
    · intro he
      rcases hd with hd | hd
      · rw [he] at hd; cases hd
      · obtain ⟨d, _, hd⟩ := lookup_of_key hd
        exact ⟨d, hd⟩
  · cases hf

/-- What is known of the object that notices are reported on. -/
structure Scope (ex : Exchange) (t : Target) (who : Who) (h : Bool) : Prop where
  covers : match who with
    | .request => t = .req
    | .response => ∃ i, t = .resp i
    | .either => t = .req ∨ ∃ i, t = .resp i
  request : h = true → ex.request.isSome = true

theorem contextGet_req {E : Env} {ex : Exchange} {ctx : Ctx} (h : ctx.lookup "msg" = none) :
    contextGet E ex .req ctx "msg" = some .request := by simp [contextGet, h]

theorem contextGet_resp {E : Env} {ex : Exchange} {i : Nat} {ctx : Ctx}
    (h : ctx.lookup "msg" = none) : contextGet E ex (.resp i) ctx "msg" = some .response := by
  simp [contextGet, h]

/-- Complaints that come from outside of the checks: the view classes, grammars and payload
decoders. -/
def Outer (E : Env) (msg : Message) (c : Complaint Ctx) : Prop :=
  (∃ name, ∃ n ∈ E.viewNotes msg.fields name, n.id = c.id) ∨ (c.id, c.ctx) ∈ msg.payload.notes ∨
    ∃ forms s r, E.parseTarget forms s = some r ∧ ∃ n ∈ r.2, n.id = c.id

/-- Complaints on one object that can be shown, or satisfying another condition. -/
def OnShown (E : Env) (ex : Exchange) (t : Target) (f : Complaint Ctx → Prop) : Target → Complaint Ctx → Prop :=
  fun t' c => t' = t ∧ (Shown E ex t c ∨ f c)

theorem kept_fits {E : Env} {ex : Exchange} {t : Target} {f : Complaint Ctx → Prop} {who : Who} {h : Bool}
    {id : Nat} {ctx : Ctx} (hs : Scope ex t who h) (hf : fits who h id (ctx.map Prod.fst) = true) :
    Kept (OnShown E ex t f) (say t id ctx) := by
  refine kept_say ⟨rfl, .inl ?_⟩
  cases who with
  | request =>
    obtain rfl := hs.covers
    exact shown_of_fitsOn contextGet_req hs.request hf
  | response =>
    obtain ⟨i, rfl⟩ := hs.covers
    exact shown_of_fitsOn contextGet_resp hs.request hf
  | either =>
    simp only [fits, Bool.and_eq_true] at hf
    rcases hs.covers with rfl | ⟨i, rfl⟩
    · exact shown_of_fitsOn contextGet_req hs.request hf.1
    · exact shown_of_fitsOn contextGet_resp hs.request hf.2

/-- Split a list of statements; references of every notice reported resolve. -/
macro "kept" hs:ident : tactic => `(tactic| repeat' (first
  | with_reducible exact kept_nil
  | with_reducible exact kept_inOrder_nil
  | with_reducible exact kept_raise
  | (with_reducible refine kept_fits $hs ?_); (simp only [List.map_cons, List.map_nil]); decide +kernel
  | with_reducible apply kept_inOrder_cons
  | with_reducible apply kept_whenever
  | (with_reducible refine kept_each ?_; intro _ _; try dsimp only)
  | split))

variable (E : Env) {ex : Exchange} {t : Target}

theorem kept_viewNotes (msg : Message) (m : Msg) (name : Str) (hm : m = msg.fields := by rfl) :
    Kept (OnShown E ex t (Outer E msg)) (each (E.viewNotes m name) (sayNote t)) := by
  refine kept_each ?_
  intro n hn
  refine kept_say ⟨rfl, .inr ?_⟩
  exact .inl ⟨name, n, hm ▸ hn, rfl⟩

section
variable (hs : Scope ex t .either false)
include hs

theorem kept_checkHeaders (msg : Message) (m : Msg) (hm : m = msg.fields := by rfl) :
    Kept (OnShown E ex t (Outer E msg)) (checkHeaders E t m) := by
  unfold checkHeaders
  refine kept_inOrder_cons ?_ (by kept hs)
  refine kept_each ?_
  intro n _
  refine kept_inOrder_cons (by kept hs) ?_
  refine kept_inOrder_cons (kept_viewNotes E msg m n hm) ?_
  kept hs

theorem kept_checkAnyMessage (msg : Message) (tls : Option Bool) :
    Kept (OnShown E ex t (Outer E msg)) (checkAnyMessage E t msg tls) := by
  unfold checkAnyMessage
  dsimp only
  refine kept_inOrder_cons ?_ (by kept hs)
  refine kept_each ?_
  intro n hn
  exact kept_say ⟨rfl, .inr (.inr (.inl hn))⟩

theorem kept_messageTransformed {f : Complaint Ctx → Prop} (m : Msg) :
    Kept (OnShown E ex t f) (messageTransformed E t m).2 := by
  unfold messageTransformed
  kept hs

theorem kept_checkSettledMessage {f : Complaint Ctx → Prop} (msg : Message)
    (tr : Option Bool × List Act) (h : Kept (OnShown E ex t f) tr.2) :
    Kept (OnShown E ex t f) (checkSettledMessage E t msg tr) := by
  unfold checkSettledMessage
  dsimp only
  refine kept_inOrder_cons (by kept hs) ?_
  refine kept_inOrder_cons h ?_
  kept hs

theorem kept_checkMessage (msg : Message) (tls : Option Bool)
    (tr : Option Bool × List Act) (status : Option Int)
    (h : Kept (OnShown E ex t (Outer E msg)) tr.2) :
    Kept (OnShown E ex t (Outer E msg)) (checkMessage E t msg tls tr status) := by
  refine kept_inOrder_cons (kept_checkHeaders E hs msg _) ?_
  refine kept_inOrder_cons (kept_checkAnyMessage E hs msg tls) ?_
  refine kept_inOrder_cons ?_ kept_inOrder_nil
  split
  · exact kept_nil
  · exact kept_checkSettledMessage E hs msg tr h

end

/-! ## Requests -/

section
variable (hs : Scope ex .req .request false)
include hs

theorem kept_targetActs (req : Request) :
    Kept (OnShown E ex .req (Outer E req.toMessage)) (targetActs E req) := by
  unfold targetActs
  split
  · next r hr =>
    refine kept_each ?_
    intro n hn
    exact kept_say ⟨rfl, .inr (.inr (.inr ⟨_, _, r, hr, n, hn, rfl⟩))⟩
  · kept hs

theorem kept_checkBasicAuth {f : Complaint Ctx → Prop} (hdr : String) (a : AuthParams) :
    Kept (OnShown E ex .req f) (checkBasicAuth E hdr a) := by
  unfold checkBasicAuth
  kept hs

theorem kept_checkBearerAuth {f : Complaint Ctx → Prop} (req : Request) (hdr : String)
    (a : AuthParams) : Kept (OnShown E ex .req f) (checkBearerAuth E req hdr a) := by
  unfold checkBearerAuth
  kept hs

omit hs in
theorem shown_1274 {req : Request} (hreq : ex.request = some req) {hdr : String}
    (hh : hdr ∈ ["Authorization", "Proxy-Authorization"])
    {a : Str × AuthParams} (ha : E.single req.fields hdr E.grammars.authorization = .val a) :
    Shown E ex .req ⟨1274, [("header", .header (E.lower (str hdr)))]⟩ := by
  have hrow : noticeFor 1274 = some ⟨1274, .error, [["header"], ["header", "value", "item"]], false⟩ := by
    decide +kernel
  refine ⟨_, List.mem_of_find?_eq_some hrow, rfl, ?_, by simp⟩
  have hc : isCredentials E ex .req (E.lower (str hdr)) = true := by
    simp only [isCredentials, hreq, List.any_eq_true]
    exact ⟨hdr, hh, by simp [ha]⟩
  intro path hp
  simp only [List.mem_cons, List.not_mem_nil, or_false] at hp
  rcases hp with rfl | rfl
  · exact ⟨_, rfl⟩
  · simp [resolveReference, contextGet, thingOf, hc, getattr]

theorem kept_checkAuth {f : Complaint Ctx → Prop} {req : Request} (hreq : ex.request = some req)
    (hdr : String) (hh : hdr ∈ ["Authorization", "Proxy-Authorization"]) :
    Kept (OnShown E ex .req f) (checkAuth E req hdr) := by
  unfold checkAuth
  split
  · next a ha =>
    split
    · exact kept_checkBasicAuth E hs hdr _
    · split
      · exact kept_checkBearerAuth E hs req hdr _
      · split
        · exact kept_whenever (kept_say ⟨rfl, .inl (shown_1274 E hreq hh ha)⟩)
        · exact kept_whenever (kept_say ⟨rfl, .inl (shown_1274 E hreq hh ha)⟩)
  · kept hs

theorem kept_checkAccept {f : Complaint Ctx → Prop} (m : Msg) (hdr : String) :
    Kept (OnShown E ex .req f) (checkAccept E m hdr) := by
  unfold checkAccept
  kept hs

theorem kept_checkRequestBasics (req : Request) :
    Kept (OnShown E ex .req (Outer E req.toMessage)) (checkRequestBasics E req) := by
  unfold checkRequestBasics
  dsimp only
  refine kept_inOrder_cons (by kept hs) ?_
  refine kept_inOrder_cons (kept_targetActs E hs req) ?_
  kept hs

theorem kept_checkRequestCaching {f : Complaint Ctx → Prop} (req : Request) :
    Kept (OnShown E ex .req f) (checkRequestCaching E req) := by
  unfold checkRequestCaching
  dsimp only
  kept hs

theorem kept_checkRequestExtras {f : Complaint Ctx → Prop} {req : Request} (hreq : ex.request = some req) :
    Kept (OnShown E ex .req f) (checkRequestExtras E req) := by
  unfold checkRequestExtras
  dsimp only
  refine kept_inOrder_cons (kept_checkAuth E hs hreq _ (by simp)) ?_
  refine kept_inOrder_cons (kept_checkAuth E hs hreq _ (by simp)) ?_
  iterate 6 refine kept_inOrder_cons (by kept hs) ?_
  refine kept_inOrder_cons (kept_checkAccept E hs _ _) ?_
  refine kept_inOrder_cons (kept_checkAccept E hs _ _) ?_
  refine kept_inOrder_cons (kept_checkAccept E hs _ _) ?_
  refine kept_inOrder_cons (kept_checkAccept E hs _ _) ?_
  kept hs

end

theorem scope_req (ex : Exchange) : Scope ex .req .request false := ⟨rfl, by simp⟩

theorem scope_req' (ex : Exchange) : Scope ex .req .either false := ⟨.inl rfl, by simp⟩

theorem kept_checkRequest {req : Request} (hreq : ex.request = some req) :
    Kept (OnShown E ex .req (Outer E req.toMessage)) (checkRequest E req) := by
  rw [checkRequest_eq]
  refine kept_append (kept_append (kept_viewNotes E req.toMessage _ _) kept_silence) ?_
  refine kept_inOrder_cons (kept_checkMessage E (scope_req' ex) req.toMessage req.isTls _ none
    (kept_messageTransformed E (scope_req' ex) _)) ?_
  refine kept_inOrder_cons (kept_checkRequestBasics E (scope_req ex) req) ?_
  refine kept_inOrder_cons (kept_checkRequestCaching E (scope_req ex) req) ?_
  refine kept_inOrder_cons (kept_checkRequestExtras E (scope_req ex) hreq) ?_
  exact kept_inOrder_nil

/-! ## Responses -/

section
variable {p : Placed} (hs : Scope ex p.here .response false)
include hs

theorem kept_fromCache {f : Complaint Ctx → Prop} : Kept (OnShown E ex p.here f) (fromCache E p).2 := by
  unfold fromCache
  dsimp only
  kept hs

theorem kept_heuristicExpiration {f : Complaint Ctx → Prop} :
    Kept (OnShown E ex p.here f) (heuristicExpiration E p).2 := by
  unfold heuristicExpiration
  dsimp only
  kept hs

theorem kept_stale {f : Complaint Ctx → Prop} : Kept (OnShown E ex p.here f) (stale E p).2 := by
  unfold stale
  dsimp only
  kept hs

omit hs in
theorem kept_responseTransformed (hs : Scope ex p.here .either false) {f : Complaint Ctx → Prop} :
    Kept (OnShown E ex p.here f) (responseTransformed E p).2 := by
  unfold responseTransformed
  split
  · kept hs
  · split
    · kept hs
    · exact kept_messageTransformed E hs _

theorem kept_delimitedByClose {f : Complaint Ctx → Prop} :
    Kept (OnShown E ex p.here f) (delimitedByClose E p).2 := by
  unfold delimitedByClose
  dsimp only
  kept hs

theorem kept_checkBasicChallenge {f : Complaint Ctx → Prop} (hdr : String)
    (a : AuthParams) : Kept (OnShown E ex p.here f) (checkBasicChallenge E p hdr a) := by
  unfold checkBasicChallenge
  kept hs

theorem kept_checkBearerChallenge {f : Complaint Ctx → Prop} (hreq : p.req = ex.request) (a : AuthParams) :
    Kept (OnShown E ex p.here f) (checkBearerChallenge E p a) := by
  cases hr : p.req with
  | some req =>
    have hs' : Scope ex p.here .response true := ⟨hs.covers, fun _ => by rw [← hreq, hr]; rfl⟩
    unfold checkBearerChallenge
    kept hs'
  | none =>
    unfold checkBearerChallenge
    simp only [hr, Bool.and_false]
    refine kept_inOrder_cons (by kept hs) ?_
    refine kept_inOrder_cons ?_ kept_inOrder_nil
    split
    · kept hs
    · kept hs
    · iterate 2 refine kept_inOrder_cons (by kept hs) ?_
      refine kept_inOrder_cons kept_nil ?_
      kept hs

theorem kept_checkChallenges {f : Complaint Ctx → Prop} (hreq : p.req = ex.request) (hdr : String) :
    Kept (OnShown E ex p.here f) (checkChallenges E p hdr) := by
  unfold checkChallenges
  refine kept_each ?_
  intro c _
  refine kept_inOrder_cons (kept_whenever (kept_checkBasicChallenge E hs hdr _)) ?_
  refine kept_inOrder_cons (kept_whenever (kept_checkBearerChallenge E hs hreq _)) ?_
  exact kept_inOrder_nil

theorem kept_checkByteranges {f : Complaint Ctx → Prop} :
    Kept (OnShown E ex p.here f) (checkByteranges p) := by
  unfold checkByteranges
  kept hs

theorem kept_checkStatus {f : Complaint Ctx → Prop} : Kept (OnShown E ex p.here f) (checkStatus E p) := by
  unfold checkStatus
  dsimp only
  iterate 2 refine kept_inOrder_cons (by kept hs) ?_
  refine kept_inOrder_cons (kept_delimitedByClose E hs) ?_
  kept hs

theorem kept_checkResponseHeaders {f : Complaint Ctx → Prop} (hreq : p.req = ex.request) :
    Kept (OnShown E ex p.here f) (checkResponseHeaders E p) := by
  unfold checkResponseHeaders
  dsimp only
  refine kept_inOrder_cons (by kept hs) ?_
  refine kept_inOrder_cons ?_ ?_
  · refine kept_whenever ?_
    split
    · exact kept_inOrder_cons (kept_checkByteranges E hs) (by kept hs)
    · kept hs
  iterate 13 refine kept_inOrder_cons (by kept hs) ?_
  refine kept_inOrder_cons (kept_checkChallenges E hs hreq _) ?_
  exact kept_inOrder_cons (kept_checkChallenges E hs hreq _) kept_inOrder_nil

theorem kept_checkSettledResponse {f : Complaint Ctx → Prop} :
    Kept (OnShown E ex p.here f) (checkSettledResponse E p) := by
  unfold checkSettledResponse
  dsimp only
  iterate 7 refine kept_inOrder_cons (by kept hs) ?_
  refine kept_inOrder_cons (kept_fromCache E hs) ?_
  refine kept_inOrder_cons (by kept hs) ?_
  refine kept_inOrder_cons (kept_heuristicExpiration E hs) ?_
  refine kept_inOrder_cons (by kept hs) ?_
  refine kept_inOrder_cons (kept_stale E hs) ?_
  kept hs

theorem Scope.widen : Scope ex p.here .either false := ⟨.inr hs.covers, by simp⟩

theorem kept_checkResponseItself (hreq : p.req = ex.request) :
    Kept (OnShown E ex p.here (Outer E p.resp.toMessage)) (checkResponseItself E p) := by
  rw [checkResponseItself_eq]
  refine kept_append (kept_append (kept_viewNotes E p.resp.toMessage _ _) kept_silence) ?_
  refine kept_inOrder_cons (kept_checkMessage E hs.widen p.resp.toMessage p.isTls _ _
    (kept_responseTransformed E hs.widen)) ?_
  refine kept_inOrder_cons (kept_checkStatus E hs) ?_
  refine kept_inOrder_cons (kept_checkResponseHeaders E hs hreq) ?_
  refine kept_inOrder_cons ?_ kept_inOrder_nil
  split
  · exact kept_nil
  · exact kept_checkSettledResponse E hs

end

/-! ## Responses and their requests -/

/-- Complaints on the response, or on its request. -/
def InShown (E : Env) (ex : Exchange) (t : Target) : Target → Complaint Ctx → Prop :=
  fun t' c => (t' = t ∨ t' = .req) ∧ Shown E ex t' c

theorem Kept.inShown {acts : List Act} (h : Kept (OnShown E ex t fun _ => False) acts) :
    Kept (InShown E ex t) acts := by
  refine h.mono ?_
  rintro t' c ⟨rfl, h | h⟩
  · exact ⟨.inl rfl, h⟩
  · exact h.elim

theorem kept_isToProxy (req : Request) : Kept (InShown E ex t) (req.isToProxy E).2 := by
  have hs := scope_req ex
  have : Kept (OnShown E ex .req fun _ => False) (req.isToProxy E).2 := by
    unfold Request.isToProxy
    kept hs
  refine this.mono ?_
  rintro t' c ⟨rfl, h | h⟩
  · exact ⟨.inr rfl, h⟩
  · exact h.elim

theorem fits_emptyBodyNotice {status : Int} {id : Nat} (h : emptyBodyNotice status = some id) :
    fits .response true id [] = true := by
  unfold emptyBodyNotice at h
  iterate 12
    replace h := ite_some h
    rcases h with h | h
    · rw [h]; decide +kernel
  cases h

section
variable {p : Placed} (hs : Scope ex p.here .response true)
include hs

theorem kept_emptyBodyNotice {f : Complaint Ctx → Prop} (status : Int) :
    Kept (OnShown E ex p.here f) (match emptyBodyNotice status with
      | some id => say p.here id
      | none => []) := by
  split
  · next id h => exact kept_fits hs (fits_emptyBodyNotice h)
  · exact kept_nil

theorem kept_checkAgainstRequest (req : Request) :
    Kept (InShown E ex p.here) (checkAgainstRequest E p req) := by
  unfold checkAgainstRequest
  dsimp only
  iterate 5 refine kept_inOrder_cons (Kept.inShown E (by kept hs)) ?_
  refine kept_inOrder_cons (Kept.inShown E
    (by unfold responseTransformed messageTransformed; kept hs)) ?_
  refine kept_inOrder_cons (kept_isToProxy E req) ?_
  iterate 8 refine kept_inOrder_cons (Kept.inShown E (by kept hs)) ?_
  refine kept_inOrder_cons (Kept.inShown E (kept_whenever (kept_emptyBodyNotice E hs p.status))) ?_
  exact Kept.inShown E (by kept hs)

theorem kept_checkNegotiation {f : Complaint Ctx → Prop} (req : Request) :
    Kept (OnShown E ex p.here f) (checkNegotiation E p req) := by
  unfold checkNegotiation
  dsimp only
  kept hs

theorem kept_checkCachedAnswer {f : Complaint Ctx → Prop} (req : Request) :
    Kept (OnShown E ex p.here f) (checkCachedAnswer E p req) := by
  unfold checkCachedAnswer
  dsimp only
  refine kept_inOrder_cons (kept_fromCache E ⟨hs.covers, by simp⟩) ?_
  refine kept_inOrder_cons (by kept hs) ?_
  refine kept_inOrder_cons (kept_stale E ⟨hs.covers, by simp⟩) ?_
  kept hs

theorem kept_checkSettledAnswer {f : Complaint Ctx → Prop} (req : Request) :
    Kept (OnShown E ex p.here f) (checkSettledAnswer E p req) := by
  unfold checkSettledAnswer
  dsimp only
  kept hs

theorem kept_checkResponseInContext (req : Request) :
    Kept (InShown E ex p.here) (checkResponseInContext E p req) := by
  rw [checkResponseInContext_eq]
  refine kept_append kept_silence ?_
  refine kept_inOrder_cons (kept_checkAgainstRequest E hs req) ?_
  refine kept_inOrder_cons (Kept.inShown E (kept_checkNegotiation E hs req)) ?_
  refine kept_inOrder_cons (Kept.inShown E (kept_checkCachedAnswer E hs req)) ?_
  refine kept_inOrder_cons ?_ kept_inOrder_nil
  split
  · exact kept_nil
  · exact Kept.inShown E (kept_checkSettledAnswer E hs req)

end

/-! ## Exchanges -/

theorem shown_1304 (ex : Exchange) (i j : Nat) :
    Shown E ex (.resp i) ⟨1304, [("previous", .response j)]⟩ := by
  have hrow : noticeFor 1304 =
      some ⟨1304, .error, [["msg", "status"], ["previous", "status"]], false⟩ := by decide +kernel
  refine ⟨_, List.mem_of_find?_eq_some hrow, rfl, ?_, by simp⟩
  intro path hp
  simp only [List.mem_cons, List.not_mem_nil, or_false] at hp
  rcases hp with rfl | rfl
  · exact ⟨.plain, by simp [resolveReference, contextGet, getattr, List.lookup]⟩
  · exact ⟨.plain, by simp [resolveReference, contextGet, thingOf, getattr]⟩

theorem kept_exchangeActs (ex : Exchange) :
    Kept (fun t c => Shown E ex t c ∨ OnMessage ex t fun msg => Outer E msg c) (exchangeActs E ex) := by
  refine kept_inOrder_cons ?_ (kept_inOrder_cons ?_ (kept_inOrder_cons ?_ kept_inOrder_nil))
  · split
    · next req hreq =>
      refine (kept_checkRequest E hreq).mono ?_
      rintro t c ⟨rfl, h | h⟩
      · exact .inl h
      · exact .inr ⟨req, hreq, h⟩
    · exact kept_nil
  · intro t c h
    obtain ⟨i, r, hr, h⟩ := (mem_checkResponses E).1 h
    unfold forResponseActs at h
    rw [List.mem_append] at h
    rcases h with h | h
    · split at h
      · next j hj =>
        simp only [say, List.mem_singleton, Act.op.injEq, BoardOp.complain.injEq] at h
        obtain ⟨rfl, rfl⟩ := h
        exact .inl (shown_1304 E ex _ j)
      · cases h
    · have hl : (ex.responses.take i).length = i := by
        obtain ⟨hi, _⟩ := List.getElem?_eq_some_iff.1 hr
        rw [List.length_take]; omega
      rw [hl] at h
      unfold checkResponse at h
      rw [List.mem_append] at h
      rcases h with h | h
      · obtain ⟨rfl, h | h⟩ := kept_checkResponseItself E (ex := ex) (p := ⟨i, r, ex.request⟩)
          ⟨⟨i, rfl⟩, by simp⟩ rfl t c h
        · exact .inl h
        · exact .inr ⟨r, hr, h⟩
      · split at h
        · next req hreq =>
          exact .inl (kept_checkResponseInContext E (ex := ex) (p := ⟨i, r, ex.request⟩)
            ⟨⟨i, rfl⟩, fun _ => by rw [show ex.request = some req from hreq]; rfl⟩ req t c h).2
        · cases h
  · intro t c h
    obtain ⟨j, r, hr, hs, he, hb, h⟩ := mem_checkExpect.1 h
    cases h
    cases hreq : ex.request with
    | none => rw [hreq] at he; cases he
    | some req =>
      refine .inl (shown_of_fitsOn (self := .response) (h := true) contextGet_resp ?_ ?_)
      · intro _; rw [hreq]; rfl
      · decide +kernel

end Httpolice.Lemmas.Check
