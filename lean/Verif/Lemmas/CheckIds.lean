import Verif.Lemmas.Acts
import Verif.Spec.Checks

/-!
# Which notices each of the checks may report
-/

namespace Httpolice.Lemmas.Check

open Httpolice.Model Httpolice.Spec Httpolice.Props

/-- IDs that `check_message` may report on any message, besides those of grammars and payloads. -/
def anyMessageIds : List Nat := [
  1020, 1030, 1034, 1035, 1042, 1054, 1109, 1160, 1163, 1164, 1197, 1228, 1233, 1277, 1280,
  1293]

/-- IDs that `check_message` and `transformed_by_proxy` may report except for 103 (Early Hints). -/
def settledMessageIds : List Nat := [
  1050, 1189, 1190, 1191, 1192, 1244, 1245]

/-- IDs that `check_request` may report besides those of `check_message`. -/
def requestIds : List Nat := [
  1021, 1022, 1028, 1029, 1031, 1032, 1041, 1045, 1053, 1056, 1057, 1059, 1061, 1062, 1063,
  1066, 1067, 1068, 1070, 1093, 1116, 1120, 1122, 1130, 1131, 1132, 1134, 1135, 1152, 1159,
  1161, 1165, 1171, 1193, 1209, 1210, 1211, 1212, 1213, 1230, 1231, 1233, 1234, 1244, 1261,
  1262, 1270, 1271, 1272, 1274, 1276, 1285, 1287, 1288, 1289, 1290, 1292, 1295]

/-- IDs that `check_response_itself` may report besides those of `check_message`. -/
def itselfIds : List Nat := [
  1025, 1047, 1048, 1064, 1076, 1078, 1079, 1080, 1082, 1083, 1084, 1088, 1089, 1094, 1110,
  1111, 1118, 1127, 1138, 1141, 1142, 1143, 1153, 1162, 1167, 1193, 1194, 1195, 1205, 1206,
  1207, 1208, 1218, 1219, 1220, 1227, 1235, 1238, 1240, 1243, 1246, 1247, 1248, 1249, 1250,
  1251, 1252, 1258, 1260, 1263, 1264, 1265, 1266, 1267, 1268, 1269, 1273, 1294]

/-- IDs that `check_response_itself` may report except for 103 (Early Hints). -/
def settledIds : List Nat := [
  1018, 1023, 1046, 1052, 1112, 1113, 1147, 1166, 1168, 1169, 1175, 1176, 1177, 1178, 1179,
  1180, 1181, 1182, 1183, 1184, 1185, 1186, 1187, 1198, 1202, 1217, 1241, 1301, 1302, 1303,
  1310]

/-- IDs that `check_response_in_context` may report on the response. -/
def contextIds : List Nat := [
  1019, 1024, 1033, 1041, 1046, 1049, 1051, 1055, 1058, 1060, 1071, 1072, 1073, 1074, 1077,
  1081, 1085, 1086, 1087, 1090, 1092, 1095, 1096, 1097, 1098, 1099, 1100, 1101, 1102, 1103,
  1104, 1105, 1106, 1114, 1115, 1117, 1121, 1123, 1124, 1125, 1128, 1129, 1136, 1137, 1144,
  1145, 1146, 1149, 1150, 1168, 1169, 1170, 1172, 1173, 1174, 1183, 1184, 1185, 1188, 1189,
  1190, 1199, 1200, 1201, 1203, 1204, 1214, 1215, 1221, 1232, 1237, 1239, 1241, 1242, 1283,
  1284, 1286, 1306]

/-- IDs that come from outside of the checks: the view classes, grammars and payload decoders. -/
def Foreign (E : Env) (msg : Message) (id : Nat) : Prop :=
  (∃ name, ∃ n ∈ E.viewNotes msg.fields name, n.id = id) ∨ (∃ n ∈ msg.payload.notes, n.1 = id) ∨
    ∃ forms s r, E.parseTarget forms s = some r ∧ ∃ n ∈ r.2, n.id = id

/-- Reports on one object with IDs from a list, or satisfying another condition. -/
def On (t : Target) (l : List Nat) (f : Nat → Prop) : Target → Nat → Prop :=
  fun t' id => t' = t ∧ (id ∈ l ∨ f id)

theorem plain_on_say {t : Target} {l : List Nat} {f : Nat → Prop} {R : Prop} {id : Nat} {ctx : Ctx}
    (h : id ∈ l) : Plain (On t l f) R (say t id ctx) := plain_say ⟨rfl, .inl h⟩

/-- Split a list of statements; every notice reported is in the list of IDs. -/
macro "plain" : tactic => `(tactic| repeat' (first
  | with_reducible exact plain_nil
  | with_reducible exact plain_inOrder_nil
  | (with_reducible refine plain_on_say ?_); decide
  | with_reducible apply plain_inOrder_cons
  | with_reducible apply plain_whenever
  | (with_reducible refine plain_each ?_; intro _ _; try dsimp only)
  | split))

variable (E : Env) (t : Target)

theorem plain_viewNotes {l : List Nat} {R : Prop} (msg : Message) (m : Msg) (name : Str)
    (hm : m = msg.fields := by rfl) :
    Plain (On t l (Foreign E msg)) R (each (E.viewNotes m name) (sayNote t)) := by
  refine plain_each ?_
  intro n hn
  refine plain_say ⟨rfl, .inr ?_⟩
  exact .inl ⟨name, n, hm ▸ hn, rfl⟩

theorem plain_checkHeaders {R : Prop} (msg : Message) (m : Msg) (hm : m = msg.fields := by rfl) :
    Plain (On t anyMessageIds (Foreign E msg)) R (checkHeaders E t m) := by
  unfold checkHeaders
  refine plain_inOrder_cons ?_ (by plain)
  refine plain_each ?_
  intro n _
  refine plain_inOrder_cons (by plain) ?_
  refine plain_inOrder_cons (plain_viewNotes E t msg m n hm) ?_
  plain

theorem plain_checkAnyMessage {R : Prop} (msg : Message) (tls : Option Bool) :
    Plain (On t anyMessageIds (Foreign E msg)) R (checkAnyMessage E t msg tls) := by
  unfold checkAnyMessage
  dsimp only
  refine plain_inOrder_cons ?_ (by plain)
  refine plain_each ?_
  intro n hn
  exact plain_say ⟨rfl, .inr (.inr (.inl ⟨n, hn, rfl⟩))⟩

theorem plain_messageTransformed {R : Prop} {f : Nat → Prop} (m : Msg) :
    Plain (On t settledMessageIds f) R (messageTransformed E t m).2 := by
  unfold messageTransformed
  plain

theorem plain_checkSettledMessage {R : Prop} {f : Nat → Prop} (msg : Message)
    (tr : Option Bool × List Act) (h : Plain (On t settledMessageIds f) R tr.2) :
    Plain (On t settledMessageIds f) R (checkSettledMessage E t msg tr) := by
  unfold checkSettledMessage
  dsimp only
  refine plain_inOrder_cons (by plain) ?_
  refine plain_inOrder_cons h ?_
  plain

theorem On.mono {t : Target} {l l' : List Nat} {f f' : Nat → Prop} (hl : l ⊆ l')
    (hf : ∀ id, f id → f' id) : ∀ t' id, On t l f t' id → On t l' f' t' id := by
  rintro t' id ⟨h, h' | h'⟩
  · exact ⟨h, .inl (hl h')⟩
  · exact ⟨h, .inr (hf _ h')⟩

theorem Plain.on {t : Target} {l l' : List Nat} {f f' : Nat → Prop} {R R' : Prop} {acts : List Act}
    (h : Plain (On t l f) R acts) (hl : l ⊆ l') (hf : ∀ id, f id → f' id) (hr : R → R') :
    Plain (On t l' f') R' acts := h.mono (On.mono hl hf) hr

/-! ## Requests -/

theorem plain_targetActs {R : Prop} (req : Request) :
    Plain (On .req requestIds (Foreign E req.toMessage)) R (targetActs E req) := by
  unfold targetActs
  split
  · next r hr =>
    refine plain_each ?_
    intro n hn
    exact plain_say ⟨rfl, .inr (.inr (.inr ⟨_, _, r, hr, n, hn, rfl⟩))⟩
  · plain

theorem plain_checkBasicAuth {R : Prop} {f : Nat → Prop} (hdr : String) (a : AuthParams) :
    Plain (On .req requestIds f) R (checkBasicAuth E hdr a) := by
  unfold checkBasicAuth
  plain

theorem plain_checkBearerAuth {R : Prop} {f : Nat → Prop} (req : Request) (hdr : String)
    (a : AuthParams) : Plain (On .req requestIds f) R (checkBearerAuth E req hdr a) := by
  unfold checkBearerAuth
  plain

theorem plain_checkAuth {R : Prop} {f : Nat → Prop} (req : Request) (hdr : String) :
    Plain (On .req requestIds f) R (checkAuth E req hdr) := by
  unfold checkAuth
  split
  · split
    · exact plain_checkBasicAuth E hdr _
    · split
      · exact plain_checkBearerAuth E req hdr _
      · plain
  · plain

theorem plain_checkAccept {R : Prop} {f : Nat → Prop} (m : Msg) (hdr : String) :
    Plain (On .req requestIds f) R (checkAccept E m hdr) := by
  unfold checkAccept
  plain

/-- The first entry is looked at though there is none (request.py 262-263). -/
def NoFirstEntry (req : Request) : Prop :=
  E.present req.fields "Host" = true ∧ req.fields.headers = []

theorem plain_checkRequestBasics (req : Request) :
    Plain (On .req requestIds (Foreign E req.toMessage)) (NoFirstEntry E req)
      (checkRequestBasics E req) := by
  unfold checkRequestBasics
  dsimp only
  refine plain_inOrder_cons (by plain) ?_
  refine plain_inOrder_cons (plain_targetActs E req) ?_
  iterate 8 refine plain_inOrder_cons (by plain) ?_
  refine plain_inOrder_cons ?_ (by plain)
  split
  · next h =>
    split
    · next h' => exact plain_raise ⟨h, h'⟩
    · plain
  · plain

theorem plain_checkRequestCaching {R : Prop} {f : Nat → Prop} (req : Request) :
    Plain (On .req requestIds f) R (checkRequestCaching E req) := by
  unfold checkRequestCaching
  dsimp only
  plain

theorem plain_checkRequestExtras {R : Prop} {f : Nat → Prop} (req : Request) :
    Plain (On .req requestIds f) R (checkRequestExtras E req) := by
  unfold checkRequestExtras
  dsimp only
  refine plain_inOrder_cons (plain_checkAuth E req _) ?_
  refine plain_inOrder_cons (plain_checkAuth E req _) ?_
  iterate 6 refine plain_inOrder_cons (by plain) ?_
  refine plain_inOrder_cons (plain_checkAccept E _ _) ?_
  refine plain_inOrder_cons (plain_checkAccept E _ _) ?_
  refine plain_inOrder_cons (plain_checkAccept E _ _) ?_
  refine plain_inOrder_cons (plain_checkAccept E _ _) ?_
  plain

/-- `check_request` apart from silencing. -/
def requestRest (req : Request) : List Act :=
  inOrder [
    checkMessage E .req req.toMessage req.isTls (messageTransformed E .req req.fields) none,
    checkRequestBasics E req,
    checkRequestCaching E req,
    checkRequestExtras E req]

/-- All IDs of `check_request`. -/
def allRequestIds : List Nat := anyMessageIds ++ settledMessageIds ++ requestIds

theorem plain_checkMessage {R : Prop} (msg : Message) (tls : Option Bool)
    (tr : Option Bool × List Act) (status : Option Int)
    (h : Plain (On t settledMessageIds (Foreign E msg)) R tr.2) :
    Plain (On t (anyMessageIds ++ settledMessageIds) (Foreign E msg)) R
      (checkMessage E t msg tls tr status) := by
  have hl : anyMessageIds ⊆ anyMessageIds ++ settledMessageIds := by simp
  have hl' : settledMessageIds ⊆ anyMessageIds ++ settledMessageIds := by simp
  refine plain_inOrder_cons ((plain_checkHeaders E t msg _).on hl (fun _ h => h) id) ?_
  refine plain_inOrder_cons ((plain_checkAnyMessage E t msg tls).on hl (fun _ h => h) id) ?_
  refine plain_inOrder_cons ?_ plain_inOrder_nil
  split
  · exact plain_nil
  · exact (plain_checkSettledMessage E t msg tr h).on hl' (fun _ h => h) id

theorem plain_requestRest (req : Request) :
    Plain (On .req allRequestIds (Foreign E req.toMessage)) (NoFirstEntry E req)
      (requestRest E req) := by
  have h1 : anyMessageIds ++ settledMessageIds ⊆ allRequestIds := by simp [allRequestIds]
  have h2 : requestIds ⊆ allRequestIds := by simp [allRequestIds]
  refine plain_inOrder_cons ((plain_checkMessage E .req req.toMessage req.isTls _ none
    (plain_messageTransformed E .req _)).on h1 (fun _ h => h) id) ?_
  refine plain_inOrder_cons ((plain_checkRequestBasics E req).on h2 (fun _ h => h) id) ?_
  refine plain_inOrder_cons ((plain_checkRequestCaching E req).on h2 (fun _ h => h) id) ?_
  refine plain_inOrder_cons ((plain_checkRequestExtras E req).on h2 (fun _ h => h) id) ?_
  exact plain_inOrder_nil

/-! ## Responses -/

/-- `Date` and `Age` are okay, and their sum is after the year 9999. -/
def Overflow (p : Placed) : Prop :=
  p.status ≠ 103 ∧ ∃ d a, E.single p.fields "Date" E.grammars.date = .val d ∧
    E.single p.fields "Age" E.grammars.age = .val a ∧ d + a > maxDateTime

theorem okayAnd_iff {α : Type} {v : PyVal α} {p : α → Bool} :
    okayAnd v p = true ↔ ∃ a, v = .val a ∧ p a = true := by
  cases v <;> simp [okayAnd]

theorem plain_fromCache {f : Nat → Prop} (p : Placed) :
    Plain (On p.here settledIds f) (Overflow E p) (fromCache E p).2 := by
  unfold fromCache
  dsimp only
  split
  · plain
  · next hs =>
    split
    · next h =>
      refine plain_raise ⟨hs, ?_⟩
      obtain ⟨d, hd, h⟩ := okayAnd_iff.1 h
      obtain ⟨a, ha, h⟩ := okayAnd_iff.1 h
      exact ⟨d, a, hd, ha, of_decide_eq_true h⟩
    · plain

theorem raise_fromCache {p : Placed} : Act.raise ∈ (fromCache E p).2 ↔ Overflow E p := by
  constructor
  · exact (plain_fromCache E (f := fun _ => True) p).raises
  · rintro ⟨hs, d, a, hd, ha, h⟩
    unfold fromCache
    dsimp only
    rw [if_neg hs, if_pos]
    · simp
    · refine okayAnd_iff.2 ⟨d, hd, okayAnd_iff.2 ⟨a, ha, ?_⟩⟩
      exact decide_eq_true h

theorem plain_heuristicExpiration {R : Prop} {f : Nat → Prop} (p : Placed) :
    Plain (On p.here settledIds f) R (heuristicExpiration E p).2 := by
  unfold heuristicExpiration
  dsimp only
  plain

theorem plain_stale {R : Prop} {f : Nat → Prop} (p : Placed) :
    Plain (On p.here settledIds f) R (stale E p).2 := by
  unfold stale
  dsimp only
  plain

theorem plain_responseTransformed {R : Prop} {f : Nat → Prop} (p : Placed) :
    Plain (On p.here settledMessageIds f) R (responseTransformed E p).2 := by
  unfold responseTransformed
  split
  · plain
  · split
    · plain
    · exact plain_messageTransformed E _ _

theorem plain_delimitedByClose {R : Prop} {f : Nat → Prop} (p : Placed) :
    Plain (On p.here itselfIds f) R (delimitedByClose E p).2 := by
  unfold delimitedByClose
  dsimp only
  plain

theorem plain_checkBasicChallenge {R : Prop} {f : Nat → Prop} (p : Placed) (hdr : String)
    (a : AuthParams) : Plain (On p.here itselfIds f) R (checkBasicChallenge E p hdr a) := by
  unfold checkBasicChallenge
  plain

theorem plain_checkBearerChallenge {R : Prop} {f : Nat → Prop} (p : Placed) (a : AuthParams) :
    Plain (On p.here itselfIds f) R (checkBearerChallenge E p a) := by
  unfold checkBearerChallenge
  plain

theorem plain_checkChallenges {R : Prop} {f : Nat → Prop} (p : Placed) (hdr : String) :
    Plain (On p.here itselfIds f) R (checkChallenges E p hdr) := by
  unfold checkChallenges
  refine plain_each ?_
  intro c _
  refine plain_inOrder_cons (plain_whenever (plain_checkBasicChallenge E p hdr _)) ?_
  refine plain_inOrder_cons (plain_whenever (plain_checkBearerChallenge E p _)) ?_
  exact plain_inOrder_nil

theorem plain_checkByteranges {R : Prop} {f : Nat → Prop} (p : Placed) :
    Plain (On p.here itselfIds f) R (checkByteranges p) := by
  unfold checkByteranges
  plain

theorem plain_checkStatus {R : Prop} {f : Nat → Prop} (p : Placed) :
    Plain (On p.here itselfIds f) R (checkStatus E p) := by
  unfold checkStatus
  dsimp only
  iterate 2 refine plain_inOrder_cons (by plain) ?_
  refine plain_inOrder_cons (plain_delimitedByClose E p) ?_
  plain

/-- A malformed `rel` is looked into (response.py 328). -/
def MalformedRel (p : Placed) : Prop :=
  p.status = 451 ∧ anyBlockedBy E (E.items p.fields "Link" E.grammars.link) = none

theorem plain_checkResponseHeaders {f : Nat → Prop} (p : Placed) :
    Plain (On p.here itselfIds f) (MalformedRel E p) (checkResponseHeaders E p) := by
  unfold checkResponseHeaders
  dsimp only
  refine plain_inOrder_cons (by plain) ?_
  refine plain_inOrder_cons ?_ ?_
  · refine plain_whenever ?_
    split
    · exact plain_inOrder_cons (plain_checkByteranges p) (by plain)
    · plain
  iterate 2 refine plain_inOrder_cons (by plain) ?_
  refine plain_inOrder_cons ?_ ?_
  · split
    · next h =>
      split
      · plain
      · next h' => exact plain_raise ⟨h, h'⟩
    · plain
  iterate 10 refine plain_inOrder_cons (by plain) ?_
  refine plain_inOrder_cons (plain_checkChallenges E p _) ?_
  exact plain_inOrder_cons (plain_checkChallenges E p _) plain_inOrder_nil

theorem plain_checkSettledResponse {f : Nat → Prop} (p : Placed) :
    Plain (On p.here settledIds f) (Overflow E p) (checkSettledResponse E p) := by
  unfold checkSettledResponse
  dsimp only
  iterate 7 refine plain_inOrder_cons (by plain) ?_
  refine plain_inOrder_cons (plain_fromCache E p) ?_
  refine plain_inOrder_cons (by plain) ?_
  refine plain_inOrder_cons (plain_heuristicExpiration E p) ?_
  refine plain_inOrder_cons (by plain) ?_
  refine plain_inOrder_cons (plain_stale E p) ?_
  plain

/-- `check_response_itself` apart from silencing. -/
def itselfRest (p : Placed) : List Act :=
  inOrder [
    checkMessage E p.here p.resp.toMessage p.isTls (responseTransformed E p) (some p.status),
    checkStatus E p,
    checkResponseHeaders E p,
    if p.status = 103 then [] else checkSettledResponse E p]

/-- All IDs of `check_response_itself`. -/
def allItselfIds : List Nat := anyMessageIds ++ settledMessageIds ++ itselfIds ++ settledIds

theorem plain_itselfRest (p : Placed) :
    Plain (On p.here allItselfIds (Foreign E p.resp.toMessage)) (Overflow E p ∨ MalformedRel E p)
      (itselfRest E p) := by
  have h1 : anyMessageIds ++ settledMessageIds ⊆ allItselfIds := by simp [allItselfIds]
  have h2 : itselfIds ⊆ allItselfIds := by
    intro x hx; simp [allItselfIds, hx]
  have h3 : settledIds ⊆ allItselfIds := by
    intro x hx; simp [allItselfIds, hx]
  refine plain_inOrder_cons ((plain_checkMessage E p.here p.resp.toMessage p.isTls _ _
    (plain_responseTransformed E p)).on h1 (fun _ h => h) id) ?_
  refine plain_inOrder_cons ((plain_checkStatus E p).on h2 (fun _ h => h) id) ?_
  refine plain_inOrder_cons ((plain_checkResponseHeaders E p).on h2 (fun _ h => h) .inr) ?_
  refine plain_inOrder_cons ?_ plain_inOrder_nil
  split
  · exact plain_nil
  · exact (plain_checkSettledResponse E p).on h3 (fun _ h => h) .inl

/-- Reports of `check_response_in_context`: on the response, or 1236 on the request. -/
def InContext (t : Target) (l : List Nat) : Target → Nat → Prop :=
  fun t' id => (t' = t ∧ id ∈ l) ∨ (t' = .req ∧ id = 1236)

theorem Plain.inContext {t : Target} {l l' : List Nat} {R R' : Prop} {acts : List Act}
    (h : Plain (On t l fun _ => False) R acts) (hl : l ⊆ l') (hr : R → R') :
    Plain (InContext t l') R' acts := by
  refine h.mono ?_ hr
  rintro t' id ⟨ht, h | h⟩
  · exact .inl ⟨ht, hl h⟩
  · exact h.elim

theorem plain_isToProxy {R : Prop} (req : Request) (l : List Nat) :
    Plain (InContext t l) R (req.isToProxy E).2 := by
  unfold Request.isToProxy
  split
  · exact plain_nil
  split
  · split
    · exact plain_say (.inr ⟨rfl, rfl⟩)
    · exact plain_nil
  · exact plain_nil

theorem ite_some {c : Prop} [Decidable c] {a id : Nat} {x : Option Nat}
    (h : (if c then some a else x) = some id) : id = a ∨ x = some id := by
  by_cases hc : c
  · rw [if_pos hc] at h
    exact .inl (Option.some.inj h).symm
  · rw [if_neg hc] at h
    exact .inr h

theorem emptyBodyNotice_mem {status : Int} {id : Nat} (h : emptyBodyNotice status = some id) :
    id ∈ contextIds := by
  unfold emptyBodyNotice at h
  iterate 12
    replace h := ite_some h
    rcases h with h | h
    · rw [h]; decide
  cases h

theorem plain_emptyBodyNotice {R : Prop} {f : Nat → Prop} (status : Int) :
    Plain (On t contextIds f) R (match emptyBodyNotice status with
      | some id => say t id
      | none => []) := by
  split
  · next id h => exact plain_on_say (emptyBodyNotice_mem h)
  · exact plain_nil

theorem plain_checkAgainstRequest {R : Prop} (p : Placed) (req : Request) :
    Plain (InContext p.here contextIds) R (checkAgainstRequest E p req) := by
  have hl : contextIds ⊆ contextIds := fun _ h => h
  unfold checkAgainstRequest
  dsimp only
  iterate 5 refine plain_inOrder_cons (Plain.inContext (R := False) (by plain) hl False.elim) ?_
  refine plain_inOrder_cons (Plain.inContext (R := False) (l := contextIds)
    (by unfold responseTransformed messageTransformed; plain) hl False.elim) ?_
  refine plain_inOrder_cons (plain_isToProxy E _ req _) ?_
  iterate 8 refine plain_inOrder_cons (Plain.inContext (R := False) (by plain) hl False.elim) ?_
  refine plain_inOrder_cons (Plain.inContext (R := False)
    (plain_whenever (plain_emptyBodyNotice p.here p.status)) hl False.elim) ?_
  exact Plain.inContext (R := False) (by plain) hl False.elim

theorem plain_checkNegotiation {R : Prop} {f : Nat → Prop} (p : Placed) (req : Request) :
    Plain (On p.here contextIds f) R (checkNegotiation E p req) := by
  unfold checkNegotiation
  dsimp only
  plain

theorem plain_fromCache' {f : Nat → Prop} (p : Placed) :
    Plain (On p.here contextIds f) (Overflow E p) (fromCache E p).2 := by
  unfold fromCache
  dsimp only
  split
  · plain
  · next hs =>
    split
    · next h =>
      refine plain_raise ⟨hs, ?_⟩
      obtain ⟨d, hd, h⟩ := okayAnd_iff.1 h
      obtain ⟨a, ha, h⟩ := okayAnd_iff.1 h
      exact ⟨d, a, hd, ha, of_decide_eq_true h⟩
    · plain

theorem plain_checkCachedAnswer {f : Nat → Prop} (p : Placed) (req : Request) :
    Plain (On p.here contextIds f) (Overflow E p) (checkCachedAnswer E p req) := by
  unfold checkCachedAnswer
  dsimp only
  refine plain_inOrder_cons (plain_fromCache' E p) ?_
  refine plain_inOrder_cons (by plain) ?_
  refine plain_inOrder_cons (by unfold stale; dsimp only; plain) ?_
  plain

theorem plain_checkSettledAnswer {R : Prop} {f : Nat → Prop} (p : Placed) (req : Request) :
    Plain (On p.here [1216, 1291] f) R (checkSettledAnswer E p req) := by
  unfold checkSettledAnswer
  dsimp only
  plain

/-- `check_response_in_context` apart from silencing. -/
def contextRest (p : Placed) (req : Request) : List Act :=
  inOrder [
    checkAgainstRequest E p req,
    checkNegotiation E p req,
    checkCachedAnswer E p req,
    if p.status = 103 then [] else checkSettledAnswer E p req]

/-- All IDs of `check_response_in_context`. -/
def allContextIds : List Nat := contextIds ++ [1216, 1291]

theorem plain_contextRest (p : Placed) (req : Request) :
    Plain (InContext p.here allContextIds) (Overflow E p) (contextRest E p req) := by
  have hl : contextIds ⊆ allContextIds := by simp [allContextIds]
  have hl' : [1216, 1291] ⊆ allContextIds := by
    intro x hx; exact List.mem_append_right _ hx
  refine plain_inOrder_cons ((plain_checkAgainstRequest E p req).mono ?_ id) ?_
  · rintro t' id (⟨h, h'⟩ | h)
    · exact .inl ⟨h, hl h'⟩
    · exact .inr h
  refine plain_inOrder_cons ((plain_checkNegotiation E p req).inContext hl id) ?_
  refine plain_inOrder_cons ((plain_checkCachedAnswer E p req).inContext hl id) ?_
  refine plain_inOrder_cons ?_ plain_inOrder_nil
  split
  · exact plain_nil
  · exact (plain_checkSettledAnswer E p req).inContext hl' id

end Httpolice.Lemmas.Check
