import Verif.Lemmas.CheckRaw
import Verif.Lemmas.CheckSays

/-!
# The notices of each part of the checks
-/

namespace Httpolice.Lemmas.Check

open Httpolice.Model Httpolice.Spec Httpolice.Props

/-- IDs of `Message.transformed_by_proxy`. -/
def messageTransformedIds : List Nat := [
  1189]

/-- IDs of `Response.transformed_by_proxy`. -/
def responseTransformedIds : List Nat := [
  1189, 1190]

/-- IDs of `Response.from_cache`. -/
def fromCacheIds : List Nat := [
  1168, 1169, 1241]

/-- IDs of `Response.heuristic_expiration`. -/
def heuristicExpirationIds : List Nat := [
  1178, 1179]

/-- IDs of `Response.stale`. -/
def staleIds : List Nat := [
  1183, 1184, 1185]

/-- IDs of `Response.delimited_by_close`. -/
def delimitedByCloseIds : List Nat := [
  1025]

/-- IDs of `_check_multipart_byteranges`. -/
def checkByterangesIds : List Nat := [
  1141, 1142]

/-- IDs of `_check_basic_challenge`. -/
def checkBasicChallengeIds : List Nat := [
  1206, 1207, 1208, 1273]

/-- IDs of `_check_bearer_challenge`. -/
def checkBearerChallengeIds : List Nat := [
  1263, 1264, 1265, 1266, 1267, 1268, 1269]

/-- IDs of `the loop over challenges`. -/
def checkChallengesIds : List Nat := [
  1206, 1207, 1208, 1263, 1264, 1265, 1266, 1267, 1268, 1269, 1273]

/-- IDs of `_check_basic_auth`. -/
def checkBasicAuthIds : List Nat := [
  1209, 1210, 1211, 1212]

/-- IDs of `_check_bearer_auth`. -/
def checkBearerAuthIds : List Nat := [
  1261, 1262]

/-- IDs of `the loop over credentials`. -/
def checkAuthIds : List Nat := [
  1209, 1210, 1211, 1212, 1261, 1262, 1274]

/-- IDs of `_accept_subsumptions`. -/
def checkAcceptIds : List Nat := [
  1276]

/-- IDs of `check_message, the part skipped for 103`. -/
def checkSettledMessageIds : List Nat := [
  1050, 1191, 1192, 1244, 1245]

/-- IDs of `check_request, second part`. -/
def checkRequestCachingIds : List Nat := [
  1120, 1122, 1130, 1131, 1132, 1134, 1135, 1152, 1159, 1161, 1165, 1171, 1193]

/-- IDs of `check_request, third part`. -/
def checkRequestExtrasIds : List Nat := [
  1209, 1210, 1211, 1212, 1213, 1230, 1231, 1233, 1234, 1261, 1262, 1270, 1271, 1272, 1274,
  1276, 1285, 1287, 1288, 1289, 1290]

/-- IDs of `check_response_itself, first part`. -/
def checkStatusIds : List Nat := [
  1025, 1047, 1048, 1064, 1076, 1078, 1079, 1080, 1082, 1083, 1084, 1088, 1089, 1094, 1110,
  1111, 1118, 1167, 1205, 1240, 1246, 1294]

/-- IDs of `check_response_itself, second part`. -/
def checkResponseHeadersIds : List Nat := [
  1127, 1138, 1141, 1142, 1143, 1153, 1162, 1193, 1194, 1195, 1206, 1207, 1208, 1218, 1219,
  1220, 1227, 1235, 1238, 1243, 1247, 1248, 1249, 1250, 1251, 1252, 1258, 1260, 1263, 1264,
  1265, 1266, 1267, 1268, 1269, 1273]

/-- IDs of `check_response_itself, the part skipped for 103`. -/
def checkSettledResponseIds : List Nat := [
  1018, 1023, 1046, 1052, 1112, 1113, 1147, 1166, 1168, 1169, 1175, 1176, 1177, 1178, 1179,
  1180, 1181, 1182, 1183, 1184, 1185, 1186, 1187, 1198, 1202, 1217, 1241, 1301, 1302, 1303,
  1310]

/-- IDs of `check_response_in_context, second part`. -/
def checkNegotiationIds : List Nat := [
  1090, 1097, 1098, 1099, 1100, 1101, 1102, 1103, 1105, 1114, 1115, 1117, 1121, 1123, 1124,
  1125, 1128, 1129, 1136, 1137, 1144, 1145, 1146, 1149, 1150]

/-- IDs of `check_response_in_context, third part`. -/
def checkCachedAnswerIds : List Nat := [
  1168, 1169, 1170, 1172, 1173, 1174, 1183, 1184, 1185, 1188, 1200, 1214, 1215, 1221, 1241,
  1283, 1286]

/-- IDs of `check_response_in_context, the part skipped for 103`. -/
def checkSettledAnswerIds : List Nat := [
  1216, 1291]

/-- IDs of the loop over headers, besides those of the views. -/
def checkHeadersIds : List Nat := [
  1197, 1277, 1293]

/-- IDs of `check_message`, besides those of payloads. -/
def checkAnyMessageIds : List Nat := [
  1020, 1030, 1034, 1035, 1042, 1054, 1109, 1160, 1163, 1164, 1228, 1233, 1280]

/-- IDs of `check_request`, first part. -/
def checkRequestBasicsIds : List Nat := [
  1021, 1022, 1028, 1029, 1031, 1032, 1041, 1045, 1053, 1056, 1057, 1059, 1061, 1062, 1063,
  1066, 1067, 1068, 1070, 1093, 1116, 1244, 1292, 1295]

/-- IDs of `check_response_in_context`, first part. -/
def checkAgainstRequestIds : List Nat := [
  1019, 1024, 1033, 1041, 1046, 1049, 1051, 1055, 1058, 1060, 1071, 1072, 1073, 1074, 1077,
  1081, 1085, 1086, 1087, 1092, 1095, 1096, 1104, 1106, 1189, 1190, 1199, 1201, 1203, 1204,
  1232, 1236, 1237, 1239, 1242, 1284, 1306]

variable (E : Env)

/-- Split statements; every notice is in the list. -/
macro "plain_only" : tactic => `(tactic| repeat' (first
  | with_reducible exact plain_nil
  | with_reducible exact plain_inOrder_nil
  | (with_reducible refine plain_on_say ?_); decide
  | with_reducible apply plain_inOrder_cons
  | with_reducible apply plain_whenever
  | (with_reducible refine plain_each ?_; intro _ _; try dsimp only)
  | with_reducible exact plain_raise trivial
  | split))

theorem messageTransformed_only (t : Target) (m : Msg) :
    Plain (On t messageTransformedIds fun _ => False) True (messageTransformed E t m).2 := by
  unfold messageTransformed
  try dsimp only
  plain_only

/-- Same, with some functions known. -/
macro "plain_only_responseTransformed" : tactic => `(tactic| repeat' (first
  | with_reducible exact plain_nil
  | with_reducible exact plain_inOrder_nil
  | (with_reducible refine plain_on_say ?_); decide
  | with_reducible apply plain_inOrder_cons
  | with_reducible apply plain_whenever
  | (with_reducible refine plain_each ?_; intro _ _; try dsimp only)
  | with_reducible exact plain_raise trivial
  | with_reducible exact (messageTransformed_only _ _ _ ).on (by decide) (fun _ h => h) id
  | split))

theorem responseTransformed_only (p : Placed) :
    Plain (On p.here responseTransformedIds fun _ => False) True (responseTransformed E p).2 := by
  unfold responseTransformed
  try dsimp only
  plain_only_responseTransformed

theorem fromCache_only (p : Placed) :
    Plain (On p.here fromCacheIds fun _ => False) True (fromCache E p).2 := by
  unfold fromCache
  try dsimp only
  plain_only

theorem heuristicExpiration_only (p : Placed) :
    Plain (On p.here heuristicExpirationIds fun _ => False) True (heuristicExpiration E p).2 := by
  unfold heuristicExpiration
  try dsimp only
  plain_only

theorem stale_only (p : Placed) :
    Plain (On p.here staleIds fun _ => False) True (stale E p).2 := by
  unfold stale
  try dsimp only
  plain_only

theorem delimitedByClose_only (p : Placed) :
    Plain (On p.here delimitedByCloseIds fun _ => False) True (delimitedByClose E p).2 := by
  unfold delimitedByClose
  try dsimp only
  plain_only

theorem checkByteranges_only (p : Placed) :
    Plain (On p.here checkByterangesIds fun _ => False) True (checkByteranges p) := by
  unfold checkByteranges
  plain_only

theorem checkBasicChallenge_only (p : Placed) (hdr : String) (a : AuthParams) :
    Plain (On p.here checkBasicChallengeIds fun _ => False) True (checkBasicChallenge E p hdr a) := by
  unfold checkBasicChallenge
  try dsimp only
  plain_only

theorem checkBearerChallenge_only (p : Placed) (a : AuthParams) :
    Plain (On p.here checkBearerChallengeIds fun _ => False) True (checkBearerChallenge E p a) := by
  unfold checkBearerChallenge
  try dsimp only
  plain_only

/-- Same, with some functions known. -/
macro "plain_only_checkChallenges" : tactic => `(tactic| repeat' (first
  | with_reducible exact plain_nil
  | with_reducible exact plain_inOrder_nil
  | (with_reducible refine plain_on_say ?_); decide
  | with_reducible apply plain_inOrder_cons
  | with_reducible apply plain_whenever
  | (with_reducible refine plain_each ?_; intro _ _; try dsimp only)
  | with_reducible exact plain_raise trivial
  | with_reducible exact (messageTransformed_only _ _ _ ).on (by decide) (fun _ h => h) id
  | with_reducible exact (responseTransformed_only _ _ ).on (by decide) (fun _ h => h) id
  | with_reducible exact (fromCache_only _ _ ).on (by decide) (fun _ h => h) id
  | with_reducible exact (heuristicExpiration_only _ _ ).on (by decide) (fun _ h => h) id
  | with_reducible exact (stale_only _ _ ).on (by decide) (fun _ h => h) id
  | with_reducible exact (delimitedByClose_only _ _ ).on (by decide) (fun _ h => h) id
  | with_reducible exact (checkByteranges_only _ ).on (by decide) (fun _ h => h) id
  | with_reducible exact (checkBasicChallenge_only _ _ _ _ ).on (by decide) (fun _ h => h) id
  | with_reducible exact (checkBearerChallenge_only _ _ _ ).on (by decide) (fun _ h => h) id
  | split))

theorem checkChallenges_only (p : Placed) (hdr : String) :
    Plain (On p.here checkChallengesIds fun _ => False) True (checkChallenges E p hdr) := by
  unfold checkChallenges
  try dsimp only
  plain_only_checkChallenges

theorem checkBasicAuth_only (hdr : String) (a : AuthParams) :
    Plain (On .req checkBasicAuthIds fun _ => False) True (checkBasicAuth E hdr a) := by
  unfold checkBasicAuth
  try dsimp only
  plain_only

theorem checkBearerAuth_only (req : Request) (hdr : String) (a : AuthParams) :
    Plain (On .req checkBearerAuthIds fun _ => False) True (checkBearerAuth E req hdr a) := by
  unfold checkBearerAuth
  try dsimp only
  plain_only

/-- Same, with some functions known. -/
macro "plain_only_checkAuth" : tactic => `(tactic| repeat' (first
  | with_reducible exact plain_nil
  | with_reducible exact plain_inOrder_nil
  | (with_reducible refine plain_on_say ?_); decide
  | with_reducible apply plain_inOrder_cons
  | with_reducible apply plain_whenever
  | (with_reducible refine plain_each ?_; intro _ _; try dsimp only)
  | with_reducible exact plain_raise trivial
  | with_reducible exact (messageTransformed_only _ _ _ ).on (by decide) (fun _ h => h) id
  | with_reducible exact (responseTransformed_only _ _ ).on (by decide) (fun _ h => h) id
  | with_reducible exact (fromCache_only _ _ ).on (by decide) (fun _ h => h) id
  | with_reducible exact (heuristicExpiration_only _ _ ).on (by decide) (fun _ h => h) id
  | with_reducible exact (stale_only _ _ ).on (by decide) (fun _ h => h) id
  | with_reducible exact (delimitedByClose_only _ _ ).on (by decide) (fun _ h => h) id
  | with_reducible exact (checkByteranges_only _ ).on (by decide) (fun _ h => h) id
  | with_reducible exact (checkBasicChallenge_only _ _ _ _ ).on (by decide) (fun _ h => h) id
  | with_reducible exact (checkBearerChallenge_only _ _ _ ).on (by decide) (fun _ h => h) id
  | with_reducible exact (checkChallenges_only _ _ _ ).on (by decide) (fun _ h => h) id
  | with_reducible exact (checkBasicAuth_only _ _ _ ).on (by decide) (fun _ h => h) id
  | with_reducible exact (checkBearerAuth_only _ _ _ _ ).on (by decide) (fun _ h => h) id
  | split))

theorem checkAuth_only (req : Request) (hdr : String) :
    Plain (On .req checkAuthIds fun _ => False) True (checkAuth E req hdr) := by
  unfold checkAuth
  try dsimp only
  plain_only_checkAuth

theorem checkAccept_only (m : Msg) (hdr : String) :
    Plain (On .req checkAcceptIds fun _ => False) True (checkAccept E m hdr) := by
  unfold checkAccept
  try dsimp only
  plain_only

/-- Same, with all functions known. -/
macro "plain_all" : tactic => `(tactic| repeat' (first
  | with_reducible exact plain_nil
  | with_reducible exact plain_inOrder_nil
  | (with_reducible refine plain_on_say ?_); decide
  | with_reducible apply plain_inOrder_cons
  | with_reducible apply plain_whenever
  | (with_reducible refine plain_each ?_; intro _ _; try dsimp only)
  | with_reducible exact plain_raise trivial
  | with_reducible exact (messageTransformed_only _ _ _ ).on (by decide) (fun _ h => h) id
  | with_reducible exact (responseTransformed_only _ _ ).on (by decide) (fun _ h => h) id
  | with_reducible exact (fromCache_only _ _ ).on (by decide) (fun _ h => h) id
  | with_reducible exact (heuristicExpiration_only _ _ ).on (by decide) (fun _ h => h) id
  | with_reducible exact (stale_only _ _ ).on (by decide) (fun _ h => h) id
  | with_reducible exact (delimitedByClose_only _ _ ).on (by decide) (fun _ h => h) id
  | with_reducible exact (checkByteranges_only _ ).on (by decide) (fun _ h => h) id
  | with_reducible exact (checkBasicChallenge_only _ _ _ _ ).on (by decide) (fun _ h => h) id
  | with_reducible exact (checkBearerChallenge_only _ _ _ ).on (by decide) (fun _ h => h) id
  | with_reducible exact (checkChallenges_only _ _ _ ).on (by decide) (fun _ h => h) id
  | with_reducible exact (checkBasicAuth_only _ _ _ ).on (by decide) (fun _ h => h) id
  | with_reducible exact (checkBearerAuth_only _ _ _ _ ).on (by decide) (fun _ h => h) id
  | with_reducible exact (checkAuth_only _ _ _ ).on (by decide) (fun _ h => h) id
  | with_reducible exact (checkAccept_only _ _ _ ).on (by decide) (fun _ h => h) id
  | split))

theorem checkSettledMessage_only (t : Target) (msg : Message) (b : Option Bool) :
    Plain (On t checkSettledMessageIds fun _ => False) True (checkSettledMessage E t msg (b, [])) := by
  unfold checkSettledMessage
  try dsimp only
  plain_all

theorem checkRequestCaching_only (req : Request) :
    Plain (On .req checkRequestCachingIds fun _ => False) True (checkRequestCaching E req) := by
  unfold checkRequestCaching
  try dsimp only
  plain_all

theorem checkRequestExtras_only (req : Request) :
    Plain (On .req checkRequestExtrasIds fun _ => False) True (checkRequestExtras E req) := by
  unfold checkRequestExtras
  try dsimp only
  plain_all

theorem checkStatus_only (p : Placed) :
    Plain (On p.here checkStatusIds fun _ => False) True (checkStatus E p) := by
  unfold checkStatus
  try dsimp only
  plain_all

theorem checkResponseHeaders_only (p : Placed) :
    Plain (On p.here checkResponseHeadersIds fun _ => False) True (checkResponseHeaders E p) := by
  unfold checkResponseHeaders
  try dsimp only
  plain_all

theorem checkSettledResponse_only (p : Placed) :
    Plain (On p.here checkSettledResponseIds fun _ => False) True (checkSettledResponse E p) := by
  unfold checkSettledResponse
  try dsimp only
  plain_all

theorem checkNegotiation_only (p : Placed) (req : Request) :
    Plain (On p.here checkNegotiationIds fun _ => False) True (checkNegotiation E p req) := by
  unfold checkNegotiation
  try dsimp only
  plain_all

theorem checkCachedAnswer_only (p : Placed) (req : Request) :
    Plain (On p.here checkCachedAnswerIds fun _ => False) True (checkCachedAnswer E p req) := by
  unfold checkCachedAnswer
  try dsimp only
  plain_all

theorem checkSettledAnswer_only (p : Placed) (req : Request) :
    Plain (On p.here checkSettledAnswerIds fun _ => False) True (checkSettledAnswer E p req) := by
  unfold checkSettledAnswer
  try dsimp only
  plain_all

theorem checkHeaders_only (t : Target) (msg : Message) (m : Msg) (hm : m = msg.fields := by rfl) :
    Plain (On t checkHeadersIds (Foreign E msg)) True (checkHeaders E t m) := by
  unfold checkHeaders
  refine plain_inOrder_cons ?_ (by plain_all)
  refine plain_each ?_
  intro n _
  refine plain_inOrder_cons (by plain_all) ?_
  refine plain_inOrder_cons (plain_viewNotes E t msg m n hm) ?_
  plain_all

theorem checkAnyMessage_only (t : Target) (msg : Message) (tls : Option Bool) :
    Plain (On t checkAnyMessageIds (Foreign E msg)) True (checkAnyMessage E t msg tls) := by
  unfold checkAnyMessage
  dsimp only
  refine plain_inOrder_cons ?_ (by plain_all)
  refine plain_each ?_
  intro n hn
  exact plain_say ⟨rfl, .inr (.inr (.inl ⟨n, hn, rfl⟩))⟩

theorem targetActs_only (req : Request) :
    Plain (On .req [1045] (Foreign E req.toMessage)) True (targetActs E req) := by
  unfold targetActs
  split
  · next r hr =>
    refine plain_each ?_
    intro n hn
    exact plain_say ⟨rfl, .inr (.inr (.inr ⟨_, _, r, hr, n, hn, rfl⟩))⟩
  · plain_all

theorem checkRequestBasics_only (req : Request) :
    Plain (On .req checkRequestBasicsIds (Foreign E req.toMessage)) True
      (checkRequestBasics E req) := by
  unfold checkRequestBasics
  dsimp only
  refine plain_inOrder_cons (by plain_all) ?_
  refine plain_inOrder_cons ((targetActs_only E req).on (by decide) (fun _ h => h) id) ?_
  plain_all

theorem emptyBodyNotice_only {status : Int} {id : Nat} (h : emptyBodyNotice status = some id) :
    id ∈ [1284, 1077, 1081, 1092, 1096, 1201, 1203, 1242, 1087, 1106, 1204, 1104] := by
  unfold emptyBodyNotice at h
  iterate 12
    replace h := ite_some h
    rcases h with h | h
    · rw [h]; decide
  cases h

theorem checkAgainstRequest_only (p : Placed) (req : Request) :
    Plain (fun _ id => id ∈ checkAgainstRequestIds) True (checkAgainstRequest E p req) := by
  have key : ∀ {a : List Act}, Plain (On p.here checkAgainstRequestIds fun _ => False) True a →
      Plain (fun _ id => id ∈ checkAgainstRequestIds) True a :=
    fun h => h.mono (fun _ _ h => h.2.resolve_right id) id
  unfold checkAgainstRequest
  dsimp only
  iterate 6 refine plain_inOrder_cons (key (by plain_all)) ?_
  refine plain_inOrder_cons ?_ ?_
  · unfold Request.isToProxy
    split
    · exact plain_nil
    split
    · split
      · exact plain_say (by decide)
      · exact plain_nil
    · exact plain_nil
  iterate 8 refine plain_inOrder_cons (key (by plain_all)) ?_
  refine plain_inOrder_cons (plain_whenever ?_) ?_
  · split
    · next id h =>
      refine plain_say ?_
      have := emptyBodyNotice_only h
      revert this
      revert id
      intro id _ h
      exact (show [1284, 1077, 1081, 1092, 1096, 1201, 1203, 1242, 1087, 1106, 1204, 1104] ⊆ checkAgainstRequestIds by decide) h
    · exact plain_nil
  exact key (by plain_all)

/-! ## Silence -/

section
variable {N id : Nat} {t t' : Target} {acts a : List Act} {l : List (List Act)} {R : Prop}
  {P Q : Prop}

theorem quiet_of (h : Plain (fun _ i => i ≠ N) True acts) : ¬Says t N acts :=
  fun hs => h.says hs rfl

theorem plain_ne_say {ctx : Ctx} (h : id ≠ N) : Plain (fun _ i => i ≠ N) R (say t' id ctx) :=
  plain_say h

theorem Plain.ne {ids : List Nat} {f : Nat → Prop} (h : Plain (On t' ids f) R acts) (hl : N ∉ ids)
    (hf : ¬f N) : Plain (fun _ i => i ≠ N) True acts :=
  h.mono (fun _ i hi e => by
    subst e
    rcases hi.2 with h' | h'
    · exact hl h'
    · exact hf h') fun _ => trivial

theorem skip_item (h : ¬Says t N a) (h' : Says t N (inOrder l) ↔ P) : Says t N (inOrder (a :: l)) ↔ P :=
  says_inOrder_cons.trans ((or_iff_right h).trans h')

theorem only_item (h : ¬Says t N (inOrder l)) (h' : Says t N a ↔ P) : Says t N (inOrder (a :: l)) ↔ P :=
  says_inOrder_cons.trans ((or_iff_left h).trans h')

end

theorem plain_each_notes {E : Env} {t : Target} {N : Nat} {msg : Message} (h : ¬Foreign E msg N) :
    Plain (fun _ i => i ≠ N) True (each msg.payload.notes fun n => say t n.1 n.2) := by
  refine plain_each fun n hn => plain_say fun e => h (.inr (.inl ⟨n, hn, e⟩))

theorem plain_ne_toProxy {E : Env} {req : Request} {N : Nat} (h : 1236 ≠ N) :
    Plain (fun _ i => i ≠ N) True (req.isToProxy E).2 := by
  unfold Request.isToProxy
  split
  · exact plain_nil
  split
  · split
    · exact plain_say h
    · exact plain_nil
  · exact plain_nil

theorem plain_ne_empty {t : Target} {N : Nat} {status : Int} {id : Nat}
    (h : emptyBodyNotice status = some id) (hN : N ∉ [1284, 1077, 1081, 1092, 1096, 1201, 1203, 1242, 1087, 1106, 1204, 1104]) :
    Plain (fun _ i => i ≠ N) True (say t id) :=
  plain_say fun e => hN (e ▸ emptyBodyNotice_only h)

/-- No statement reports the notice. -/
macro "plain_ne" : tactic => `(tactic| repeat' (first
  | with_reducible exact plain_nil
  | with_reducible exact plain_inOrder_nil
  | (with_reducible refine plain_ne_say ?_); decide
  | with_reducible apply plain_inOrder_cons
  | with_reducible apply plain_whenever
  | with_reducible exact plain_each_notes (by assumption)
  | (with_reducible refine plain_each ?_; intro _ _; try dsimp only)
  | with_reducible exact plain_raise trivial
  | with_reducible exact (messageTransformed_only _ _ _ ).ne (by decide) id
  | with_reducible exact (responseTransformed_only _ _ ).ne (by decide) id
  | with_reducible exact (fromCache_only _ _ ).ne (by decide) id
  | with_reducible exact (heuristicExpiration_only _ _ ).ne (by decide) id
  | with_reducible exact (stale_only _ _ ).ne (by decide) id
  | with_reducible exact (delimitedByClose_only _ _ ).ne (by decide) id
  | with_reducible exact (checkByteranges_only _ ).ne (by decide) id
  | with_reducible exact (checkBasicChallenge_only _ _ _ _ ).ne (by decide) id
  | with_reducible exact (checkBearerChallenge_only _ _ _ ).ne (by decide) id
  | with_reducible exact (checkChallenges_only _ _ _ ).ne (by decide) id
  | with_reducible exact (checkBasicAuth_only _ _ _ ).ne (by decide) id
  | with_reducible exact (checkBearerAuth_only _ _ _ _ ).ne (by decide) id
  | with_reducible exact (checkAuth_only _ _ _ ).ne (by decide) id
  | with_reducible exact (checkAccept_only _ _ _ ).ne (by decide) id
  | with_reducible exact (checkSettledMessage_only _ _ _ _ ).ne (by decide) id
  | with_reducible exact (checkRequestCaching_only _ _ ).ne (by decide) id
  | with_reducible exact (checkRequestExtras_only _ _ ).ne (by decide) id
  | with_reducible exact (checkStatus_only _ _ ).ne (by decide) id
  | with_reducible exact (checkResponseHeaders_only _ _ ).ne (by decide) id
  | with_reducible exact (checkSettledResponse_only _ _ ).ne (by decide) id
  | with_reducible exact (checkNegotiation_only _ _ _ ).ne (by decide) id
  | with_reducible exact (checkCachedAnswer_only _ _ _ ).ne (by decide) id
  | with_reducible exact (checkSettledAnswer_only _ _ _ ).ne (by decide) id
  | with_reducible exact (checkHeaders_only _ _ _ _).ne (by decide) (by assumption)
  | with_reducible exact (checkAnyMessage_only _ _ _ _).ne (by decide) (by assumption)
  | with_reducible exact (targetActs_only _ _).ne (by decide) (by assumption)
  | with_reducible exact (checkRequestBasics_only _ _).ne (by decide) (by assumption)
  | with_reducible exact (checkAgainstRequest_only _ _ _).mono (fun _ _ h e => absurd (e ▸ h) (by decide)) id
  | with_reducible exact plain_ne_toProxy (by decide)
  | with_reducible exact plain_ne_empty (by assumption) (by decide)
  | split))

/-- Drop the statements that do not report the notice, up to the one that may. -/
macro "locate" : tactic => `(tactic| (
  repeat (refine skip_item (quiet_of ?_) ?_; focus (plain_ne; done))
  refine only_item (quiet_of ?_) ?_
  focus (plain_ne; done)))

end Httpolice.Lemmas.Check
