import Verif.Model.CheckResponse
import Verif.Model.Cli
import Verif.Model.HeaderTable
import Verif.Model.Knowledge

/-!
# The catalogue of notices and the references in them

`httpolice/notices.xml` is the catalogue: every notice has an ID, a severity and a text with
references to the data of the complaint. `Blackboard.complain` (blackboard.py 52-58) takes the
notice from the catalogue by ID, which raises `KeyError` if there is no such notice, and the context
is what the reporting code gives as keyword arguments, with the object itself under its `self_name`.
Both kinds of reports find the values of references with `resolve_reference`
(reports/common.py 10-15), which raises `KeyError` or `AttributeError` if there is no such value.
-/

namespace Httpolice.Model

/-- What a notice of notices.xml says of itself: `id` and the name of the element
(notice.py 49-58), the references of the elements `<var/>` and `<ref/>` (notice.py 109-125), and
whether the element `<exception/>` (notice.py 128-131), whose value is `context['error']`
(reports/text.py, reports/html.py), is in the text. -/
structure NoticeRow where
  id : Nat
  severity : Severity
  references : List (List String)
  details : Bool
deriving DecidableEq, Repr

/-- The notices of notices.xml, in order (transcribed by a script). References are given once per
notice; the whole of the text is in `NoticeFile`. -/
def noticeRows : List NoticeRow := [
  ⟨1000, .error, [["place"]], true⟩,
  ⟨1001, .error, [], false⟩,
  ⟨1002, .error, [], false⟩,
  ⟨1003, .debug, [["coding"]], false⟩,
  ⟨1004, .error, [["msg", "headers", "content_length", "value"], ["error", "name"]], false⟩,
  ⟨1005, .error, [], true⟩,
  ⟨1006, .error, [], true⟩,
  ⟨1007, .debug, [["offset"], ["stream", "name"]], false⟩,
  ⟨1008, .error, [["stream", "name"]], false⟩,
  ⟨1009, .error, [], true⟩,
  ⟨1010, .debug, [["offset"], ["stream", "name"]], false⟩,
  ⟨1011, .debug, [], false⟩,
  ⟨1012, .debug, [["msg", "status"]], false⟩,
  ⟨1013, .error, [["header"], ["entries"]], false⟩,
  ⟨1014, .comment, [["place"], ["num"]], false⟩,
  ⟨1015, .error, [["place"]], false⟩,
  ⟨1016, .error, [], false⟩,
  ⟨1017, .comment, [["place"], ["char"]], false⟩,
  ⟨1018, .error, [["msg", "status"]], false⟩,
  ⟨1019, .error, [["msg", "status"]], false⟩,
  ⟨1020, .error, [], false⟩,
  ⟨1021, .comment, [["msg", "method"]], false⟩,
  ⟨1022, .comment, [["msg", "method"]], false⟩,
  ⟨1023, .error, [["msg", "status"]], false⟩,
  ⟨1024, .error, [["msg", "status"]], false⟩,
  ⟨1025, .comment, [], false⟩,
  ⟨1026, .error, [["entry"]], false⟩,
  ⟨1027, .error, [["coding"]], true⟩,
  ⟨1028, .error, [], false⟩,
  ⟨1029, .error, [], false⟩,
  ⟨1030, .comment, [["header"]], false⟩,
  ⟨1031, .error, [], false⟩,
  ⟨1032, .comment, [], false⟩,
  ⟨1033, .error, [["msg", "status"], ["msg", "request", "version"],
    ["msg", "request", "headers", "host"]], false⟩,
  ⟨1034, .error, [["header"]], false⟩,
  ⟨1035, .comment, [["msg", "headers", "content_type", "value"]], false⟩,
  ⟨1036, .debug, [["coding"]], false⟩,
  ⟨1037, .error, [["coding"]], true⟩,
  ⟨1038, .error, [["msg", "displayable_body"]], true⟩,
  ⟨1039, .error, [["msg", "displayable_body"]], true⟩,
  ⟨1040, .error, [["char"], ["msg", "displayable_body"]], false⟩,
  ⟨1041, .comment, [["msg", "displayable_body"]], false⟩,
  ⟨1042, .comment, [["param"]], false⟩,
  ⟨1045, .error, [["msg", "target"]], true⟩,
  ⟨1046, .error, [], false⟩,
  ⟨1047, .comment, [], false⟩,
  ⟨1048, .error, [], false⟩,
  ⟨1049, .error, [["msg", "status"], ["msg", "headers", "upgrade"],
    ["msg", "request", "headers", "upgrade"]], false⟩,
  ⟨1050, .error, [], false⟩,
  ⟨1051, .error, [["msg", "request", "version"]], false⟩,
  ⟨1052, .error, [["header"], ["msg", "status"]], false⟩,
  ⟨1053, .comment, [["header"]], false⟩,
  ⟨1054, .error, [["msg", "headers", "transfer_encoding"]], false⟩,
  ⟨1055, .comment, [["msg", "status"], ["msg", "request", "method"]], false⟩,
  ⟨1056, .comment, [["msg", "displayable_body"]], false⟩,
  ⟨1057, .comment, [], false⟩,
  ⟨1058, .error, [["msg", "status"], ["msg", "request", "headers", "content_range"]], false⟩,
  ⟨1059, .comment, [["msg", "displayable_body"]], false⟩,
  ⟨1060, .error, [["msg", "status"]], false⟩,
  ⟨1061, .comment, [["msg", "displayable_body"]], false⟩,
  ⟨1062, .error, [], false⟩,
  ⟨1063, .error, [["header"]], false⟩,
  ⟨1064, .error, [["header"]], false⟩,
  ⟨1066, .error, [], false⟩,
  ⟨1067, .comment, [["msg", "method"]], false⟩,
  ⟨1068, .error, [], false⟩,
  ⟨1070, .comment, [], false⟩,
  ⟨1071, .error, [["msg", "status"], ["msg", "request", "version"]], false⟩,
  ⟨1072, .error, [["msg", "request", "method"]], false⟩,
  ⟨1073, .comment, [], false⟩,
  ⟨1074, .error, [["msg", "request", "method"]], false⟩,
  ⟨1076, .error, [["msg", "displayable_body"]], false⟩,
  ⟨1077, .comment, [], false⟩,
  ⟨1078, .comment, [], false⟩,
  ⟨1079, .comment, [], false⟩,
  ⟨1080, .error, [], false⟩,
  ⟨1081, .comment, [], false⟩,
  ⟨1082, .error, [], false⟩,
  ⟨1083, .error, [], false⟩,
  ⟨1084, .comment, [], false⟩,
  ⟨1085, .error, [["msg", "status"], ["msg", "request", "target"]], false⟩,
  ⟨1086, .error, [["msg", "status"], ["msg", "request", "target"]], false⟩,
  ⟨1087, .comment, [["msg", "status"]], false⟩,
  ⟨1088, .error, [], false⟩,
  ⟨1089, .error, [], false⟩,
  ⟨1090, .error, [], false⟩,
  ⟨1092, .comment, [], false⟩,
  ⟨1093, .comment, [["library"]], false⟩,
  ⟨1094, .comment, [], false⟩,
  ⟨1095, .error, [["msg", "request", "method"]], false⟩,
  ⟨1096, .comment, [], false⟩,
  ⟨1097, .error, [["msg", "request", "headers", "content_length", "value"],
    ["msg", "request", "headers", "content_length"]], false⟩,
  ⟨1098, .error, [], false⟩,
  ⟨1099, .error, [], false⟩,
  ⟨1100, .error, [], false⟩,
  ⟨1101, .error, [], false⟩,
  ⟨1102, .error, [["protocol"], ["msg", "headers", "upgrade"],
    ["msg", "request", "headers", "upgrade"]], false⟩,
  ⟨1103, .error, [["protocol"], ["msg", "request", "headers", "upgrade"]], false⟩,
  ⟨1104, .comment, [["msg", "status"]], false⟩,
  ⟨1105, .error, [["msg", "request", "version"], ["msg", "version"]], false⟩,
  ⟨1106, .comment, [], false⟩,
  ⟨1107, .error, [["place"]], false⟩,
  ⟨1108, .error, [["place"], ["date"], ["claimed"], ["actual"]], false⟩,
  ⟨1109, .error, [], false⟩,
  ⟨1110, .comment, [["msg", "status"]], false⟩,
  ⟨1111, .error, [], false⟩,
  ⟨1112, .comment, [["msg", "status"]], false⟩,
  ⟨1113, .comment, [["msg", "status"]], false⟩,
  ⟨1114, .error, [["msg", "request", "method"]], false⟩,
  ⟨1115, .error, [["msg", "request", "method"], ["msg", "status"]], false⟩,
  ⟨1116, .error, [["coding"]], false⟩,
  ⟨1117, .comment, [["msg", "request", "headers", "accept_language"]], false⟩,
  ⟨1118, .error, [], false⟩,
  ⟨1119, .comment, [["place"]], false⟩,
  ⟨1120, .error, [], false⟩,
  ⟨1121, .error, [["msg", "status"], ["msg", "request", "method"],
    ["msg", "request", "headers", "if_none_match"]], false⟩,
  ⟨1122, .error, [["msg", "method"]], false⟩,
  ⟨1123, .comment, [["msg", "status"], ["msg", "request", "method"],
    ["msg", "request", "headers", "if_modified_since"]], false⟩,
  ⟨1124, .error, [["msg", "request", "method"]], false⟩,
  ⟨1125, .error, [["msg", "status"]], false⟩,
  ⟨1127, .comment, [["header"]], false⟩,
  ⟨1128, .error, [["msg", "request", "method"],
    ["msg", "request", "headers", "if_modified_since"]], false⟩,
  ⟨1129, .error, [["msg", "request", "method"]], false⟩,
  ⟨1130, .error, [["header"], ["msg", "method"]], false⟩,
  ⟨1131, .comment, [["header"]], false⟩,
  ⟨1132, .error, [["msg", "method"]], false⟩,
  ⟨1133, .error, [["place"]], false⟩,
  ⟨1134, .error, [], false⟩,
  ⟨1135, .error, [], false⟩,
  ⟨1136, .error, [], false⟩,
  ⟨1137, .error, [["msg", "request", "method"], ["msg", "request", "headers", "range"]], false⟩,
  ⟨1138, .error, [], false⟩,
  ⟨1139, .error, [], false⟩,
  ⟨1140, .error, [["msg", "displayable_body"]], false⟩,
  ⟨1141, .error, [["part_num"], ["msg", "displayable_body"],
    ["msg", "headers", "content_type"]], false⟩,
  ⟨1142, .comment, [["part_num"], ["msg", "displayable_body"],
    ["msg", "headers", "content_type"]], false⟩,
  ⟨1143, .error, [["msg", "headers", "content_type"]], false⟩,
  ⟨1144, .error, [["msg", "request", "headers", "range"],
    ["msg", "headers", "content_type"]], false⟩,
  ⟨1145, .error, [["msg", "request", "headers", "if_range"]], false⟩,
  ⟨1146, .comment, [["header"], ["msg", "request", "headers", "if_range"]], false⟩,
  ⟨1147, .error, [["msg", "status"]], false⟩,
  ⟨1148, .error, [["place"]], false⟩,
  ⟨1149, .error, [], false⟩,
  ⟨1150, .comment, [["msg", "request", "headers", "range"]], false⟩,
  ⟨1151, .error, [["place"]], false⟩,
  ⟨1152, .error, [["directive"]], false⟩,
  ⟨1153, .error, [["directive"]], false⟩,
  ⟨1154, .comment, [["directive"]], false⟩,
  ⟨1155, .comment, [["directive"]], false⟩,
  ⟨1156, .error, [["entry"], ["name"]], false⟩,
  ⟨1157, .error, [["entry"], ["name"]], false⟩,
  ⟨1158, .error, [["place"], ["name"], ["value"]], true⟩,
  ⟨1159, .error, [], false⟩,
  ⟨1160, .comment, [["pragma"]], false⟩,
  ⟨1161, .comment, [], false⟩,
  ⟨1162, .comment, [], false⟩,
  ⟨1163, .error, [["code"]], false⟩,
  ⟨1164, .error, [["code"]], false⟩,
  ⟨1165, .error, [["code"]], false⟩,
  ⟨1166, .error, [], false⟩,
  ⟨1167, .error, [["msg", "status"]], false⟩,
  ⟨1168, .debug, [], false⟩,
  ⟨1169, .debug, [["code"]], false⟩,
  ⟨1170, .comment, [["msg", "headers", "age", "value"],
    ["msg", "request", "headers", "cache_control", "max_age"],
    ["msg", "request", "headers", "cache_control"]], false⟩,
  ⟨1171, .comment, [["directive"], ["msg", "method"]], false⟩,
  ⟨1172, .error, [["msg", "request", "method"]], false⟩,
  ⟨1173, .error, [["msg", "request", "headers", "cache_control"]], false⟩,
  ⟨1174, .error, [["msg", "request", "headers", "pragma"]], false⟩,
  ⟨1175, .error, [], false⟩,
  ⟨1176, .error, [], false⟩,
  ⟨1177, .error, [["msg", "status"]], false⟩,
  ⟨1178, .debug, [], false⟩,
  ⟨1179, .debug, [], false⟩,
  ⟨1180, .comment, [["msg", "headers", "age"]], false⟩,
  ⟨1181, .error, [], false⟩,
  ⟨1182, .error, [["msg", "headers", "cache_control"]], false⟩,
  ⟨1183, .comment, [["code"]], false⟩,
  ⟨1184, .comment, [], false⟩,
  ⟨1185, .comment, [], false⟩,
  ⟨1186, .comment, [], false⟩,
  ⟨1187, .error, [], false⟩,
  ⟨1188, .comment, [], false⟩,
  ⟨1189, .debug, [], false⟩,
  ⟨1190, .debug, [], false⟩,
  ⟨1191, .error, [], false⟩,
  ⟨1192, .error, [], false⟩,
  ⟨1193, .error, [["directive1"], ["directive2"]], false⟩,
  ⟨1194, .error, [], false⟩,
  ⟨1195, .error, [], false⟩,
  ⟨1196, .error, [["place"]], false⟩,
  ⟨1197, .comment, [["header"]], false⟩,
  ⟨1198, .error, [["msg", "status"]], false⟩,
  ⟨1199, .error, [["msg", "status"]], false⟩,
  ⟨1200, .comment, [["header"]], false⟩,
  ⟨1201, .comment, [], false⟩,
  ⟨1202, .error, [["msg", "status"]], false⟩,
  ⟨1203, .comment, [], false⟩,
  ⟨1204, .comment, [], false⟩,
  ⟨1205, .comment, [], false⟩,
  ⟨1206, .error, [["header"]], false⟩,
  ⟨1207, .error, [["header"], ["param"]], false⟩,
  ⟨1208, .error, [["header"], ["charset"]], false⟩,
  ⟨1209, .error, [["header"]], false⟩,
  ⟨1210, .error, [["header"]], true⟩,
  ⟨1211, .error, [["header"]], false⟩,
  ⟨1212, .error, [["header"], ["char"]], false⟩,
  ⟨1213, .comment, [["msg", "headers", "content_type", "value"]], false⟩,
  ⟨1214, .comment, [["msg", "request", "headers", "content_type", "value"],
    ["msg", "request", "headers", "content_type"], ["msg", "status"]], false⟩,
  ⟨1215, .comment, [], false⟩,
  ⟨1216, .comment, [], false⟩,
  ⟨1217, .error, [], false⟩,
  ⟨1218, .error, [], false⟩,
  ⟨1219, .comment, [], false⟩,
  ⟨1220, .error, [["directive"], ["msg", "headers", "strict_transport_security"]], false⟩,
  ⟨1221, .error, [], false⟩,
  ⟨1222, .error, [["place"], ["date"]], false⟩,
  ⟨1223, .error, [["place"], ["time"]], false⟩,
  ⟨1224, .error, [["place"]], false⟩,
  ⟨1225, .error, [["name"], ["place"]], false⟩,
  ⟨1226, .comment, [["place"]], false⟩,
  ⟨1227, .comment, [["patch_type"]], false⟩,
  ⟨1228, .error, [], false⟩,
  ⟨1230, .error, [], false⟩,
  ⟨1231, .error, [], false⟩,
  ⟨1232, .error, [["msg", "headers", "upgrade"],
    ["msg", "request", "headers", "http2_settings"]], false⟩,
  ⟨1233, .error, [], false⟩,
  ⟨1234, .error, [], false⟩,
  ⟨1235, .comment, [], false⟩,
  ⟨1236, .debug, [["msg", "target"], ["msg", "version"]], false⟩,
  ⟨1237, .error, [], false⟩,
  ⟨1238, .comment, [["directive1"], ["directive2"]], false⟩,
  ⟨1239, .error, [["msg", "displayable_body"]], false⟩,
  ⟨1240, .error, [["msg", "displayable_body"]], false⟩,
  ⟨1241, .error, [], false⟩,
  ⟨1242, .comment, [], false⟩,
  ⟨1243, .comment, [], false⟩,
  ⟨1244, .error, [["header"], ["msg", "version"]], false⟩,
  ⟨1245, .error, [["msg", "version"]], false⟩,
  ⟨1246, .error, [["msg", "version"]], false⟩,
  ⟨1247, .error, [["param"]], false⟩,
  ⟨1248, .comment, [], false⟩,
  ⟨1249, .comment, [], false⟩,
  ⟨1250, .comment, [], false⟩,
  ⟨1251, .comment, [], false⟩,
  ⟨1252, .comment, [], false⟩,
  ⟨1253, .error, [["charset"], ["place"]], false⟩,
  ⟨1254, .error, [["charset"], ["place"]], true⟩,
  ⟨1256, .error, [["actual"], ["correct"]], false⟩,
  ⟨1257, .error, [["authority"]], true⟩,
  ⟨1258, .comment, [["msg", "version"]], false⟩,
  ⟨1260, .error, [], false⟩,
  ⟨1261, .error, [], false⟩,
  ⟨1262, .error, [], false⟩,
  ⟨1263, .error, [], false⟩,
  ⟨1264, .error, [], false⟩,
  ⟨1265, .error, [["param"]], false⟩,
  ⟨1266, .error, [["param"], ["value"]], true⟩,
  ⟨1267, .comment, [["msg", "request", "headers", "authorization"], ["msg", "status"],
    ["msg", "headers", "www_authenticate"]], false⟩,
  ⟨1268, .comment, [["error_code"], ["expected_status"], ["msg", "status"],
    ["msg", "headers", "www_authenticate"]], false⟩,
  ⟨1269, .comment, [["param"]], false⟩,
  ⟨1270, .comment, [["msg", "target"]], false⟩,
  ⟨1271, .comment, [["where"]], false⟩,
  ⟨1272, .comment, [["msg", "target"]], false⟩,
  ⟨1273, .error, [["header"]], false⟩,
  ⟨1274, .error, [["header"], ["header", "value", "item"]], false⟩,
  ⟨1275, .comment, [["msg", "displayable_body"]], false⟩,
  ⟨1276, .comment, [["header"], ["wildcard"], ["value"]], false⟩,
  ⟨1277, .comment, [["headers"]], false⟩,
  ⟨1278, .comment, [["path"]], false⟩,
  ⟨1279, .error, [["path1"], ["path2"]], false⟩,
  ⟨1280, .comment, [["header"]], false⟩,
  ⟨1281, .error, [["msg", "guessed_charset"], ["msg", "headers", "content_type"],
    ["msg", "displayable_body"]], false⟩,
  ⟨1282, .error, [["bad"], ["place"], ["good"]], false⟩,
  ⟨1283, .comment, [["msg", "request", "method"]], false⟩,
  ⟨1284, .comment, [], false⟩,
  ⟨1285, .comment, [["name"]], false⟩,
  ⟨1286, .error, [["name"], ["value"], ["msg", "request", "headers", "prefer"]], false⟩,
  ⟨1287, .error, [["msg", "method"]], false⟩,
  ⟨1288, .error, [], false⟩,
  ⟨1289, .error, [], false⟩,
  ⟨1290, .error, [], false⟩,
  ⟨1291, .comment, [["msg", "request", "headers", "prefer"]], false⟩,
  ⟨1292, .error, [["msg", "method"]], true⟩,
  ⟨1293, .error, [["header"]], true⟩,
  ⟨1294, .error, [["msg", "status"]], true⟩,
  ⟨1295, .error, [["msg", "method"], ["uppercase"]], false⟩,
  ⟨1296, .error, [["param"], ["entry"]], false⟩,
  ⟨1297, .comment, [["entry"], ["n_elements"]], false⟩,
  ⟨1298, .debug, [["place"], ["size"], ["max_size"]], false⟩,
  ⟨1299, .comment, [["entry"]], false⟩,
  ⟨1300, .comment, [["entry"]], false⟩,
  ⟨1301, .comment, [], false⟩,
  ⟨1302, .comment, [], false⟩,
  ⟨1303, .comment, [], false⟩,
  ⟨1304, .error, [["msg", "status"], ["previous", "status"]], false⟩,
  ⟨1305, .error, [["msg", "request", "headers", "expect"]], false⟩,
  ⟨1306, .error, [["msg", "request", "version"]], false⟩,
  ⟨1307, .comment, [["place"]], false⟩,
  ⟨1308, .comment, [["place"]], false⟩,
  ⟨1309, .error, [["place"]], false⟩,
  ⟨1310, .error, [], false⟩]

/-- `all_notices[notice_id]` (notice.py 171-183, blackboard.py 54); `none` stands for `KeyError`. -/
def noticeFor (id : Nat) : Option NoticeRow := noticeRows.find? fun r => r.id == id

/-- The kinds of objects that references lead to: messages, the attribute `headers` of a message,
header views, parsed values that are `Parametrized`, and anything else, of which no attributes are
taken (httpolice/reports/common.py 10-16). -/
inductive Thing
  | request
  | response
  | exchange
  | headers
  /-- a header view: whether it is a `CacheControlView`, and whether its value is a `Parametrized` -/
  | view (directives : Bool) (pair : Bool)
  | pair
  /-- a stream or a `ParseError`, which have a name (stream.py 20, parse.py 166) -/
  | named
  | plain
  /-- `None` -/
  | nothing
deriving DecidableEq, Repr

/-- Attributes of every message (message.py 44-190). -/
def messageAttrs : List String :=
  ["version", "body", "displayable_body", "guessed_charset", "decoded_body", "unicode_body",
   "json_data", "xml_data", "multipart_data", "full_content"]

/-- `getattr(node, attr_name)` (reports/common.py 14); `none` stands for `AttributeError`.
`hasRequest` tells if the response has a request (exchange.py 31-34). Attributes of
`msg.headers` are those of the accessor `h` (header.py 44-45, known/__init__.py 148-152); attributes
of a header view are its own (header.py 97-214), and those of the accessor of directives
(header.py 362-363). Attributes of other objects are left out: `none`. -/
def getattr (hasRequest : Bool) : Thing → String → Option Thing
  | .request, a =>
    if a = "headers" then some .headers
    else if a = "method" ∨ a = "target" ∨ a = "scheme" ∨ a ∈ messageAttrs then some .plain
    else none
  | .response, a =>
    if a = "headers" then some .headers
    else if a = "request" then some (if hasRequest then .request else .nothing)
    else if a = "status" ∨ a = "reason" ∨ a ∈ messageAttrs then some .plain
    else none
  | .headers, a =>
    if headerRows.any fun r => plainName (str r.key) == str a then
      some (.view (a == "cache_control") false)
    else none
  | .view directives pair, a =>
    if a = "value" then some (if pair then .pair else .plain)
    else if a = "name" ∨ a = "entries" ∨ a = "is_present" ∨ a = "is_absent" ∨ a = "is_okay" then
      some .plain
    else if directives && cacheDirectiveRows.any fun r => plainName (str r.1) == str a then
      some .plain
    else none
  | .pair, a => if a = "item" ∨ a = "param" then some .plain else none
  | .named, a => if a = "name" then some .plain else none
  | .exchange, _ => none
  | .plain, _ => none
  | .nothing, _ => none

/-- The value of `Authorization` or `Proxy-Authorization` in the request, if okay, is a
`Parametrized` (syntax/rfc7235.py). -/
def isCredentials (E : Env) (ex : Exchange) (t : Target) (name : Str) : Bool :=
  match t, ex.request with
  | .req, some req => ["Authorization", "Proxy-Authorization"].any fun h =>
      name == E.lower (str h) &&
        (match E.single req.fields h E.grammars.authorization with
          | .val _ => true
          | _ => false)
  | _, _ => false

/-- What kind of object was given as a keyword argument of `complain` (httpolice/blackboard.py 52-58). -/
def thingOf (E : Env) (ex : Exchange) (t : Target) : Datum → Thing
  | .header name => .view (name == E.lower (str "Cache-Control")) (isCredentials E ex t name)
  | .response _ => .response
  | _ => .plain

/-- `dict({self.self_name: self}, **kwargs)[key]` (blackboard.py 55; message.py 42,
exchange.py 12). -/
def contextGet (E : Env) (ex : Exchange) (t : Target) (ctx : Ctx) (key : String) : Option Thing :=
  match ctx.lookup key with
  | some d => some (thingOf E ex t d)
  | none =>
    match t with
    | .exch => if key = "exch" then some .exchange else none
    | .req => if key = "msg" then some .request else none
    | .resp _ => if key = "msg" then some .response else none

/-- `resolve_reference` (reports/common.py 10-15); `none` stands for an exception. -/
def resolveReference (E : Env) (ex : Exchange) (t : Target) (ctx : Ctx) :
    List String → Option Thing
  | [] => none
  | key :: path =>
    path.foldl (fun node a => node.bind fun n => getattr ex.request.isSome n a)
      (contextGet E ex t ctx key)

end Httpolice.Model
