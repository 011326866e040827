import Verif.Model.Catalogue
import Verif.Model.Framing
import Verif.Model.Payload

/-!
# Model of analysing captured streams (httpolice/framing1.py 34-90, httpolice/exchange.py 17-36, 57-71)

Here the parameters of framing (`FrameEnv`) are given by the grammars of headers and by the decoders,
and the exchanges that are read from streams are given to the checks. Notices of header views that
framing is the first to look at (1000 and 1013 on Transfer-Encoding and Content-Length) are reported
once, and are counted among those of the checks.
-/

namespace Httpolice.Model

/-- `coding == tc.chunked`, `coding in [tc.gzip, tc.x_gzip]`, `coding == tc.deflate`
(framing1.py 145, 224, 265-284): `TransferCoding` is `CaseInsensitive` (structure.py 153-166, 232),
and `Parametrized` is compared by its item (structure.py 62-70). -/
def codingOf (lower : Str → Str) (name : Str) : Coding :=
  if lower name = lower (str "chunked") then .chunked
  else if lower name = lower (str "gzip") ∨ lower name = lower (str "x-gzip") then .gzip
  else if lower name = lower (str "deflate") then .deflate
  else .other

/-- The parameters of framing: Transfer-Encoding is read by its grammar (syntax/rfc7230.py 124-133), and the
decoders are those of codings.py. -/
def World.frame (W : World) (lower : Str → Str) (L : Libs) : FrameEnv where
  te v := match someOf (fun v => strText (itemOf v))
      (W.read "Transfer-Encoding" ⟨str "Transfer-Encoding", v⟩) with
    | .list l => some (l.map (codingOf lower))
    | _ => none
  gunzip := L.codecs.gunzip
  inflate := L.codecs.inflate

/-- `msg.body` as the checks see it (httpolice/framing1.py 122-158, 203-236). -/
def bodyValue : Body → PyVal Str
  | .bytes b => .val b
  | .unavailable _ => .unavailable

/-- A message for the checks, with nothing known of its payload yet (httpolice/framing1.py 103-119, 180-200). -/
def FMsg.message (version : Str) (m : FMsg) : Message :=
  ⟨some version, ⟨m.entries, m.trailers⟩, bodyValue m.body, ⟨[], none, none⟩⟩

/-- The `Request` object (framing1.py 116-117). -/
def FReq.request (scheme : Option Str) (r : FReq) : Request :=
  { r.msg.message r.version with scheme := scheme, method := r.method, target := r.target }

/-- The `Response` object (framing1.py 195-197). -/
def FResp.response (r : FResp) : Response :=
  { r.msg.message r.version with status := (r.status : Int), reason := some r.reason }

/-- The `Exchange` object (framing1.py 66, 84; exchange.py 17-35). -/
def streamExchange (scheme : Option Str) (req : Option FReq) (resps : List FResp) : Exchange :=
  ⟨req.map (FReq.request scheme), resps.map FResp.response⟩

/-- The exchange as it is checked (httpolice/exchange.py 17-36). -/
def World.heard (W : World) (base : Env) (L : Libs) (scheme : Option Str) (req : Option FReq)
    (resps : List FResp) : Exchange :=
  loadPayloads L (W.all base) W.codings (fun _ => {}) (streamExchange scheme req resps)

/-! ## What framing says -/

/-- The keyword arguments of `complain` for the notices of framing (framing1.py 74-97, 130-137, 149,
169, 209, 214, 267-283, 326-332), by kinds of objects; `place` of 1298 is a header view or text, and
1016 and 1224 are given a place when they are dumped (stream.py 95-99). `named` stands for a stream or
a parse error. -/
def framingArguments : List (Nat × List (List (String × Thing))) := [
  (1001, [[]]),
  (1002, [[]]),
  (1003, [[("coding", .plain)]]),
  (1004, [[("error", .named)]]),
  (1005, [[("error", .named)]]),
  (1006, [[("error", .named)]]),
  (1007, [[("stream", .named), ("offset", .plain)]]),
  (1008, [[("stream", .named)]]),
  (1009, [[("error", .named)]]),
  (1010, [[("stream", .named), ("offset", .plain)]]),
  (1011, [[]]),
  (1012, [[]]),
  (1016, [[("place", .plain)]]),
  (1027, [[("coding", .plain), ("error", .plain)]]),
  (1224, [[("place", .plain)]]),
  (1298, [[("place", .view false false), ("size", .plain), ("max_size", .plain)],
    [("place", .plain), ("size", .plain), ("max_size", .plain)]])]

/-- `resolve_reference` (reports/common.py 10-15) in a context of such objects, on an object that goes
by the name `self.1` (blackboard.py 55). -/
def resolveThing (hasRequest : Bool) (self : String × Thing) (ctx : List (String × Thing)) :
    List String → Option Thing
  | [] => none
  | key :: path =>
    path.foldl (fun node a => node.bind fun n => getattr hasRequest n a)
      (match ctx.lookup key with
        | some x => some x
        | none => if key = self.1 then some self.2 else none)

end Httpolice.Model
