import Verif.Model.Payload

/-!
# Exceptions from reading links

Python raises them out of `parse` when the value of a `Link` header is asked for, which the checks do
for every header of a message.
-/

namespace Httpolice.Model

/-- A link that `_process_params` has raised an exception for (syntax/rfc8288.py 16-53). -/
def raisedLink : GVal → Bool
  | .obj _ [_, .obj c []] => c == str "UnboundLocalError" || c == str "AttributeError"
  | _ => false

/-- Whether `hdr.value` raises for a header of the message (message.py 262-268, header.py 128-153). -/
def World.linkRaises (W : World) (lower : Str → Str) (m : Msg) : Bool :=
  ((m.headers ++ m.trailers).filter fun e => lower e.name == lower (str "Link")).any fun e =>
    match W.read "Link" e with
    | .list l => l.any raisedLink
    | _ => false

/-- The same for the messages of an exchange (exchange.py 57-71). -/
def World.exchangeLinkRaises (W : World) (lower : Str → Str) (ex : Exchange) : Bool :=
  (match ex.request with
    | some req => W.linkRaises lower req.fields
    | none => false) ||
  ex.responses.any fun resp => W.linkRaises lower resp.fields

end Httpolice.Model
