import Verif.Model.Payload
import Verif.Spec.HeaderForms
import Verif.Spec.Notices
import Verif.Props.Decoding

/-!
# Payloads and what is wrong with them
-/

namespace Httpolice.Spec

open Httpolice.Model Httpolice.Props

section
variable (lower : Str → Str)

/-! ## Headers about the payload -/

/-- The last `Content-Type` header is `e`, and `x` is what is written there. -/
def TypeWritten (m : Msg) (e : Entry) (x : MediaSyn) : Prop :=
  ∃ a b, m.headers = a ++ e :: b ∧ Called lower e.name "Content-Type" ∧ (∀ y ∈ b, ¬Called lower y.name "Content-Type") ∧
    x.Ok IsToken ∧ e.value = x.text

/-- The codings in these headers: names, and something unknown for every malformed `Content-Encoding`. -/
inductive CodingsWritten : List Entry → List (Elem Str) → Prop
  | nil : CodingsWritten [] []
  | other {e : Entry} {es : List Entry} {cs : List (Elem Str)} : ¬Called lower e.name "Content-Encoding" → CodingsWritten es cs →
      CodingsWritten (e :: es) cs
  | names {e : Entry} {es : List Entry} {cs : List (Elem Str)} {x : List1Syn Str} : Called lower e.name "Content-Encoding" →
      x.Ok IsToken → e.value = x.text (fun w => w) → CodingsWritten es cs → CodingsWritten (e :: es) (x.elems.map .ok ++ cs)
  | malformed {e : Entry} {es : List Entry} {cs : List (Elem Str)} : Called lower e.name "Content-Encoding" →
      (¬ ∃ x : List1Syn Str, x.Ok IsToken ∧ e.value = x.text fun w => w) → CodingsWritten es cs →
      CodingsWritten (e :: es) (.unavailable (some e.value) :: cs)

/-- The type is JSON. -/
def JsonType (x : MediaSyn) : Prop := lower x.name = str "application/json" ∨ ∃ p, lower x.name = p ++ str "+json"

/-- The type is XML. -/
def XmlType (x : MediaSyn) : Prop :=
  lower x.name = str "application/xml" ∨ lower x.name = str "text/xml" ∨ ∃ p, lower x.name = p ++ str "+xml"

/-- The type is multipart. -/
def MultipartType (x : MediaSyn) : Prop := ∃ s, lower x.name = str "multipart/" ++ s

/-- The charset that is named: in the first such parameter of `Content-Type`, or else UTF-8. -/
def CharsetNamed (m : Msg) (w : Str) : Prop :=
  (∃ e x l p l', TypeWritten lower m e x ∧ x.params.elems = l ++ p :: l' ∧ lower p.name = str "charset" ∧ p.value.content = w ∧
      ∀ q ∈ l, lower q.name ≠ str "charset") ∨
    ((∀ e x, TypeWritten lower m e x → ∀ q ∈ x.params.elems, lower q.name ≠ str "charset") ∧ w = str "utf-8")

/-- The response stands for all of what its type says. A partial response is so if it is `multipart/byteranges`, or if it is not known
what it is. -/
def Entire (request : Option Request) (r : Response) : Prop :=
  r.status ≠ 304 ∧ r.status ≠ 103 ∧
    (r.status = 206 → ∀ e x, TypeWritten lower r.fields e x → lower x.name = str "multipart/byteranges") ∧
    (∀ req, request = some req → req.method ≠ str "HEAD") ∧
    (request = none → r.body = .unavailable ∨ ∃ b, r.body = .val b ∧ b ≠ [])

/-- As `OnMessage`, but leaving out responses that are not complete. -/
def OnEntire (ex : Exchange) (t : Target) (P : Message → Prop) : Prop :=
  match t with
  | .req => OnRequest ex fun req => P req.toMessage
  | .resp i => OnResponse ex i fun r => Entire lower ex.request r ∧ P r.toMessage
  | .exch => False

variable (L : Libs) (a : Assigned) (msg : Message)

/-! ## What is in the payload -/

/-- The last codings of the body can be undone, which leaves `r`; then comes `c`. -/
def ComesTo (c r : Str) : Prop :=
  a.decoded = none ∧ ∃ b cs pre post, msg.body = .val b ∧ CodingsWritten lower msg.fields.headers cs ∧
    cs = pre ++ .ok c :: post ∧ Undone lower L.codecs post b r ∧ r ≠ []

/-- The bytes without any codings: as given, or what is left when all codings of the body are undone, or nothing if nothing is left on
the way. -/
def HasBytes (b : Str) : Prop :=
  a.decoded = some b ∨ (a.decoded = none ∧ ∃ body cs pre post, msg.body = .val body ∧
    CodingsWritten lower msg.fields.headers cs ∧ cs = pre ++ post ∧ Undone lower L.codecs post body b ∧ (pre = [] ∨ b = []))

/-- The charset that the bytes, if known, are in. -/
def InCharset (c : Str) : Prop :=
  ∃ w, CharsetNamed lower msg.fields w ∧ L.charsetName w = some c ∧ ∀ b, HasBytes lower L a msg b → ∃ s, L.decode c b = some s

/-- The text: as given, or else what the bytes are in the charset. -/
def HasText (s : Str) : Prop :=
  a.unicode = some s ∨ (a.unicode = none ∧ ∃ b c, HasBytes lower L a msg b ∧ InCharset lower L a msg c ∧ L.decode c b = some s)

/-- What is parsed as a multipart message. -/
def HasMultipart (x : EmailMessage) : Prop :=
  ∃ e t b, TypeWritten lower msg.fields e t ∧ MultipartType lower t ∧ HasBytes lower L a msg b ∧
    x = L.email (str "Content-Type: " ++ e.value ++ str "\r\n\r\n" ++ b)

/-- The bytes of a form. -/
def HasForm (b : Str) : Prop :=
  ∃ e t, TypeWritten lower msg.fields e t ∧ lower t.name = str "application/x-www-form-urlencoded" ∧ HasBytes lower L a msg b

/-- What a form may consist of: letters, digits and `% & * + - . : ; < = > ? _`. -/
def FormChar (c : Nat) : Prop := IsLetter c ∨ IsDigit c ∨ c ∈ str "%&*+-.:;<=>?_"

end

/-- The form that the target is written in. -/
def TargetSyn.form : TargetSyn → TargetForm
  | .origin _ => .origin
  | .absolute _ => .absolute
  | .authority _ => .authority
  | .asterisk => .asterisk

/-- All that is reported about payloads as such. -/
def payloadIds : List Nat := [1036, 1037, 1038, 1281, 1275, 1039, 1139, 1140, 1040]

end Httpolice.Spec
