import Verif.Spec.Payload

/-!
# What is written in the headers of a message
-/

namespace Httpolice.Spec

open Httpolice.Model

/-! ## Places -/

section
variable (lower : Str → Str) (m : Msg) (name : String)

/-- The last header of that name is written as it should be, and `x` is what is written there. -/
def LastText {α : Type} (Ok : α → Prop) (print : α → Str) (x : α) : Prop :=
  ∃ a e b, fieldsFor m name = a ++ e :: b ∧ Called lower e.name name ∧ (∀ y ∈ b, ¬Called lower y.name name) ∧ Ok x ∧ e.value = print x

/-- One of the headers of that name is a list written as it should be, and `x` is in it. -/
def InText {α β : Type} (Ok : α → Prop) (print : α → Str) (elems : α → List β) (x : β) : Prop :=
  ∃ e ∈ fieldsFor m name, Called lower e.name name ∧ ∃ l, Ok l ∧ e.value = print l ∧ x ∈ elems l

/-- There is a header of that name. -/
def HeaderGiven : Prop := ∃ e ∈ fieldsFor m name, Called lower e.name name

end

section
variable (lower : Str → Str) (m : Msg)

/-- The media type. -/
def TypeText : MediaSyn → Prop := LastText lower m "Content-Type" (MediaSyn.Ok IsToken) MediaSyn.text

/-- How the content should be shown. -/
def DispositionText : DispSyn → Prop := LastText lower m "Content-Disposition" DispSyn.Ok DispSyn.text

/-- The user agent. -/
def AgentText : Products → Prop := LastText lower m "User-Agent" Products.Ok Products.text

/-- The policy for secure transport. -/
def PolicyText : HstsSyn → Prop := LastText lower m "Strict-Transport-Security" HstsSyn.Ok HstsSyn.text

/-- The second that is written in a header, by a date that there is. -/
def TimeText (name : String) (t : Nat) : Prop :=
  ∃ x : DateFormat × Stamp, LastText lower m name (fun x => x.2.Fits x.1) (fun x => x.2.text x.1) x ∧ x.2.Real ∧ t = x.2.seconds

/-- The number that is written in a header. -/
def NumberText (name : String) (n : Nat) : Prop := ∃ w, LastText lower m name IsNumeral (fun w => w) w ∧ n = numeral w

/-- A word in a list of at least one. -/
def WordText (name : String) : Str → Prop := InText lower m name (List1Syn.Ok IsToken) (List1Syn.text fun w => w) List1Syn.elems

/-- An allowed method. -/
def AllowText : Str → Prop := InText lower m "Allow" (ListSyn.Ok IsToken) (ListSyn.text fun w => w) ListSyn.elems

/-- A directive for caches. -/
def CacheText : Setting → Prop := InText lower m "Cache-Control" (List1Syn.Ok (Setting.Ok IsToken)) (List1Syn.text Setting.text) List1Syn.elems

/-- A warning. -/
def WarningText : WarningSyn → Prop := InText lower m "Warning" (List1Syn.Ok WarningSyn.Ok) (List1Syn.text WarningSyn.text) List1Syn.elems

/-- A protocol to change to. -/
def UpgradeText : Protocol → Prop := InText lower m "Upgrade" (List1Syn.Ok Protocol.Ok) (List1Syn.text Protocol.text) List1Syn.elems

/-- A transfer coding that is accepted. -/
def TeText : TeSyn → Prop := InText lower m "TE" (ListSyn.Ok TeSyn.Ok) (ListSyn.text TeSyn.text) ListSyn.elems

/-- A media type of patches that is accepted. -/
def PatchText : MediaSyn → Prop := InText lower m "Accept-Patch" (List1Syn.Ok (MediaSyn.Ok IsToken)) (List1Syn.text MediaSyn.text) List1Syn.elems

/-- A content coding with its weight. -/
def EncodingText : RankedSyn → Prop := InText lower m "Accept-Encoding" (ListSyn.Ok RankedSyn.Ok) (ListSyn.text RankedSyn.text) ListSyn.elems

/-- Credentials, for the server or a proxy. -/
def CredentialsText (x : AuthSyn) : Prop :=
  LastText lower m "Authorization" AuthSyn.Ok AuthSyn.text x ∨ LastText lower m "Proxy-Authorization" AuthSyn.Ok AuthSyn.text x

/-- A challenge, by the server or a proxy. -/
def ChallengeText (x : AuthSyn) : Prop :=
  ∃ name ∈ ["WWW-Authenticate", "Proxy-Authenticate"], InText lower m name (List1Syn.Ok AuthSyn.Ok) (List1Syn.text AuthSyn.text) List1Syn.elems x

/-- A challenge by the server, of the scheme `Bearer`. -/
def BearerText (x : AuthSyn) : Prop :=
  InText lower m "WWW-Authenticate" (List1Syn.Ok AuthSyn.Ok) (List1Syn.text AuthSyn.text) List1Syn.elems x ∧ SameWord x.scheme (str "Bearer")

/-- An element of `HTTPolice-Silence`, wherever the header is. -/
def SilenceText (x : SilenceSyn) : Prop :=
  ∃ e ∈ m.headers ++ m.trailers, Called lower e.name "HTTPolice-Silence" ∧
    ∃ l : ListSyn SilenceSyn, l.Ok SilenceSyn.Ok ∧ e.value = l.text SilenceSyn.text ∧ x ∈ l.elems

end

/-- A number that is silenced by what is written in `HTTPolice-Silence`: in a request, for itself unless `resp` follows and for
responses if it does; in a response, for itself. -/
def SilencedText (lower : Str → Str) (ex : Exchange) (id : Nat) : Target → Prop
  | .exch => False
  | .req => ∃ req, ex.request = some req ∧ ∃ x, SilenceText lower req.fields x ∧ numeral x.number = id ∧ x.resp = none
  | .resp i => (∃ r, ex.responses[i]? = some r ∧ ∃ x, SilenceText lower r.fields x ∧ numeral x.number = id) ∨
      ∃ req, ex.request = some req ∧ ∃ x, SilenceText lower req.fields x ∧ numeral x.number = id ∧ x.resp ≠ none

/-! ## Words -/

/-- A word is there more than once, in whatever case. -/
def Repeated (l : List Str) : Prop := ∃ a x b y c, l = a ++ x :: b ++ y :: c ∧ SameWord x y

/-- The parameters that follow the scheme; if nothing does, there are none. -/
def Details.pairs : Details → Option (List Param)
  | .nothing => some []
  | .token _ _ => none
  | .params _ l => some l.elems

/-- Media types that are not to be used any more (known/media_type.csv). -/
def deprecatedTypes : List String := [
  "application/font-sfnt", "application/font-woff", "application/smil", "image/x-emf", "image/x-wmf", "message/news", "text/directory",
  "text/ecmascript", "text/javascript"]

/-- Media types known not to be patches (known/media_type.csv). -/
def notPatches : List String := [
  "application/json", "application/x-www-form-urlencoded", "application/xml", "text/event-stream", "text/html", "text/plain", "text/xml"]

/-- Products that are but libraries (known/product.csv). -/
def libraries : List String := [
  "Apache-HttpAsyncClient", "Apache-HttpClient", "CFNetwork", "CPython", "Dalvik", "Darwin", "Go-http-client", "Java", "Linux", "OpenSSL",
  "PHP", "PyPy", "PycURL", "Python-urllib", "Ruby", "android-async-http", "hyper", "libcurl", "libidn", "libsoup", "libwww-perl",
  "lua-http", "nghttp2", "okhttp", "php-requests", "python-requests", "zlib"]

/-- All of the products. -/
def Products.all (x : Products) : List Protocol :=
  x.first :: x.rest.filterMap fun y => match y.2 with | .product p => some p | .comment _ => none

/-- The name of the coding. -/
def TeSyn.name : TeSyn → Str
  | .trailers w => w
  | .coding c _ => c.name

end Httpolice.Spec
