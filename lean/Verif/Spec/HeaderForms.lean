import Verif.Spec.AltSvc
import Verif.Spec.Links
import Verif.Spec.Ranges
import Verif.Spec.Written

/-!
# How headers are to be written, and what may be reported on them
-/

namespace Httpolice.Spec

open Httpolice.Model

/-- It is the text of something in order. -/
def WrittenAs {α : Type} (Ok : α → Prop) (print : α → Str) (s : Str) : Prop := ∃ x, Ok x ∧ s = print x

/-- A header: how it is to be written, and which notices there may be on a value that is written so. -/
structure FormRow where
  key : String
  form : Str → Prop
  ids : List Nat

/-- Notices about dates: the format, the day of the week, the day, the time. -/
def dateIds : List Nat := [1107, 1108, 1222, 1223]

/-- A list of tokens, with at least one in it. -/
abbrev SomeTokens : Str → Prop := WrittenAs (List1Syn.Ok IsToken) (List1Syn.text fun w => w)

/-- A list of tokens. -/
abbrev AnyTokens : Str → Prop := WrittenAs (ListSyn.Ok IsToken) (ListSyn.text fun w => w)

/-- A date in one of the three formats. -/
abbrev IsDate : Str → Prop := WrittenAs (fun x : DateFormat × Stamp => x.2.Fits x.1) (fun x => x.2.text x.1)

abbrev IsChallenges : Str → Prop := WrittenAs (List1Syn.Ok AuthSyn.Ok) (List1Syn.text AuthSyn.text)

abbrev IsCredentials : Str → Prop := WrittenAs AuthSyn.Ok AuthSyn.text

abbrev IsProducts : Str → Prop := WrittenAs Products.Ok Products.text

abbrev IsTags : Str → Prop := WrittenAs MatchSyn.Ok MatchSyn.text

/-- The headers with a syntax. -/
def forms : List FormRow := [
  ⟨"Accept", WrittenAs (ListSyn.Ok AcceptSyn.Ok) (ListSyn.text AcceptSyn.text), [1017, 1151, 1282, 1299, 1300]⟩,
  ⟨"Accept-Charset", WrittenAs (List1Syn.Ok RankedSyn.Ok) (List1Syn.text RankedSyn.text), [1151]⟩,
  ⟨"Accept-Encoding", WrittenAs (ListSyn.Ok RankedSyn.Ok) (ListSyn.text RankedSyn.text), [1151]⟩,
  ⟨"Accept-Language", WrittenAs (List1Syn.Ok RankedSyn.LanguageOk) (List1Syn.text RankedSyn.text), [1151]⟩,
  ⟨"Accept-Patch", WrittenAs (List1Syn.Ok (MediaSyn.Ok IsToken)) (List1Syn.text MediaSyn.text), [1017, 1151, 1282, 1299, 1300]⟩,
  ⟨"Accept-Post", WrittenAs (ListSyn.Ok (MediaSyn.Ok IsToken)) (ListSyn.text MediaSyn.text), [1017, 1151, 1282, 1299, 1300]⟩,
  ⟨"Accept-Ranges", WrittenAs AcceptRangesSyn.Ok AcceptRangesSyn.text, [1151]⟩,
  ⟨"Access-Control-Allow-Credentials", fun s => s = str "true", []⟩,
  ⟨"Access-Control-Allow-Headers", AnyTokens, [1151]⟩,
  ⟨"Access-Control-Allow-Methods", AnyTokens, [1151]⟩,
  ⟨"Access-Control-Allow-Origin", fun s => IsOrigin s ∨ s = str "null" ∨ s = str "*", []⟩,
  ⟨"Access-Control-Expose-Headers", AnyTokens, [1151]⟩,
  ⟨"Access-Control-Max-Age", IsNumeral, []⟩,
  ⟨"Access-Control-Request-Headers", SomeTokens, [1151]⟩,
  ⟨"Access-Control-Request-Method", IsToken, []⟩,
  ⟨"Age", IsNumeral, []⟩,
  ⟨"Allow", AnyTokens, [1151]⟩,
  ⟨"Alt-Svc", WrittenAs AltSvcSyn.Ok AltSvcSyn.text, [1017, 1151, 1156, 1158, 1256, 1257]⟩,
  ⟨"Alt-Used", IsHostHeader, []⟩,
  ⟨"Authorization", IsCredentials, [1015, 1017, 1151, 1196]⟩,
  ⟨"Cache-Control", WrittenAs (List1Syn.Ok (Setting.Ok IsToken)) (List1Syn.text Setting.text),
    [1017, 1151, 1154, 1155, 1156, 1157, 1158]⟩,
  ⟨"Connection", SomeTokens, [1151]⟩,
  ⟨"Content-Disposition", WrittenAs DispSyn.Ok DispSyn.text, [1017, 1253, 1254]⟩,
  ⟨"Content-Encoding", SomeTokens, [1151]⟩,
  ⟨"Content-Language", WrittenAs (List1Syn.Ok IsLanguageTag) (List1Syn.text fun w => w), [1151]⟩,
  ⟨"Content-Length", IsNumeral, []⟩,
  ⟨"Content-Location", IsUriNoFragment, []⟩,
  ⟨"Content-Range", WrittenAs ContentRangeSyn.Ok ContentRangeSyn.text, [1148]⟩,
  ⟨"Content-Type", WrittenAs (MediaSyn.Ok IsToken) MediaSyn.text, [1017, 1282, 1300]⟩,
  ⟨"Cross-Origin-Resource-Policy", fun s => s = str "same-origin" ∨ s = str "same-site", []⟩,
  ⟨"Date", IsDate, dateIds⟩,
  ⟨"ETag", WrittenAs EntityTag.Ok EntityTag.text, [1119]⟩,
  ⟨"Expect", fun s => SameWord s (str "100-continue"), []⟩,
  ⟨"Expires", IsDate, dateIds⟩,
  ⟨"Forwarded", WrittenAs (List1Syn.Ok HopSyn.Ok) (List1Syn.text HopSyn.text),
    [1017, 1151, 1156, 1158, 1296, 1297, 1299, 1300]⟩,
  ⟨"HTTP2-Settings", WrittenAs Token68.Ok Token68.text, []⟩,
  ⟨"HTTPolice-Silence", WrittenAs (ListSyn.Ok SilenceSyn.Ok) (ListSyn.text SilenceSyn.text), [1014, 1151]⟩,
  ⟨"Host", IsHostHeader, []⟩,
  ⟨"If-Match", IsTags, [1119, 1151]⟩,
  ⟨"If-Modified-Since", IsDate, dateIds⟩,
  ⟨"If-None-Match", IsTags, [1119, 1151]⟩,
  ⟨"If-Range", WrittenAs IfRangeSyn.Ok IfRangeSyn.text, 1119 :: dateIds⟩,
  ⟨"If-Unmodified-Since", IsDate, dateIds⟩,
  ⟨"Last-Modified", IsDate, dateIds⟩,
  ⟨"Link", WrittenAs (ListSyn.Ok LinkSyn.Ok) (ListSyn.text LinkSyn.text),
    [1015, 1017, 1151, 1158, 1225, 1226, 1253, 1254, 1282, 1299, 1300, 1307, 1308, 1309]⟩,
  ⟨"Location", IsUriReference, []⟩,
  ⟨"Max-Forwards", IsNumeral, []⟩,
  ⟨"Origin", fun s => IsOrigin s ∨ s = str "null", []⟩,
  ⟨"Pragma", WrittenAs (List1Syn.Ok PragmaSyn.Ok) (List1Syn.text PragmaSyn.text), [1017, 1151]⟩,
  ⟨"Prefer", WrittenAs (List1Syn.Ok PrefSyn.Ok) (List1Syn.text PrefSyn.text), [1017, 1151, 1156, 1157, 1158, 1299, 1300]⟩,
  ⟨"Preference-Applied", WrittenAs (List1Syn.Ok (Setting.Ok IsToken)) (List1Syn.text Setting.text),
    [1017, 1151, 1156, 1157, 1158, 1299]⟩,
  ⟨"Proxy-Authenticate", IsChallenges, [1015, 1017, 1151, 1196]⟩,
  ⟨"Proxy-Authorization", IsCredentials, [1015, 1017, 1151, 1196]⟩,
  ⟨"Range", WrittenAs RangeSyn.Ok RangeSyn.text, [1133, 1151]⟩,
  ⟨"Referer", IsUriNoFragment, []⟩,
  ⟨"Retry-After", WrittenAs RetrySyn.Ok RetrySyn.text, dateIds⟩,
  ⟨"Server", IsProducts, [1014, 1017]⟩,
  ⟨"Strict-Transport-Security", WrittenAs HstsSyn.Ok HstsSyn.text, [1017, 1156, 1157, 1158, 1300]⟩,
  ⟨"TE", WrittenAs (ListSyn.Ok TeSyn.Ok) (ListSyn.text TeSyn.text), [1015, 1017, 1151, 1299, 1300]⟩,
  ⟨"Trailer", SomeTokens, [1151]⟩,
  ⟨"Transfer-Encoding", WrittenAs (List1Syn.Ok CodingSyn.Ok) (List1Syn.text CodingSyn.text), [1015, 1017, 1151, 1299, 1300]⟩,
  ⟨"Upgrade", WrittenAs (List1Syn.Ok Protocol.Ok) (List1Syn.text Protocol.text), [1151]⟩,
  ⟨"User-Agent", IsProducts, [1014, 1017]⟩,
  ⟨"Vary", SomeTokens, [1151]⟩,
  ⟨"Via", WrittenAs (List1Syn.Ok Hop.Ok) (List1Syn.text Hop.text), [1014, 1017, 1151, 1299]⟩,
  ⟨"WWW-Authenticate", IsChallenges, [1015, 1017, 1151, 1196]⟩,
  ⟨"Warning", WrittenAs (List1Syn.Ok WarningSyn.Ok) (List1Syn.text WarningSyn.text), [1017, 1151, 1299] ++ dateIds⟩,
  ⟨"X-Content-Type-Options", fun s => SameWord s (str "nosniff"), []⟩]

/-- What is made of entries: of one that is written right, a value, perhaps with some of these notices; of another, none, with notice
1000. -/
def Formed (ids : List Nat) (k : HeaderKind GVal) (form : Str → Prop) : Prop :=
  ∀ e, (form e.value → ∀ n ∈ (k.parse e).2, n.id ∈ ids) ∧
    (¬ form e.value → k.parse e = (.unavailable (some e.value), [⟨1000, [e]⟩]))

/-- Headers that may be there many times. -/
def severalKeys : List String :=
  (headerRows.filter fun row => (row.rule = some .multi ∨ row.rule = some .special) ∧ row.key ≠ "Strict-Transport-Security").map
    HeaderRow.key

/-- A value that stands for everything, where there are lists otherwise. -/
def Alone (key : String) (s : Str) : Prop :=
  ((key = "If-Match" ∨ key = "If-None-Match") ∧ s = str "*") ∨ (key = "Alt-Svc" ∧ s = str "clear")

/-- A value that may be understood so, but can also be understood as a list of one. -/
def PerhapsAlone (key : String) (s : Str) : Prop :=
  (key = "Accept-Ranges" ∧ SameWord s (str "none")) ∨ (key = "Vary" ∧ s = str "*")

/-- An entry with such a value, for sure or perhaps. -/
def Standing (lower : Str → Str) (sure : Bool) (e : Entry) : Prop :=
  ∃ key, Called lower e.name key ∧ (Alone key e.value ∨ (sure = false ∧ PerhapsAlone key e.value))

end Httpolice.Spec
