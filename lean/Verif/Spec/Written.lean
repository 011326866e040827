import Verif.Spec.Challenges
import Verif.Spec.Comments
import Verif.Spec.Encoded
import Verif.Spec.EntityTags
import Verif.Spec.Notices
import Verif.Spec.Uri
import Verif.Spec.Views
import Verif.Model.World

/-!
# What is written in headers
-/

namespace Httpolice.Spec

open Httpolice.Model

/-! ## Parts -/

/-- The second of all time that a date stands for, counted from the beginning of year 1. -/
def Stamp.seconds (x : Stamp) : Nat :=
  (daysInYears (x.year - 1) + daysInMonths x.year (x.month - 1) + (x.day - 1)) * 86400 + x.hour * 3600 + x.minute * 60 + x.second

/-- Three digits after the point. -/
def Weight.thousandths (x : Weight) : Nat :=
  (if x.one then 1000 else 0) + numeral ((x.digits.getD [] ++ [48, 48, 48]).take 3)

def Ranking.thousandths (x : Ranking) : Nat := x.weight.thousandths

/-- The tag with its quotes. -/
def EntityTag.said (x : EntityTag) : Model.EntityTag := ⟨x.weak, str "\"" ++ x.tag ++ str "\""⟩

/-- What comes after the scheme. -/
def Details.said : Details → AuthParams
  | .nothing => .params []
  | .token _ x => .token68 x.text
  | .params _ l => .params (l.elems.map fun p => (p.name, p.value.content))

/-- In place of encoded values there is nothing. -/
def DispValue.said : DispValue → Str
  | .word w => w.content
  | .ext _ => []

/-! ## Arguments -/

/-- What may be in the place of an argument, as in `ArgPlace`. -/
inductive Place (A : Type)
  /-- no argument -/
  | flag
  /-- an argument to be read in some way; it may or may not be required -/
  | reads (required : Bool) (R : Str → A → Prop)
  /-- anything -/
  | free

/-- What becomes of an argument, whether or not it is there. -/
inductive TakenAs {A : Type} : Place A → Option Str → ArgVal A → Prop
  | flag : TakenAs .flag none .none
  | unwanted (s : Str) : TakenAs .flag (some s) (.unavailable s)
  | missing (R : Str → A → Prop) : TakenAs (.reads true R) none (.unavailable [])
  | without (R : Str → A → Prop) : TakenAs (.reads false R) none .none
  | good {required : Bool} {R : Str → A → Prop} {s : Str} {a : A} : R s a → TakenAs (.reads required R) (some s) (.parsed a)
  | bad {required : Bool} {R : Str → A → Prop} {s : Str} : (∀ a, ¬ R s a) → TakenAs (.reads required R) (some s) (.unavailable s)
  | nothing : TakenAs .free none .none
  | anything (s : Str) : TakenAs .free (some s) (.raw s)

/-- Directives in Cache-Control (RFC 7234, section 5.2; RFC 5861; RFC 8246). -/
def cachePlace (name : Str) : Place CacheArg :=
  if AmongWords name ["max-age", "s-maxage", "min-fresh", "stale-if-error", "stale-while-revalidate"] then
    .reads true fun s a => IsNumeral s ∧ a = .num (numeral s)
  else if AmongWords name ["max-stale"] then .reads false fun s a => IsNumeral s ∧ a = .num (numeral s)
  else if AmongWords name ["no-cache", "private"] then
    .reads false fun s a => ∃ l : ListSyn Str, l.Ok IsToken ∧ s = l.text (fun w => w) ∧ a = .names l.elems
  else if AmongWords name ["no-store", "no-transform", "only-if-cached", "must-revalidate", "proxy-revalidate", "public",
    "immutable"] then .flag
  else .free

/-- Directives in Strict-Transport-Security (RFC 6797, section 6.1). -/
def hstsPlace (name : Str) : Place Nat :=
  if AmongWords name ["max-age"] then .reads true fun s n => IsNumeral s ∧ n = numeral s
  else if AmongWords name ["includeSubDomains"] then .flag
  else .free

/-- Preferences (RFC 7240, section 4). -/
def preferPlace (name : Str) : Place PrefArg :=
  if AmongWords name ["respond-async"] then .flag
  else if AmongWords name ["return"] then .reads true fun s a => AmongWords s ["representation", "minimal"] ∧ a = .word s
  else if AmongWords name ["wait"] then .reads true fun s a => IsNumeral s ∧ a = .num (numeral s)
  else if AmongWords name ["handling"] then .reads true fun s a => AmongWords s ["strict", "lenient"] ∧ a = .word s
  else .free

/-- A directive in Cache-Control. -/
def CacheSaid (x : Setting) (r : Str × ArgVal CacheArg) : Prop :=
  r.1 = x.name ∧ TakenAs (cachePlace x.name) (x.value.map Word.content) r.2

/-- A directive in Strict-Transport-Security. -/
def HstsSaid (x : DirSyn) (r : Str × ArgVal Nat) : Prop :=
  r.1 = x.name ∧ TakenAs (hstsPlace x.name) (x.value.map fun v => v.2.content) r.2

/-- A preference. An empty argument is like none. -/
def PrefSaid (x : Setting) (r : Str × ArgVal PrefArg) : Prop := r.1 = x.name ∧ TakenAs (preferPlace x.name) x.argument r.2

/-! ## Headers -/

/-- A header gives a value for exactly those texts that are written as they should be, and it is what they say. For some there may
be none, such as for dates that do not exist. -/
def OneIs {α V : Type} (f : Entry → Option V) (Ok : α → Prop) (print : α → Str) (said : α → Option V) : Prop :=
  ∀ e v, f e = some v ↔ ∃ x, Ok x ∧ e.value = print x ∧ said x = some v

/-- Likewise for lists, of which each element is what is said by one that is written; and others are not available. -/
def ListIs {α β V : Type} (f : Entry → Parsed V) (Ok : α → Prop) (print : α → Str) (elems : α → List β) (Said : β → V → Prop) :
    Prop :=
  ∀ e, (∀ l, f e = .list l ↔ ∃ x, Ok x ∧ e.value = print x ∧ Pairwise2 Said (elems x) l) ∧
    ((¬ ∃ x, Ok x ∧ e.value = print x) → f e = .unavailable (some e.value)) ∧ ∀ v, f e ≠ .single v

/-- `Said` for a function. -/
def Being {β V : Type} (g : β → V) (b : β) (v : V) : Prop := v = g b

/-- The header of this name, in whatever case. -/
def Called (lower : Str → Str) (name : Str) (key : String) : Prop := lower name = asciiLower (str key)

/-- The elements of a warning that matter. -/
def WarningSyn.Said (x : WarningSyn) (w : WarningValue) : Prop :=
  w.code = numeral x.code ∧
    match x.date with
    | none => w.date = .none
    | some (_, d) => (d.Real → w.date = .val d.seconds) ∧ (¬ d.Real → w.date = .unavailable)

/-- What the checks are told about headers is what is written in them. -/
structure Literate (lower : Str → Str) (G : Grammars) : Prop where
  age : OneIs G.age IsNumeral (fun w => w) (fun w => some (numeral w))
  contentLength : OneIs G.contentLength IsNumeral (fun w => w) (fun w => some (numeral w))
  contentDisposition : OneIs G.contentDisposition DispSyn.Ok DispSyn.text
    (fun x => some (x.params.elems.map fun p => (p.name, p.value.said)))
  contentLocation : OneIs G.contentLocation IsUriNoFragment (fun w => w) some
  referer : OneIs G.referer IsUriNoFragment (fun w => w) some
  location : OneIs G.location IsUriReference (fun w => w) some
  host : OneIs G.host IsHostHeader (fun w => w) some
  contentType : OneIs G.contentType (MediaSyn.Ok IsToken) MediaSyn.text
    (fun x => some (x.name, x.params.elems.map fun p => (p.name, p.value.content)))
  /-- a date that does not exist gives nothing -/
  date : ∀ e, (∃ key ∈ ["Date", "Expires", "If-Modified-Since", "If-Unmodified-Since", "Last-Modified"], Called lower e.name key) →
    ∀ t, G.date e = some t ↔ ∃ f x, Stamp.Fits x f ∧ e.value = x.text f ∧ x.Real ∧ t = x.seconds
  etag : OneIs G.etag EntityTag.Ok EntityTag.text (fun x => some x.said)
  expect : OneIs G.expect (fun w => SameWord w (str "100-continue")) (fun w => w) some
  http2Settings : OneIs G.http2Settings Token68.Ok Token68.text (fun x => some x.text)
  ifRange : OneIs G.ifRange IfRangeSyn.Ok IfRangeSyn.text
    (fun x => match x with
      | .tag t => some (.tag t.said)
      | .date _ d => if d.Real then some (.date d.seconds) else none)
  /-- ranges in bytes are counted -/
  range : OneIs G.range RangeSyn.Ok RangeSyn.text
    (fun x => match x with
      | .bytes u l => some (u, l.elems.length)
      | .other u s => some (u, s.length))
  authorization : ∀ e, Called lower e.name "Authorization" ∨ Called lower e.name "Proxy-Authorization" →
    ∀ a, G.authorization e = some a ↔ ∃ x : AuthSyn, x.Ok ∧ e.value = x.text ∧ a = (x.scheme, x.details.said)
  strictTransportSecurity : ∀ e l, G.strictTransportSecurity e = some l ↔
    ∃ x : HstsSyn, x.Ok ∧ e.value = x.text ∧ Pairwise2 HstsSaid x.dirs l
  userAgent : OneIs G.userAgent Products.Ok Products.text
    (fun x => some (some x.first.name :: x.rest.map fun y => match y.2 with | .product p => some p.name | .comment _ => none))
  accept : ∀ name, Called lower name "Accept" → ListIs (G.accept name) (ListSyn.Ok AcceptSyn.Ok) (ListSyn.text AcceptSyn.text)
    ListSyn.elems (Being fun x => (x.range.name, x.rank.map fun r => r.1.thousandths))
  acceptCharset : ∀ name, Called lower name "Accept-Charset" → ListIs (G.accept name) (List1Syn.Ok RankedSyn.Ok)
    (List1Syn.text RankedSyn.text) List1Syn.elems (Being fun x => (x.name, x.rank.map Ranking.thousandths))
  acceptEncoding : ∀ name, Called lower name "Accept-Encoding" → ListIs (G.accept name) (ListSyn.Ok RankedSyn.Ok)
    (ListSyn.text RankedSyn.text) ListSyn.elems (Being fun x => (x.name, x.rank.map Ranking.thousandths))
  acceptLanguage : ∀ name, Called lower name "Accept-Language" → ListIs (G.accept name) (List1Syn.Ok RankedSyn.LanguageOk)
    (List1Syn.text RankedSyn.text) List1Syn.elems (Being fun x => (x.name, x.rank.map Ranking.thousandths))
  acceptPatch : ListIs G.acceptPatch (List1Syn.Ok (MediaSyn.Ok IsToken)) (List1Syn.text MediaSyn.text) List1Syn.elems
    (Being MediaSyn.name)
  allow : ListIs G.allow (ListSyn.Ok IsToken) (ListSyn.text fun w => w) ListSyn.elems (Being fun w => w)
  cacheControl : ListIs G.cacheControl (List1Syn.Ok (Setting.Ok IsToken)) (List1Syn.text Setting.text) List1Syn.elems CacheSaid
  connection : ListIs G.connection (List1Syn.Ok IsToken) (List1Syn.text fun w => w) List1Syn.elems (Being fun w => w)
  httpoliceSilence : ListIs G.httpoliceSilence (ListSyn.Ok SilenceSyn.Ok) (ListSyn.text SilenceSyn.text) ListSyn.elems
    (Being fun x => (numeral x.number, x.resp.isSome))
  /-- a star or some tags -/
  ifMatch : ∀ e, Called lower e.name "If-Match" ∨ Called lower e.name "If-None-Match" →
    (∀ l, G.ifMatch e = .list l ↔ ∃ x : List1Syn EntityTag, x.Ok EntityTag.Ok ∧ e.value = x.text EntityTag.text ∧
      l = x.elems.map EntityTag.said) ∧
    ((∃ t, G.ifMatch e = .single t) ↔ e.value = str "*") ∧
    (e.value ≠ str "*" → (¬ ∃ x : List1Syn EntityTag, x.Ok EntityTag.Ok ∧ e.value = x.text EntityTag.text) →
      G.ifMatch e = .unavailable (some e.value))
  pragma : ListIs G.pragma (List1Syn.Ok PragmaSyn.Ok) (List1Syn.text PragmaSyn.text) List1Syn.elems
    (Being fun x => match x with | .noCache _ => .noCache | .other y => .extension y.name)
  prefer : ListIs G.prefer (List1Syn.Ok PrefSyn.Ok) (List1Syn.text PrefSyn.text) List1Syn.elems (fun x => PrefSaid x.head)
  preferenceApplied : ListIs G.preferenceApplied (List1Syn.Ok (Setting.Ok IsToken)) (List1Syn.text Setting.text) List1Syn.elems
    PrefSaid
  te : ListIs G.te (ListSyn.Ok TeSyn.Ok) (ListSyn.text TeSyn.text) ListSyn.elems
    (Being fun x => match x with | .trailers w => w | .coding c _ => c.name)
  trailer : ListIs G.trailer (List1Syn.Ok IsToken) (List1Syn.text fun w => w) List1Syn.elems (Being fun w => w)
  transferEncoding : ListIs G.transferEncoding (List1Syn.Ok CodingSyn.Ok) (List1Syn.text CodingSyn.text) List1Syn.elems
    (Being CodingSyn.name)
  upgrade : ListIs G.upgrade (List1Syn.Ok Protocol.Ok) (List1Syn.text Protocol.text) List1Syn.elems
    (Being fun x => (x.name, x.version))
  /-- names of headers; but a star alone need not be a list -/
  vary : ∀ e, (∀ l, G.vary e = .list l → ∃ x : List1Syn Str, x.Ok IsToken ∧ e.value = (x.text fun w => w) ∧ l = x.elems) ∧
    (∀ x : List1Syn Str, x.Ok IsToken → e.value = (x.text fun w => w) →
      G.vary e = .list x.elems ∨ (e.value = str "*" ∧ G.vary e = .single (str "*"))) ∧
    ((¬ ∃ x : List1Syn Str, x.Ok IsToken ∧ e.value = x.text fun w => w) → G.vary e = .unavailable (some e.value))
  warning : ListIs G.warning (List1Syn.Ok WarningSyn.Ok) (List1Syn.text WarningSyn.text) List1Syn.elems WarningSyn.Said
  challenge : ∀ e, Called lower e.name "WWW-Authenticate" ∨ Called lower e.name "Proxy-Authenticate" →
    (∀ l, G.challenge e = .list l ↔ ∃ x : List1Syn AuthSyn, x.Ok AuthSyn.Ok ∧ e.value = x.text AuthSyn.text ∧
      l = x.elems.map fun a => (a.scheme, a.details.said)) ∧
    ((¬ ∃ x : List1Syn AuthSyn, x.Ok AuthSyn.Ok ∧ e.value = x.text AuthSyn.text) → G.challenge e = .unavailable (some e.value)) ∧
    ∀ a, G.challenge e ≠ .single a

/-! ## Modules -/

/-- The module is run with some objects there already, and then others may be made. -/
def InOrder {N : Type} [DecidableEq N] (l : Loaded N) (ds : List (N × Defn N)) (final : PyHeap) : Prop :=
  Builds true Heap.init l.heap ∧ Builds true (l.run ds).2 final

/-- Every module has been run; and iterating over a set gives its elements. -/
structure Ready (W : World) : Prop where
  order : ∀ l c, c ∈ W.order l ↔ c ∈ l
  hop : InOrder W.hop (hopDefs W.order) W.final
  sem : InOrder W.sem (semDefs W.order) W.final
  lang : InOrder W.lang (langDefs W.order) W.final
  uri : InOrder W.uri uriDefs W.final
  comment : InOrder W.comment (commentDefs W.order) W.final
  tag : InOrder W.tag tagDefs W.final
  range : InOrder W.range (rangeDefs W.order) W.final
  cache : InOrder W.cache (cacheDefs W.order) W.final
  auth : InOrder W.auth authDefs W.final
  small : InOrder W.small (smallDefs W.order) W.final
  http2 : InOrder W.http2 http2Defs W.final
  fetch : InOrder W.fetch (fetchDefs W.order) W.final
  authority : InOrder W.authority authorityDefs W.final
  alt : InOrder W.alt (altDefs W.order W.altParser) W.final
  ext : InOrder W.ext (extDefs W.order) W.final
  link : InOrder W.link (linkDefs W.linkParser) W.final

end Httpolice.Spec
