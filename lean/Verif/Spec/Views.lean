import Verif.Model.Views
import Verif.Spec.AltSvc
import Verif.Spec.Comments
import Verif.Spec.Fetch
import Verif.Spec.Preferences
import Verif.Spec.Settings

/-!
# What is made of an entry of a header
-/

namespace Httpolice.Spec

open Httpolice.Model

/-- Reported on an entry. -/
def on (e : Entry) (id : Nat) : Note := ⟨id, [e]⟩

/-- Complaints about what is written in an entry. -/
def complaintsOn (e : Entry) (cs : List PyComplaint) : List Note := cs.map fun c => on e c.1

/-- An entry that is written as it should be comes to what it says; any other is not available, and this is reported as 1000. -/
def ReadsEntries {α : Type} (k : HeaderKind GVal) (Ok : α → Prop) (print : α → Str)
    (Result : Entry → α → Parsed GVal × List Note → Prop) : Prop :=
  ∀ e, (∀ x, Ok x → e.value = print x → Result e x (k.parse e)) ∧
    ((¬ ∃ x, Ok x ∧ e.value = print x) → k.parse e = (.unavailable (some e.value), [on e 1000]))

/-- What kind of value it is. -/
inductive Sees : GVal → Parsed GVal → Prop
  | list (l : List GVal) : Sees (.list l) (.list l)
  | unavailable (s : Str) : Sees (unavailableObj s) (.unavailable (some s))
  | single {v : GVal} : (∀ l, v ≠ .list l) → (∀ s, v ≠ unavailableObj s) → Sees v (.single v)

/-- The value, with nothing to report but for what the grammar has. -/
def JustRead {α : Type} (IsValue : α → GVal → Prop) (notes : α → List PyComplaint) (e : Entry) (x : α)
    (r : Parsed GVal × List Note) : Prop :=
  ∃ v, IsValue x v ∧ Sees v r.1 ∧ r.2.Perm (complaintsOn e (notes x))

/-! ## Delimiters -/

/-- Whether delimiters matter: commas, semicolons. -/
abbrev Delims := Bool × Bool

/-- 1299 for each text with a comma, and 1300 for each with a semicolon. -/
def delimsIn (d : Delims) (e : Entry) (texts : List Str) : List Note :=
  texts.flatMap fun s => (if d.1 = true ∧ 44 ∈ s then [on e 1299] else []) ++ (if d.2 = true ∧ 59 ∈ s then [on e 1300] else [])

/-- Texts in quotes. -/
def Word.quotes : Word → List Str
  | .token _ => []
  | .quoted q => [q.content]

def MediaSyn.quotes (x : MediaSyn) : List Str := x.params.elems.flatMap fun a => a.value.quotes

def CodingSyn.quotes (x : CodingSyn) : List Str := x.params.elems.flatMap fun a => a.value.quotes

def TeSyn.quotes : TeSyn → List Str
  | .trailers _ => []
  | .coding c _ => c.quotes

def Setting.quotes (x : Setting) : List Str := match x.value with | none => [] | some w => w.quotes

def AcceptSyn.quotes (x : AcceptSyn) : List Str :=
  x.range.quotes ++ (match x.rank with | none => [] | some (_, l) => l.elems.flatMap Setting.quotes)

/-- There are no quotes in Via, but there may be delimiters in a host and in a comment. -/
def Hop.texts (x : Hop) : List Str := x.host :: (match x.comment with | none => [] | some (_, r) => [r.content])

/-- The agent may be a host. -/
def WarningSyn.texts (x : WarningSyn) : List Str := [x.agent, x.message.content]

/-- As before, and delimiters in certain texts are reported. -/
def ReadWithDelims {α : Type} (IsValue : α → GVal → Prop) (notes : α → List PyComplaint) (d : Delims) (texts : α → List Str)
    (e : Entry) (x : α) (r : Parsed GVal × List Note) : Prop :=
  ∃ v, IsValue x v ∧ Sees v r.1 ∧ r.2.Perm (complaintsOn e (notes x) ++ delimsIn d e (texts x))

/-- Where there are several ways to understand what is written, one of them. -/
def OneWay {α : Type} (Ok : α → Prop) (print : α → Str) (Result : Entry → α → Parsed GVal × List Note → Prop)
    (e : Entry) (x : α) (r : Parsed GVal × List Note) : Prop :=
  ∃ y, Ok y ∧ print y = print x ∧ Result e y r

/-! ## Arguments -/

/-- What an argument is, and what is reported on it. -/
abbrev ArgReading := Str → GVal → List Nat → Prop

/-- A parser reads arguments in this way, and rejects those that cannot be read. -/
def ReadsArgs (p : SymParser) (R : ArgReading) : Prop :=
  ∀ s, (∃ v cs as, p s = .ok (.val v, cs, as) ∧ R s v (cs.map Prod.fst)) ∨ ((∃ err, p s = .error err) ∧ ∀ v ns, ¬ R s v ns)

/-- A number. -/
def NumberArg : ArgReading := fun s v ns => IsNumeral s ∧ v = .int (numeral s) ∧ ns = []

/-- Names of headers, perhaps none at all; 1151 if there are gaps. -/
def FieldNamesArg : ArgReading := fun s v ns => ∃ l : ListSyn Str, l.Ok IsToken ∧ s = l.text (fun w => w) ∧
  v = .list (l.elems.map (nameValue (str "FieldName"))) ∧ ns = if l.Gaps then [1151] else []

/-- One of these words. -/
def ChoiceArg (ws : List String) : ArgReading := fun s v ns => (∃ w ∈ ws, SameWord s (str w)) ∧
  v = nameValue (str "CaseInsensitive") s ∧ ns = []

/-- The digit 1. -/
def OneArg : ArgReading := fun s v ns => s = str "1" ∧ v = .obj (str "True") [] ∧ ns = []

/-- A node (RFC 7239, section 6). -/
def NodeArg : ArgReading := fun s v ns => ∃ x : NodeSyn, x.Ok ∧ s = x.text ∧ v = x.value ∧ ns = []

/-- A text of some form. -/
def TextArg (L : Str → Prop) : ArgReading := fun s v ns => L s ∧ v = .text s ∧ ns = []

/-- What may be in the place of an argument. -/
inductive ArgPlace
  /-- no argument -/
  | flag
  /-- an argument to be read in some way; it may or may not be required -/
  | reads (required : Bool) (R : ArgReading)
  /-- anything -/
  | free

/-- What becomes of an argument. -/
inductive Argument : ArgPlace → Option Str → GVal → List Nat → Prop
  | flag : Argument .flag none .none []
  | unwanted (s : Str) : Argument .flag (some s) (unavailableObj s) [1157]
  | missing (R : ArgReading) : Argument (.reads true R) none (unavailableObj []) [1156]
  | without (R : ArgReading) : Argument (.reads false R) none .none []
  | good {required : Bool} {R : ArgReading} {s : Str} {v : GVal} {ns : List Nat} : R s v ns →
      Argument (.reads required R) (some s) v ns
  | bad {required : Bool} {R : ArgReading} {s : Str} : (∀ v ns, ¬ R s v ns) →
      Argument (.reads required R) (some s) (unavailableObj s) [1158]
  | nothing : Argument .free none .none []
  | anything (s : Str) : Argument .free (some s) (.text s) []

/-- One of these words. -/
def AmongWords (w : Str) (ws : List String) : Prop := ∃ x ∈ ws, SameWord w (str x)

instance (w : Str) (ws : List String) : Decidable (AmongWords w ws) := inferInstanceAs (Decidable (∃ x ∈ ws, _))

/-- Directives in Cache-Control (RFC 7234, section 5.2; RFC 5861; RFC 8246). -/
def cacheArg (name : Str) : ArgPlace :=
  if AmongWords name ["max-age", "s-maxage", "min-fresh", "stale-if-error", "stale-while-revalidate"] then .reads true NumberArg
  else if AmongWords name ["max-stale"] then .reads false NumberArg
  else if AmongWords name ["no-cache", "private"] then .reads false FieldNamesArg
  else if AmongWords name ["no-store", "no-transform", "only-if-cached", "must-revalidate", "proxy-revalidate", "public",
    "immutable"] then .flag
  else .free

/-- Directives in Strict-Transport-Security (RFC 6797, section 6.1). -/
def hstsArg (name : Str) : ArgPlace :=
  if AmongWords name ["max-age"] then .reads true NumberArg
  else if AmongWords name ["includeSubDomains"] then .flag
  else .free

/-- Preferences (RFC 7240, section 4). -/
def preferArg (name : Str) : ArgPlace :=
  if AmongWords name ["respond-async"] then .flag
  else if AmongWords name ["return"] then .reads true (ChoiceArg ["representation", "minimal"])
  else if AmongWords name ["wait"] then .reads true NumberArg
  else if AmongWords name ["handling"] then .reads true (ChoiceArg ["strict", "lenient"])
  else .free

/-- Parameters of alternative services (RFC 7838, section 3.1). The case of letters matters. -/
def altArg (name : Str) : ArgPlace :=
  if name = str "ma" then .reads true NumberArg
  else if name = str "persist" then .reads true OneArg
  else .free

/-- Parameters in Forwarded (RFC 7239, section 5). -/
def forwardedArg (name : Str) : ArgPlace :=
  if AmongWords name ["by", "for"] then .reads true NodeArg
  else if AmongWords name ["host"] then .reads true (TextArg IsHostHeader)
  else if AmongWords name ["proto"] then .reads true (TextArg IsScheme)
  else .free

/-- A name with what becomes of its argument, and what is reported on it. -/
def Settled (cls : Str) (form : ArgPlace) (e : Entry) (name : Str) (arg : Option Str) (r : GVal × List Note) : Prop :=
  ∃ a ns, Argument form arg a ns ∧ r = (.obj (str "Parametrized") [nameValue cls name, a], ns.map (on e))

/-- The value of a header with elements of which something becomes, and what is reported: first of all, complaints about what is
written. -/
def EachBecomes {β : Type} (elems : List β) (notes : List PyComplaint) (One : β → GVal × List Note → Prop) (e : Entry)
    (r : Parsed GVal × List Note) : Prop :=
  ∃ rs : List (GVal × List Note), Pairwise2 One elems rs ∧ r.1 = .list (rs.map Prod.fst) ∧
    r.2.Perm (complaintsOn e notes ++ rs.flatMap Prod.snd)

/-- As before, for headers where the texts of free arguments may have delimiters in them; each element comes with such texts. -/
def EachBecomesWith {β : Type} (d : Delims) (texts : β → List Str) (elems : List β) (notes : List PyComplaint)
    (One : β → GVal × List Note → Prop) (e : Entry) (r : Parsed GVal × List Note) : Prop :=
  ∃ rs : List (GVal × List Note), Pairwise2 One elems rs ∧ r.1 = .list (rs.map Prod.fst) ∧
    r.2.Perm (complaintsOn e notes ++ rs.flatMap Prod.snd ++ delimsIn d e (elems.flatMap texts))

/-- The text of an argument in quotes, if any argument is fine. -/
def freeQuotes (form : ArgPlace) (w : Option Word) : List Str :=
  match form, w with
  | .free, some w => w.quotes
  | _, _ => []

/-- 1154: names of headers should be in quotes. 1155: numbers should not. -/
def formNotesOf (name : Str) (w : Option Word) : List Note :=
  match w with
  | some (.token _) => if AmongWords name ["no-cache", "private"] then [⟨1154, []⟩] else []
  | some (.quoted _) =>
    if AmongWords name ["max-age", "max-stale", "min-fresh", "s-maxage"] then [⟨1155, []⟩] else []
  | none => []

/-- A directive in Cache-Control. -/
def CacheBecomes (e : Entry) (x : Setting) (r : GVal × List Note) : Prop :=
  ∃ ns, Settled (str "CacheDirective") (cacheArg x.name) e x.name (x.value.map Word.content) (r.1, ns) ∧
    r.2 = formNotesOf x.name x.value ++ ns

/-- A directive in Strict-Transport-Security. -/
def DirBecomes (e : Entry) (x : DirSyn) (r : GVal × List Note) : Prop :=
  Settled (str "HSTSDirective") (hstsArg x.name) e x.name (x.value.map fun v => v.2.content) r

def DirSyn.texts (x : DirSyn) : List Str := freeQuotes (hstsArg x.name) (x.value.map Prod.snd)

/-- The argument of a preference; if it is empty, there is none. -/
def Setting.argument (x : Setting) : Option Str :=
  match x.value with
  | none => none
  | some w => if w.content = [] then none else some w.content

/-- An element of Preference-Applied. -/
def AppliedBecomes (e : Entry) (x : Setting) (r : GVal × List Note) : Prop :=
  Settled (str "Preference") (preferArg x.name) e x.name x.argument r

def Setting.texts (x : Setting) : List Str := freeQuotes (preferArg x.name) x.value

/-- A preference; nothing is made of its parameters. -/
def PrefBecomes (e : Entry) (x : PrefSyn) (r : GVal × List Note) : Prop :=
  ∃ head, AppliedBecomes e x.head (head, r.2) ∧ r.1 = .obj (str "Parametrized") [head, .list (x.params.map fun p =>
    match p.2 with
    | none => .none
    | some (_, y) => y.preference (str "CaseInsensitive"))]

/-- The parameters as well. -/
def PrefSyn.texts (x : PrefSyn) : List Str :=
  x.head.texts ++ x.params.flatMap fun p => match p.2 with | none => [] | some (_, y) => y.quotes

/-- An alternative with its parameters. -/
def AltBecomes (e : Entry) (x : AltSyn) (r : GVal × List Note) : Prop :=
  ∃ rs : List (GVal × List Note),
    Pairwise2 (fun a => Settled (str "AltSvcParam") (altArg a.name) e a.name (some a.value.content)) x.params.elems rs ∧
    r = (.obj (str "Parametrized") [.tuple [.obj (str "bytes") [.text x.protocol.bytes], authorityValue x.authority.content],
      multi (rs.map Prod.fst)], rs.flatMap Prod.snd)

/-- Alt-Svc. -/
def AltSvcBecomes (notes : AltSvcSyn → List PyComplaint) (e : Entry) (x : AltSvcSyn) (r : Parsed GVal × List Note) : Prop :=
  match x with
  | .clear => r = (.single (.text (str "clear")), [])
  | .values l => EachBecomes l.elems (notes (.values l)) (AltBecomes e) e r

/-! ## Forwarded -/

/-- An element of Forwarded. -/
def HopBecomes (e : Entry) (x : HopSyn) (r : GVal × List Note) : Prop :=
  ∃ rs : List (GVal × List Note),
    Pairwise2 (fun a => Settled (str "ForwardedParam") (forwardedArg a.name) e a.name (some a.value.content)) x.pairs rs ∧
    r = (.list (rs.map Prod.fst), rs.flatMap Prod.snd)

open Classical in
/-- In a parameter `host` there may be delimiters, and in quotes in a parameter that is not known. -/
noncomputable def forwardedTexts (a : Attr) : List Str :=
  if AmongWords a.name ["host"] then (if IsHostHeader a.value.content then [a.value.content] else [])
  else freeQuotes (forwardedArg a.name) (some a.value)

/-- Several times the same name. -/
def RepeatsName (names : List Str) (n : Str) : Prop := 2 ≤ (names.filter fun m => SameWord m n).length

/-- A list of 1296, one for each name that is there several times. -/
def RepeatNotes (e : Entry) (x : HopSyn) (ns : List Note) : Prop :=
  ∃ reps : List Str, (∀ n, (∃ m ∈ reps, SameWord m n) ↔ RepeatsName (x.pairs.map Attr.name) n) ∧
    reps.Pairwise (fun a b => ¬ SameWord a b) ∧ ns = reps.map fun _ => on e 1296

open Classical in
/-- 1297: several elements with one parameter each, all with different names. -/
noncomputable def semicolonNotes (e : Entry) (l : List HopSyn) : List Note :=
  if 2 ≤ l.length ∧ (∀ x ∈ l, x.pairs.length = 1) ∧
    (l.flatMap fun x => x.pairs.map Attr.name).Pairwise (fun a b => ¬ SameWord a b) then [on e 1297] else []

/-- Forwarded, with what is between the commas. -/
def ForwardedBecomes (e : Entry) (l : List HopSyn) (notes : List PyComplaint) (r : Parsed GVal × List Note) : Prop :=
  ∃ (rs : List (GVal × List Note)) (reps : List (List Note)), Pairwise2 (HopBecomes e) l rs ∧ Pairwise2 (RepeatNotes e) l reps ∧
    r.1 = .list (rs.map Prod.fst) ∧
    r.2.Perm (complaintsOn e notes ++ rs.flatMap Prod.snd ++ reps.flatten ++ semicolonNotes e l ++
      delimsIn (true, true) e (l.flatMap fun x => x.pairs.flatMap forwardedTexts))

end Httpolice.Spec
