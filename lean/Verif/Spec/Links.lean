import Verif.Spec.Negotiation
import Verif.Spec.Uri
import Verif.Model.Rfc8288

/-!
# Links, after RFC 8288
-/

namespace Httpolice.Spec

open Httpolice.Model

/-! ## What is written -/

/-- A parameter: the name with the whitespace after it, and perhaps an equals sign, whitespace and a value. -/
structure LinkParam where
  name : Str
  space : Str
  value : Option (Str × Word)

def LinkParam.Ok (x : LinkParam) : Prop :=
  IsToken x.name ∧ IsOws x.space ∧ ∀ s w, x.value = some (s, w) → IsOws s ∧ w.Ok

def LinkParam.text (x : LinkParam) : Str :=
  x.name ++ x.space ++ (match x.value with | none => [] | some (s, w) => 61 :: s ++ w.text)

/-- 1015 and 1017. -/
def LinkParam.notes (x : LinkParam) : List PyComplaint :=
  badSpaceNotes x.space ++ (match x.value with | none => [] | some (s, w) => badSpaceNotes s ++ w.notes)

/-- A name, perhaps with a value. -/
abbrev LinkEntry := Str × Option Word

def LinkParam.entry (x : LinkParam) : LinkEntry := (x.name, x.value.map Prod.snd)

/-- A link. -/
structure LinkSyn where
  target : Str
  params : SemiSyn LinkParam

def LinkSyn.Ok (x : LinkSyn) : Prop := IsUriReference x.target ∧ x.params.Ok LinkParam.Ok

def LinkSyn.text (x : LinkSyn) : Str := 60 :: x.target ++ 62 :: x.params.text LinkParam.text

def LinkSyn.entries (x : LinkSyn) : List LinkEntry := x.params.elems.map LinkParam.entry

/-- How a value is written. -/
def Word.form : Word → Str
  | .token _ => str "token"
  | .quoted _ => str "quoted_string"

/-- A parameter as it is given to `_process_params`. -/
def wire (e : LinkEntry) : Str × Option (Str × Str) := (e.1, e.2.map fun w => (Word.form w, w.content))

/-! ## What is made of it -/

/-- Each element of a list with those before it. -/
def placed {α : Type} (l : List α) : List (List α × α) := l.mapIdx fun i x => (l.take i, x)

/-- Of `rel`, `media`, `title`, `title*` and `type`, only the first counts. -/
def Again (before : List LinkEntry) (name : Str) : Prop :=
  (∃ once ∈ [str "rel", str "media", str "title", str "title*", str "type"], SameWord name once) ∧
    ∃ e ∈ before, SameWord e.1 name

open Classical in
/-- Those that count. -/
noncomputable def counted (l : List LinkEntry) : List (List LinkEntry × LinkEntry) :=
  (placed l).filter fun x => ¬ Again x.1 x.2.1

/-- The value seen last. -/
noncomputable def lastValue (l : List LinkEntry) : Option Word := ((counted l).filterMap fun x => x.2.2).getLast?

/-- Some values are read as something. -/
inductive IsArgument : Str → LinkSymbol → Prop
  | anchor {n : Str} : SameWord n (str "anchor") → IsArgument n .uriReference
  | rel {n : Str} : SameWord n (str "rel") → IsArgument n .rel
  | rev {n : Str} : SameWord n (str "rev") → IsArgument n .rev
  | hreflang {n : Str} : SameWord n (str "hreflang") → IsArgument n .hreflang
  | type_ {n : Str} : SameWord n (str "type") → IsArgument n .type_
  | title {n : Str} : SameWord n (str "title*") → IsArgument n .extValue

/-- A value is missing where one has to be read, or where the code asks how the value was written and there was none yet. -/
def Lacking (x : List LinkEntry × LinkEntry) : Prop :=
  x.2.2 = none ∧ ((∃ s, IsArgument x.2.1 s) ∨ (SameWord x.2.1 (str "title") ∧ lastValue x.1 = none))

/-- A value is read with a parser: `v` is what it is read as, and `cs` are the complaints, all of which say which parameter it is;
1158 if it cannot be read. -/
def ReadAs (parse : Str → Parsing) (name : Str) (w : Str) (v : GVal) (cs : List PyComplaint) : Prop :=
  let about : Context PErr GVal := [(str "name", .other (nameValue (str "CaseInsensitive") name)), (str "value", .other (.text w))]
  (∃ node ds as, parse w = .ok (node, ds, as) ∧ v = .ofNode node ∧ cs = ds.map fun d => (d.1, mergeContext about d.2)) ∨
    (∃ e, parse w = .error e ∧ v = unavailableObj w ∧ cs = [(1158, about ++ [(str "error", .err e)])])

/-- The value of a parameter that counts, and the complaints about it. -/
def ValueOf (P : LinkParser) (e : LinkEntry) (v : GVal) (cs : List PyComplaint) : Prop :=
  (∃ s w, IsArgument e.1 s ∧ e.2 = some w ∧ ReadAs (P s) e.1 w.content v cs) ∨
    ((∀ s, ¬ IsArgument e.1 s) ∧ cs = [] ∧ v = match e.2 with | none => .none | some w => .text w.content)

/-- It is a token. -/
def Word.IsBare : Word → Prop
  | .token _ => True
  | .quoted _ => False

open Classical in
/-- Complaints about a parameter that counts, other than about its value: 1307 for a title that is a token (and where there is no
title, for the token before); 1308 for a language in quotes; 1226 for `rev`. -/
noncomputable def formNotes (x : List LinkEntry × LinkEntry) : List PyComplaint × List PyComplaint :=
  ((if SameWord x.2.1 (str "title") ∧ ∃ w, x.2.2.or (lastValue x.1) = some w ∧ w.IsBare then [(1307, [])] else []) ++
    (if SameWord x.2.1 (str "hreflang") ∧ ∃ w, x.2.2 = some w ∧ ¬ w.IsBare then [(1308, [])] else []),
   if SameWord x.2.1 (str "rev") then [(1226, [])] else [])

/-- What becomes of one parameter: nothing and 1225 if it does not count. -/
def Becomes (P : LinkParser) (x : List LinkEntry × LinkEntry) (vs : List GVal) (cs : List PyComplaint) : Prop :=
  (Again x.1 x.2.1 ∧ vs = [] ∧ cs = [(1225, [(str "name", .other (nameValue (str "CaseInsensitive") x.2.1))])]) ∨
    (¬ Again x.1 x.2.1 ∧ ∃ v ds, ValueOf P x.2 v ds ∧ vs = [.tuple [nameValue (str "CaseInsensitive") x.2.1, v]] ∧
      cs = (formNotes x).1 ++ ds ++ (formNotes x).2)

open Classical in
/-- What becomes of the parameters of a link: the entries of a dictionary, and complaints; 1309 if there is no `rel`. -/
def Become (P : LinkParser) (l : List LinkEntry) (v : GVal) (cs : List PyComplaint) : Prop :=
  ∃ rs : List (List GVal × List PyComplaint), Pairwise2 (fun x r => Becomes P x r.1 r.2) (placed l) rs ∧
    v = multi (rs.flatMap Prod.fst) ∧
    cs = rs.flatMap Prod.snd ++ (if ∃ e ∈ l, SameWord e.1 (str "rel") then [] else [(1309, [])])

/-- Nothing is lacking. -/
def Sound (l : List LinkEntry) : Prop := ∀ x ∈ counted l, ¬ Lacking x

/-- The value of a link, and the complaints about it. If something is lacking, an exception takes the place of the parameters. -/
def LinkSyn.Gives (P : LinkParser) (x : LinkSyn) (r : GVal × List PyComplaint) : Prop :=
  ∃ m cs, r = (.obj (str "Parametrized") [.text x.target, m], x.params.elems.flatMap LinkParam.notes ++ cs) ∧
    ((Sound x.entries ∧ Become P x.entries m cs) ∨ (¬ Sound x.entries ∧ (∃ e, m = raisedObj e) ∧ cs = []))

end Httpolice.Spec
