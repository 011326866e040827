import Verif.Lemmas.World
import Verif.Props.AltSvc
import Verif.Props.Challenges
import Verif.Props.Comments
import Verif.Props.EntityTags
import Verif.Props.ExtValues
import Verif.Props.Fetch
import Verif.Props.Hops
import Verif.Props.Languages
import Verif.Props.Negotiation
import Verif.Props.Preferences
import Verif.Props.Ranges
import Verif.Props.Settings
import Verif.Props.Uri
import Verif.Props.Views

/-!
# C89: The checks are told what is written in headers
-/

namespace Httpolice.Props

open Httpolice.Model Httpolice.Spec Httpolice.Lemmas

/-! ## Headers -/

section
variable {W : World} {key : String} {s : Sym} {k : Nat}

theorem plain_read (hb : W.byKey key = knownKind key (W.parser s) plainProcess) (hk : s = .nt k) :
    W.read key = fun e => ((knownKind key (fun data => innerParse W.final.grammar (pyOps W.annotate) data k) plainProcess).parse e).1 := by
  subst hk
  funext e
  unfold World.read
  rw [hb]
  rfl

variable {α β V : Type} {Ok : α → Prop} {print : α → Str} {value : α → GVal} {notes : α → List PyComplaint}

theorem one_read {g : GVal → Option V} {said : α → Option V}
    (h : ∃ k, s = .nt k ∧ Reads (fun data => innerParse W.final.grammar (pyOps W.annotate) data k) Ok print value notes)
    (hb : W.byKey key = knownKind key (W.parser s) plainProcess)
    (hv : ∀ x, Ok x → (IsReal (value x) ∧ g (value x) = said x) ∨ ∃ s, value x = unavailableObj s ∧ said x = none) :
    OneIs (fun e => oneOf g (W.read key e)) Ok print said := by
  obtain ⟨k, hk, hr⟩ := h
  rw [plain_read hb hk]
  exact one_reads hr hv

theorem list_read {elems : α → List β} {value : β → GVal} {g : GVal → V} {said : β → V}
    (h : ∃ k, s = .nt k ∧ Reads (fun data => innerParse W.final.grammar (pyOps W.annotate) data k) Ok print
      (fun x => .list ((elems x).map value)) notes)
    (hb : W.byKey key = knownKind key (W.parser s) plainProcess)
    (hs : ∀ x, Ok x → ∀ b ∈ elems x, g (value b) = said b) :
    ListIs (fun e => someOf g (W.read key e)) Ok print elems (Being said) := by
  obtain ⟨k, hk, hr⟩ := h
  rw [plain_read hb hk]
  exact list_reads hr hs

/-- A text that is the value. -/
theorem text_read {L : Str → Prop}
    (h : ∃ k, s = .nt k ∧ ReadsVerbatim (fun data => innerParse W.final.grammar (pyOps W.annotate) data k) L)
    (hb : W.byKey key = knownKind key (W.parser s) plainProcess) :
    OneIs (fun e => oneOf textOrNone (W.read key e)) L (fun w => w) some :=
  one_read h hb fun _ _ => .inl ⟨realText _, rfl⟩

end

/-- One of several headers. -/
theorem any_read {W : World} {lower : Str → Str} (hl : LowersAscii lower) {name : Str} {key default : String} {keys : List String}
    (h : Called lower name key) (ha : ∀ k ∈ keys, (str k).all (· < 128) = true) (e : Entry) :
    W.readAny lower keys default name e =
      W.read ((keys.find? fun k => asciiLower (str k) == asciiLower (str key)).getD default) e := by
  unfold World.readAny
  have : (keys.find? fun k => lower (str k) == lower name) = keys.find? fun k => asciiLower (str k) == asciiLower (str key) := by
    induction keys with
    | nil => rfl
    | cons k keys ih =>
      have hk := hl (str k) (by simpa using ha k (.head _))
      rw [List.find?_cons, List.find?_cons, ih fun k hk => ha k (.tail _ hk), hk, show lower name = _ from h]
  rw [this]

theorem ranked_back {x : RankedSyn} {name : GVal} (hn : itemOf name = name ∧ strText name = x.name)
    (h : ∀ r, x.rank = some r → r.Ok) :
    (strText (itemOf (itemOf (x.valueWith name))), weightOf (partOf (x.valueWith name))) =
      (x.name, x.rank.map Ranking.thousandths) := by
  obtain ⟨n, r⟩ := x
  have e1 : itemOf (RankedSyn.valueWith name ⟨n, r⟩) = name := rfl
  rw [e1, hn.1, hn.2]
  cases r with
  | none => rfl
  | some r =>
    show (_, weightOf r.value) = _
    rw [weight_back (h r rfl)]
    rfl

theorem accept_back {x : AcceptSyn} {name : GVal} (hn : strText name = x.range.name)
    (h : ∀ r l, x.rank = some (r, l) → r.Ok) :
    (strText (itemOf (itemOf (x.valueWith name))), weightOf (partOf (x.valueWith name))) =
      (x.range.name, x.rank.map fun r => r.1.thousandths) := by
  obtain ⟨n, r⟩ := x
  have e1 : itemOf (itemOf (AcceptSyn.valueWith name ⟨n, r⟩)) = name := rfl
  rw [e1, hn]
  cases r with
  | none => rfl
  | some r =>
    obtain ⟨r, l⟩ := r
    show (_, some (thousandths r.weight.text)) = (_, some r.weight.thousandths)
    rw [thousandths_back (h r l rfl).2.2.2]

theorem each_list {β : Type} {One : β → GVal × List Note → Prop} {l : List β} {rs : List (GVal × List Note)}
    (h : Pairwise2 One l rs) : Pairwise2 (fun b v => ∃ ns, One b (v, ns)) l (rs.map Prod.fst) := by
  induction h with
  | nil => exact .nil
  | cons h1 _ ih => exact .cons ⟨_, h1⟩ ih

section
variable {W : World} (hW : Ready W)
include hW

theorem age_is : OneIs (fun e => oneOf wholeNumber (W.read "Age" e)) IsNumeral (fun w => w) (fun w => some (numeral w)) :=
  one_read (s := W.cacheSym .age) (C74_seconds hW.order hW.cache.1 hW.cache.2 _ (.inl rfl)) rfl fun _ _ => .inl ⟨realInt _, rfl⟩

theorem contentLength_is :
    OneIs (fun e => oneOf wholeNumber (W.read "Content-Length" e)) IsNumeral (fun w => w) (fun w => some (numeral w)) :=
  one_read (s := W.hopSym .contentLength) (C73_content_length hW.order hW.hop.1 hW.hop.2 _) rfl fun _ _ => .inl ⟨realInt _, rfl⟩

theorem contentDisposition_is : OneIs (fun e => oneOf (fun v => some (dictPairs (partOf v))) (W.read "Content-Disposition" e))
    DispSyn.Ok DispSyn.text (fun x => some (x.params.elems.map fun p => (p.name, p.value.said))) :=
  one_read (s := W.extSym .contentDisposition) (C82_content_disposition hW.order hW.ext.1 hW.ext.2 _) rfl fun _ _ =>
    .inl ⟨realObj (by decide), congrArg some (disp_back _)⟩

theorem contentType_is :
    OneIs (fun e => oneOf (fun v => some (strText (itemOf v), dictPairs (partOf v))) (W.read "Content-Type" e))
    (MediaSyn.Ok IsToken) MediaSyn.text (fun x => some (x.name, x.params.elems.map fun p => (p.name, p.value.content))) :=
  one_read (s := W.semSym .contentType) (C75_content_type hW.order hW.sem.1 hW.sem.2 _) rfl fun x _ =>
    .inl ⟨realObj (by decide), congrArg (fun l => some (x.name, l)) (attrs_back _)⟩

/-- Any header with a date. -/
theorem date_is {key : String} {s : Sym} (h : ∃ k, s = .nt k ∧
      Reads (fun data => innerParse W.final.grammar (pyOps W.annotate) data k) (fun x : DateFormat × Stamp => x.2.Fits x.1)
        (fun x => x.2.text x.1) (fun x => x.2.value) (fun x => x.2.notes x.1))
    (hb : W.byKey key = knownKind key (W.parser s) plainProcess) (e : Entry) (t : DateTime) :
    oneOf dateSeconds (W.read key e) = some t ↔ ∃ f x, Stamp.Fits x f ∧ e.value = x.text f ∧ x.Real ∧ t = x.seconds := by
  have := one_read (g := dateSeconds) (said := fun x => if x.2.Real then some x.2.seconds else none) h hb (fun x _ => by
    rcases stamp_cases x.2 with ⟨h1, h2, h3⟩ | ⟨h1, s, h2⟩
    · exact .inl ⟨h2, by rw [h3, if_pos h1]⟩
    · exact .inr ⟨s, h2, if_neg h1⟩) e t
  rw [this]
  constructor
  · rintro ⟨⟨f, x⟩, h1, h2, h3⟩
    replace h3 : (if x.Real then some x.seconds else none) = some t := h3
    split at h3
    · rename_i hr
      exact ⟨f, x, h1, h2, hr, (Option.some.inj h3).symm⟩
    · cases h3
  · rintro ⟨f, x, h1, h2, h3, rfl⟩
    exact ⟨(f, x), h1, h2, if_pos h3⟩

theorem etag_is : OneIs (fun e => oneOf entityTagOf (W.read "ETag" e)) EntityTag.Ok EntityTag.text (fun x => some x.said) :=
  one_read (s := W.tagSym .etag) (C72_etag hW.tag.1 hW.tag.2 _) rfl fun x _ => .inl ⟨realObj (by decide), tag_back x⟩

theorem expect_is :
    OneIs (fun e => oneOf textOrNone (W.read "Expect" e)) (fun w => SameWord w (str "100-continue")) (fun w => w) some :=
  one_read (s := W.semSym .expect) (C75_expect hW.order hW.sem.1 hW.sem.2 _) rfl fun _ _ => .inl ⟨realObj (by decide), rfl⟩

theorem http2Settings_is :
    OneIs (fun e => oneOf textOrNone (W.read "HTTP2-Settings" e)) Token68.Ok Token68.text (fun x => some x.text) :=
  one_read (s := W.http2Sym .http2Settings) (C78_http2_settings hW.http2.1 hW.http2.2 _) rfl fun _ _ => .inl ⟨realText _, rfl⟩

theorem ifRange_is : OneIs (fun e => oneOf ifRangeOf (W.read "If-Range" e)) IfRangeSyn.Ok IfRangeSyn.text
    (fun x => match x with
      | .tag t => some (.tag t.said)
      | .date _ d => if d.Real then some (.date d.seconds) else none) := by
  refine one_read (s := W.tagSym .ifRange) (C72_if_range hW.tag.1 hW.tag.2 _) rfl fun x _ => ?_
  cases x with
  | tag t =>
    refine .inl ⟨realObj (by decide), ?_⟩
    show ifRangeOf t.value = _
    rw [ifRangeOf, tag_back]
  | date f d =>
    rcases stamp_cases d with ⟨h1, h2, h3⟩ | ⟨h1, s, h2⟩
    · refine .inl ⟨h2, ?_⟩
      show ifRangeOf d.value = if _ then _ else _
      rw [ifRangeOf, stamp_no_tag, h3, if_pos h1]
      rfl
    · exact .inr ⟨s, h2, if_neg h1⟩

theorem range_is : OneIs (fun e => oneOf rangeOf (W.read "Range" e)) RangeSyn.Ok RangeSyn.text
    (fun x => match x with
      | .bytes u l => some (u, l.elems.length)
      | .other u s => some (u, s.length)) := by
  obtain ⟨k, hk, _⟩ := C55_range_accepts hW.order (env := W.range.env) hW.range.1 hW.range.2 W.annotate []
  refine one_read (s := W.rangeSym .range) (value := RangeSyn.value) (notes := RangeSyn.notes) ⟨k, hk, ?_, ?_⟩ rfl fun x _ => ?_
  · intro data
    obtain ⟨k', hk', h⟩ := C55_range_accepts hW.order (env := W.range.env) hW.range.1 hW.range.2 W.annotate data
    cases Sym.nt.inj (hk.symm.trans hk')
    exact h
  · intro x hx
    obtain ⟨k', cs, as, hk', h⟩ := C55_range_reads hW.order (env := W.range.env) hW.range.1 hW.range.2 W.annotate hx
    cases Sym.nt.inj (hk.symm.trans hk')
    exact ⟨cs, as, h⟩
  · cases x with
    | bytes u l =>
      refine .inl ⟨realObj (by decide), ?_⟩
      show some (u, (List.map _ _).length) = _
      rw [List.length_map]
    | other u v => exact .inl ⟨realObj (by decide), rfl⟩

theorem authorization_is {key : String} {n : AuthName} (hn : n = .authorization ∨ n = .proxyAuthorization)
    (hb : W.byKey key = knownKind key (W.parser (W.authSym n)) plainProcess) (e : Entry) (a : Str × AuthParams) :
    oneOf (fun v => some (strText (itemOf v), authParamsOf (partOf v))) (W.read key e) = some a ↔
      ∃ x : AuthSyn, x.Ok ∧ e.value = x.text ∧ a = (x.scheme, x.details.said) := by
  rw [one_read (g := fun v => some (strText (itemOf v), authParamsOf (partOf v)))
    (said := fun x : AuthSyn => some (x.scheme, x.details.said)) (s := W.authSym n) (C76_credentials hW.auth.1 hW.auth.2 _ hn) hb (fun x _ =>
      .inl ⟨realObj (by decide), congrArg (fun l => some (x.scheme, l)) (details_back _)⟩) e a]
  simp only [Option.some.injEq, eq_comm]

theorem challenge_is {key : String} {n : AuthName} (hn : n = .wwwAuthenticate ∨ n = .proxyAuthenticate)
    (hb : W.byKey key = knownKind key (W.parser (W.authSym n)) plainProcess) :
    ListIs (fun e => someOf (fun v => (strText (itemOf v), authParamsOf (partOf v))) (W.read key e))
      (List1Syn.Ok AuthSyn.Ok) (List1Syn.text AuthSyn.text) List1Syn.elems (Being fun a => (a.scheme, a.details.said)) := by
  obtain ⟨k, hk, h1, h2⟩ := C76_challenges (env := W.auth.env) hW.auth.1 hW.auth.2 W.annotate hn
  rw [plain_read hb hk]
  refine list_plain (Is := fun b v => v = b.value) ?_ ?_ being_unique
  · exact ⟨h1, fun x hx => let ⟨cs, as, h3, _⟩ := h2 x hx; ⟨_, cs, as, h3, _, rfl, pairwise2_of_map _⟩⟩
  · rintro x hx b hb _ rfl
    exact congrArg (fun l => (b.scheme, l)) (details_back b.details)

theorem userAgent_is : OneIs (fun e => oneOf (listOf productOf) (W.read "User-Agent" e)) Products.Ok Products.text
    (fun x => some (some x.first.name :: x.rest.map fun y => match y.2 with | .product p => some p.name | .comment _ => none)) := by
  refine one_read (s := W.commentSym .userAgent) (C84_user_agent hW.order hW.comment.1 hW.comment.2 _) rfl fun x _ =>
    .inl ⟨realList _, ?_⟩
  show some (_ :: List.map _ (List.map _ _)) = _
  rw [List.map_map]
  congr 2
  refine List.map_congr_left fun y _ => ?_
  obtain ⟨_, y⟩ := y
  cases y <;> rfl

/-! ## Lists -/

theorem accept_is : ListIs (fun e => someOf (fun v => (strText (itemOf (itemOf v)), weightOf (partOf v))) (W.read "Accept" e))
    (ListSyn.Ok AcceptSyn.Ok) (ListSyn.text AcceptSyn.text)
    ListSyn.elems (Being fun x => (x.range.name, x.rank.map fun r => r.1.thousandths)) := by
  obtain ⟨k, hk, hr⟩ := C75_accept hW.order (env := W.sem.env) hW.sem.1 hW.sem.2 W.annotate
  rw [plain_read (s := W.semSym .accept) rfl hk]
  refine list_plain (comes_readsAs hr) ?_ being_unique
  rintro x hx b hb v (rfl | ⟨_, rfl⟩)
  · exact accept_back rfl fun r l e => ((view_elems_ok hx b hb).2 r l e).1
  · exact accept_back rfl fun r l e => ((view_elems_ok hx b hb).2 r l e).1

theorem acceptCharset_is :
    ListIs (fun e => someOf (fun v => (strText (itemOf (itemOf v)), weightOf (partOf v))) (W.read "Accept-Charset" e))
    (List1Syn.Ok RankedSyn.Ok) (List1Syn.text RankedSyn.text) List1Syn.elems
    (Being fun x => (x.name, x.rank.map Ranking.thousandths)) :=
  list_read (s := W.semSym .acceptCharset) (C75_accept_charset hW.order hW.sem.1 hW.sem.2 _) rfl fun _ hx b hb =>
    ranked_back ⟨rfl, rfl⟩ (elems1_ok hx b hb).2

theorem acceptEncoding_is :
    ListIs (fun e => someOf (fun v => (strText (itemOf (itemOf v)), weightOf (partOf v))) (W.read "Accept-Encoding" e))
    (ListSyn.Ok RankedSyn.Ok) (ListSyn.text RankedSyn.text) ListSyn.elems
    (Being fun x => (x.name, x.rank.map Ranking.thousandths)) := by
  obtain ⟨k, hk, hr⟩ := C75_accept_encoding hW.order (env := W.sem.env) hW.sem.1 hW.sem.2 W.annotate
  rw [plain_read (s := W.semSym .acceptEncoding) rfl hk]
  refine list_plain (comes_readsAs hr) ?_ being_unique
  rintro x hx b hb v (rfl | ⟨_, rfl⟩)
  · exact ranked_back ⟨rfl, rfl⟩ (view_elems_ok hx b hb).2
  · exact ranked_back ⟨rfl, rfl⟩ (view_elems_ok hx b hb).2

theorem acceptLanguage_is :
    ListIs (fun e => someOf (fun v => (strText (itemOf (itemOf v)), weightOf (partOf v))) (W.read "Accept-Language" e))
    (List1Syn.Ok RankedSyn.LanguageOk) (List1Syn.text RankedSyn.text) List1Syn.elems
    (Being fun x => (x.name, x.rank.map Ranking.thousandths)) :=
  list_read (s := W.langSym .acceptLanguage) (C81_accept_language hW.order hW.lang.1 hW.lang.2 _) rfl fun _ hx b hb =>
    ranked_back ⟨rfl, rfl⟩ (elems1_ok hx b hb).2

theorem acceptPatch_is : ListIs (fun e => someOf (fun v => strText (itemOf v)) (W.read "Accept-Patch" e))
    (List1Syn.Ok (MediaSyn.Ok IsToken)) (List1Syn.text MediaSyn.text) List1Syn.elems (Being MediaSyn.name) :=
  list_read (s := W.smallSym .acceptPatch) (C78_accept_patch hW.order hW.small.1 hW.small.2 _) rfl fun _ _ _ _ => rfl

theorem allow_is : ListIs (fun e => someOf strText (W.read "Allow" e)) (ListSyn.Ok IsToken) (ListSyn.text fun w => w) ListSyn.elems
    (Being fun w => w) :=
  list_read (s := W.semSym .allow) (C75_allow hW.order hW.sem.1 hW.sem.2 _) rfl fun _ _ _ _ => rfl

theorem connection_is : ListIs (fun e => someOf strText (W.read "Connection" e)) (List1Syn.Ok IsToken) (List1Syn.text fun w => w)
    List1Syn.elems (Being fun w => w) :=
  list_read (s := W.hopSym .connection) (C73_connection hW.order hW.hop.1 hW.hop.2 _) rfl fun _ _ _ _ => rfl

theorem trailer_is : ListIs (fun e => someOf strText (W.read "Trailer" e)) (List1Syn.Ok IsToken) (List1Syn.text fun w => w)
    List1Syn.elems (Being fun w => w) :=
  list_read (s := W.hopSym .trailer) (C73_trailer hW.order hW.hop.1 hW.hop.2 _) rfl fun _ _ _ _ => rfl

theorem silence_is : ListIs (fun e => someOf silenceOf (W.read "HTTPolice-Silence" e)) (ListSyn.Ok SilenceSyn.Ok)
    (ListSyn.text SilenceSyn.text) ListSyn.elems (Being fun x => (numeral x.number, x.resp.isSome)) :=
  list_read (s := W.smallSym .silence) (C78_silence hW.order hW.small.1 hW.small.2 _) rfl fun _ _ b _ => by
    obtain ⟨n, r⟩ := b
    cases r <;> rfl

theorem pragma_is : ListIs (fun e => someOf pragmaOf (W.read "Pragma" e)) (List1Syn.Ok PragmaSyn.Ok)
    (List1Syn.text PragmaSyn.text) List1Syn.elems
    (Being fun x => match x with | .noCache _ => .noCache | .other y => .extension y.name) :=
  list_read (s := W.cacheSym .pragma) (C74_pragma hW.order hW.cache.1 hW.cache.2 _) rfl fun _ _ b _ => by
    cases b <;> rfl

theorem te_is : ListIs (fun e => someOf (fun v => strText (itemOf (itemOf v))) (W.read "TE" e)) (ListSyn.Ok TeSyn.Ok)
    (ListSyn.text TeSyn.text) ListSyn.elems (Being fun x => match x with | .trailers w => w | .coding c _ => c.name) :=
  list_read (s := W.hopSym .te) (C73_te hW.order hW.hop.1 hW.hop.2 _) rfl fun _ _ b _ => by
    cases b <;> rfl

theorem transferEncoding_is : ListIs (fun e => someOf (fun v => strText (itemOf v)) (W.read "Transfer-Encoding" e))
    (List1Syn.Ok CodingSyn.Ok) (List1Syn.text CodingSyn.text) List1Syn.elems (Being CodingSyn.name) :=
  list_read (s := W.hopSym .transferEncoding) (C73_transfer_encoding hW.order hW.hop.1 hW.hop.2 _) rfl fun _ _ _ _ => rfl

theorem upgrade_is : ListIs (fun e => someOf (fun v => (strText (itemOf v), textOrNone (partOf v))) (W.read "Upgrade" e))
    (List1Syn.Ok Protocol.Ok) (List1Syn.text Protocol.text) List1Syn.elems (Being fun x => (x.name, x.version)) :=
  list_read (s := W.hopSym .upgrade) (C73_upgrade hW.order hW.hop.1 hW.hop.2 _) rfl fun _ _ b _ => by
    obtain ⟨n, v⟩ := b
    cases v <;> rfl

theorem warning_is : ListIs (fun e => someOf warningOf (W.read "Warning" e)) (List1Syn.Ok WarningSyn.Ok)
    (List1Syn.text WarningSyn.text) List1Syn.elems WarningSyn.Said := by
  obtain ⟨k, hk, hr⟩ := C84_warning hW.order (env := W.comment.env) hW.comment.1 hW.comment.2 W.annotate
  rw [plain_read (s := W.commentSym .warning) rfl hk]
  refine list_plain (Is := fun b v => v = b.value) ?_ ?_ warning_unique
  · exact ⟨hr.1, fun x hx => let ⟨cs, as, h3, _⟩ := hr.2 x hx; ⟨_, cs, as, h3, _, rfl, pairwise2_of_map _⟩⟩
  · rintro x hx b hb _ rfl
    exact warning_said b

/-- A star, or tags. -/
theorem ifMatch_is {key : String} {n : TagName} (hn : n = .ifMatch ∨ n = .ifNoneMatch)
    (hb : W.byKey key = knownKind key (W.parser (W.tagSym n)) plainProcess) (e : Entry) :
    let r := someOf (fun v => (entityTagOf v).getD ⟨false, strText v⟩) (W.read key e)
    (∀ l, r = .list l ↔ ∃ x : List1Syn Spec.EntityTag, x.Ok EntityTag.Ok ∧ e.value = x.text EntityTag.text ∧
      l = x.elems.map EntityTag.said) ∧
    ((∃ t, r = .single t) ↔ e.value = str "*") ∧
    (e.value ≠ str "*" → (¬ ∃ x : List1Syn Spec.EntityTag, x.Ok EntityTag.Ok ∧ e.value = x.text EntityTag.text) →
      r = .unavailable (some e.value)) := by
  have hc : ∃ k, W.tagSym n = .nt k ∧ Reads (fun data => innerParse W.final.grammar (pyOps W.annotate) data k) MatchSyn.Ok
      MatchSyn.text MatchSyn.value MatchSyn.notes := by
    rcases hn with rfl | rfl
    · exact C72_if_match hW.tag.1 hW.tag.2 _
    · exact C72_if_none_match hW.tag.1 hW.tag.2 _
  obtain ⟨k, hk, hr⟩ := hc
  rw [plain_read hb hk]
  have hv := valued_plain (key := key) (comes_reads hr) (by
    rintro x _ _ rfl
    cases x with
    | any => exact .inl (realText _)
    | tags l => exact .inl (realList _)) e
  have tags : ∀ l : List1Syn Spec.EntityTag, (l.elems.map EntityTag.value).map (fun v => (entityTagOf v).getD ⟨false, strText v⟩) =
      l.elems.map EntityTag.said := by
    intro l
    rw [List.map_map]
    refine List.map_congr_left fun t _ => ?_
    show (entityTagOf t.value).getD ⟨false, strText t.value⟩ = _
    rw [tag_back]
    rfl
  dsimp only at hv ⊢
  generalize ((knownKind key _ plainProcess).parse e).1 = r at hv
  have star : ∀ l : List1Syn Spec.EntityTag, l.Ok EntityTag.Ok → str "*" ≠ l.text EntityTag.text := by
    intro l hl he
    exact absurd (match_inj .any (.tags l) trivial hl he) nofun
  by_cases hs : e.value = str "*"
  · obtain ⟨_, rfl, h⟩ := hv.1 .any trivial hs
    have : r = .single (.text (str "*")) := by
      generalize hw : MatchSyn.any.value = w at h
      cases h with
      | list => cases hw
      | unavailable => cases hw
      | single => rw [← hw]; rfl
    rw [this]
    refine ⟨fun l => ⟨nofun, ?_⟩, ⟨fun _ => hs, fun _ => ⟨_, rfl⟩⟩, fun h => absurd hs h⟩
    rintro ⟨x, h1, h2, _⟩
    exact absurd (hs.symm.trans h2) (star x h1)
  · by_cases hx : ∃ x : List1Syn Spec.EntityTag, x.Ok EntityTag.Ok ∧ e.value = x.text EntityTag.text
    · obtain ⟨x, h1, h2⟩ := hx
      obtain ⟨_, rfl, h⟩ := hv.1 (.tags x) h1 h2
      have : r = .list (x.elems.map EntityTag.value) := by
        generalize hw : (MatchSyn.tags x).value = w at h
        cases h with
        | list => cases hw; rfl
        | unavailable => cases hw
        | single h => exact absurd hw.symm (h _)
      rw [this]
      refine ⟨fun l => ?_, ⟨nofun, fun h => absurd h hs⟩, fun _ h => absurd ⟨x, h1, h2⟩ h⟩
      show Parsed.list _ = _ ↔ _
      rw [tags]
      constructor
      · rintro ⟨⟩
        exact ⟨x, h1, h2, rfl⟩
      · rintro ⟨y, k1, k2, rfl⟩
        cases MatchSyn.tags.inj (match_inj (.tags x) (.tags y) h1 k1 (h2.symm.trans k2))
        rfl
    · have : r = .unavailable (some e.value) := by
        refine hv.2 ?_
        rintro ⟨x, h1, h2⟩
        cases x with
        | any => exact hs h2
        | tags l => exact hx ⟨l, h1, h2⟩
      rw [this]
      refine ⟨fun l => ⟨nofun, ?_⟩, ⟨nofun, fun h => absurd h hs⟩, fun _ _ => rfl⟩
      rintro ⟨x, h1, h2, _⟩
      exact absurd ⟨x, h1, h2⟩ hx

theorem vary_is (e : Entry) :
    let r := someOf strText (W.read "Vary" e)
    (∀ l, r = .list l → ∃ x : List1Syn Str, x.Ok IsToken ∧ e.value = (x.text fun w => w) ∧ l = x.elems) ∧
    (∀ x : List1Syn Str, x.Ok IsToken → e.value = (x.text fun w => w) →
      r = .list x.elems ∨ (e.value = str "*" ∧ r = .single (str "*"))) ∧
    ((¬ ∃ x : List1Syn Str, x.Ok IsToken ∧ e.value = x.text fun w => w) → r = .unavailable (some e.value)) := by
  obtain ⟨k, hk, hr⟩ := C75_vary hW.order (env := W.sem.env) hW.sem.1 hW.sem.2 W.annotate
  rw [plain_read (s := W.semSym .vary) rfl hk]
  have hv := valued_plain (key := "Vary") (comes_readsAs hr) (by
    rintro x _ _ (rfl | ⟨_, rfl⟩)
    · exact .inl (realList _)
    · exact .inl (realText _)) e
  dsimp only at hv ⊢
  generalize ((knownKind "Vary" _ plainProcess).parse e).1 = r at hv
  have main : ∀ x : List1Syn Str, x.Ok IsToken → e.value = (x.text fun w => w) →
      someOf strText r = .list x.elems ∨ (e.value = str "*" ∧ someOf strText r = .single (str "*")) := by
    intro x h1 h2
    obtain ⟨_, rfl | ⟨rfl, rfl⟩, h⟩ := hv.1 x h1 h2
    · have : r = .list (x.elems.map (nameValue (str "FieldName"))) := by
        generalize hw : x.value _ = w at h
        cases h with
        | list => cases hw; rfl
        | unavailable => cases hw
        | single h => exact absurd hw.symm (h _)
      rw [this]
      refine .inl ?_
      refine congrArg Parsed.list (?_ : (x.elems.map (nameValue (str "FieldName"))).map strText = x.elems)
      rw [List.map_map]
      exact (List.map_congr_left fun _ _ => rfl).trans (List.map_id _)
    · generalize hw : GVal.text (str "*") = w at h
      cases h with
      | list => cases hw
      | unavailable => cases hw
      | single => exact .inr ⟨h2, by rw [← hw]; rfl⟩
  refine ⟨fun l hl => ?_, main, fun hn => ?_⟩
  · by_cases hx : ∃ x : List1Syn Str, x.Ok IsToken ∧ e.value = x.text fun w => w
    · obtain ⟨x, h1, h2⟩ := hx
      rcases main x h1 h2 with h | ⟨_, h⟩
      · rw [h] at hl
        cases hl
        exact ⟨x, h1, h2, rfl⟩
      · rw [h] at hl
        cases hl
    · have hl' : someOf strText r = _ := hl
      rw [hv.2 hx] at hl'
      cases hl'
  · show someOf strText r = _
    rw [hv.2 hn]
    rfl

/-! ## Arguments -/

theorem cacheControl_is :
    ListIs (fun e => someOf (fun v => (strText (itemOf v), argumentOf cacheArgOf (partOf v))) (W.read "Cache-Control" e))
    (List1Syn.Ok (Setting.Ok IsToken)) (List1Syn.text Setting.text) List1Syn.elems CacheSaid := by
  obtain ⟨k, k1, k2, k3, hk, hk1, hk2, hk3, hr⟩ :=
    C86_cache_control hW.order (env := W.cache.env) hW.cache.1 hW.cache.2 W.annotate W.annotate
  have hb : W.byKey "Cache-Control" = knownKind "Cache-Control" (W.parser (W.cacheSym .cacheControl)) (cacheProcess (argRule asciiLower
      (cacheRules (W.parser (W.cacheSym .deltaSeconds)) (W.parser (W.cacheSym .noCache)) (W.parser (W.cacheSym .private_))))
      cacheForm) := rfl
  rw [show W.cacheSym .cacheControl = _ from hk, show W.cacheSym .deltaSeconds = _ from hk1, show W.cacheSym .noCache = _ from hk2,
    show W.cacheSym .private_ = _ from hk3] at hb
  unfold World.read
  rw [hb]
  refine list_is (valued_entries hr ?_) (Is := fun b v => ∃ e ns, CacheBecomes e b (v, ns)) ?_ ?_
  · rintro e x r _ ⟨rs, h1, h2, _⟩
    refine ⟨_, h2, ?_⟩
    have := each_list h1
    generalize rs.map Prod.fst = vs at this
    clear h1 h2 hr
    generalize x.elems = l at this
    induction this with
    | nil => exact .nil
    | cons h _ ih => exact .cons ⟨e, h⟩ ih
  · rintro x _ b _ v ⟨e, ns, ns', ⟨a, ns'', h1, h2⟩, _⟩
    cases h2
    exact ⟨rfl, takenAs_of (retyped_cache _) h1⟩
  · rintro b ⟨_, v⟩ ⟨_, w⟩ ⟨rfl, h⟩ ⟨rfl, k⟩
    exact congrArg _ (takenAs_unique (cachePlace_unique _) h k)

theorem hsts_is (e : Entry) (l : List (Str × ArgVal Nat)) :
    oneOf (listOf fun v => (strText (itemOf v), argumentOf wholeNumber (partOf v))) (W.read "Strict-Transport-Security" e) = some l ↔
      ∃ x : HstsSyn, x.Ok ∧ e.value = x.text ∧ Pairwise2 HstsSaid x.dirs l := by
  obtain ⟨k, k1, hk, hk1, hr⟩ :=
    C86_strict_transport_security hW.order (env := W.small.env) hW.small.1 hW.small.2 W.annotate W.annotate
  have hb : W.byKey "Strict-Transport-Security" = knownKind "Strict-Transport-Security" (W.parser (W.smallSym .hsts)) (argumentsProcess
    (argRule asciiLower (hstsRules (W.parser (W.smallSym .maxAge))))) := rfl
  rw [show W.smallSym .hsts = _ from hk, show W.smallSym .maxAge = _ from hk1] at hb
  unfold World.read
  rw [hb]
  have key : ∀ x : HstsSyn, x.Ok → e.value = x.text → ∃ m, oneOf (listOf fun v => (strText (itemOf v), argumentOf wholeNumber (partOf v)))
      ((knownKind "Strict-Transport-Security" (W.parser (.nt k)) (argumentsProcess (argRule asciiLower (hstsRules (W.parser (.nt k1)))))).parse
        e).1 = some m ∧ Pairwise2 HstsSaid x.dirs m := by
    intro x hx ex
    obtain ⟨rs, h1, h2, _⟩ := (hr e).1 x hx ex
    refine ⟨(rs.map Prod.fst).map fun v => (strText (itemOf v), argumentOf wholeNumber (partOf v)), ?_, ?_⟩
    · exact congrArg _ h2
    · refine pairwise2_map (each_list h1) ?_
      rintro b _ v ⟨ns, a, ns', h3, h4⟩
      cases h4
      exact ⟨rfl, takenAs_of (retyped_hsts _) h3⟩
  constructor
  · intro hl
    by_cases hx : ∃ x : HstsSyn, x.Ok ∧ e.value = x.text
    · obtain ⟨x, h1, h2⟩ := hx
      obtain ⟨m, h3, h4⟩ := key x h1 h2
      cases Option.some.inj (h3.symm.trans hl)
      exact ⟨x, h1, h2, h4⟩
    · have := congrArg Prod.fst ((hr e).2 hx)
      have e2 : oneOf _ _ = some l := hl
      rw [show ((knownKind "Strict-Transport-Security" (W.parser (.nt k)) (argumentsProcess (argRule asciiLower
        (hstsRules (W.parser (.nt k1)))))).parse e).1 = .unavailable (some e.value) from this] at e2
      cases e2
  · rintro ⟨x, h1, h2, h3⟩
    obtain ⟨m, k3, k4⟩ := key x h1 h2
    rw [k3, pairwise2_unique (fun b v w h k => ?_) k4 h3]
    obtain ⟨v1, v⟩ := v
    obtain ⟨w1, w⟩ := w
    obtain ⟨rfl, h⟩ := h
    obtain ⟨rfl, k⟩ := k
    exact congrArg _ (takenAs_unique (hstsPlace_unique _) h k)

theorem preferences_are :
    ListIs (fun e => someOf (fun v => (strText (itemOf (itemOf v)), argumentOf prefArgOf (partOf (itemOf v)))) (W.read "Prefer" e))
      (List1Syn.Ok PrefSyn.Ok) (List1Syn.text PrefSyn.text) List1Syn.elems (fun x => PrefSaid x.head) ∧
    ListIs (fun e => someOf (fun v => (strText (itemOf v), argumentOf prefArgOf (partOf v))) (W.read "Preference-Applied" e))
      (List1Syn.Ok (Setting.Ok IsToken)) (List1Syn.text Setting.text) List1Syn.elems PrefSaid := by
  obtain ⟨k, k0, k1, k2, k3, hk, hk0, hk1, hk2, hk3, hr⟩ :=
    C86_prefer hW.order (env := W.small.env) hW.small.1 hW.small.2 W.annotate W.annotate
  have hp : W.preferences = argRule asciiLower (preferRules (W.parser (W.smallSym .handling)) (W.parser (W.smallSym .return_))
    (W.parser (W.smallSym .wait))) := rfl
  rw [show W.smallSym .handling = _ from hk1, show W.smallSym .return_ = _ from hk2, show W.smallSym .wait = _ from hk3] at hp
  obtain ⟨h1, h2⟩ := hr W.preferences hp
  have hb : W.byKey "Prefer" = knownKind "Prefer" (W.parser (W.smallSym .prefer)) (preferProcess W.preferences) := rfl
  have hb' : W.byKey "Preference-Applied" =
    knownKind "Preference-Applied" (W.parser (W.smallSym .preferenceApplied)) (argumentsProcess W.preferences) := rfl
  rw [show W.smallSym .prefer = _ from hk] at hb
  rw [show W.smallSym .preferenceApplied = _ from hk0] at hb'
  have hu : ∀ (b : Setting) v w, PrefSaid b v → PrefSaid b w → v = w := by
    rintro b ⟨_, v⟩ ⟨_, w⟩ ⟨rfl, h⟩ ⟨rfl, k⟩
    exact congrArg _ (takenAs_unique (preferPlace_unique _) h k)
  constructor
  · unfold World.read
    rw [hb]
    refine list_is (valued_entries h1 ?_) (Is := fun b v => ∃ e ns, PrefBecomes e b (v, ns)) ?_ fun b => hu b.head
    · rintro e x r _ ⟨rs, h1, h2, _⟩
      refine ⟨_, h2, ?_⟩
      have := each_list h1
      generalize rs.map Prod.fst = vs at this
      clear h1 h2 hr hb hb' hp
      generalize x.elems = l at this
      induction this with
      | nil => exact .nil
      | cons h _ ih => exact .cons ⟨e, h⟩ ih
    · rintro x _ b _ v ⟨e, ns, head, ⟨a, ns', h1, h2⟩, h3⟩
      cases h2
      cases h3
      exact ⟨rfl, takenAs_of (retyped_prefer _) h1⟩
  · unfold World.read
    rw [hb']
    refine list_is (valued_entries h2 ?_) (Is := fun b v => ∃ e ns, AppliedBecomes e b (v, ns)) ?_ hu
    · rintro e x r _ ⟨rs, h1, h2, _⟩
      refine ⟨_, h2, ?_⟩
      have := each_list h1
      generalize rs.map Prod.fst = vs at this
      clear h1 h2 hr hb hb' hp
      generalize x.elems = l at this
      induction this with
      | nil => exact .nil
      | cons h _ ih => exact .cons ⟨e, h⟩ ih
    · rintro x _ b _ v ⟨e, ns, a, ns', h1, h2⟩
      cases h2
      exact ⟨rfl, takenAs_of (retyped_prefer _) h1⟩

/-! ## All of them -/

theorem dates_are {key : String}
    (hk : key ∈ ["Date", "Expires", "If-Modified-Since", "If-Unmodified-Since", "Last-Modified"]) (e : Entry) (t : DateTime) :
    oneOf dateSeconds (W.read key e) = some t ↔ ∃ f x, Stamp.Fits x f ∧ e.value = x.text f ∧ x.Real ∧ t = x.seconds := by
  simp only [List.mem_cons, List.not_mem_nil, or_false] at hk
  rcases hk with rfl | rfl | rfl | rfl | rfl
  · exact date_is hW (s := W.semSym .dateHeader) (C75_date hW.order hW.sem.1 hW.sem.2 _) rfl e t
  · exact date_is hW (s := W.cacheSym .expires) (C74_expires hW.order hW.cache.1 hW.cache.2 _) rfl e t
  · exact date_is hW (s := W.tagSym .ifModifiedSince) (C72_dates hW.tag.1 hW.tag.2 _ (.inr (.inl rfl))) rfl e t
  · exact date_is hW (s := W.tagSym .ifUnmodifiedSince) (C72_dates hW.tag.1 hW.tag.2 _ (.inr (.inr rfl))) rfl e t
  · exact date_is hW (s := W.tagSym .lastModified) (C72_dates hW.tag.1 hW.tag.2 _ (.inl rfl)) rfl e t

variable {lower : Str → Str} (hl : LowersAscii lower) (link : Entry → Parsed LinkRel)
include hl

theorem lit_age : OneIs (W.grammars lower link).age IsNumeral (fun w => w) (fun w => some (numeral w)) := by
  unfold World.grammars
  dsimp only
  exact age_is hW

theorem lit_contentLength : OneIs (W.grammars lower link).contentLength IsNumeral (fun w => w) (fun w => some (numeral w)) := by
  unfold World.grammars
  dsimp only
  exact contentLength_is hW

theorem lit_contentDisposition : OneIs (W.grammars lower link).contentDisposition DispSyn.Ok DispSyn.text
    (fun x => some (x.params.elems.map fun p => (p.name, p.value.said))) := by
  unfold World.grammars
  dsimp only
  exact contentDisposition_is hW

theorem lit_contentLocation : OneIs (W.grammars lower link).contentLocation IsUriNoFragment (fun w => w) some := by
  unfold World.grammars
  dsimp only
  exact text_read (s := W.uriSym .contentLocation) (C77_no_fragment hW.uri.1 hW.uri.2 _ (.inl rfl)) rfl

theorem lit_referer : OneIs (W.grammars lower link).referer IsUriNoFragment (fun w => w) some := by
  unfold World.grammars
  dsimp only
  exact text_read (s := W.uriSym .referer) (C77_no_fragment hW.uri.1 hW.uri.2 _ (.inr rfl)) rfl

theorem lit_location : OneIs (W.grammars lower link).location IsUriReference (fun w => w) some := by
  unfold World.grammars
  dsimp only
  exact text_read (s := W.uriSym .location) (C77_reference hW.uri.1 hW.uri.2 _ (.inr rfl)) rfl

theorem lit_host : OneIs (W.grammars lower link).host IsHostHeader (fun w => w) some := by
  unfold World.grammars
  dsimp only
  exact text_read (s := W.uriSym .hostHeader) (C77_host hW.uri.1 hW.uri.2 _) rfl

theorem lit_contentType : OneIs (W.grammars lower link).contentType (MediaSyn.Ok IsToken) MediaSyn.text
    (fun x => some (x.name, x.params.elems.map fun p => (p.name, p.value.content))) := by
  unfold World.grammars
  dsimp only
  exact contentType_is hW

theorem lit_date : ∀ e, (∃ key ∈ ["Date", "Expires", "If-Modified-Since", "If-Unmodified-Since", "Last-Modified"], Called lower e.name key) →
    ∀ t, (W.grammars lower link).date e = some t ↔ ∃ f x, Stamp.Fits x f ∧ e.value = x.text f ∧ x.Real ∧ t = x.seconds := by
  intro e h t
  obtain ⟨key, hk, hc⟩ := h
  unfold World.grammars
  dsimp only
  rw [any_read hl hc (by decide +kernel)]
  have : (["Expires", "If-Modified-Since", "If-Unmodified-Since", "Last-Modified"].find? fun k =>
      asciiLower (str k) == asciiLower (str key)).getD "Date" = key := by
    clear hc
    simp only [List.mem_cons, List.not_mem_nil, or_false] at hk
    rcases hk with rfl | rfl | rfl | rfl | rfl <;> rfl
  rw [this]
  exact dates_are hW hk e t

theorem lit_etag : OneIs (W.grammars lower link).etag EntityTag.Ok EntityTag.text (fun x => some x.said) := by
  unfold World.grammars
  dsimp only
  exact etag_is hW

theorem lit_expect : OneIs (W.grammars lower link).expect (fun w => SameWord w (str "100-continue")) (fun w => w) some := by
  unfold World.grammars
  dsimp only
  exact expect_is hW

theorem lit_http2Settings : OneIs (W.grammars lower link).http2Settings Token68.Ok Token68.text (fun x => some x.text) := by
  unfold World.grammars
  dsimp only
  exact http2Settings_is hW

theorem lit_ifRange : OneIs (W.grammars lower link).ifRange IfRangeSyn.Ok IfRangeSyn.text
    (fun x => match x with
      | .tag t => some (.tag t.said)
      | .date _ d => if d.Real then some (.date d.seconds) else none) := by
  unfold World.grammars
  dsimp only
  exact ifRange_is hW

theorem lit_range : OneIs (W.grammars lower link).range RangeSyn.Ok RangeSyn.text
    (fun x => match x with
      | .bytes u l => some (u, l.elems.length)
      | .other u s => some (u, s.length)) := by
  unfold World.grammars
  dsimp only
  exact range_is hW

theorem lit_authorization : ∀ e, Called lower e.name "Authorization" ∨ Called lower e.name "Proxy-Authorization" →
    ∀ a, (W.grammars lower link).authorization e = some a ↔ ∃ x : AuthSyn, x.Ok ∧ e.value = x.text ∧ a = (x.scheme, x.details.said) := by
  intro e h a
  unfold World.grammars
  dsimp only
  rcases h with h | h
  · rw [any_read hl h (by decide +kernel)]
    exact authorization_is hW (.inl rfl) rfl e a
  · rw [any_read hl h (by decide +kernel)]
    exact authorization_is hW (.inr rfl) rfl e a

theorem lit_strictTransportSecurity : ∀ e l, (W.grammars lower link).strictTransportSecurity e = some l ↔
    ∃ x : HstsSyn, x.Ok ∧ e.value = x.text ∧ Pairwise2 HstsSaid x.dirs l := by
  unfold World.grammars
  dsimp only
  exact hsts_is hW

theorem lit_userAgent : OneIs (W.grammars lower link).userAgent Products.Ok Products.text
    (fun x => some (some x.first.name :: x.rest.map fun y => match y.2 with | .product p => some p.name | .comment _ => none)) := by
  unfold World.grammars
  dsimp only
  exact userAgent_is hW

theorem lit_accept : ∀ name, Called lower name "Accept" → ListIs ((W.grammars lower link).accept name) (ListSyn.Ok AcceptSyn.Ok) (ListSyn.text AcceptSyn.text)
    ListSyn.elems (Being fun x => (x.range.name, x.rank.map fun r => r.1.thousandths)) := by
  intro name h
  unfold World.grammars
  dsimp only
  simp only [any_read (W := W) (default := "Accept") (keys := ["Accept-Charset", "Accept-Encoding", "Accept-Language"]) hl h (by decide +kernel)]
  exact accept_is hW

theorem lit_acceptCharset : ∀ name, Called lower name "Accept-Charset" → ListIs ((W.grammars lower link).accept name) (List1Syn.Ok RankedSyn.Ok)
    (List1Syn.text RankedSyn.text) List1Syn.elems (Being fun x => (x.name, x.rank.map Ranking.thousandths)) := by
  intro name h
  unfold World.grammars
  dsimp only
  simp only [any_read (W := W) (default := "Accept") (keys := ["Accept-Charset", "Accept-Encoding", "Accept-Language"]) hl h (by decide +kernel)]
  exact acceptCharset_is hW

theorem lit_acceptEncoding : ∀ name, Called lower name "Accept-Encoding" → ListIs ((W.grammars lower link).accept name) (ListSyn.Ok RankedSyn.Ok)
    (ListSyn.text RankedSyn.text) ListSyn.elems (Being fun x => (x.name, x.rank.map Ranking.thousandths)) := by
  intro name h
  unfold World.grammars
  dsimp only
  simp only [any_read (W := W) (default := "Accept") (keys := ["Accept-Charset", "Accept-Encoding", "Accept-Language"]) hl h (by decide +kernel)]
  exact acceptEncoding_is hW

theorem lit_acceptLanguage : ∀ name, Called lower name "Accept-Language" → ListIs ((W.grammars lower link).accept name) (List1Syn.Ok RankedSyn.LanguageOk)
    (List1Syn.text RankedSyn.text) List1Syn.elems (Being fun x => (x.name, x.rank.map Ranking.thousandths)) := by
  intro name h
  unfold World.grammars
  dsimp only
  simp only [any_read (W := W) (default := "Accept") (keys := ["Accept-Charset", "Accept-Encoding", "Accept-Language"]) hl h (by decide +kernel)]
  exact acceptLanguage_is hW

theorem lit_acceptPatch : ListIs (W.grammars lower link).acceptPatch (List1Syn.Ok (MediaSyn.Ok IsToken)) (List1Syn.text MediaSyn.text) List1Syn.elems
    (Being MediaSyn.name) := by
  unfold World.grammars
  dsimp only
  exact acceptPatch_is hW

theorem lit_allow : ListIs (W.grammars lower link).allow (ListSyn.Ok IsToken) (ListSyn.text fun w => w) ListSyn.elems (Being fun w => w) := by
  unfold World.grammars
  dsimp only
  exact allow_is hW

theorem lit_cacheControl : ListIs (W.grammars lower link).cacheControl (List1Syn.Ok (Setting.Ok IsToken)) (List1Syn.text Setting.text) List1Syn.elems CacheSaid := by
  unfold World.grammars
  dsimp only
  exact cacheControl_is hW

theorem lit_connection : ListIs (W.grammars lower link).connection (List1Syn.Ok IsToken) (List1Syn.text fun w => w) List1Syn.elems (Being fun w => w) := by
  unfold World.grammars
  dsimp only
  exact connection_is hW

theorem lit_httpoliceSilence : ListIs (W.grammars lower link).httpoliceSilence (ListSyn.Ok SilenceSyn.Ok) (ListSyn.text SilenceSyn.text) ListSyn.elems
    (Being fun x => (numeral x.number, x.resp.isSome)) := by
  unfold World.grammars
  dsimp only
  exact silence_is hW

theorem lit_ifMatch : ∀ e, Called lower e.name "If-Match" ∨ Called lower e.name "If-None-Match" →
    (∀ l, (W.grammars lower link).ifMatch e = .list l ↔ ∃ x : List1Syn Spec.EntityTag, x.Ok EntityTag.Ok ∧ e.value = x.text EntityTag.text ∧
      l = x.elems.map EntityTag.said) ∧
    ((∃ t, (W.grammars lower link).ifMatch e = .single t) ↔ e.value = str "*") ∧
    (e.value ≠ str "*" → (¬ ∃ x : List1Syn Spec.EntityTag, x.Ok EntityTag.Ok ∧ e.value = x.text EntityTag.text) →
      (W.grammars lower link).ifMatch e = .unavailable (some e.value)) := by
  intro e h
  unfold World.grammars
  dsimp only
  rcases h with h | h
  · rw [any_read hl h (by decide +kernel)]
    exact ifMatch_is hW (.inl rfl) rfl e
  · rw [any_read hl h (by decide +kernel)]
    exact ifMatch_is hW (.inr rfl) rfl e

theorem lit_pragma : ListIs (W.grammars lower link).pragma (List1Syn.Ok PragmaSyn.Ok) (List1Syn.text PragmaSyn.text) List1Syn.elems
    (Being fun x => match x with | .noCache _ => .noCache | .other y => .extension y.name) := by
  unfold World.grammars
  dsimp only
  exact pragma_is hW

theorem lit_prefer : ListIs (W.grammars lower link).prefer (List1Syn.Ok PrefSyn.Ok) (List1Syn.text PrefSyn.text) List1Syn.elems (fun x => PrefSaid x.head) := by
  unfold World.grammars
  dsimp only
  exact (preferences_are hW).1

theorem lit_preferenceApplied : ListIs (W.grammars lower link).preferenceApplied (List1Syn.Ok (Setting.Ok IsToken)) (List1Syn.text Setting.text) List1Syn.elems
    PrefSaid := by
  unfold World.grammars
  dsimp only
  exact (preferences_are hW).2

theorem lit_te : ListIs (W.grammars lower link).te (ListSyn.Ok TeSyn.Ok) (ListSyn.text TeSyn.text) ListSyn.elems
    (Being fun x => match x with | .trailers w => w | .coding c _ => c.name) := by
  unfold World.grammars
  dsimp only
  exact te_is hW

theorem lit_trailer : ListIs (W.grammars lower link).trailer (List1Syn.Ok IsToken) (List1Syn.text fun w => w) List1Syn.elems (Being fun w => w) := by
  unfold World.grammars
  dsimp only
  exact trailer_is hW

theorem lit_transferEncoding : ListIs (W.grammars lower link).transferEncoding (List1Syn.Ok CodingSyn.Ok) (List1Syn.text CodingSyn.text) List1Syn.elems
    (Being CodingSyn.name) := by
  unfold World.grammars
  dsimp only
  exact transferEncoding_is hW

theorem lit_upgrade : ListIs (W.grammars lower link).upgrade (List1Syn.Ok Protocol.Ok) (List1Syn.text Protocol.text) List1Syn.elems
    (Being fun x => (x.name, x.version)) := by
  unfold World.grammars
  dsimp only
  exact upgrade_is hW

theorem lit_vary : ∀ e, (∀ l, (W.grammars lower link).vary e = .list l → ∃ x : List1Syn Str, x.Ok IsToken ∧ e.value = (x.text fun w => w) ∧ l = x.elems) ∧
    (∀ x : List1Syn Str, x.Ok IsToken → e.value = (x.text fun w => w) →
      (W.grammars lower link).vary e = .list x.elems ∨ (e.value = str "*" ∧ (W.grammars lower link).vary e = .single (str "*"))) ∧
    ((¬ ∃ x : List1Syn Str, x.Ok IsToken ∧ e.value = x.text fun w => w) → (W.grammars lower link).vary e = .unavailable (some e.value)) := by
  unfold World.grammars
  dsimp only
  exact vary_is hW

theorem lit_warning : ListIs (W.grammars lower link).warning (List1Syn.Ok WarningSyn.Ok) (List1Syn.text WarningSyn.text) List1Syn.elems WarningSyn.Said := by
  unfold World.grammars
  dsimp only
  exact warning_is hW

theorem lit_challenge : ∀ e, Called lower e.name "WWW-Authenticate" ∨ Called lower e.name "Proxy-Authenticate" →
    (∀ l, (W.grammars lower link).challenge e = .list l ↔ ∃ x : List1Syn AuthSyn, x.Ok AuthSyn.Ok ∧ e.value = x.text AuthSyn.text ∧
      l = x.elems.map fun a => (a.scheme, a.details.said)) ∧
    ((¬ ∃ x : List1Syn AuthSyn, x.Ok AuthSyn.Ok ∧ e.value = x.text AuthSyn.text) → (W.grammars lower link).challenge e = .unavailable (some e.value)) ∧
    ∀ a, (W.grammars lower link).challenge e ≠ .single a := by
  intro e h
  unfold World.grammars
  dsimp only
  rcases h with h | h
  · rw [any_read hl h (by decide +kernel)]
    have := challenge_is hW (key := "WWW-Authenticate") (.inl rfl) rfl e
    simp only [pairwise2_being] at this
    exact this
  · rw [any_read hl h (by decide +kernel)]
    have := challenge_is hW (key := "Proxy-Authenticate") (.inr rfl) rfl e
    simp only [pairwise2_being] at this
    exact this

/-- **C89**: what the checks are told about headers is what is written in them. -/
theorem C89_literate : Literate lower (W.grammars lower link) where
  age := lit_age hW hl link
  contentLength := lit_contentLength hW hl link
  contentDisposition := lit_contentDisposition hW hl link
  contentLocation := lit_contentLocation hW hl link
  referer := lit_referer hW hl link
  location := lit_location hW hl link
  host := lit_host hW hl link
  contentType := lit_contentType hW hl link
  date := lit_date hW hl link
  etag := lit_etag hW hl link
  expect := lit_expect hW hl link
  http2Settings := lit_http2Settings hW hl link
  ifRange := lit_ifRange hW hl link
  range := lit_range hW hl link
  authorization := lit_authorization hW hl link
  strictTransportSecurity := lit_strictTransportSecurity hW hl link
  userAgent := lit_userAgent hW hl link
  accept := lit_accept hW hl link
  acceptCharset := lit_acceptCharset hW hl link
  acceptEncoding := lit_acceptEncoding hW hl link
  acceptLanguage := lit_acceptLanguage hW hl link
  acceptPatch := lit_acceptPatch hW hl link
  allow := lit_allow hW hl link
  cacheControl := lit_cacheControl hW hl link
  connection := lit_connection hW hl link
  httpoliceSilence := lit_httpoliceSilence hW hl link
  ifMatch := lit_ifMatch hW hl link
  pragma := lit_pragma hW hl link
  prefer := lit_prefer hW hl link
  preferenceApplied := lit_preferenceApplied hW hl link
  te := lit_te hW hl link
  trailer := lit_trailer hW hl link
  transferEncoding := lit_transferEncoding hW hl link
  upgrade := lit_upgrade hW hl link
  vary := lit_vary hW hl link
  warning := lit_warning hW hl link
  challenge := lit_challenge hW hl link

end

section
variable {W : World} (hW : Ready W) {base : Env} (hl : LowersAscii base.lower) (hk : ∀ e v, base.grammars.link e ≠ .single v)
include hW hl hk

/-- Whatever the name, it is one of the four headers. -/
theorem accept_not_single (name : Str) (e : Entry) (v : Str × Option Nat) :
    (W.grammars base.lower base.grammars.link).accept name e ≠ .single v := by
  unfold World.grammars World.readAny
  dsimp only
  have : ∀ key ∈ ["Accept-Charset", "Accept-Encoding", "Accept-Language", "Accept"],
      someOf (fun v => (strText (itemOf (itemOf v)), weightOf (partOf v))) (W.read key e) ≠ .single v := by
    intro key hm
    simp only [List.mem_cons, List.not_mem_nil, or_false] at hm
    rcases hm with rfl | rfl | rfl | rfl
    · exact (acceptCharset_is hW e).2.2 v
    · exact (acceptEncoding_is hW e).2.2 v
    · exact (acceptLanguage_is hW e).2.2 v
    · exact (accept_is hW e).2.2 v
  refine this _ ?_
  cases h : List.find? (fun k => base.lower (str k) == base.lower name) ["Accept-Charset", "Accept-Encoding", "Accept-Language"] with
  | none => exact .tail _ (.tail _ (.tail _ (.head _)))
  | some k =>
    have := List.mem_of_find?_eq_some h
    simp only [List.mem_cons, List.not_mem_nil, or_false] at this
    rcases this with rfl | rfl | rfl <;> decide

theorem challenge_not_single (e : Entry) (v : Str × AuthParams) :
    (W.grammars base.lower base.grammars.link).challenge e ≠ .single v := by
  unfold World.grammars World.readAny
  dsimp only
  have h1 := (challenge_is hW (key := "WWW-Authenticate") (.inl rfl) rfl e).2.2 v
  have h2 := (challenge_is hW (key := "Proxy-Authenticate") (.inr rfl) rfl e).2.2 v
  cases h : List.find? (fun k => base.lower (str k) == base.lower e.name) ["Proxy-Authenticate"] with
  | none => exact h1
  | some k =>
    have := List.mem_of_find?_eq_some h
    simp only [List.mem_cons, List.not_mem_nil, or_false] at this
    subst this
    exact h2

omit hW hl hk in
theorem sensible_of {E : Env} (hl : LowersAscii E.lower) (L : Literate E.lower E.grammars) (hk : ∀ e v, E.grammars.link e ≠ .single v)
    (ha : ∀ n e v, E.grammars.accept n e ≠ .single v) (hc : ∀ e v, E.grammars.challenge e ≠ .single v) : Sensible E where
  lower := hl
  acceptPatch := fun e => (L.acceptPatch e).2.2
  accept := ha
  allow := fun e => (L.allow e).2.2
  cacheControl := fun e => (L.cacheControl e).2.2
  connection := fun e => (L.connection e).2.2
  silence := fun e => (L.httpoliceSilence e).2.2
  link := hk
  pragma := fun e => (L.pragma e).2.2
  prefer := fun e => (L.prefer e).2.2
  preferenceApplied := fun e => (L.preferenceApplied e).2.2
  te := fun e => (L.te e).2.2
  trailer := fun e => (L.trailer e).2.2
  transferEncoding := fun e => (L.transferEncoding e).2.2
  upgrade := fun e => (L.upgrade e).2.2
  warning := fun e => (L.warning e).2.2
  challenge := hc

/-- **C89**: with these grammars, all that is assumed of grammars by the theorems about notices is the case. -/
theorem C89_sensible : Sensible (W.env base) := by
  have hg : (W.env base).grammars = W.grammars base.lower base.grammars.link := by
    unfold World.env
    dsimp only
  have hlow : (W.env base).lower = base.lower := by
    unfold World.env
    dsimp only
  have L : Literate (W.env base).lower (W.env base).grammars := by
    rw [hg, hlow]
    exact C89_literate hW hl base.grammars.link
  have hl' : LowersAscii (W.env base).lower := by
    rw [hlow]
    exact hl
  refine sensible_of hl' L ?_ ?_ ?_ <;> rw [hg]
  · exact hk
  · exact accept_not_single hW hl hk
  · exact challenge_not_single hW hl hk

end

/-! ## The table of headers -/

/-- Headers with a syntax. -/
def syntaxKeys : List String :=
  ["Accept", "Accept-Charset", "Accept-Encoding", "Accept-Language", "Accept-Patch", "Accept-Post", "Accept-Ranges",
  "Access-Control-Allow-Credentials", "Access-Control-Allow-Headers", "Access-Control-Allow-Methods",
  "Access-Control-Allow-Origin", "Access-Control-Expose-Headers", "Access-Control-Max-Age", "Access-Control-Request-Headers",
  "Access-Control-Request-Method", "Age", "Allow", "Alt-Svc", "Alt-Used", "Authorization", "Cache-Control", "Connection",
  "Content-Disposition", "Content-Encoding", "Content-Language", "Content-Length", "Content-Location", "Content-Range",
  "Content-Type", "Cross-Origin-Resource-Policy", "Date", "ETag", "Expect", "Expires", "Forwarded", "HTTP2-Settings",
  "HTTPolice-Silence", "Host", "If-Match", "If-Modified-Since", "If-None-Match", "If-Range", "If-Unmodified-Since",
  "Last-Modified", "Link", "Location", "Max-Forwards", "Origin", "Pragma", "Prefer", "Preference-Applied",
  "Proxy-Authenticate", "Proxy-Authorization", "Range", "Referer", "Retry-After", "Server", "Strict-Transport-Security", "TE",
  "Trailer", "Transfer-Encoding", "Upgrade", "User-Agent", "Vary", "Via", "WWW-Authenticate", "Warning",
  "X-Content-Type-Options"]

theorem kinds_keys (W : World) : W.kinds.map Prod.fst = syntaxKeys := rfl

theorem rows_keys : (headerRows.filter HeaderRow.hasSyntax).map HeaderRow.key = syntaxKeys := by decide +kernel

theorem find_key {V : Type} {lower : Str → Str} {name : Str} {key : String} (hc : lower name = asciiLower (str key)) {l : List (String × V)}
    (hl : ∀ r ∈ l, lower (str r.1) = asciiLower (str r.1))
    (hd : (l.map fun r => asciiLower (str r.1)).Nodup) {v : V} (hm : (key, v) ∈ l) :
    (l.find? fun r => lower (str r.1) == lower name) = some (key, v) := by
  induction l with
  | nil => cases hm
  | cons r l ih =>
    rw [List.find?_cons, hl r (.head _), hc]
    cases hm with
    | head => simp
    | tail _ hm =>
      obtain ⟨h1, h2⟩ := List.nodup_cons.mp hd
      have : asciiLower (str r.1) ≠ asciiLower (str key) := fun h => h1 (List.mem_map.mpr ⟨_, hm, h.symm⟩)
      simp only [beq_eq_false_iff_ne.mpr this]
      rw [← hc]
      exact ih (fun r hr => hl r (.tail _ hr)) h2 hm

/-- **C89**: headers with a syntax are those in the table; and each is found whatever the case of its name, all others being free
text. -/
theorem C89_headers (W : World) {lower : Str → Str} (hl : LowersAscii lower) :
    W.kinds.map Prod.fst = (headerRows.filter HeaderRow.hasSyntax).map HeaderRow.key ∧
    (∀ key K, (key, K) ∈ W.kinds → ∀ name, Called lower name key → W.kind lower name = K) ∧
    ∀ name, (∀ key ∈ W.kinds.map Prod.fst, ¬ Called lower name key) → ∀ e, (W.kind lower name).parse e = (.single (.text e.value), []) := by
  have hlow : ∀ r ∈ W.kinds, lower (str r.1) = asciiLower (str r.1) := by
    intro r hr
    refine hl _ fun c hc => ?_
    have h1 : r.1 ∈ syntaxKeys := kinds_keys W ▸ List.mem_map.mpr ⟨r, hr, rfl⟩
    have h2 : ∀ k ∈ syntaxKeys, (str k).all (· < 128) = true := by decide +kernel
    simpa using List.all_eq_true.mp (h2 _ h1) c hc
  refine ⟨(kinds_keys W).trans rows_keys.symm, fun key K hm name hc => ?_, fun name hn e => ?_⟩
  · have hd : (W.kinds.map fun r => asciiLower (str r.1)).Nodup := by
      have : (W.kinds.map fun r => asciiLower (str r.1)) = (W.kinds.map Prod.fst).map fun k => asciiLower (str k) := by
        rw [List.map_map]
        rfl
      rw [this, kinds_keys]
      decide +kernel
    unfold World.kind
    rw [find_key hc hlow hd hm]
  · unfold World.kind
    have : (W.kinds.find? fun r => lower (str r.1) == lower name) = none := by
      rw [List.find?_eq_none]
      intro r hr h
      refine hn r.1 (List.mem_map.mpr ⟨r, hr, rfl⟩) ?_
      rw [hlow r hr] at h
      exact (eq_of_beq h).symm
    rw [this]

/-! ## OAuth -/

section
variable {W : World} (hW : Ready W)
include hW

omit hW in
theorem accepted {s : Sym} {α : Type} {Ok : α → Prop} {print : α → Str} {value : α → GVal} {notes : α → List PyComplaint}
    (h : ∃ k, s = .nt k ∧ Reads (fun data => innerParse W.final.grammar (pyOps W.annotate) data k) Ok print value notes)
    (w : Str) : (match W.parser s w with | .ok _ => true | .error _ => false) = true ↔ ∃ x, Ok x ∧ w = print x := by
  obtain ⟨k, rfl, h1, _⟩ := h
  rw [← (h1 w).1]
  show (match innerParse W.final.grammar (pyOps W.annotate) w k with | .ok _ => true | .error _ => false) = true ↔
    ∃ res, innerParse W.final.grammar (pyOps W.annotate) w k = .ok res
  cases innerParse W.final.grammar (pyOps W.annotate) w k with
  | ok r => exact ⟨fun _ => ⟨r, rfl⟩, fun _ => rfl⟩
  | error e => exact ⟨nofun, fun ⟨_, h⟩ => nomatch h⟩

omit hW in
theorem oauth_at (W : World) {name : Str} {n : FetchName}
    (h : [(str "scope", FetchName.scope), (str "error", .error), (str "error_description", .errorDescription),
      (str "error_uri", .errorUri)].lookup name = some n) (w : Str) :
    W.oauth name w = match W.parser (W.fetchSym n) w with | .ok _ => true | .error _ => false := by
  unfold World.oauth
  rw [h]
  dsimp only
  cases W.parser (W.fetchSym n) w <;> rfl

/-- **C89**: parameters of `Bearer` challenges are found to be well-formed just if they are (RFC 6749, appendix A; RFC 6750, section 3). -/
theorem C89_oauth (w : Str) :
    (W.oauth (str "scope") w = true ↔ ∃ x : ScopeSyn, x.Ok ∧ w = x.text) ∧
    (W.oauth (str "error") w = true ↔ IsErrorText w) ∧
    (W.oauth (str "error_description") w = true ↔ IsErrorText w) ∧
    (W.oauth (str "error_uri") w = true ↔ IsUriReference w) := by
  have v : ∀ {L : Str → Prop}, (∃ x, L x ∧ w = x) ↔ L w := ⟨fun ⟨_, h, e⟩ => e ▸ h, fun h => ⟨w, h, rfl⟩⟩
  refine ⟨?_, ?_, ?_, ?_⟩
  · rw [oauth_at W (n := .scope) rfl]
    exact accepted (s := W.fetchSym .scope) (C80_scope hW.order hW.fetch.1 hW.fetch.2 _) w
  · rw [oauth_at W (n := .error) rfl]
    exact (accepted (s := W.fetchSym .error) (C80_error hW.order hW.fetch.1 hW.fetch.2 _ (.inl rfl)) w).trans v
  · rw [oauth_at W (n := .errorDescription) rfl]
    exact (accepted (s := W.fetchSym .errorDescription) (C80_error hW.order hW.fetch.1 hW.fetch.2 _ (.inr rfl)) w).trans v
  · rw [oauth_at W (n := .errorUri) rfl]
    exact (accepted (s := W.fetchSym .errorUri) (C80_error_uri hW.order hW.fetch.1 hW.fetch.2 _) w).trans v

end

/-! ## There is such a world -/

/-- A module that is run when there are these objects. -/
theorem load {N : Type} [DecidableEq N] {ds : List (N × Defn N)} {δ : N → Den} (hs : Solves [] δ ds) {h : PyHeap}
    (hb : Builds true Heap.init h) :
    ∃ (l : Loaded N) (h' : PyHeap), Builds true Heap.init l.heap ∧ (l.run ds).2 = h' ∧ Builds true h h' ∧ Builds true Heap.init h' := by
  have := (defs_know (b := true) (ann := fun _ => false) (env := fun _ => .nt 0) hb (nothing_known _) hs).1
  exact ⟨⟨fun _ => .nt 0, h⟩, _, hb, rfl, this, builds_trans hb this⟩

/-- **C89**: the modules can be run. -/
theorem C89_ready {order : List Nat → List Nat} (ho : ∀ l c, c ∈ order l ↔ c ∈ l) (ann : GVal → Bool) :
    ∃ W : World, W.order = order ∧ W.annotate = ann ∧ Ready W := by
  have b : Builds true Heap.init Heap.init := .refl
  obtain ⟨hop, h0, i0, e0, s0, b0⟩ := load (hops_solve ho) b
  obtain ⟨sem, h1, i1, e1, s1, b1⟩ := load (sems_solve ho) b0
  obtain ⟨lang, h2, i2, e2, s2, b2⟩ := load (langs_solve ho) b1
  obtain ⟨uri, h3, i3, e3, s3, b3⟩ := load (uris_solve) b2
  obtain ⟨comment, h4, i4, e4, s4, b4⟩ := load (comments_solve ho) b3
  obtain ⟨tag, h5, i5, e5, s5, b5⟩ := load (tags_solve) b4
  obtain ⟨range, h6, i6, e6, s6, b6⟩ := load (ranges_solve ho) b5
  obtain ⟨cache, h7, i7, e7, s7, b7⟩ := load (caches_solve ho) b6
  obtain ⟨auth, h8, i8, e8, s8, b8⟩ := load (auths_solve) b7
  obtain ⟨small, h9, i9, e9, s9, b9⟩ := load (smalls_solve ho) b8
  obtain ⟨http2, h10, i10, e10, s10, b10⟩ := load (http2_solve) b9
  obtain ⟨fetch, h11, i11, e11, s11, b11⟩ := load (fetches_solve ho) b10
  obtain ⟨authority, h12, i12, e12, s12, b12⟩ := load (authority_solve) b11
  obtain ⟨ext, h13, i13, e13, s13, b13⟩ := load (exts_solve ho) b12
  obtain ⟨alt, h14, i14, e14, s14, b14⟩ := load (alts_solve ho (symParser (authority.run authorityDefs).2 ann ((authority.run authorityDefs).1 .whole))) b13
  obtain ⟨link, h15, i15, e15, s15, b15⟩ := load (links_solve fun s => symParser (ext.run (extDefs order)).2 ann ((ext.run (extDefs order)).1 s.name)) b14
  have l15 : Builds true h15 h15 := .refl
  have l14 := builds_trans s15 l15
  have l13 := builds_trans s14 l14
  have l12 := builds_trans s13 l13
  have l11 := builds_trans s12 l12
  have l10 := builds_trans s11 l11
  have l9 := builds_trans s10 l10
  have l8 := builds_trans s9 l9
  have l7 := builds_trans s8 l8
  have l6 := builds_trans s7 l7
  have l5 := builds_trans s6 l6
  have l4 := builds_trans s5 l5
  have l3 := builds_trans s4 l4
  have l2 := builds_trans s3 l3
  have l1 := builds_trans s2 l2
  have l0 := builds_trans s1 l1
  refine ⟨⟨order, ann, h15, hop, sem, lang, uri, comment, tag, range, cache, auth, small, http2, fetch, authority, alt, ext, link⟩, rfl, rfl, ho, ⟨i0, ?_⟩, ⟨i1, ?_⟩, ⟨i2, ?_⟩, ⟨i3, ?_⟩, ⟨i4, ?_⟩, ⟨i5, ?_⟩, ⟨i6, ?_⟩, ⟨i7, ?_⟩, ⟨i8, ?_⟩, ⟨i9, ?_⟩, ⟨i10, ?_⟩, ⟨i11, ?_⟩, ⟨i12, ?_⟩, ⟨i14, ?_⟩, ⟨i13, ?_⟩, ⟨i15, ?_⟩⟩
  · exact Eq.mpr (congrArg (fun h => Builds true h h15) e0) l0
  · exact Eq.mpr (congrArg (fun h => Builds true h h15) e1) l1
  · exact Eq.mpr (congrArg (fun h => Builds true h h15) e2) l2
  · exact Eq.mpr (congrArg (fun h => Builds true h h15) e3) l3
  · exact Eq.mpr (congrArg (fun h => Builds true h h15) e4) l4
  · exact Eq.mpr (congrArg (fun h => Builds true h h15) e5) l5
  · exact Eq.mpr (congrArg (fun h => Builds true h h15) e6) l6
  · exact Eq.mpr (congrArg (fun h => Builds true h h15) e7) l7
  · exact Eq.mpr (congrArg (fun h => Builds true h h15) e8) l8
  · exact Eq.mpr (congrArg (fun h => Builds true h h15) e9) l9
  · exact Eq.mpr (congrArg (fun h => Builds true h h15) e10) l10
  · exact Eq.mpr (congrArg (fun h => Builds true h h15) e11) l11
  · exact Eq.mpr (congrArg (fun h => Builds true h h15) e12) l12
  · exact Eq.mpr (congrArg (fun h => Builds true h h15) e14) l14
  · exact Eq.mpr (congrArg (fun h => Builds true h h15) e13) l13
  · exact Eq.mpr (congrArg (fun h => Builds true h h15) e15) l15

/-! ## Examples -/

/-- All hypotheses can be met. -/
example (base : Env) (hl : LowersAscii base.lower) (hk : ∀ e v, base.grammars.link e ≠ .single v) :
    ∃ W : World, Ready W ∧ Literate base.lower (W.grammars base.lower base.grammars.link) ∧ Sensible (W.env base) :=
  let ⟨W, _, _, h⟩ := C89_ready (order := id) (fun _ _ => .rfl) (fun _ => true)
  ⟨W, h, C89_literate h hl _, C89_sensible h hl hk⟩

example {W : World} (hW : Ready W) {lower : Str → Str} (hl : LowersAscii lower) (link : Entry → Parsed LinkRel) :
    (W.grammars lower link).contentLength ⟨str "Content-length", str "010"⟩ = some 10 ∧
    (W.grammars lower link).contentLength ⟨str "Content-length", str "10, 10"⟩ = none := by
  have L := (C89_literate hW hl link).contentLength
  refine ⟨(L _ _).mpr ⟨str "010", by decide, rfl, rfl⟩, ?_⟩
  cases h : (W.grammars lower link).contentLength ⟨str "Content-length", str "10, 10"⟩ with
  | none => rfl
  | some n =>
    obtain ⟨x, hx, e, _⟩ := (L _ _).mp h
    cases e
    exact absurd hx (by decide)

example {W : World} (hW : Ready W) {lower : Str → Str} (hl : LowersAscii lower) (link : Entry → Parsed LinkRel) :
    (W.grammars lower link).cacheControl ⟨str "Cache-Control", str "Max-Age=\"60\" , ,no-store, x=y"⟩ =
      .list [(str "Max-Age", .parsed (.num 60)), (str "no-store", .none), (str "x", .raw (str "y"))] := by
  have p1 : cachePlace (str "Max-Age") = .reads true fun s a => IsNumeral s ∧ a = .num (numeral s) := if_pos (by decide +kernel)
  have p2 : cachePlace (str "no-store") = .flag := by
    unfold cachePlace
    rw [if_neg (by decide +kernel), if_neg (by decide +kernel), if_neg (by decide +kernel), if_pos (by decide +kernel)]
  have p3 : cachePlace (str "x") = .free := by
    unfold cachePlace
    rw [if_neg (by decide +kernel), if_neg (by decide +kernel), if_neg (by decide +kernel), if_neg (by decide +kernel)]
  refine (((C89_literate hW hl link).cacheControl _).1 _).mpr ⟨⟨[], ⟨str "Max-Age", some (.quoted [.plain 54, .plain 48])⟩,
    [(str " ", none), (str " ", some ([], ⟨str "no-store", none⟩)), ([], some (str " ", ⟨str "x", some (.token (str "y"))⟩))]⟩,
    ?_, by decide +kernel, ?_⟩
  · have ows : IsOws (str " ") := by unfold IsOws; decide
    have none : IsOws [] := nofun
    have t1 : IsToken (str "Max-Age") := by unfold IsToken IsTchar; decide +kernel
    have t2 : IsToken (str "no-store") := by unfold IsToken IsTchar; decide +kernel
    have t3 : IsToken (str "x") := by unfold IsToken IsTchar; decide +kernel
    have t4 : IsToken (str "y") := by unfold IsToken IsTchar; decide +kernel
    refine ⟨nofun, ⟨t1, ?_⟩, ?_⟩
    · rintro _ ⟨⟩ c hc
      simp only [List.mem_cons, List.not_mem_nil, or_false] at hc
      rcases hc with rfl | rfl <;> unfold QChar.Ok <;> decide
    · intro x hx
      simp only [List.mem_cons, List.not_mem_nil, or_false] at hx
      rcases hx with rfl | rfl | rfl
      · exact ⟨ows, trivial⟩
      · exact ⟨ows, none, t2, nofun⟩
      · refine ⟨none, ows, t3, ?_⟩
        rintro _ ⟨⟩
        exact t4
  · refine .cons ⟨rfl, ?_⟩ (.cons ⟨rfl, ?_⟩ (.cons ⟨rfl, ?_⟩ .nil))
    · show TakenAs (cachePlace (str "Max-Age")) (some (str "60")) _
      rw [p1]
      exact .good ⟨by decide, rfl⟩
    · show TakenAs (cachePlace (str "no-store")) none _
      rw [p2]
      constructor
    · show TakenAs (cachePlace (str "x")) (some (str "y")) _
      rw [p3]
      constructor

example {W : World} (hW : Ready W) {lower : Str → Str} (hl : LowersAscii lower) (link : Entry → Parsed LinkRel) :
    (W.grammars lower link).date ⟨str "Expires", str "Sunday, 06-Nov-94 08:49:37 GMT"⟩ = some 62919708577 :=
  ((C89_literate hW hl link).date ⟨str "Expires", _⟩ ⟨"Expires", .tail _ (.head _), hl (str "Expires") (by decide)⟩ _).mpr
    ⟨.rfc850, rfcDate, by decide +kernel, by decide +kernel, by decide +kernel, by decide +kernel⟩

end Httpolice.Props
