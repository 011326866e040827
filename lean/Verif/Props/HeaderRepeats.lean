import Verif.Lemmas.ToyNotices
import Verif.Props.HeaderForms

/-!
# C90: Which headers are reported as repeated
-/

namespace Httpolice.Props

open Httpolice.Model Httpolice.Spec Httpolice.Lemmas Httpolice.Lemmas.Check

/-- The parser makes lists. -/
def Listing (p : SymParser) : Prop := ∀ s node cs as, p s = .ok (node, cs, as) → ∃ l, node = .val (.list l)

/-- Nothing else is made of lists. -/
def Keeping (process : Entry → GVal → GVal × List Note) : Prop := ∀ e l, ∃ l', (process e (.list l)).1 = .list l'

section
variable {p : SymParser} {α : Type} {Ok : α → Prop} {print : α → Str} {value : α → GVal}
  {IsValue : α → GVal → Prop} {notes : α → List PyComplaint} {process : Entry → GVal → GVal × List Note} {key : String}

/-- What becomes of an entry with a value. -/
theorem entry_ok (e : Entry) {node : Node GVal} {cs : List PyComplaint} {as : List (Annot GVal)} (h : p e.value = .ok (node, cs, as))
    (hn : ∀ args, GVal.ofNode node ≠ .obj (str "Unavailable") args) :
    ((knownKind key p process).parse e).1 = toParsed (process e (.ofNode node)).1 := by
  show (readEntry p process (badQuotedDelims (str key)) e).1 = _
  unfold readEntry runParser
  rw [h]
  dsimp only
  revert hn
  generalize GVal.ofNode node = v
  intro hn
  cases v with
  | obj cls args =>
    dsimp only
    rw [if_neg]
    rintro rfl
    exact hn args rfl
  | _ => rfl

theorem entry_bad (e : Entry) {err : PErr} (h : p e.value = .error err) :
    ((knownKind key p process).parse e).1 = .unavailable (some e.value) := by
  show (readEntry p process (badQuotedDelims (str key)) e).1 = _
  unfold readEntry runParser
  rw [h]
  rfl

theorem never_single (h : Listing p) (hp : Keeping process) (e : Entry) : ¬IsSingular ((knownKind key p process).parse e).1 := by
  rintro ⟨v, hv⟩
  cases hr : p e.value with
  | error err =>
    rw [entry_bad e hr] at hv
    cases hv
  | ok res =>
    obtain ⟨node, cs, as⟩ := res
    obtain ⟨l, rfl⟩ := h _ _ _ _ hr
    rw [entry_ok e hr fun args h => by cases h] at hv
    obtain ⟨l', hl⟩ := hp e l
    rw [show GVal.ofNode (.val (.list l)) = .list l from rfl, hl] at hv
    cases hv

theorem listing_reads (h : Reads p Ok print value notes) (k : ∀ x, ∃ l, value x = .list l) : Listing p := by
  intro s node cs as e
  obtain ⟨x, hx, rfl⟩ := (h.1 s).1.mp ⟨_, e⟩
  obtain ⟨ds, bs, h1, _⟩ := h.2 x hx
  cases e.symm.trans h1
  obtain ⟨l, hl⟩ := k x
  exact ⟨l, by rw [hl]⟩

theorem listing_readsAs (h : ReadsAs p Ok print IsValue notes) (k : ∀ x v, IsValue x v → ∃ l, v = .list l) : Listing p := by
  intro s node cs as e
  obtain ⟨x, hx, rfl⟩ := (h.1 s).1.mp ⟨_, e⟩
  obtain ⟨v, ds, bs, h1, hv, _⟩ := h.2 x hx
  cases e.symm.trans h1
  obtain ⟨l, rfl⟩ := k x v hv
  exact ⟨l, rfl⟩

theorem listing_some (h : ReadsSome p Ok print value notes) (k : ∀ x, ∃ l, value x = .list l) : Listing p := by
  intro s node cs as e
  obtain ⟨x, hx, _, rfl, _⟩ := h.2 _ _ _ _ e
  obtain ⟨l, hl⟩ := k x
  exact ⟨l, by rw [hl]⟩

theorem listing_gaps (h : ReadsButGaps p Ok print value notes) (k : ∀ x, ∃ l, value x = .list l) : Listing p := by
  intro s node cs as e
  obtain ⟨x, hx, rfl⟩ := (h.1 s).1.mp ⟨_, e⟩
  obtain ⟨ds, bs, h1, _⟩ := h.2 x hx
  cases e.symm.trans h1
  obtain ⟨l, hl⟩ := k x
  exact ⟨l, by rw [hl]⟩

theorem listing_hops (h : ReadsHops p) : Listing p := by
  intro s node cs as e
  obtain ⟨x, hx, rfl⟩ := (h.1 s).1.mp ⟨_, e⟩
  obtain ⟨y, _, _, _, ds, bs, h1, _⟩ := h.2 x hx
  cases e.symm.trans h1
  exact ⟨_, rfl⟩

end

section
variable {W : World} {key : String} {s : Sym} {process : Entry → GVal → GVal × List Note}

theorem never (h : ∃ k, s = .nt k ∧ Listing (fun data => innerParse W.final.grammar (pyOps W.annotate) data k))
    (hb : W.byKey key = knownKind key (W.parser s) process) (hp : Keeping process) (e : Entry) :
    ¬IsSingular ((W.byKey key).parse e).1 := by
  obtain ⟨k, rfl, h⟩ := h
  rw [hb]
  exact never_single h hp e

variable {α : Type} {Ok : α → Prop} {print : α → Str} {value : α → GVal} {IsValue : α → GVal → Prop} {notes : α → List PyComplaint}

theorem never_reads (h : ∃ k, s = .nt k ∧ Reads (fun data => innerParse W.final.grammar (pyOps W.annotate) data k) Ok print value notes)
    (hb : W.byKey key = knownKind key (W.parser s) process) (hp : Keeping process) (hl : ∀ x, ∃ l, value x = .list l) (e : Entry) :
    ¬IsSingular ((W.byKey key).parse e).1 :=
  let ⟨k, hk, h⟩ := h
  never ⟨k, hk, listing_reads h hl⟩ hb hp e

theorem never_readsAs (h : ∃ k, s = .nt k ∧ ReadsAs (fun data => innerParse W.final.grammar (pyOps W.annotate) data k) Ok print IsValue notes)
    (hb : W.byKey key = knownKind key (W.parser s) process) (hp : Keeping process) (hl : ∀ x v, IsValue x v → ∃ l, v = .list l) (e : Entry) :
    ¬IsSingular ((W.byKey key).parse e).1 :=
  let ⟨k, hk, h⟩ := h
  never ⟨k, hk, listing_readsAs h hl⟩ hb hp e

theorem never_some (h : ∃ k, s = .nt k ∧ ReadsSome (fun data => innerParse W.final.grammar (pyOps W.annotate) data k) Ok print value notes)
    (hb : W.byKey key = knownKind key (W.parser s) process) (hp : Keeping process) (hl : ∀ x, ∃ l, value x = .list l) (e : Entry) :
    ¬IsSingular ((W.byKey key).parse e).1 :=
  let ⟨k, hk, h⟩ := h
  never ⟨k, hk, listing_some h hl⟩ hb hp e

theorem never_gaps (h : ∃ k, s = .nt k ∧ ReadsButGaps (fun data => innerParse W.final.grammar (pyOps W.annotate) data k) Ok print value notes)
    (hb : W.byKey key = knownKind key (W.parser s) process) (hp : Keeping process) (hl : ∀ x, ∃ l, value x = .list l) (e : Entry) :
    ¬IsSingular ((W.byKey key).parse e).1 :=
  let ⟨k, hk, h⟩ := h
  never ⟨k, hk, listing_gaps h hl⟩ hb hp e

theorem never_hops (h : ∃ k, s = .nt k ∧ ReadsHops (fun data => innerParse W.final.grammar (pyOps W.annotate) data k))
    (hb : W.byKey key = knownKind key (W.parser s) process) (hp : Keeping process) (e : Entry) :
    ¬IsSingular ((W.byKey key).parse e).1 :=
  let ⟨k, hk, h⟩ := h
  never ⟨k, hk, listing_hops h⟩ hb hp e


variable (hW : Ready W)
include hW

theorem link_listing : ∃ k, W.linkSym .link = .nt k ∧ Listing (fun data => innerParse W.final.grammar (pyOps W.annotate) data k) := by
  obtain ⟨k, hk, h1, h2⟩ := C79_link (env := W.link.env) hW.link.1 hW.link.2 W.annotate
  refine ⟨k, hk, fun data node cs as he => ?_⟩
  obtain ⟨x, hx, rfl⟩ := (h1 data).1.mp ⟨_, he⟩
  obtain ⟨y, rs, ds, bs, _, _, _, _, h4, _⟩ := h2 x hx
  cases he.symm.trans h4
  exact ⟨_, rfl⟩

omit hW in
theorem keep_plain : Keeping plainProcess := fun _ l => ⟨l, rfl⟩

omit hW in
theorem keep_each {f : Entry → GVal → GVal × List Note} : Keeping fun e => processEach (f e) := fun _ _ => ⟨_, rfl⟩

omit hW in
theorem keep_forwarded {know : Str → ArgRule} : Keeping (forwardedProcess know) := fun _ _ => ⟨_, rfl⟩

/-- The headers that are always lists. -/
def listKeys : List String := ["Accept", "Accept-Charset", "Accept-Encoding", "Accept-Language", "Accept-Patch", "Accept-Post", "Access-Control-Allow-Headers", "Access-Control-Allow-Methods", "Access-Control-Expose-Headers", "Access-Control-Request-Headers", "Allow", "Cache-Control", "Connection", "Content-Encoding", "Content-Language", "Forwarded", "HTTPolice-Silence", "Link", "Pragma", "Prefer", "Preference-Applied", "Proxy-Authenticate", "TE", "Trailer", "Transfer-Encoding", "Upgrade", "Via", "WWW-Authenticate", "Warning"]

theorem never_single_rows : ∀ key ∈ listKeys, ∀ e, ¬IsSingular ((W.byKey key).parse e).1 := by
  unfold listKeys
  simp only [List.forall_mem_cons]
  refine ⟨?_, ?_, ?_, ?_, ?_, ?_, ?_, ?_, ?_, ?_, ?_, ?_, ?_, ?_, ?_, ?_, ?_, ?_, ?_, ?_, ?_, ?_, ?_, ?_, ?_, ?_, ?_, ?_, ?_, nofun⟩
  · exact never_readsAs (s := W.semSym .accept) (C75_accept hW.order hW.sem.1 hW.sem.2 _) rfl keep_plain (fun _ _ h => let ⟨_, h, _⟩ := h; ⟨_, h⟩)
  · exact never_reads (s := W.semSym .acceptCharset) (C75_accept_charset hW.order hW.sem.1 hW.sem.2 _) rfl keep_plain (fun _ => ⟨_, rfl⟩)
  · exact never_readsAs (s := W.semSym .acceptEncoding) (C75_accept_encoding hW.order hW.sem.1 hW.sem.2 _) rfl keep_plain (fun _ _ h => let ⟨_, h, _⟩ := h; ⟨_, h⟩)
  · exact never_reads (s := W.langSym .acceptLanguage) (C81_accept_language hW.order hW.lang.1 hW.lang.2 _) rfl keep_plain (fun _ => ⟨_, rfl⟩)
  · exact never_reads (s := W.smallSym .acceptPatch) (C78_accept_patch hW.order hW.small.1 hW.small.2 _) rfl keep_plain (fun _ => ⟨_, rfl⟩)
  · exact never_readsAs (s := W.smallSym .acceptPost) (C78_accept_post hW.order hW.small.1 hW.small.2 _) rfl keep_plain (fun _ _ h => let ⟨_, h, _⟩ := h; ⟨_, h⟩)
  · exact never_reads (s := W.fetchSym .allowHeaders) (C80_field_names hW.order hW.fetch.1 hW.fetch.2 _ (.inr rfl)) rfl keep_plain (fun _ => ⟨_, rfl⟩)
  · exact never_reads (s := W.fetchSym .allowMethods) (C80_allow_methods hW.order hW.fetch.1 hW.fetch.2 _) rfl keep_plain (fun _ => ⟨_, rfl⟩)
  · exact never_reads (s := W.fetchSym .exposeHeaders) (C80_field_names hW.order hW.fetch.1 hW.fetch.2 _ (.inl rfl)) rfl keep_plain (fun _ => ⟨_, rfl⟩)
  · exact never_reads (s := W.fetchSym .requestHeaders) (C80_request_headers hW.order hW.fetch.1 hW.fetch.2 _) rfl keep_plain (fun _ => ⟨_, rfl⟩)
  · exact never_reads (s := W.semSym .allow) (C75_allow hW.order hW.sem.1 hW.sem.2 _) rfl keep_plain (fun _ => ⟨_, rfl⟩)
  · exact never_reads (s := W.cacheSym .cacheControl) (C74_cache_control hW.order hW.cache.1 hW.cache.2 _) rfl keep_each (fun _ => ⟨_, rfl⟩)
  · exact never_reads (s := W.hopSym .connection) (C73_connection hW.order hW.hop.1 hW.hop.2 _) rfl keep_plain (fun _ => ⟨_, rfl⟩)
  · exact never_reads (s := W.semSym .contentEncoding) (C75_content_encoding hW.order hW.sem.1 hW.sem.2 _) rfl keep_plain (fun _ => ⟨_, rfl⟩)
  · exact never_reads (s := W.langSym .contentLanguage) (C81_content_language hW.order hW.lang.1 hW.lang.2 _) rfl keep_plain (fun _ => ⟨_, rfl⟩)
  · exact never_hops (s := W.fetchSym .forwarded) (C80_forwarded hW.order hW.fetch.1 hW.fetch.2 _) rfl keep_forwarded
  · exact never_reads (s := W.smallSym .silence) (C78_silence hW.order hW.small.1 hW.small.2 _) rfl keep_plain (fun _ => ⟨_, rfl⟩)
  · exact never (s := W.linkSym .link) (link_listing hW) rfl keep_plain
  · exact never_reads (s := W.cacheSym .pragma) (C74_pragma hW.order hW.cache.1 hW.cache.2 _) rfl keep_plain (fun _ => ⟨_, rfl⟩)
  · exact never_reads (s := W.smallSym .prefer) (C78_prefer hW.order hW.small.1 hW.small.2 _) rfl keep_each (fun _ => ⟨_, rfl⟩)
  · exact never_reads (s := W.smallSym .preferenceApplied) (C78_preference_applied hW.order hW.small.1 hW.small.2 _) rfl keep_each (fun _ => ⟨_, rfl⟩)
  · exact never_gaps (s := W.authSym .proxyAuthenticate) (C76_challenges hW.auth.1 hW.auth.2 _ (.inr rfl)) rfl keep_plain (fun _ => ⟨_, rfl⟩)
  · exact never_reads (s := W.hopSym .te) (C73_te hW.order hW.hop.1 hW.hop.2 _) rfl keep_plain (fun _ => ⟨_, rfl⟩)
  · exact never_reads (s := W.hopSym .trailer) (C73_trailer hW.order hW.hop.1 hW.hop.2 _) rfl keep_plain (fun _ => ⟨_, rfl⟩)
  · exact never_reads (s := W.hopSym .transferEncoding) (C73_transfer_encoding hW.order hW.hop.1 hW.hop.2 _) rfl keep_plain (fun _ => ⟨_, rfl⟩)
  · exact never_reads (s := W.hopSym .upgrade) (C73_upgrade hW.order hW.hop.1 hW.hop.2 _) rfl keep_plain (fun _ => ⟨_, rfl⟩)
  · exact never_some (s := W.commentSym .via) (C84_via hW.order hW.comment.1 hW.comment.2 _) rfl keep_plain (fun _ => ⟨_, rfl⟩)
  · exact never_gaps (s := W.authSym .wwwAuthenticate) (C76_challenges hW.auth.1 hW.auth.2 _ (.inl rfl)) rfl keep_plain (fun _ => ⟨_, rfl⟩)
  · exact never_reads (s := W.commentSym .warning) (C84_warning hW.order hW.comment.1 hW.comment.2 _) rfl keep_plain (fun _ => ⟨_, rfl⟩)

omit hW in
/-- If-Match and If-None-Match. -/
theorem match_alone {key : String} {n : TagName} (hb : W.byKey key = knownKind key (W.parser (W.tagSym n)) plainProcess)
    (h : ∃ k, W.tagSym n = .nt k ∧ Reads (fun data => innerParse W.final.grammar (pyOps W.annotate) data k)
      MatchSyn.Ok MatchSyn.text MatchSyn.value MatchSyn.notes) (e : Entry) :
    IsSingular ((W.byKey key).parse e).1 ↔ e.value = str "*" := by
  obtain ⟨k, hk, h1, h2⟩ := h
  rw [hb, hk]
  by_cases hx : ∃ x : MatchSyn, x.Ok ∧ e.value = x.text
  · obtain ⟨x, hx, he⟩ := hx
    obtain ⟨cs, as, h3, _⟩ := h2 x hx
    rw [← he] at h3
    have h4 := entry_ok (key := key) (process := plainProcess) (p := W.parser (.nt k)) e h3 fun args h => by cases x <;> cases h
    rw [h4]
    constructor
    · rintro ⟨v, hv⟩
      cases x with
      | any => exact he
      | tags l => cases hv
    · intro hs
      obtain ⟨ds, bs, h5, _⟩ := h2 .any trivial
      have h6 : innerParse W.final.grammar (pyOps W.annotate) e.value k = .ok (.val (.text (str "*")), ds, bs) := by
        rw [hs]
        exact h5
      cases x with
      | any => exact ⟨_, rfl⟩
      | tags l => cases h3.symm.trans h6
  · obtain ⟨err, he⟩ := (h1 e.value).2.mpr hx
    have h4 := entry_bad (key := key) (process := plainProcess) (p := W.parser (.nt k)) e he
    rw [h4]
    exact ⟨fun ⟨_, h⟩ => (nomatch h), fun h => absurd ⟨.any, trivial, h⟩ hx⟩

theorem altSvc_alone (e : Entry) : IsSingular ((W.byKey "Alt-Svc").parse e).1 ↔ e.value = str "clear" := by
  have hP : ReadsVerbatim W.altParser IsAltAuthority := by
    obtain ⟨k, hk, h⟩ := C83_authority (env := W.authority.env) hW.authority.1 .refl W.annotate
    have : W.altParser = fun data => innerParse (W.authority.run authorityDefs).2.grammar (pyOps W.annotate) data k := by
      unfold World.altParser
      rw [show (W.authority.run authorityDefs).1 .whole = _ from hk]
      rfl
    rw [this]
    exact h
  have hb : ∃ know, W.byKey "Alt-Svc" = knownKind "Alt-Svc" (W.parser (W.altSym .altSvc)) (altProcess know) := ⟨_, rfl⟩
  obtain ⟨know, hb⟩ := hb
  obtain ⟨k, hk, h1, h2⟩ := C83_alt_svc hW.order (env := W.alt.env) hW.alt.1 hW.alt.2 W.annotate hP
  rw [hb, show W.altSym .altSvc = .nt k from hk]
  by_cases hx : ∃ x : AltSvcSyn, x.Ok ∧ e.value = x.text
  · obtain ⟨x, hx, he⟩ := hx
    obtain ⟨cs, as, h3, _⟩ := h2 x hx
    rw [← he] at h3
    have h4 := entry_ok (key := "Alt-Svc") (process := altProcess know) (p := W.parser (.nt k)) e h3 fun args h => by cases x <;> cases h
    rw [h4]
    constructor
    · rintro ⟨v, hv⟩
      cases x with
      | clear => exact he
      | values l => cases hv
    · intro hs
      obtain ⟨ds, bs, h5, _⟩ := h2 .clear trivial
      have h6 : innerParse W.final.grammar (pyOps W.annotate) e.value k = .ok (.val (.text (str "clear")), ds, bs) := by
        rw [hs]
        exact h5
      cases x with
      | clear => exact ⟨_, rfl⟩
      | values l => cases h3.symm.trans h6
  · obtain ⟨err, he⟩ := (h1 e.value).2.mpr hx
    have h4 := entry_bad (key := "Alt-Svc") (process := altProcess know) (p := W.parser (.nt k)) e he
    rw [h4]
    exact ⟨fun ⟨_, h⟩ => (nomatch h), fun h => absurd ⟨.clear, trivial, h⟩ hx⟩

theorem acceptRanges_alone (e : Entry) (h : IsSingular ((W.byKey "Accept-Ranges").parse e).1) : SameWord e.value (str "none") := by
  obtain ⟨k, hk, h1, h2, h3⟩ := C55_accept_ranges hW.order (env := W.range.env) hW.range.1 hW.range.2 W.annotate e.value
  have hb : W.byKey "Accept-Ranges" = knownKind "Accept-Ranges" (W.parser (W.rangeSym .acceptRanges)) plainProcess := rfl
  rw [hb, show W.rangeSym .acceptRanges = .nt k from hk] at h
  by_cases hx : ∃ x : AcceptRangesSyn, x.Ok ∧ e.value = x.text
  · obtain ⟨⟨node, cs, as⟩, he⟩ := h1.mpr hx
    obtain ⟨x, ho, ht, rfl, _⟩ := h3 _ _ _ he
    have h4 := entry_ok (key := "Accept-Ranges") (process := plainProcess) (p := W.parser (.nt k)) e he fun args h => by
      cases x with
      | none w => exact absurd (GVal.obj.inj h).1 (by decide)
      | units l => cases h
    rw [h4] at h
    cases x with
    | none w => exact ht ▸ ho
    | units l => exact nomatch h.choose_spec
  · obtain ⟨err, he⟩ := h2.mpr hx
    have h4 := entry_bad (key := "Accept-Ranges") (process := plainProcess) (p := W.parser (.nt k)) e he
    rw [h4] at h
    exact nomatch h.choose_spec

theorem vary_alone (e : Entry) (h : IsSingular ((W.byKey "Vary").parse e).1) : e.value = str "*" := by
  obtain ⟨k, hk, h1, h2⟩ := C75_vary hW.order (env := W.sem.env) hW.sem.1 hW.sem.2 W.annotate
  have hb : W.byKey "Vary" = knownKind "Vary" (W.parser (W.semSym .vary)) plainProcess := rfl
  rw [hb, show W.semSym .vary = .nt k from hk] at h
  by_cases hx : ∃ x : List1Syn Str, x.Ok IsToken ∧ e.value = x.text fun w => w
  · obtain ⟨x, hx, he⟩ := hx
    obtain ⟨v, cs, as, h3, hv, _⟩ := h2 x hx
    rw [← he] at h3
    have h4 := entry_ok (key := "Vary") (process := plainProcess) (p := W.parser (.nt k)) e h3 fun args h => by
      rcases hv with rfl | ⟨_, rfl⟩ <;> cases h
    rw [h4] at h
    rcases hv with rfl | ⟨rfl, _⟩
    · exact nomatch h.choose_spec
    · exact he
  · obtain ⟨err, he⟩ := (h1 e.value).2.mpr hx
    have h4 := entry_bad (key := "Vary") (process := plainProcess) (p := W.parser (.nt k)) e he
    rw [h4] at h
    exact nomatch h.choose_spec

/-- **C90**: which values of headers that may be there many times are not lists. -/
theorem C90_alone : ∀ key ∈ severalKeys, ∀ e,
    (Alone key e.value → IsSingular ((W.byKey key).parse e).1) ∧
    (IsSingular ((W.byKey key).parse e).1 → Alone key e.value ∨ PerhapsAlone key e.value) := by
  intro key hk e
  have hx : ∀ key ∈ severalKeys, (key ∈ listKeys ∧ key ∉ ["If-Match", "If-None-Match", "Alt-Svc"]) ∨ key = "If-Match" ∨
      key = "If-None-Match" ∨ key = "Alt-Svc" ∨ key = "Accept-Ranges" ∨ key = "Vary" := by decide +kernel
  rcases hx key hk with ⟨h, hn⟩ | rfl | rfl | rfl | rfl | rfl
  · refine ⟨fun ha => absurd ?_ hn, fun hs => absurd hs (never_single_rows hW key h e)⟩
    rcases ha with ⟨h | h, _⟩ | ⟨h, _⟩ <;> simp [h]
  · have := match_alone (n := .ifMatch) (key := "If-Match") rfl (C72_if_match hW.tag.1 hW.tag.2 _) e
    refine ⟨fun ha => this.mpr ?_, fun hs => .inl (.inl ⟨.inl rfl, this.mp hs⟩)⟩
    rcases ha with ⟨_, h⟩ | ⟨h, _⟩
    · exact h
    · exact absurd h (by decide)
  · have := match_alone (n := .ifNoneMatch) (key := "If-None-Match") rfl (C72_if_none_match hW.tag.1 hW.tag.2 _) e
    refine ⟨fun ha => this.mpr ?_, fun hs => .inl (.inl ⟨.inr rfl, this.mp hs⟩)⟩
    rcases ha with ⟨_, h⟩ | ⟨h, _⟩
    · exact h
    · exact absurd h (by decide)
  · refine ⟨fun ha => (altSvc_alone hW e).mpr ?_, fun hs => .inl (.inr ⟨rfl, (altSvc_alone hW e).mp hs⟩)⟩
    rcases ha with ⟨h, _⟩ | ⟨_, h⟩
    · exact absurd h (by decide)
    · exact h
  · refine ⟨fun ha => ?_, fun hs => .inr (.inl ⟨rfl, acceptRanges_alone hW e hs⟩)⟩
    rcases ha with ⟨h, _⟩ | ⟨h, _⟩
    · exact absurd h (by decide)
    · exact absurd h (by decide)
  · refine ⟨fun ha => ?_, fun hs => .inr (.inr ⟨rfl, vary_alone hW e hs⟩)⟩
    rcases ha with ⟨h, _⟩ | ⟨h, _⟩
    · exact absurd h (by decide)
    · exact absurd h (by decide)

variable {base : Env} (hl : LowersAscii base.lower)
include hl

omit hW hl in
theorem shape_single (q : Parsed GVal) : IsSingular (shapeOf q) ↔ IsSingular q := by
  cases q with
  | single v => exact ⟨fun _ => ⟨v, rfl⟩, fun _ => ⟨(), rfl⟩⟩
  | list l => exact ⟨fun ⟨_, h⟩ => (nomatch h), fun ⟨_, h⟩ => (nomatch h)⟩
  | unavailable s => exact ⟨fun ⟨_, h⟩ => (nomatch h), fun ⟨_, h⟩ => (nomatch h)⟩

omit hW in
theorem several_key {name : Str} (h : Several (W.env base) name) :
    ∃ key ∈ severalKeys, Called base.lower name key ∧ ∀ e, (W.env base).kind name e =
      (shapeOf ((W.byKey key).parse e).1, ((W.byKey key).parse e).2) := by
  obtain ⟨row, ⟨hrow, hc⟩, hr⟩ := h
  rw [env_lower] at hc
  have hx : ∀ row ∈ headerRows, (row.rule = some .multi ∨ (row.rule = some .special ∧ row.key ≠ "Strict-Transport-Security")) →
      row.key ∈ severalKeys ∧ row.key ∈ forms.map FormRow.key := by decide +kernel
  obtain ⟨h1, h2⟩ := hx row hrow hr
  obtain ⟨r, hrf, hkey⟩ := List.mem_map.mp h2
  refine ⟨row.key, h1, hc, fun e => ?_⟩
  rcases kind_row W hl name e with ⟨r', hr', hc', h⟩ | ⟨h, _⟩
  · have : Called base.lower name r.key := by rw [hkey]; exact hc
    obtain rfl := row_unique hrf hr' this hc'
    rw [h, hkey]
  · refine absurd ?_ (h r hrf)
    rw [hkey]
    exact hc

variable {ex : Exchange} (hok : exchangeRaises (W.env base) ex = false)
include hok

/-- **C90**: which headers are reported as repeated. -/
theorem C90_repeated (ha : NotElsewhere (W.env base) ex 1013) (t : Target) :
    ((OnMessage ex t fun msg => ∃ a b, TwoOf (W.env base) msg.fields a b ∧
      (Sole (W.env base) a.name ∨ (Several (W.env base) a.name ∧ (Standing base.lower true a ∨ Standing base.lower true b)))) →
        ReportedId (W.env base) ex t 1013) ∧
    (ReportedId (W.env base) ex t 1013 → OnMessage ex t fun msg => ∃ a b, TwoOf (W.env base) msg.fields a b ∧
      (Sole (W.env base) a.name ∨ (Several (W.env base) a.name ∧ (Standing base.lower false a ∨ Standing base.lower false b)))) := by
  rw [at_views hok ha (env_ascii W hl) (env_blind W base) (by decide +kernel) t]
  have hs := fun m => says_repeated (env_ascii W hl) (env_blind W base) (fun name e n hn hid => by
    obtain ⟨r, hr, _, ⟨_, h⟩ | ⟨_, rfl⟩⟩ := C90_ids hW hl name e n hn
    · rw [hid] at h
      have : ∀ l ∈ forms.map FormRow.ids, 1013 ∉ l := by decide +kernel
      exact this _ (List.mem_map.mpr ⟨r, hr, rfl⟩) h
    · cases hid) m
  have h1 : ∀ e, Several (W.env base) e.name → Standing base.lower true e → IsSingular ((W.env base).kind e.name e).1 := by
    rintro e hv ⟨key, hc, ha | ⟨h, _⟩⟩
    · obtain ⟨key', hk, hc', he⟩ := several_key hl hv
      rw [he, shape_single]
      have hkey : key ∈ ["If-Match", "If-None-Match", "Alt-Svc"] := by
        rcases ha with ⟨h | h, _⟩ | ⟨h, _⟩ <;> simp [h]
      have hx : ∀ k ∈ ["If-Match", "If-None-Match", "Alt-Svc"], ∀ k' ∈ severalKeys, asciiLower (str k) = asciiLower (str k') → k = k' := by
        decide +kernel
      obtain rfl := hx key hkey key' hk (hc.symm.trans hc')
      exact (C90_alone hW key hk e).1 ha
    · cases h
  have h2 : ∀ e, Several (W.env base) e.name → IsSingular ((W.env base).kind e.name e).1 → Standing base.lower false e := by
    intro e hv h
    obtain ⟨key, hk, hc, he⟩ := several_key hl hv
    rw [he, shape_single] at h
    rcases (C90_alone hW key hk e).2 h with h | h
    · exact ⟨key, hc, .inl h⟩
    · exact ⟨key, hc, .inr ⟨rfl, h⟩⟩
  refine ⟨onMessage_mono (P := fun m => ∃ a b, TwoOf (W.env base) m a b ∧
      (Sole (W.env base) a.name ∨ (Several (W.env base) a.name ∧ (Standing base.lower true a ∨ Standing base.lower true b))))
      (Q := fun m => ∃ e ∈ m.headers ++ m.trailers, ViewSays (W.env base) m e.name 1013) fun m => ?_, onMessage_mono (P := fun m => ∃ e ∈ m.headers ++ m.trailers, ViewSays (W.env base) m e.name 1013)
      (Q := fun m => ∃ a b, TwoOf (W.env base) m a b ∧
        (Sole (W.env base) a.name ∨ (Several (W.env base) a.name ∧ (Standing base.lower false a ∨ Standing base.lower false b))))
      fun m => ?_⟩
  · rintro ⟨a, b, ht, h⟩
    refine (hs m).mpr ⟨a, b, ht, h.imp_right fun ⟨hv, h⟩ => ⟨hv, ?_⟩⟩
    exact h.imp (h1 a hv) (h1 b ((several_case ht.1).mp hv))
  · intro h
    obtain ⟨a, b, ht, h⟩ := (hs m).mp h
    refine ⟨a, b, ht, h.imp_right fun ⟨hv, h⟩ => ⟨hv, ?_⟩⟩
    exact h.imp (h2 a hv) (h2 b ((several_case ht.1).mp hv))

end

/-! ## Examples -/

section

open Httpolice.Spec.Toy

/-- Content-Length is malformed, Host is there twice, If-Match has a tag besides an asterisk. -/
def sloppy : Exchange := ⟨some (req "PUT" [h "content-length" "1x", h "Host" "a", h "host" "a", h "If-Match" "*", h "If-Match" "\"a\""] "x"), []⟩

/-- Nothing wrong. -/
def neat : Exchange := ⟨some (req "PUT" [h "content-length" "01"] "x"), []⟩

/-- The hypotheses can be met. -/
theorem toy_elsewhere (W : World) (q : Request) (hq : q.payload.notes = []) (id : Nat) :
    NotElsewhere (W.env Toy.env) ⟨some q, []⟩ id := by
  have := apart q [] hq nofun id
  exact ⟨this.target, this.request, this.responses⟩

theorem toy_quiet (W : World) (q : Request) : exchangeRaises (W.env Toy.env) ⟨some q, []⟩ = false := by
  cases h : exchangeRaises (W.env Toy.env) ⟨some q, []⟩ with
  | false => rfl
  | true =>
    obtain ⟨r, hr, _⟩ := (C58_raises (W.env Toy.env) (env_ascii W toy_lower) (by
      unfold World.env World.grammars
      dsimp only
      exact sensible.link) _).mp h
    cases hr

/-- C90: reported. -/
example {W : World} (hW : Ready W) : ReportedId (W.env Toy.env) sloppy .req 1000 ∧ ReportedId (W.env Toy.env) sloppy .req 1013 := by
  refine ⟨(C90_malformed hW toy_lower (toy_quiet W _) (toy_elsewhere W _ rfl _) .req).mpr ⟨_, rfl, h "content-length" "1x", .inl (.head _),
    ⟨"Content-Length", IsNumeral, []⟩, List.mem_of_getElem? (i := 25) rfl,
      show asciiLower _ = asciiLower _ by decide +kernel, show ¬IsNumeral _ by decide +kernel⟩,
    (C90_repeated hW toy_lower (toy_quiet W _) (toy_elsewhere W _ rfl _) .req).1 ⟨_, rfl, h "Host" "a", h "host" "a",
      ⟨?_, .inl (by decide +kernel)⟩, .inl ⟨⟨"Host", some .single, true, true, false⟩, ⟨by decide +kernel, ?_⟩, .inl rfl⟩⟩⟩
  · rw [env_lower]; decide +kernel
  · rw [env_lower]; decide +kernel

/-- C90: not reported. -/
example {W : World} (hW : Ready W) : ¬ReportedId (W.env Toy.env) neat .req 1000 ∧ ¬ReportedId (W.env Toy.env) neat .req 1026 := by
  constructor
  · intro hr
    obtain ⟨q, hq, e, hc, r, hr, hcall, hf⟩ := (C90_malformed hW toy_lower (toy_quiet W _) (toy_elsewhere W _ rfl _) .req).mp hr
    cases hq
    obtain rfl : e = h "content-length" "01" := by
      rcases hc with hc | ⟨hc, _⟩
      · exact List.mem_singleton.mp hc
      · cases hc
    obtain rfl : r = ⟨"Content-Length", IsNumeral, []⟩ := row_unique hr (List.mem_of_getElem? (i := 25) rfl) hcall
      (show asciiLower _ = asciiLower _ by decide +kernel)
    exact hf (show IsNumeral _ by decide +kernel)
  · intro hr
    obtain ⟨q, hq, e, he, _⟩ := (C90_trailer hW toy_lower (toy_quiet W _) (toy_elsewhere W _ rfl _) .req).mp hr
    cases hq
    cases he

/-- C90: notices of the checks are reported by them alone. -/
example {W : World} (hW : Ready W) : Apart (W.env Toy.env) sloppy 1031 :=
  C90_apart hW toy_lower (toy_elsewhere W _ rfl _) ⟨by decide, fun r hr => by
    have : ∀ l ∈ forms.map FormRow.ids, 1031 ∉ l := by decide +kernel
    exact this _ (List.mem_map.mpr ⟨r, hr, rfl⟩)⟩

/-- C90: a notice about a value comes from a header that may have it. -/
example {W : World} (hW : Ready W) : ¬ReportedId (W.env Toy.env) neat .req 1119 := by
  intro hr
  obtain ⟨q, hq, e, hc, r, hr, hcall, _, hf⟩ := C90_sources hW toy_lower (toy_quiet W _) (toy_elsewhere W _ rfl _) (by decide +kernel)
    (by decide) .req hr
  cases hq
  obtain rfl : e = h "content-length" "01" := by
    rcases hc with hc | ⟨hc, _⟩
    · exact List.mem_singleton.mp hc
    · cases hc
  obtain rfl : r = ⟨"Content-Length", IsNumeral, []⟩ := row_unique hr (List.mem_of_getElem? (i := 25) rfl) hcall
    (show asciiLower _ = asciiLower _ by decide +kernel)
  cases hf

end

end Httpolice.Props
