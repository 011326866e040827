import Verif.Lemmas.HeaderForms
import Verif.Lemmas.HeaderNotices
import Verif.Props.Links
import Verif.Props.World

/-!
# C90: Which headers are reported as malformed, and what else is reported on them
-/

namespace Httpolice.Props

open Httpolice.Model Httpolice.Spec Httpolice.Lemmas Httpolice.Lemmas.Check

/-- 1299 and 1300 are among the notices if they may be reported on the header. -/
def delimsAmong (key : String) (ids : List Nat) : Bool :=
  (!(badQuotedDelims (str key)).1 || ids.contains 1299) && (!(badQuotedDelims (str key)).2 || ids.contains 1300)

theorem delims_among {key : String} {ids : List Nat} (h : delimsAmong key ids = true) :
    ((badQuotedDelims (str key)).1 = true → 1299 ∈ ids) ∧ ((badQuotedDelims (str key)).2 = true → 1300 ∈ ids) := by
  unfold delimsAmong at h
  rw [Bool.and_eq_true] at h
  constructor
  · intro h1
    simpa [h1] using h.1
  · intro h1
    simpa [h1] using h.2

section
variable {W : World} {key : String} {s : Sym} {α : Type} {Ok : α → Prop} {print : α → Str} {value : α → GVal}
  {IsValue : α → GVal → Prop} {notes : α → List PyComplaint} {ids : List Nat}

theorem plain_formed
    (h : ∃ k, s = .nt k ∧ Takes (fun data => innerParse W.final.grammar (pyOps W.annotate) data k) Ok print ∧
      Mild ids (fun data => innerParse W.final.grammar (pyOps W.annotate) data k))
    (hb : W.byKey key = knownKind key (W.parser s) plainProcess) (hd : delimsAmong key ids = true) :
    Formed ids (W.byKey key) (WrittenAs Ok print) := by
  obtain ⟨k, rfl, h1, h2⟩ := h
  rw [hb]
  exact formed_plain h1 h2 (delims_among hd).1 (delims_among hd).2

theorem reads_formed
    (h : ∃ k, s = .nt k ∧ Reads (fun data => innerParse W.final.grammar (pyOps W.annotate) data k) Ok print value notes)
    (hb : W.byKey key = knownKind key (W.parser s) plainProcess) (hd : delimsAmong key ids = true)
    (hn : ∀ x, Amongst ids (notes x)) : Formed ids (W.byKey key) (WrittenAs Ok print) :=
  let ⟨k, hk, h1⟩ := h
  plain_formed ⟨k, hk, h1.1, mild_reads h1 hn⟩ hb hd

theorem readsAs_formed
    (h : ∃ k, s = .nt k ∧ ReadsAs (fun data => innerParse W.final.grammar (pyOps W.annotate) data k) Ok print IsValue notes)
    (hb : W.byKey key = knownKind key (W.parser s) plainProcess) (hd : delimsAmong key ids = true)
    (hn : ∀ x, Amongst ids (notes x)) : Formed ids (W.byKey key) (WrittenAs Ok print) :=
  let ⟨k, hk, h1⟩ := h
  plain_formed ⟨k, hk, h1.1, mild_readsAs h1 hn⟩ hb hd

/-- Texts as they are. -/
theorem texts_formed {L : Str → Prop} {value : Str → GVal}
    (h : ∃ k, s = .nt k ∧ Reads (fun data => innerParse W.final.grammar (pyOps W.annotate) data k) L (fun w => w) value (fun _ => []))
    (hb : W.byKey key = knownKind key (W.parser s) plainProcess) (hd : delimsAmong key [] = true) :
    Formed [] (W.byKey key) L := formed_texts (reads_formed h hb hd fun _ => amongst_nil)

/-- A parser for an argument. -/
theorem mild_parser
    (h : ∃ k, s = .nt k ∧ Reads (fun data => innerParse W.final.grammar (pyOps W.annotate) data k) Ok print value notes)
    (hn : ∀ x, Amongst ids (notes x)) : Mild ids (W.parser s) := by
  obtain ⟨k, rfl, h1⟩ := h
  exact mild_reads h1 hn

theorem process_formed {process : Entry → GVal → GVal × List Note}
    (h : ∃ k, s = .nt k ∧ Takes (fun data => innerParse W.final.grammar (pyOps W.annotate) data k) Ok print ∧
      Mild ids (fun data => innerParse W.final.grammar (pyOps W.annotate) data k))
    (hb : W.byKey key = knownKind key (W.parser s) process) (hd : delimsAmong key ids = true) (hp : ∀ e, Tame ids (process e)) :
    Formed ids (W.byKey key) (WrittenAs Ok print) := by
  obtain ⟨k, rfl, h1, h2⟩ := h
  rw [hb]
  exact formed h1 h2 hp (delims_among hd).1 (delims_among hd).2

theorem takes_mild
    (h : ∃ k, s = .nt k ∧ Reads (fun data => innerParse W.final.grammar (pyOps W.annotate) data k) Ok print value notes)
    (hn : ∀ x, Amongst ids (notes x)) :
    ∃ k, s = .nt k ∧ Takes (fun data => innerParse W.final.grammar (pyOps W.annotate) data k) Ok print ∧
      Mild ids (fun data => innerParse W.final.grammar (pyOps W.annotate) data k) :=
  let ⟨k, hk, h1⟩ := h
  ⟨k, hk, h1.1, mild_reads h1 hn⟩

end

section
variable {W : World} (hW : Ready W)
include hW

theorem range_reads : ∃ k, W.rangeSym .range = .nt k ∧
    Reads (fun data => innerParse W.final.grammar (pyOps W.annotate) data k) RangeSyn.Ok RangeSyn.text RangeSyn.value RangeSyn.notes := by
  obtain ⟨k, hk, _⟩ := C55_range_accepts hW.order (env := W.range.env) hW.range.1 hW.range.2 W.annotate []
  refine ⟨k, hk, fun data => ?_, fun x hx => ?_⟩
  · obtain ⟨k', hk', h⟩ := C55_range_accepts hW.order (env := W.range.env) hW.range.1 hW.range.2 W.annotate data
    cases Sym.nt.inj (hk.symm.trans hk')
    exact h
  · obtain ⟨k', cs, as, hk', h⟩ := C55_range_reads hW.order (env := W.range.env) hW.range.1 hW.range.2 W.annotate hx
    cases Sym.nt.inj (hk.symm.trans hk')
    exact ⟨cs, as, h⟩

theorem range_formed : Formed [1133, 1151] (W.byKey "Range") (WrittenAs RangeSyn.Ok RangeSyn.text) :=
  reads_formed (s := W.rangeSym .range) (range_reads hW) rfl (by decide +kernel) fun x => by
    cases x with
    | bytes u l => exact amongst_append (amongst_flatMap fun x _ => amongst_ite (amongst_one (by decide)) amongst_nil) (amongst_gap (by decide) _)
    | other => exact amongst_nil

theorem contentRange_formed : Formed [1148] (W.byKey "Content-Range") (WrittenAs ContentRangeSyn.Ok ContentRangeSyn.text) := by
  obtain ⟨k, hk, _⟩ := C55_content_range_accepts hW.order (env := W.range.env) hW.range.1 hW.range.2 W.annotate []
  refine plain_formed (s := W.rangeSym .contentRange) ⟨k, hk, fun data => ?_, fun data node cs as he => ?_⟩ rfl (by decide +kernel)
  · obtain ⟨k', hk', h⟩ := C55_content_range_accepts hW.order (env := W.range.env) hW.range.1 hW.range.2 W.annotate data
    cases Sym.nt.inj (hk.symm.trans hk')
    exact h
  · obtain ⟨k', hk', h⟩ := C55_content_range_accepts hW.order (env := W.range.env) hW.range.1 hW.range.2 W.annotate data
    cases Sym.nt.inj (hk.symm.trans hk')
    obtain ⟨x, hx, rfl⟩ := h.1.mp ⟨_, he⟩
    obtain ⟨k', ds, bs, hk', h1, h2, h3⟩ := C55_content_range_reads hW.order (env := W.range.env) hW.range.1 hW.range.2 W.annotate hx
    cases Sym.nt.inj (hk.symm.trans hk')
    cases he.symm.trans h1
    by_cases hw : x.Wrong
    · intro c hc
      have := List.mem_map_of_mem (f := Prod.fst) hc
      rwa [h2 hw] at this
    · rw [h3 hw]
      exact amongst_nil

theorem acceptRanges_formed : Formed [1151] (W.byKey "Accept-Ranges") (WrittenAs AcceptRangesSyn.Ok AcceptRangesSyn.text) := by
  obtain ⟨k, hk, _⟩ := C55_accept_ranges hW.order (env := W.range.env) hW.range.1 hW.range.2 W.annotate []
  refine plain_formed (s := W.rangeSym .acceptRanges) ⟨k, hk, fun data => ?_, fun data node cs as he => ?_⟩ rfl (by decide +kernel)
  · obtain ⟨k', hk', h1, h2, _⟩ := C55_accept_ranges hW.order (env := W.range.env) hW.range.1 hW.range.2 W.annotate data
    cases Sym.nt.inj (hk.symm.trans hk')
    exact ⟨h1, h2⟩
  · obtain ⟨k', hk', _, _, h⟩ := C55_accept_ranges hW.order (env := W.range.env) hW.range.1 hW.range.2 W.annotate data
    cases Sym.nt.inj (hk.symm.trans hk')
    obtain ⟨x, _, _, _, rfl⟩ := h _ _ _ he
    cases x with
    | none => exact amongst_nil
    | units => exact amongst_gap (by decide) _

theorem challenges_formed {key : String} {n : AuthName} (hn : n = .wwwAuthenticate ∨ n = .proxyAuthenticate)
    (hb : W.byKey key = knownKind key (W.parser (W.authSym n)) plainProcess) (hd : delimsAmong key [1015, 1017, 1151, 1196] = true) :
    Formed [1015, 1017, 1151, 1196] (W.byKey key) IsChallenges := by
  obtain ⟨k, hk, h⟩ := C76_challenges (env := W.auth.env) hW.auth.1 hW.auth.2 W.annotate hn
  exact plain_formed (s := W.authSym n) ⟨k, hk, h.1, mild_butGaps h (by decide)
    (amongst_list1 (by decide) (amongst_auth (by decide) (by decide) (by decide) (by decide)))⟩ hb hd

theorem via_formed : Formed [1014, 1017, 1151, 1299] (W.byKey "Via") (WrittenAs (List1Syn.Ok Hop.Ok) (List1Syn.text Hop.text)) := by
  obtain ⟨k, hk, h⟩ := C84_via hW.order (env := W.comment.env) hW.comment.1 hW.comment.2 W.annotate
  exact plain_formed (s := W.commentSym .via) ⟨k, hk, h.1, mild_readsSome h
    (amongst_list1 (by decide) (amongst_hop (by decide) (by decide)))⟩ rfl (by decide +kernel)

theorem altSvc_formed : Formed [1017, 1151, 1156, 1158, 1256, 1257] (W.byKey "Alt-Svc") (WrittenAs AltSvcSyn.Ok AltSvcSyn.text) := by
  have hP : ReadsVerbatim W.altParser IsAltAuthority := by
    obtain ⟨k, hk, h⟩ := C83_authority (env := W.authority.env) hW.authority.1 .refl W.annotate
    have : W.altParser = fun data => innerParse (W.authority.run authorityDefs).2.grammar (pyOps W.annotate) data k := by
      unfold World.altParser
      rw [show (W.authority.run authorityDefs).1 .whole = _ from hk]
      rfl
    rw [this]
    exact h
  refine process_formed (s := W.altSym .altSvc)
    (takes_mild (C83_alt_svc hW.order (env := W.alt.env) hW.alt.1 hW.alt.2 _ hP) (amongst_alt _ (by decide) (by decide) (by decide) (by decide)))
    rfl (by decide +kernel) (tame_alt (known_rows (by decide) (by decide) (.inr ?_) ?_))
  · simp [altRules]
  · intro r hr p hp
    simp only [altRules, List.mem_cons, List.not_mem_nil, or_false] at hr
    rcases hr with rfl | rfl
    · obtain rfl : _ = p := Option.some.inj hp
      exact mild_parser (s := W.altSym .ma) (C83_ma hW.order hW.alt.1 hW.alt.2 _) fun _ => amongst_nil
    · obtain rfl : _ = p := Option.some.inj hp
      exact mild_parser (s := W.altSym .persist) (C83_persist hW.order hW.alt.1 hW.alt.2 _) fun _ => amongst_nil

theorem cacheControl_formed : Formed [1017, 1151, 1154, 1155, 1156, 1157, 1158] (W.byKey "Cache-Control")
    (WrittenAs (List1Syn.Ok (Setting.Ok IsToken)) (List1Syn.text Setting.text)) := by
  refine process_formed (s := W.cacheSym .cacheControl)
    (takes_mild (C74_cache_control hW.order hW.cache.1 hW.cache.2 _) (amongst_list1 (by decide) (amongst_setting (by decide))))
    rfl (by decide +kernel) (tame_cache (known_rows (by decide) (by decide) (.inl (by decide)) ?_) _ (by decide) (by decide))
  have h1 : Mild [1017, 1151, 1154, 1155, 1156, 1157, 1158] (W.parser (W.cacheSym .deltaSeconds)) :=
    mild_parser (C74_seconds hW.order hW.cache.1 hW.cache.2 _ (.inr rfl)) fun _ => amongst_nil
  have h2 : Mild [1017, 1151, 1154, 1155, 1156, 1157, 1158] (W.parser (W.cacheSym .noCache)) :=
    mild_parser (C74_field_names hW.order hW.cache.1 hW.cache.2 _ (.inl rfl)) (amongst_list (by decide) fun _ => amongst_nil)
  have h3 : Mild [1017, 1151, 1154, 1155, 1156, 1157, 1158] (W.parser (W.cacheSym .private_)) :=
    mild_parser (C74_field_names hW.order hW.cache.1 hW.cache.2 _ (.inr rfl)) (amongst_list (by decide) fun _ => amongst_nil)
  generalize W.parser (W.cacheSym .deltaSeconds) = a at h1 ⊢
  generalize W.parser (W.cacheSym .noCache) = b at h2 ⊢
  generalize W.parser (W.cacheSym .private_) = c at h3 ⊢
  intro r hr p hp
  simp only [cacheRules, List.mem_cons, List.not_mem_nil, or_false] at hr
  rcases hr with rfl | rfl | rfl | rfl | rfl | rfl | rfl | rfl | rfl | rfl | rfl | rfl | rfl | rfl | rfl <;>
    (cases hp <;> assumption)

theorem hsts_formed : Formed [1017, 1156, 1157, 1158, 1300] (W.byKey "Strict-Transport-Security") (WrittenAs HstsSyn.Ok HstsSyn.text) := by
  refine process_formed (s := W.smallSym .hsts)
    (takes_mild (C78_strict_transport_security hW.order hW.small.1 hW.small.2 _)
      fun x => amongst_flatMap fun d _ => amongst_dir (by decide) d)
    rfl (by decide +kernel) (tame_arguments (known_rows (by decide) (by decide) (.inl (by decide)) ?_))
  intro r hr p hp
  simp only [hstsRules, List.mem_cons, List.not_mem_nil, or_false] at hr
  rcases hr with rfl | rfl
  · exact nomatch hp
  · obtain rfl : _ = p := Option.some.inj hp
    exact mild_parser (C78_max_age hW.order hW.small.1 hW.small.2 _) fun _ => amongst_nil

theorem preferences_known {ids : List Nat} (h6 : 1156 ∈ ids) (h7 : 1157 ∈ ids) (h8 : 1158 ∈ ids) : Known ids W.preferences := by
  refine known_rows h6 h8 (.inl h7) ?_
  intro r hr p hp
  simp only [preferRules, List.mem_cons, List.not_mem_nil, or_false] at hr
  rcases hr with rfl | rfl | rfl | rfl | rfl
  · exact nomatch hp
  · obtain rfl : _ = p := Option.some.inj hp
    exact mild_parser (C78_handling hW.order hW.small.1 hW.small.2 _) fun _ => amongst_nil
  · exact nomatch hp
  · obtain rfl : _ = p := Option.some.inj hp
    exact mild_parser (C78_return hW.order hW.small.1 hW.small.2 _) fun _ => amongst_nil
  · obtain rfl : _ = p := Option.some.inj hp
    exact mild_parser (C78_wait hW.order hW.small.1 hW.small.2 _) fun _ => amongst_nil

theorem prefer_formed : Formed [1017, 1151, 1156, 1157, 1158, 1299, 1300] (W.byKey "Prefer")
    (WrittenAs (List1Syn.Ok PrefSyn.Ok) (List1Syn.text PrefSyn.text)) :=
  process_formed (s := W.smallSym .prefer)
    (takes_mild (C78_prefer hW.order hW.small.1 hW.small.2 _) (amongst_list1 (by decide) (amongst_pref (by decide))))
    rfl (by decide +kernel) (tame_prefer (preferences_known hW (by decide) (by decide) (by decide)))

theorem preferenceApplied_formed : Formed [1017, 1151, 1156, 1157, 1158, 1299] (W.byKey "Preference-Applied")
    (WrittenAs (List1Syn.Ok (Setting.Ok IsToken)) (List1Syn.text Setting.text)) :=
  process_formed (s := W.smallSym .preferenceApplied)
    (takes_mild (C78_preference_applied hW.order hW.small.1 hW.small.2 _) (amongst_list1 (by decide) (amongst_setting (by decide))))
    rfl (by decide +kernel) (tame_arguments (preferences_known hW (by decide) (by decide) (by decide)))

theorem forwarded_formed : Formed [1017, 1151, 1156, 1158, 1296, 1297, 1299, 1300] (W.byKey "Forwarded")
    (WrittenAs (List1Syn.Ok HopSyn.Ok) (List1Syn.text HopSyn.text)) := by
  obtain ⟨k, hk, h⟩ := C80_forwarded hW.order (env := W.fetch.env) hW.fetch.1 hW.fetch.2 W.annotate
  refine process_formed (s := W.fetchSym .forwarded) ⟨k, hk, h.1, mild_hops h (by decide) (by decide)⟩
    rfl (by decide +kernel) (tame_forwarded (known_rows (by decide) (by decide) (.inr ?_) ?_) (by decide) (by decide))
  · simp [forwardedRules]
  · intro r hr p hp
    simp only [forwardedRules, List.mem_cons, List.not_mem_nil, or_false] at hr
    rcases hr with rfl | rfl | rfl | rfl
    · obtain rfl : _ = p := Option.some.inj hp
      exact mild_parser (C80_node hW.order hW.fetch.1 hW.fetch.2 _) fun _ => amongst_nil
    · obtain rfl : _ = p := Option.some.inj hp
      exact mild_parser (C80_node hW.order hW.fetch.1 hW.fetch.2 _) fun _ => amongst_nil
    · obtain rfl : _ = p := Option.some.inj hp
      exact mild_parser (value := GVal.text) (Ok := IsHostHeader) (print := fun w => w) (notes := fun _ => [])
        (module_reads hW.fetch.1 (fetches_solve hW.order) (known_shapes fetch_shapes (by decide +kernel)) rfl (fun _ _ _ _ e => e)
          hW.fetch.2 _) fun _ => amongst_nil
    · obtain rfl : _ = p := Option.some.inj hp
      exact mild_parser (value := GVal.text) (Ok := IsScheme) (print := fun w => w) (notes := fun _ => [])
        (module_reads hW.fetch.1 (fetches_solve hW.order) (known_shapes fetch_shapes (by decide +kernel)) rfl (fun _ _ _ _ e => e)
          hW.fetch.2 _) fun _ => amongst_nil

theorem link_formed : Formed [1015, 1017, 1151, 1158, 1225, 1226, 1253, 1254, 1282, 1299, 1300, 1307, 1308, 1309] (W.byKey "Link")
    (WrittenAs (ListSyn.Ok LinkSyn.Ok) (ListSyn.text LinkSyn.text)) := by
  have hP : ∀ s, Mild [1015, 1017, 1151, 1158, 1225, 1226, 1253, 1254, 1282, 1299, 1300, 1307, 1308, 1309] (W.linkParser s) := by
    have main : ∀ {α : Type} {s : LinkSymbol} {Ok : α → Prop} {text : α → Str} {value : α → GVal} {notes : α → List PyComplaint},
        (∃ k, (runDefs W.ext.env W.ext.heap (extDefs W.order)).1 s.name = .nt k ∧
          Reads (fun data => innerParse (W.ext.run (extDefs W.order)).2.grammar (pyOps W.annotate) data k) Ok text value notes) →
        (∀ x, Amongst [1015, 1017, 1151, 1158, 1225, 1226, 1253, 1254, 1282, 1299, 1300, 1307, 1308, 1309] (notes x)) →
        Mild [1015, 1017, 1151, 1158, 1225, 1226, 1253, 1254, 1282, 1299, 1300, 1307, 1308, 1309] (W.linkParser s) := by
      rintro α s Ok text value notes ⟨k, hk, hr⟩ hn
      have : W.linkParser s = fun data => innerParse (W.ext.run (extDefs W.order)).2.grammar (pyOps W.annotate) data k := by
        unfold World.linkParser
        rw [show (W.ext.run (extDefs W.order)).1 s.name = _ from hk]
        rfl
      rw [this]
      exact mild_reads hr hn
    intro s
    cases s with
    | uriReference => exact main (C82_anchor hW.order hW.ext.1 .refl _) fun _ => amongst_nil
    | rel => exact main (C82_rel hW.order hW.ext.1 .refl _) fun _ => amongst_nil
    | rev => exact main (C82_rel hW.order hW.ext.1 .refl _) fun _ => amongst_nil
    | hreflang => exact main (C82_hreflang hW.order hW.ext.1 .refl _) fun _ => amongst_nil
    | type_ =>
      refine main (C82_type hW.order hW.ext.1 .refl _) fun w => ?_
      unfold meantNotes
      split
      · exact amongst_nil
      · exact amongst_one (by decide)
    | extValue => exact main (C82_ext_value hW.order hW.ext.1 .refl _) (amongst_ext (by decide) (by decide))
  obtain ⟨k, hk, h1, h2⟩ := C79_link (env := W.link.env) hW.link.1 hW.link.2 W.annotate
  refine plain_formed (s := W.linkSym .link) ⟨k, hk, h1, fun data node cs as he => ?_⟩ rfl (by decide +kernel)
  obtain ⟨x, hx, rfl⟩ := (h1 data).1.mp ⟨_, he⟩
  obtain ⟨y, rs, ds, bs, _, _, _, h3, h4, h5⟩ := h2 x hx
  cases he.symm.trans h4
  refine amongst_perm h5 (amongst_append ?_ (amongst_gap (by decide) _))
  clear h4 h5 he
  generalize y.elems = l at h3
  induction h3 with
  | nil => exact amongst_nil
  | cons h _ ih =>
    rw [List.flatMap_cons]
    exact amongst_append (amongst_links hP (by decide) (by decide) (by decide) (by decide) h) ih

omit hW in
theorem amongst_tags (x : MatchSyn) : Amongst [1119, 1151] x.notes := by
  cases x with
  | any => exact amongst_nil
  | tags l => exact amongst_append (amongst_flatMap fun t _ => amongst_tag (by decide) t) (amongst_gap (by decide) _)

set_option maxHeartbeats 4000000 in
/-- **C90**: how each header is to be written. -/
theorem C90_form : ∀ r ∈ forms, Formed r.ids (W.byKey r.key) r.form := by
  unfold forms
  simp only [List.forall_mem_cons]
  refine ⟨?_, ?_, ?_, ?_, ?_, ?_, ?_, ?_, ?_, ?_, ?_, ?_, ?_, ?_, ?_, ?_, ?_, ?_, ?_, ?_, ?_, ?_, ?_, ?_, ?_, ?_, ?_, ?_, ?_, ?_, ?_, ?_, ?_, ?_, ?_, ?_, ?_, ?_, ?_, ?_, ?_, ?_, ?_, ?_, ?_, ?_, ?_, ?_, ?_, ?_, ?_, ?_, ?_, ?_, ?_, ?_, ?_, ?_, ?_, ?_, ?_, ?_, ?_, ?_, ?_, ?_, ?_, ?_, nofun⟩
  · exact readsAs_formed (s := W.semSym .accept) (C75_accept hW.order hW.sem.1 hW.sem.2 _) rfl (by decide +kernel) (amongst_list (by decide) (amongst_accept (by decide) (by decide)))
  · exact reads_formed (s := W.semSym .acceptCharset) (C75_accept_charset hW.order hW.sem.1 hW.sem.2 _) rfl (by decide +kernel) (amongst_list1 (by decide) fun _ => amongst_nil)
  · exact readsAs_formed (s := W.semSym .acceptEncoding) (C75_accept_encoding hW.order hW.sem.1 hW.sem.2 _) rfl (by decide +kernel) (amongst_list (by decide) fun _ => amongst_nil)
  · exact reads_formed (s := W.langSym .acceptLanguage) (C81_accept_language hW.order hW.lang.1 hW.lang.2 _) rfl (by decide +kernel) (amongst_list1 (by decide) fun _ => amongst_nil)
  · exact reads_formed (s := W.smallSym .acceptPatch) (C78_accept_patch hW.order hW.small.1 hW.small.2 _) rfl (by decide +kernel) (amongst_list1 (by decide) (amongst_media (by decide) (by decide)))
  · exact readsAs_formed (s := W.smallSym .acceptPost) (C78_accept_post hW.order hW.small.1 hW.small.2 _) rfl (by decide +kernel) (amongst_list (by decide) (amongst_media (by decide) (by decide)))
  · exact acceptRanges_formed hW
  · exact texts_formed (s := W.fetchSym .allowCredentials) (C80_allow_credentials hW.order hW.fetch.1 hW.fetch.2 _) rfl (by decide +kernel)
  · exact reads_formed (s := W.fetchSym .allowHeaders) (C80_field_names hW.order hW.fetch.1 hW.fetch.2 _ (.inr rfl)) rfl (by decide +kernel) (amongst_list (by decide) fun _ => amongst_nil)
  · exact reads_formed (s := W.fetchSym .allowMethods) (C80_allow_methods hW.order hW.fetch.1 hW.fetch.2 _) rfl (by decide +kernel) (amongst_list (by decide) fun _ => amongst_nil)
  · exact texts_formed (s := W.fetchSym .allowOrigin) (C80_allow_origin hW.order hW.fetch.1 hW.fetch.2 _) rfl (by decide +kernel)
  · exact reads_formed (s := W.fetchSym .exposeHeaders) (C80_field_names hW.order hW.fetch.1 hW.fetch.2 _ (.inl rfl)) rfl (by decide +kernel) (amongst_list (by decide) fun _ => amongst_nil)
  · exact texts_formed (s := W.fetchSym .maxAge) (C80_max_age hW.order hW.fetch.1 hW.fetch.2 _) rfl (by decide +kernel)
  · exact reads_formed (s := W.fetchSym .requestHeaders) (C80_request_headers hW.order hW.fetch.1 hW.fetch.2 _) rfl (by decide +kernel) (amongst_list1 (by decide) fun _ => amongst_nil)
  · exact texts_formed (s := W.fetchSym .requestMethod) (C80_request_method hW.order hW.fetch.1 hW.fetch.2 _) rfl (by decide +kernel)
  · exact texts_formed (s := W.cacheSym .age) (C74_seconds hW.order hW.cache.1 hW.cache.2 _ (.inl rfl)) rfl (by decide +kernel)
  · exact reads_formed (s := W.semSym .allow) (C75_allow hW.order hW.sem.1 hW.sem.2 _) rfl (by decide +kernel) (amongst_list (by decide) fun _ => amongst_nil)
  · exact altSvc_formed hW
  · exact texts_formed (s := W.altSym .altUsed) (C83_alt_used hW.order hW.alt.1 hW.alt.2 _) rfl (by decide +kernel)
  · exact reads_formed (s := W.authSym .authorization) (C76_credentials hW.auth.1 hW.auth.2 _ (.inl rfl)) rfl (by decide +kernel) (amongst_auth (by decide) (by decide) (by decide) (by decide))
  · exact cacheControl_formed hW
  · exact reads_formed (s := W.hopSym .connection) (C73_connection hW.order hW.hop.1 hW.hop.2 _) rfl (by decide +kernel) (amongst_list1 (by decide) fun _ => amongst_nil)
  · exact reads_formed (s := W.extSym .contentDisposition) (C82_content_disposition hW.order hW.ext.1 hW.ext.2 _) rfl (by decide +kernel) (amongst_disp (by decide) (by decide) (by decide))
  · exact reads_formed (s := W.semSym .contentEncoding) (C75_content_encoding hW.order hW.sem.1 hW.sem.2 _) rfl (by decide +kernel) (amongst_list1 (by decide) fun _ => amongst_nil)
  · exact reads_formed (s := W.langSym .contentLanguage) (C81_content_language hW.order hW.lang.1 hW.lang.2 _) rfl (by decide +kernel) (amongst_list1 (by decide) fun _ => amongst_nil)
  · exact texts_formed (s := W.hopSym .contentLength) (C73_content_length hW.order hW.hop.1 hW.hop.2 _) rfl (by decide +kernel)
  · exact texts_formed (s := W.uriSym .contentLocation) (C77_no_fragment hW.uri.1 hW.uri.2 _ (.inl rfl)) rfl (by decide +kernel)
  · exact contentRange_formed hW
  · exact reads_formed (s := W.semSym .contentType) (C75_content_type hW.order hW.sem.1 hW.sem.2 _) rfl (by decide +kernel) (amongst_media (by decide) (by decide))
  · exact texts_formed (s := W.fetchSym .resourcePolicy) (C80_resource_policy hW.order hW.fetch.1 hW.fetch.2 _) rfl (by decide +kernel)
  · exact reads_formed (s := W.semSym .dateHeader) (C75_date hW.order hW.sem.1 hW.sem.2 _) rfl (by decide +kernel) fun x => amongst_date (by decide) x.2 x.1
  · exact reads_formed (s := W.tagSym .etag) (C72_etag hW.tag.1 hW.tag.2 _) rfl (by decide +kernel) (amongst_tag (by decide))
  · exact texts_formed (s := W.semSym .expect) (C75_expect hW.order hW.sem.1 hW.sem.2 _) rfl (by decide +kernel)
  · exact reads_formed (s := W.cacheSym .expires) (C74_expires hW.order hW.cache.1 hW.cache.2 _) rfl (by decide +kernel) fun x => amongst_date (by decide) x.2 x.1
  · exact forwarded_formed hW
  · exact reads_formed (s := W.http2Sym .http2Settings) (C78_http2_settings hW.http2.1 hW.http2.2 _) rfl (by decide +kernel) fun _ => amongst_nil
  · exact reads_formed (s := W.smallSym .silence) (C78_silence hW.order hW.small.1 hW.small.2 _) rfl (by decide +kernel) (amongst_list (by decide) (amongst_silence (by decide)))
  · exact texts_formed (s := W.uriSym .hostHeader) (C77_host hW.uri.1 hW.uri.2 _) rfl (by decide +kernel)
  · exact reads_formed (s := W.tagSym .ifMatch) (C72_if_match hW.tag.1 hW.tag.2 _) rfl (by decide +kernel) amongst_tags
  · exact reads_formed (s := W.tagSym .ifModifiedSince) (C72_dates hW.tag.1 hW.tag.2 _ (.inr (.inl rfl))) rfl (by decide +kernel) fun x => amongst_date (by decide) x.2 x.1
  · exact reads_formed (s := W.tagSym .ifNoneMatch) (C72_if_none_match hW.tag.1 hW.tag.2 _) rfl (by decide +kernel) amongst_tags
  · exact reads_formed (s := W.tagSym .ifRange) (C72_if_range hW.tag.1 hW.tag.2 _) rfl (by decide +kernel) fun x => by
      cases x with
      | tag x => exact amongst_tag (by decide) x
      | date f x => exact amongst_date (by decide) x f
  · exact reads_formed (s := W.tagSym .ifUnmodifiedSince) (C72_dates hW.tag.1 hW.tag.2 _ (.inr (.inr rfl))) rfl (by decide +kernel) fun x => amongst_date (by decide) x.2 x.1
  · exact reads_formed (s := W.tagSym .lastModified) (C72_dates hW.tag.1 hW.tag.2 _ (.inl rfl)) rfl (by decide +kernel) fun x => amongst_date (by decide) x.2 x.1
  · exact link_formed hW
  · exact texts_formed (s := W.uriSym .location) (C77_reference hW.uri.1 hW.uri.2 _ (.inr rfl)) rfl (by decide +kernel)
  · exact texts_formed (s := W.semSym .maxForwards) (C75_max_forwards hW.order hW.sem.1 hW.sem.2 _) rfl (by decide +kernel)
  · exact texts_formed (s := W.fetchSym .originHeader) (C80_origin hW.order hW.fetch.1 hW.fetch.2 _) rfl (by decide +kernel)
  · exact reads_formed (s := W.cacheSym .pragma) (C74_pragma hW.order hW.cache.1 hW.cache.2 _) rfl (by decide +kernel) (amongst_list1 (by decide) (amongst_pragma (by decide)))
  · exact prefer_formed hW
  · exact preferenceApplied_formed hW
  · exact challenges_formed hW (.inr rfl) rfl (by decide +kernel)
  · exact reads_formed (s := W.authSym .proxyAuthorization) (C76_credentials hW.auth.1 hW.auth.2 _ (.inr rfl)) rfl (by decide +kernel) (amongst_auth (by decide) (by decide) (by decide) (by decide))
  · exact range_formed hW
  · exact texts_formed (s := W.uriSym .referer) (C77_no_fragment hW.uri.1 hW.uri.2 _ (.inr rfl)) rfl (by decide +kernel)
  · exact reads_formed (s := W.semSym .retryAfter) (C75_retry_after hW.order hW.sem.1 hW.sem.2 _) rfl (by decide +kernel) fun x => by
      cases x with
      | date f x => exact amongst_date (by decide) x f
      | seconds => exact amongst_nil
  · exact reads_formed (s := W.commentSym .server) (C84_server hW.order hW.comment.1 hW.comment.2 _) rfl (by decide +kernel) (amongst_products (by decide) (by decide))
  · exact hsts_formed hW
  · exact reads_formed (s := W.hopSym .te) (C73_te hW.order hW.hop.1 hW.hop.2 _) rfl (by decide +kernel) (amongst_list (by decide) (amongst_te (by decide) (by decide)))
  · exact reads_formed (s := W.hopSym .trailer) (C73_trailer hW.order hW.hop.1 hW.hop.2 _) rfl (by decide +kernel) (amongst_list1 (by decide) fun _ => amongst_nil)
  · exact reads_formed (s := W.hopSym .transferEncoding) (C73_transfer_encoding hW.order hW.hop.1 hW.hop.2 _) rfl (by decide +kernel) (amongst_list1 (by decide) (amongst_coding (by decide) (by decide)))
  · exact reads_formed (s := W.hopSym .upgrade) (C73_upgrade hW.order hW.hop.1 hW.hop.2 _) rfl (by decide +kernel) (amongst_list1 (by decide) fun _ => amongst_nil)
  · exact reads_formed (s := W.commentSym .userAgent) (C84_user_agent hW.order hW.comment.1 hW.comment.2 _) rfl (by decide +kernel) (amongst_products (by decide) (by decide))
  · exact readsAs_formed (s := W.semSym .vary) (C75_vary hW.order hW.sem.1 hW.sem.2 _) rfl (by decide +kernel) (amongst_list1 (by decide) fun _ => amongst_nil)
  · exact via_formed hW
  · exact challenges_formed hW (.inl rfl) rfl (by decide +kernel)
  · exact reads_formed (s := W.commentSym .warning) (C84_warning hW.order hW.comment.1 hW.comment.2 _) rfl (by decide +kernel) (amongst_list1 (by decide) (amongst_warning (by decide) (by decide)))
  · exact texts_formed (s := W.fetchSym .contentTypeOptions) (C80_content_type_options hW.order hW.fetch.1 hW.fetch.2 _) rfl (by decide +kernel)

end

/-! ## In the checks -/

theorem inj_of_nodup {α β : Type} {f : α → β} {l : List α} (hd : (l.map f).Nodup) {a b : α} (ha : a ∈ l) (hb : b ∈ l) (h : f a = f b) :
    a = b := by
  induction l with
  | nil => cases ha
  | cons x l ih =>
    obtain ⟨h1, h2⟩ := List.nodup_cons.mp hd
    cases ha with
    | head =>
      cases hb with
      | head => rfl
      | tail _ hb => exact absurd (List.mem_map.mpr ⟨b, hb, h.symm⟩) h1
    | tail _ ha =>
      cases hb with
      | head => exact absurd (List.mem_map.mpr ⟨a, ha, h⟩) h1
      | tail _ hb => exact ih h2 ha hb

theorem onMessage_mono {ex : Exchange} {t : Target} {P Q : Msg → Prop} (h : ∀ m, P m → Q m)
    (hp : OnMessage ex t fun msg => P msg.fields) : OnMessage ex t fun msg => Q msg.fields := by
  cases t with
  | req => exact hp.imp fun _ x => ⟨x.1, h _ x.2⟩
  | resp i => exact hp.imp fun _ x => ⟨x.1, h _ x.2⟩
  | exch => exact hp

theorem find_exact {V : Type} {key : String} {l : List (String × V)} (hd : (l.map Prod.fst).Nodup) {v : V} (hm : (key, v) ∈ l) :
    (l.find? fun r => r.1 == key) = some (key, v) := by
  induction l with
  | nil => cases hm
  | cons r l ih =>
    rw [List.find?_cons]
    cases hm with
    | head => simp
    | tail _ hm =>
      obtain ⟨h1, h2⟩ := List.nodup_cons.mp hd
      have : r.1 ≠ key := fun h => h1 (List.mem_map.mpr ⟨_, hm, h.symm⟩)
      simp only [beq_eq_false_iff_ne.mpr this]
      exact ih h2 hm

theorem forms_keys (W : World) : forms.map FormRow.key = W.kinds.map Prod.fst := by rw [kinds_keys]; rfl

/-- What is made of an entry. -/
theorem kind_row (W : World) {base : Env} (hl : LowersAscii base.lower) (name : Str) (e : Entry) :
    (∃ r ∈ forms, Called base.lower name r.key ∧
      (W.env base).kind name e = (shapeOf ((W.byKey r.key).parse e).1, ((W.byKey r.key).parse e).2)) ∨
    ((∀ r ∈ forms, ¬Called base.lower name r.key) ∧ (W.env base).kind name e = (.single (), [])) := by
  obtain ⟨_, h2, h3⟩ := C89_headers W hl
  have hk := forms_keys W
  have hu : (W.env base).kind name e = (shapeOf ((W.kind base.lower name).parse e).1, ((W.kind base.lower name).parse e).2) := by
    unfold World.env
    dsimp only
  by_cases h : ∃ r ∈ forms, Called base.lower name r.key
  · obtain ⟨r, hr, hc⟩ := h
    have hm : r.key ∈ W.kinds.map Prod.fst := hk ▸ List.mem_map.mpr ⟨r, hr, rfl⟩
    obtain ⟨⟨key, K⟩, hK, he⟩ := List.mem_map.mp hm
    have he : key = r.key := he
    subst he
    have hb : W.byKey r.key = K := by
      unfold World.byKey
      rw [find_exact (by rw [kinds_keys]; decide +kernel) hK]
    refine .inl ⟨r, hr, hc, ?_⟩
    rw [hu, h2 _ _ hK _ hc, hb]
  · refine .inr ⟨fun r hr hc => h ⟨r, hr, hc⟩, ?_⟩
    rw [hu, h3 name fun key hkey hc => ?_]
    · rfl
    · rw [← hk] at hkey
      obtain ⟨r, hr, rfl⟩ := List.mem_map.mp hkey
      exact h ⟨r, hr, hc⟩

theorem env_blind (W : World) (base : Env) : CaseBlind (W.env base) := by
  intro a b h
  unfold World.env at h ⊢
  dsimp only at h ⊢
  unfold World.kind
  rw [h]

theorem env_lower (W : World) (base : Env) : (W.env base).lower = base.lower := by
  unfold World.env
  dsimp only

theorem env_ascii (W : World) {base : Env} (hl : LowersAscii base.lower) : LowersAscii (W.env base).lower := by
  rw [env_lower]
  exact hl

/-- The rows all have different names. -/
theorem row_unique {lower : Str → Str} {name : Str} {r r' : FormRow} (hr : r ∈ forms) (hr' : r' ∈ forms) (h : Called lower name r.key)
    (h' : Called lower name r'.key) : r = r' := by
  have hd : (forms.map fun r => asciiLower (str r.key)).Nodup := by
    rw [show (forms.map fun r => asciiLower (str r.key)) = (forms.map FormRow.key).map fun k => asciiLower (str k) from by
      rw [List.map_map]; rfl]
    decide +kernel
  exact inj_of_nodup hd hr hr' (h.symm.trans h')

/-- Headers with a syntax may be there either once or many times. -/
theorem row_ruled {base : Env} {name : Str} {r : FormRow} (hr : r ∈ forms) (h : Called base.lower name r.key) (W : World) :
    Sole (W.env base) name ∨ Several (W.env base) name := by
  have hx : ∀ key ∈ forms.map FormRow.key, ∃ row ∈ headerRows, row.key = key ∧ row.rule ≠ none := by decide +kernel
  obtain ⟨row, hrow, hkey, hn⟩ := hx r.key (List.mem_map.mpr ⟨r, hr, rfl⟩)
  have hi : IsHeader (W.env base) name row := by
    refine ⟨hrow, ?_⟩
    rw [env_lower, hkey]
    exact h
  by_cases hs : row.key = "Strict-Transport-Security"
  · exact .inl ⟨row, hi, .inr hs⟩
  · cases hrule : row.rule with
    | none => exact absurd hrule hn
    | some k =>
      cases k with
      | single => exact .inl ⟨row, hi, .inl hrule⟩
      | multi => exact .inr ⟨row, hi, .inl hrule⟩
      | special => exact .inr ⟨row, hi, .inr ⟨hrule, hs⟩⟩

section
variable {W : World} (hW : Ready W) {base : Env} (hl : LowersAscii base.lower)
include hW hl

/-- **C90**: the only notices from parsing a header are that it is malformed, or those that go with the header. -/
theorem C90_ids (name : Str) (e : Entry) : ∀ n ∈ ((W.env base).kind name e).2,
    ∃ r ∈ forms, Called base.lower name r.key ∧ ((r.form e.value ∧ n.id ∈ r.ids) ∨ (¬r.form e.value ∧ n = ⟨1000, [e]⟩)) := by
  intro n hn
  rcases kind_row W hl name e with ⟨r, hr, hc, h⟩ | ⟨_, h⟩
  · rw [h] at hn
    obtain ⟨h1, h2⟩ := C90_form hW r hr e
    refine ⟨r, hr, hc, ?_⟩
    by_cases hf : r.form e.value
    · exact .inl ⟨hf, h1 hf n hn⟩
    · rw [h2 hf] at hn
      exact .inr ⟨hf, List.mem_singleton.mp hn⟩
  · rw [h] at hn
    cases hn

/-- **C90**: in particular, parsing headers never reports what the checks report. -/
theorem C90_apart {ex : Exchange} {N : Nat} (h : NotElsewhere (W.env base) ex N)
    (hN : N ≠ 1000 ∧ ∀ r ∈ forms, N ∉ r.ids) : Apart (W.env base) ex N where
  headers := by
    rintro name e n hn rfl
    obtain ⟨r, hr, _, ⟨_, h⟩ | ⟨_, rfl⟩⟩ := C90_ids hW hl name e n hn
    · exact hN.2 r hr h
    · exact hN.1 rfl
  target := h.target
  request := h.request
  responses := h.responses

/-- **C90**: that goes for all that they report. -/
theorem C90_own {ex : Exchange} {N : Nat} (h : NotElsewhere (W.env base) ex N) (hN : N ∈ ownIds) : Apart (W.env base) ex N := by
  have hx : ∀ n ∈ ownIds, n ≠ 1000 ∧ ∀ l ∈ forms.map FormRow.ids, n ∉ l := by decide +kernel
  exact C90_apart hW hl h ⟨(hx N hN).1, fun r hr => (hx N hN).2 _ (List.mem_map.mpr ⟨r, hr, rfl⟩)⟩

variable {ex : Exchange} (hok : exchangeRaises (W.env base) ex = false)
include hok

/-- **C90**: a header is reported as malformed if, and only if, it is not written as it should be. -/
theorem C90_malformed (ha : NotElsewhere (W.env base) ex 1000) (t : Target) :
    ReportedId (W.env base) ex t 1000 ↔ OnMessage ex t fun msg =>
      ∃ e, Counts (W.env base) msg.fields e ∧ ∃ r ∈ forms, Called base.lower e.name r.key ∧ ¬r.form e.value := by
  rw [at_views hok ha (env_ascii W hl) (env_blind W base) (by decide +kernel) t]
  have hm : ∀ m : Msg, (∃ e ∈ m.headers ++ m.trailers, ViewSays (W.env base) m e.name 1000) ↔
      ∃ e, Counts (W.env base) m e ∧ ∃ r ∈ forms, Called base.lower e.name r.key ∧ ¬r.form e.value := by
    intro m
    rw [says_of_entry (env_ascii W hl) (env_blind W base) (by decide) (by decide)]
    constructor
    · rintro ⟨e, hc, _, n, hn, hid⟩
      obtain ⟨r, hr, hcall, ⟨_, h⟩ | ⟨hf, _⟩⟩ := C90_ids hW hl e.name e n hn
      · rw [hid] at h
        have : ∀ l ∈ forms.map FormRow.ids, 1000 ∉ l := by decide +kernel
        exact absurd h (this _ (List.mem_map.mpr ⟨r, hr, rfl⟩))
      · exact ⟨e, hc, r, hr, hcall, hf⟩
    · rintro ⟨e, hc, r, hr, hcall, hf⟩
      refine ⟨e, hc, row_ruled hr hcall W, ⟨1000, [e]⟩, ?_, rfl⟩
      rcases kind_row W hl e.name e with ⟨r', hr', hc', h⟩ | ⟨h, _⟩
      · obtain rfl := row_unique hr hr' hcall hc'
        rw [h, (C90_form hW r hr e).2 hf]
        exact .head _
      · exact absurd hcall (h r hr)
  simp only [hm]

/-- **C90**: other notices from parsing are reported only on messages with the headers they go with. -/
theorem C90_sources {N : Nat} (ha : NotElsewhere (W.env base) ex N) (hN : N ∉ ownIds) (h13 : N ≠ 1000 ∧ N ≠ 1013 ∧ N ≠ 1026) (t : Target)
    (h : ReportedId (W.env base) ex t N) : OnMessage ex t fun msg =>
      ∃ e, Counts (W.env base) msg.fields e ∧ ∃ r ∈ forms, Called base.lower e.name r.key ∧ r.form e.value ∧ N ∈ r.ids := by
  rw [at_views hok ha (env_ascii W hl) (env_blind W base) hN t] at h
  have hm : ∀ m : Msg, (∃ e ∈ m.headers ++ m.trailers, ViewSays (W.env base) m e.name N) →
      ∃ e, Counts (W.env base) m e ∧ ∃ r ∈ forms, Called base.lower e.name r.key ∧ r.form e.value ∧ N ∈ r.ids := by
    intro m hm
    rw [says_of_entry (env_ascii W hl) (env_blind W base) h13.2.1 h13.2.2] at hm
    obtain ⟨e, hc, _, n, hn, rfl⟩ := hm
    obtain ⟨r, hr, hcall, ⟨hf, h⟩ | ⟨_, rfl⟩⟩ := C90_ids hW hl e.name e n hn
    · exact ⟨e, hc, r, hr, hcall, hf, h⟩
    · exact absurd rfl h13.1
  exact onMessage_mono hm h

/-- **C90**: headers that must not be in trailers. -/
theorem C90_trailer (ha : NotElsewhere (W.env base) ex 1026) (t : Target) :
    ReportedId (W.env base) ex t 1026 ↔ OnMessage ex t fun msg =>
      ∃ e ∈ msg.fields.trailers, ∃ row ∈ headerRows, Called base.lower e.name row.key ∧ row.badForTrailer = true := by
  rw [at_views hok ha (env_ascii W hl) (env_blind W base) (by decide +kernel) t]
  have hm : ∀ m : Msg, (∃ e ∈ m.headers ++ m.trailers, ViewSays (W.env base) m e.name 1026) ↔
      ∃ e ∈ m.trailers, ∃ row ∈ headerRows, Called base.lower e.name row.key ∧ row.badForTrailer = true := by
    intro m
    rw [says_trailer fun name e n hn hid => ?_]
    · unfold Barred IsHeader Called
      simp only [env_lower, and_assoc]
    · obtain ⟨r, hr, _, ⟨_, h⟩ | ⟨_, rfl⟩⟩ := C90_ids hW hl name e n hn
      · rw [hid] at h
        have : ∀ l ∈ forms.map FormRow.ids, 1026 ∉ l := by decide +kernel
        exact this _ (List.mem_map.mpr ⟨r, hr, rfl⟩) h
      · cases hid
  simp only [hm]

end

end Httpolice.Props
