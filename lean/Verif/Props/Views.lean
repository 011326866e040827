import Verif.Lemmas.ViewForwarded
import Verif.Props.AltSvc
import Verif.Props.Comments
import Verif.Props.Fetch
import Verif.Props.Hops
import Verif.Props.Negotiation
import Verif.Props.Preferences
import Verif.Props.Settings

/-!
# C86: what is made of an entry of a header
-/

namespace Httpolice.Props

open Httpolice.Model Httpolice.Spec Httpolice.Lemmas

/-! ## Headers without arguments -/

/-- **C86**: a header where there is nothing to look for, whatever its grammar. A date that does not exist is not available. -/
theorem C86_plain {α : Type} {p : SymParser} {Ok : α → Prop} {print : α → Str} {IsValue : α → GVal → Prop}
    {notes : α → List PyComplaint} {key : String} (h : ReadsAs p Ok print IsValue notes)
    (hd : ∀ w ∈ ["Accept", "Accept-Patch", "Accept-Post", "Content-Type", "Forwarded", "Link", "Prefer", "Preference-Applied",
      "Strict-Transport-Security", "TE", "Transfer-Encoding", "Via", "Warning"], ¬ SameWord (str w) (str key))
    (hv : ∀ x args, Ok x → IsValue x (.obj (str "Unavailable") args) → ∃ s, args = [.text s]) :
    ReadsEntries (knownKind key p plainProcess) Ok print (JustRead IsValue notes) := by
  refine readsEntries_plain ?_ h fun x v hx hxv => ?_
  · have : delimRows.find? (fun r => asciiLower (str r.1) = asciiLower (str key)) = none := by
      rw [List.find?_eq_none]
      intro r hr hs
      refine hd r.1 ?_ (lower_iff.mp (of_decide_eq_true hs))
      revert r
      simp only [delimRows, List.forall_mem_cons]
      simp
    simp [badQuotedDelims, this]
  · by_cases hr : IsReal v
    · exact .inl hr
    · right
      obtain ⟨args, ha⟩ := Classical.not_forall.mp hr
      have ha := Classical.not_not.mp ha
      subst ha
      obtain ⟨s, rfl⟩ := hv x args hx hxv
      exact ⟨s, rfl⟩

section
variable {order : List Nat → List Nat} (ho : ∀ l c, c ∈ order l ↔ c ∈ l) {env : HopName → Sym} {h h' : PyHeap}
  (hb : Builds true Heap.init h) (later : Builds true (runDefs env h (hopDefs order)).2 h') (ann : GVal → Bool)
include ho hb later

/-- **C86**: Transfer-Encoding. -/
theorem C86_transfer_encoding : ∃ k, (runDefs env h (hopDefs order)).1 .transferEncoding = .nt k ∧
    ReadsEntries (knownKind "Transfer-Encoding" (fun data => innerParse h'.grammar (pyOps ann) data k) plainProcess)
      (List1Syn.Ok CodingSyn.Ok) (List1Syn.text CodingSyn.text)
      (ReadWithDelims (fun l v => v = l.value CodingSyn.value) (List1Syn.notes CodingSyn.notes) (true, true)
        fun l => l.elems.flatMap CodingSyn.quotes) := by
  obtain ⟨k, hk, hr⟩ := C73_transfer_encoding ho hb later ann
  refine ⟨k, hk, readsEntries_delims (by decide) (readsAs_of hr) ?_ ?_⟩
  · rintro x _ _ rfl; exact isReal_list _
  · rintro e x _ hx rfl
    exact shows_list1 (fun _ => coding_shows) hx

/-- **C86**: TE. -/
theorem C86_te : ∃ k, (runDefs env h (hopDefs order)).1 .te = .nt k ∧
    ReadsEntries (knownKind "TE" (fun data => innerParse h'.grammar (pyOps ann) data k) plainProcess)
      (ListSyn.Ok TeSyn.Ok) (ListSyn.text TeSyn.text)
      (ReadWithDelims (fun l v => v = l.value TeSyn.value) (ListSyn.notes TeSyn.notes) (true, true)
        fun l => l.elems.flatMap TeSyn.quotes) := by
  obtain ⟨k, hk, hr⟩ := C73_te ho hb later ann
  refine ⟨k, hk, readsEntries_delims (by decide) (readsAs_of hr) ?_ ?_⟩
  · rintro x _ _ rfl; exact isReal_list _
  · rintro e x _ hx rfl
    exact shows_listSyn (fun _ => te_shows) hx

/-- **C86**: Content-Length. -/
theorem C86_content_length : ∃ k, (runDefs env h (hopDefs order)).1 .contentLength = .nt k ∧
    ReadsEntries (knownKind "Content-Length" (fun data => innerParse h'.grammar (pyOps ann) data k) plainProcess)
      IsNumeral (fun w => w) (JustRead (fun w v => v = .int (numeral w)) fun _ => []) := by
  obtain ⟨k, hk, hr⟩ := C73_content_length ho hb later ann
  refine ⟨k, hk, C86_plain (readsAs_of hr) (by decide) ?_⟩
  rintro x args _ ⟨⟩

end

section
variable {order : List Nat → List Nat} (ho : ∀ l c, c ∈ order l ↔ c ∈ l) {env : SemName → Sym} {h h' : PyHeap}
  (hb : Builds true Heap.init h) (later : Builds true (runDefs env h (semDefs order)).2 h') (ann : GVal → Bool)
include ho hb later

/-- **C86**: Content-Type. -/
theorem C86_content_type : ∃ k, (runDefs env h (semDefs order)).1 .contentType = .nt k ∧
    ReadsEntries (knownKind "Content-Type" (fun data => innerParse h'.grammar (pyOps ann) data k) plainProcess)
      (MediaSyn.Ok IsToken) MediaSyn.text
      (ReadWithDelims (fun x v => v = x.value) MediaSyn.notes (false, true) MediaSyn.quotes) := by
  obtain ⟨k, hk, hr⟩ := C75_content_type ho hb later ann
  refine ⟨k, hk, readsEntries_delims (by decide) (readsAs_of hr) ?_ ?_⟩
  · rintro x _ _ rfl; exact isReal_obj (by decide)
  · rintro e x _ hx rfl
    exact media_shows (fun _ h => h) hx (.inl rfl)

/-- **C86**: Accept. -/
theorem C86_accept : ∃ k, (runDefs env h (semDefs order)).1 .accept = .nt k ∧
    ReadsEntries (knownKind "Accept" (fun data => innerParse h'.grammar (pyOps ann) data k) plainProcess)
      (ListSyn.Ok AcceptSyn.Ok) (ListSyn.text AcceptSyn.text)
      (ReadWithDelims (ListSyn.IsValue AcceptSyn.IsValue) (ListSyn.notes AcceptSyn.notes) (true, true)
        fun l => l.elems.flatMap AcceptSyn.quotes) := by
  obtain ⟨k, hk, hr⟩ := C75_accept ho hb later ann
  refine ⟨k, hk, readsEntries_delims (by decide) hr ?_ ?_⟩
  · rintro x _ _ ⟨vs, rfl, _⟩; exact isReal_list _
  · rintro e x _ hx ⟨vs, rfl, hvs⟩
    exact shows_list (showsAll_pairwise hvs fun y hy v hv => accept_shows (view_elems_ok hx y hy) hv)

/-- **C86**: Date. -/
theorem C86_date : ∃ k, (runDefs env h (semDefs order)).1 .dateHeader = .nt k ∧
    ReadsEntries (knownKind "Date" (fun data => innerParse h'.grammar (pyOps ann) data k) plainProcess)
      (fun x : DateFormat × Stamp => x.2.Fits x.1) (fun x => x.2.text x.1)
      (JustRead (fun x v => v = x.2.value) fun x => x.2.notes x.1) := by
  obtain ⟨k, hk, hr⟩ := C75_date ho hb later ann
  refine ⟨k, hk, C86_plain (readsAs_of hr) (by decide) ?_⟩
  intro x args _ hv
  unfold Stamp.value at hv
  split at hv
  · exact absurd (GVal.obj.inj hv).1 (by decide)
  · exact ⟨_, (GVal.obj.inj hv).2⟩

end

section
variable {order : List Nat → List Nat} (ho : ∀ l c, c ∈ order l ↔ c ∈ l) {env : SmallName → Sym} {h h' : PyHeap}
  (hb : Builds true Heap.init h) (later : Builds true (runDefs env h (smallDefs order)).2 h') (ann : GVal → Bool)
include ho hb later

/-- **C86**: Accept-Patch. -/
theorem C86_accept_patch : ∃ k, (runDefs env h (smallDefs order)).1 .acceptPatch = .nt k ∧
    ReadsEntries (knownKind "Accept-Patch" (fun data => innerParse h'.grammar (pyOps ann) data k) plainProcess)
      (List1Syn.Ok (MediaSyn.Ok IsToken)) (List1Syn.text MediaSyn.text)
      (ReadWithDelims (fun l v => v = l.value MediaSyn.value) (List1Syn.notes MediaSyn.notes) (true, true)
        fun l => l.elems.flatMap MediaSyn.quotes) := by
  obtain ⟨k, hk, hr⟩ := C78_accept_patch ho hb later ann
  refine ⟨k, hk, readsEntries_delims (by decide) (readsAs_of hr) ?_ ?_⟩
  · rintro x _ _ rfl; exact isReal_list _
  · rintro e x _ hx rfl
    exact shows_list1 (fun _ h => media_shows (fun _ h => h) h (.inl rfl)) hx

/-- **C86**: Accept-Post. -/
theorem C86_accept_post : ∃ k, (runDefs env h (smallDefs order)).1 .acceptPost = .nt k ∧
    ReadsEntries (knownKind "Accept-Post" (fun data => innerParse h'.grammar (pyOps ann) data k) plainProcess)
      (ListSyn.Ok (MediaSyn.Ok IsToken)) (ListSyn.text MediaSyn.text)
      (ReadWithDelims (ListSyn.IsValue MediaSyn.IsRange) (ListSyn.notes MediaSyn.notes) (true, true)
        fun l => l.elems.flatMap MediaSyn.quotes) := by
  obtain ⟨k, hk, hr⟩ := C78_accept_post ho hb later ann
  refine ⟨k, hk, readsEntries_delims (by decide) hr ?_ ?_⟩
  · rintro x _ _ ⟨vs, rfl, _⟩; exact isReal_list _
  · rintro e x _ hx ⟨vs, rfl, hvs⟩
    refine shows_list (showsAll_pairwise hvs fun y hy v hv => ?_)
    rcases hv with rfl | ⟨_, rfl⟩
    · exact media_shows (fun _ h => h) (view_elems_ok hx y hy) (.inl rfl)
    · exact media_shows (fun _ h => h) (view_elems_ok hx y hy) (.inr rfl)

end

section
variable {order : List Nat → List Nat} (ho : ∀ l c, c ∈ order l ↔ c ∈ l) {env : CommentName → Sym} {h h' : PyHeap}
  (hb : Builds true Heap.init h) (later : Builds true (runDefs env h (commentDefs order)).2 h') (ann : GVal → Bool)
include ho hb later

/-- **C86**: Via. -/
theorem C86_via : ∃ k, (runDefs env h (commentDefs order)).1 .via = .nt k ∧
    ReadsEntries (knownKind "Via" (fun data => innerParse h'.grammar (pyOps ann) data k) plainProcess)
      (List1Syn.Ok Hop.Ok) (List1Syn.text Hop.text) (OneWay (List1Syn.Ok Hop.Ok) (List1Syn.text Hop.text)
        (ReadWithDelims (fun l v => v = l.value Hop.value) (List1Syn.notes Hop.notes) (true, false)
          fun l => l.elems.flatMap Hop.texts)) := by
  obtain ⟨k, hk, hr⟩ := C84_via ho hb later ann
  exact ⟨k, hk, readsEntries_some (by decide) hr (fun _ _ => isReal_list _)
    fun e x hx => shows_list1 (fun _ => hop_shows) hx⟩

/-- **C86**: Warning. -/
theorem C86_warning : ∃ k, (runDefs env h (commentDefs order)).1 .warning = .nt k ∧
    ReadsEntries (knownKind "Warning" (fun data => innerParse h'.grammar (pyOps ann) data k) plainProcess)
      (List1Syn.Ok WarningSyn.Ok) (List1Syn.text WarningSyn.text)
      (ReadWithDelims (fun l v => v = l.value WarningSyn.value) (List1Syn.notes WarningSyn.notes) (true, false)
        fun l => l.elems.flatMap WarningSyn.texts) := by
  obtain ⟨k, hk, hr⟩ := C84_warning ho hb later ann
  refine ⟨k, hk, readsEntries_delims (by decide) (readsAs_of hr) ?_ ?_⟩
  · rintro x _ _ rfl; exact isReal_list _
  · rintro e x _ hx rfl
    exact shows_list1 (fun _ _ => warning_shows) hx

end

/-! ## Headers with arguments -/

/-- **C86**: Cache-Control. -/
theorem C86_cache_control {order : List Nat → List Nat} (ho : ∀ l c, c ∈ order l ↔ c ∈ l) {env : CacheName → Sym} {h h' : PyHeap}
    (hb : Builds true Heap.init h) (later : Builds true (runDefs env h (cacheDefs order)).2 h') (ann ann' : GVal → Bool) :
    ∃ k seconds noCache priv, (runDefs env h (cacheDefs order)).1 .cacheControl = .nt k ∧
      (runDefs env h (cacheDefs order)).1 .deltaSeconds = .nt seconds ∧
      (runDefs env h (cacheDefs order)).1 .noCache = .nt noCache ∧ (runDefs env h (cacheDefs order)).1 .private_ = .nt priv ∧
      ReadsEntries (knownKind "Cache-Control" (fun data => innerParse h'.grammar (pyOps ann) data k)
        (cacheProcess (argRule asciiLower (cacheRules (fun data => innerParse h'.grammar (pyOps ann') data seconds)
          (fun data => innerParse h'.grammar (pyOps ann') data noCache)
          (fun data => innerParse h'.grammar (pyOps ann') data priv))) cacheForm))
        (List1Syn.Ok (Setting.Ok IsToken)) (List1Syn.text Setting.text)
        (fun e x r => EachBecomes x.elems (x.notes Setting.notes) (CacheBecomes e) e r) := by
  obtain ⟨k, hk, hr⟩ := C74_cache_control ho hb later ann
  obtain ⟨k1, hk1, hr1⟩ := C74_seconds ho hb later ann' (n := .deltaSeconds) (.inr rfl)
  obtain ⟨k2, hk2, hr2⟩ := C74_field_names ho hb later ann' (n := .noCache) (.inl rfl)
  obtain ⟨k3, hk3, hr3⟩ := C74_field_names ho hb later ann' (n := .private_) (.inr rfl)
  refine ⟨k, k1, k2, k3, hk, hk1, hk2, hk3, readsEntries_each_plain (by decide) hr (fun _ => rfl) fun e x _ y _ => ?_⟩
  exact cachePair_becomes (cacheRules_meet (number_args hr1) (fieldNames_args hr2) (fieldNames_args hr3)) e y

section
variable {order : List Nat → List Nat} (ho : ∀ l c, c ∈ order l ↔ c ∈ l) {env : SmallName → Sym} {h h' : PyHeap}
  (hb : Builds true Heap.init h) (later : Builds true (runDefs env h (smallDefs order)).2 h') (ann ann' : GVal → Bool)
include ho hb later

/-- **C86**: Strict-Transport-Security. -/
theorem C86_strict_transport_security :
    ∃ k maxAge, (runDefs env h (smallDefs order)).1 .hsts = .nt k ∧ (runDefs env h (smallDefs order)).1 .maxAge = .nt maxAge ∧
      ReadsEntries (knownKind "Strict-Transport-Security" (fun data => innerParse h'.grammar (pyOps ann) data k)
        (argumentsProcess (argRule asciiLower (hstsRules fun data => innerParse h'.grammar (pyOps ann') data maxAge))))
        HstsSyn.Ok HstsSyn.text
        (fun e x r => EachBecomesWith (false, true) DirSyn.texts x.dirs x.notes (DirBecomes e) e r) := by
  obtain ⟨k, hk, hr⟩ := C78_strict_transport_security ho hb later ann
  obtain ⟨k1, hk1, hr1⟩ := C78_max_age ho hb later ann'
  refine ⟨k, k1, hk, hk1, readsEntries_each (by decide) hr (fun _ => rfl) (fun e x _ y _ => ?_) fun e x hx y hy r h => ?_⟩
  · exact dir_becomes (hstsRules_meet (number_args hr1)) e y
  · exact dir_shows (dirs_ok hx y hy) h

/-- **C86**: Prefer and Preference-Applied. -/
theorem C86_prefer :
    ∃ k applied handling return_ wait, (runDefs env h (smallDefs order)).1 .prefer = .nt k ∧
      (runDefs env h (smallDefs order)).1 .preferenceApplied = .nt applied ∧
      (runDefs env h (smallDefs order)).1 .handling = .nt handling ∧
      (runDefs env h (smallDefs order)).1 .return_ = .nt return_ ∧ (runDefs env h (smallDefs order)).1 .wait = .nt wait ∧
      ∀ know : Str → ArgRule, know = argRule asciiLower (preferRules (fun data => innerParse h'.grammar (pyOps ann') data handling)
        (fun data => innerParse h'.grammar (pyOps ann') data return_)
        (fun data => innerParse h'.grammar (pyOps ann') data wait)) →
      ReadsEntries (knownKind "Prefer" (fun data => innerParse h'.grammar (pyOps ann) data k) (preferProcess know))
        (List1Syn.Ok PrefSyn.Ok) (List1Syn.text PrefSyn.text)
        (fun e x r => EachBecomesWith (true, true) PrefSyn.texts x.elems (x.notes PrefSyn.notes) (PrefBecomes e) e r) ∧
      ReadsEntries (knownKind "Preference-Applied" (fun data => innerParse h'.grammar (pyOps ann) data applied)
        (argumentsProcess know)) (List1Syn.Ok (Setting.Ok IsToken)) (List1Syn.text Setting.text)
        (fun e x r => EachBecomesWith (true, false) Setting.texts x.elems (x.notes Setting.notes) (AppliedBecomes e) e r) := by
  obtain ⟨k, hk, hr⟩ := C78_prefer ho hb later ann
  obtain ⟨k0, hk0, hr0⟩ := C78_preference_applied ho hb later ann
  obtain ⟨k1, hk1, hr1⟩ := C78_handling ho hb later ann'
  obtain ⟨k2, hk2, hr2⟩ := C78_return ho hb later ann'
  obtain ⟨k3, hk3, hr3⟩ := C78_wait ho hb later ann'
  refine ⟨k, k0, k1, k2, k3, hk, hk0, hk1, hk2, hk3, ?_⟩
  rintro _ rfl
  have meets := preferRules_meet (choice_args hr1) (choice_args hr2) (number_args hr3)
  constructor
  · refine readsEntries_each (by decide) hr (fun _ => rfl) (fun e x _ y _ => ?_) fun e x hx y hy r h => ?_
    · exact pref_becomes meets e y
    · exact pref_shows (elems1_ok hx y hy) h
  · refine readsEntries_each (by decide) hr0 (fun _ => rfl) (fun e x _ y _ => ?_) fun e x hx y hy r h => ?_
    · exact applied_becomes meets e y
    · exact applied_shows (elems1_ok hx y hy) h

end

/-- **C86**: Alt-Svc. `P` is the parser of `_check_alt_authority` (C83). -/
theorem C86_alt_svc {order : List Nat → List Nat} (ho : ∀ l c, c ∈ order l ↔ c ∈ l) {P : AltParser} {env : AltName → Sym}
    {h h' : PyHeap} (hb : Builds true Heap.init h) (later : Builds true (runDefs env h (altDefs order P)).2 h')
    (ann ann' : GVal → Bool) (hP : ReadsVerbatim P IsAltAuthority) :
    ∃ k ma persist, (runDefs env h (altDefs order P)).1 .altSvc = .nt k ∧ (runDefs env h (altDefs order P)).1 .ma = .nt ma ∧
      (runDefs env h (altDefs order P)).1 .persist = .nt persist ∧
      ReadsEntries (knownKind "Alt-Svc" (fun data => innerParse h'.grammar (pyOps ann) data k)
        (altProcess (argRule id (altRules (fun data => innerParse h'.grammar (pyOps ann') data ma)
          fun data => innerParse h'.grammar (pyOps ann') data persist))))
        AltSvcSyn.Ok AltSvcSyn.text (AltSvcBecomes (AltSvcSyn.notes P)) := by
  obtain ⟨k, hk, hr⟩ := C83_alt_svc ho hb later ann hP
  obtain ⟨k1, hk1, hr1⟩ := C83_ma ho hb later ann'
  obtain ⟨k2, hk2, hr2⟩ := C83_persist ho hb later ann'
  exact ⟨k, k1, k2, hk, hk1, hk2, alt_entries hr rfl (altRules_meet (number_args hr1) (one_args hr2))⟩

/-- **C86**: Forwarded. -/
theorem C86_forwarded {order : List Nat → List Nat} (ho : ∀ l c, c ∈ order l ↔ c ∈ l) {env : FetchName → Sym} {h h' : PyHeap}
    (hb : Builds true Heap.init h) (later : Builds true (runDefs env h (fetchDefs order)).2 h') (ann ann' : GVal → Bool) :
    ∃ k node host scheme, (runDefs env h (fetchDefs order)).1 .forwarded = .nt k ∧
      (runDefs env h (fetchDefs order)).1 .node = .nt node ∧
      (runDefs env h (fetchDefs order)).1 (.uri .hostHeader) = .nt host ∧
      (runDefs env h (fetchDefs order)).1 (.uri .scheme) = .nt scheme ∧
      ReadsEntries (knownKind "Forwarded" (fun data => innerParse h'.grammar (pyOps ann) data k)
        (forwardedProcess (argRule asciiLower (forwardedRules (fun data => innerParse h'.grammar (pyOps ann') data node)
          (fun data => innerParse h'.grammar (pyOps ann') data host)
          (fun data => innerParse h'.grammar (pyOps ann') data scheme)))))
        (List1Syn.Ok HopSyn.Ok) (List1Syn.text HopSyn.text)
        (fun e x r => ∃ y : List1Syn HopSyn, y.Ok HopSyn.Ok ∧ y.text HopSyn.text = x.text HopSyn.text ∧ y.hops = x.hops ∧
          ForwardedBecomes e y.elems (y.notes HopSyn.notes) r) := by
  obtain ⟨k, hk, hr⟩ := C80_forwarded ho hb later ann
  obtain ⟨k1, hk1, hr1⟩ := C80_node ho hb later ann'
  obtain ⟨k2, hk2, hr2⟩ : ∃ k, (runDefs env h (fetchDefs order)).1 (.uri .hostHeader) = .nt k ∧
      ReadsVerbatim (fun data => innerParse h'.grammar (pyOps ann') data k) IsHostHeader :=
    module_reads hb (fetches_solve ho) (known_shapes fetch_shapes (by decide +kernel)) rfl (fun _ _ _ _ e => e) later ann'
  obtain ⟨k3, hk3, hr3⟩ : ∃ k, (runDefs env h (fetchDefs order)).1 (.uri .scheme) = .nt k ∧
      ReadsVerbatim (fun data => innerParse h'.grammar (pyOps ann') data k) IsScheme :=
    module_reads hb (fetches_solve ho) (known_shapes fetch_shapes (by decide +kernel)) rfl (fun _ _ _ _ e => e) later ann'
  exact ⟨k, k1, k2, k3, hk, hk1, hk2, hk3, forwarded_entries hr
    (forwardedRules_meet (nodes_args hr1) (text_args hr2) (text_args hr3))⟩

/-! ## Examples -/

/-- What is needed for Strict-Transport-Security and for `max-age`. -/
def onlyHstsArgs : List (SmallName × Defn SmallName) := (smallDefs id).filter fun x =>
  x.1 ∈ [.sem (.hop (.str .token)), .sem (.hop (.str .pair)), .sem (.hop (.str .quoted)), .sem (.hop (.str .ows)),
    .directiveName, .directiveValue, .directive, .hsts, .maxAge]

example : halvesNumber ((loadDefs onlyHstsArgs).1 .hsts) = some 54 ∧ halvesNumber ((loadDefs onlyHstsArgs).1 .maxAge) = some 64 :=
  ⟨by decide +kernel, by decide +kernel⟩

/-- The value and what is reported. -/
def shownEntry : Parsed GVal × List Note → Option Str × List Nat
  | (.list l, ns) => (some (render (.list l)), ns.map Note.id)
  | (.single v, ns) => (some (render v), ns.map Note.id)
  | (.unavailable _, ns) => (none, ns.map Note.id)

/-- Strict-Transport-Security with this grammar. -/
def hstsKind : HeaderKind GVal :=
  knownKind "Strict-Transport-Security" (fun data => innerParse (loadDefs onlyHstsArgs).2.grammar (pyOps fun _ => false) data 54)
    (argumentsProcess (argRule asciiLower (hstsRules fun data =>
      innerParse (loadDefs onlyHstsArgs).2.grammar (pyOps fun _ => false) data 64)))

/-- Without a number, with an argument that should not be there, and with a semicolon in quotes. -/
example : shownEntry (hstsKind.parse ⟨str "strict-transport-security", str "Max-Age=x;includesubdomains=1;foo=\"a;,\""⟩) =
    (some (render (.list [.obj (str "Parametrized") [nameValue (str "HSTSDirective") (str "Max-Age"), unavailableObj (str "x")],
      .obj (str "Parametrized") [nameValue (str "HSTSDirective") (str "includesubdomains"), unavailableObj (str "1")],
      .obj (str "Parametrized") [nameValue (str "HSTSDirective") (str "foo"), .text (str "a;,")]])), [1158, 1157, 1300]) := by
  decide +kernel

/-- A number, and none. -/
example : shownEntry (hstsKind.parse ⟨str "strict-transport-security", str "max-age=10;max-age"⟩) =
    (some (render (.list [.obj (str "Parametrized") [nameValue (str "HSTSDirective") (str "max-age"), .int 10],
      .obj (str "Parametrized") [nameValue (str "HSTSDirective") (str "max-age"), unavailableObj []]])), [1156]) := by
  decide +kernel

/-- Not a list of directives. -/
example : shownEntry (hstsKind.parse ⟨str "strict-transport-security", str "max-age=,"⟩) = (none, [1000]) := by decide +kernel

/-- In the specification. -/
example (e : Entry) : Settled (str "HSTSDirective") (hstsArg (str "Max-Age")) e (str "Max-Age") (some (str "x"))
    (.obj (str "Parametrized") [nameValue (str "HSTSDirective") (str "Max-Age"), unavailableObj (str "x")], [on e 1158]) := by
  have : hstsArg (str "Max-Age") = .reads true NumberArg := by simp (decide := true) only [hstsArg, if_true]
  rw [this]
  refine ⟨_, [1158], .bad ?_, rfl⟩
  rintro v ns ⟨h, _⟩
  revert h
  decide

/-- `text/plain;charset="a;b"` -/
def someMedia : MediaSyn := ⟨str "text", str "plain", [(([], []), ⟨str "charset", .quoted [.plain 97, .plain 59, .plain 98]⟩)]⟩

example (e : Entry) : someMedia.text = str "text/plain;charset=\"a;b\"" ∧ delimsIn (false, true) e someMedia.quotes = [on e 1300] :=
  ⟨by decide +kernel, by simp [delimsIn, someMedia, MediaSyn.quotes, SemiSyn.elems, Word.quotes, Quoted.content, QChar.char]⟩

/-- `no-cache=foo` and `max-age="10"`; both are understood. -/
example : formNotesOf (str "No-Cache") (some (.token (str "foo"))) = [⟨1154, []⟩] ∧
    formNotesOf (str "max-age") (some (.quoted [.plain 49, .plain 48])) = [⟨1155, []⟩] ∧
    formNotesOf (str "max-age") (some (.token (str "10"))) = [] ∧ formNotesOf (str "foo") (some (.token (str "10"))) = [] :=
  ⟨by decide, by decide, by decide, by decide⟩

/-- `for=_a;For=_b` -/
example : RepeatsName ([(⟨str "for", .token (str "_a")⟩ : Attr), ⟨str "For", .token (str "_b")⟩].map Attr.name) (str "FOR") := by
  unfold RepeatsName
  decide

/-- `for=_a, by=_b` -/
example (e : Entry) : semicolonNotes e [⟨some ⟨str "for", .token (str "_a")⟩, []⟩, ⟨some ⟨str "by", .token (str "_b")⟩, []⟩] =
    [on e 1297] := by
  unfold semicolonNotes
  refine if_pos ⟨by decide, ?_, ?_⟩
  · intro x hx
    simp only [List.mem_cons, List.not_mem_nil, or_false] at hx
    rcases hx with rfl | rfl <;> rfl
  · refine .cons ?_ (.cons nofun .nil)
    intro a ha
    cases List.mem_singleton.mp ha
    decide

/-- Other theorems about what is written have conditions of the same kind; here is a parser for the first. -/
example : ReadsAs (fun s => if s = str "1" then .ok (.val (.int 1), [], []) else .error (.parse ⟨0, none, [], false⟩)) (fun s => s = str "1")
    (fun s => s) (fun _ v => v = .int 1) (fun _ => []) := by
  refine ⟨fun data => ?_, ?_⟩
  · by_cases h : data = str "1"
    · simp [h]
    · simp [h]
  · rintro _ rfl
    exact ⟨_, _, _, if_pos rfl, rfl, .refl _⟩

end Httpolice.Props
