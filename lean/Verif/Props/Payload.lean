import Verif.Lemmas.Foreign
import Verif.Lemmas.Payload
import Verif.Props.FieldNotices
import Verif.Props.HeaderRepeats

/-!
# Payloads and targets (C91)
-/

namespace Httpolice.Props

open Httpolice.Model Httpolice.Spec Httpolice.Lemmas Httpolice.Lemmas.Check

section

variable {W : World} (hW : Ready W) {base : Env} (hl : LowersAscii base.lower)

/-! ## Targets -/

section
include hW

omit hW in
theorem forms_method (f : List TargetForm) : ∃ m, formsE f = targetE m := by
  unfold formsE
  split
  · exact ⟨str "CONNECT", rfl⟩
  · exact ⟨str "OPTIONS", rfl⟩
  · exact ⟨str "GET", rfl⟩

omit hW in
theorem forms_of (m : Str) : formsE (targetForms m) = targetE m := by
  unfold targetForms targetE
  split
  · rfl
  · split <;> rfl

theorem target_reads {f : List TargetForm} {m : Str} (hm : formsE f = targetE m) (s : Str) :
    (∀ x : TargetSyn, x.Ok m → s = x.text → W.target f s = some (x.form, [])) ∧
    ((¬ ∃ x : TargetSyn, x.Ok m ∧ s = x.text) → W.target f s = none) := by
  obtain ⟨k, hk, h1, h2⟩ := C77_target_later (env := W.uri.env) hW.uri.1 m hW.uri.2 .refl W.annotate
  have hk : (((formsE f).expr W.uriSym).build W.final).1 = .nt k := by rw [hm]; exact hk
  have hp : ((formsE f).expr W.uriSym).build W.final = ((targetE m).expr W.uriSym).build W.final := by rw [hm]
  constructor
  · rintro x hx rfl
    obtain ⟨cs, as, h3, h4⟩ := h2 x hx
    rw [List.perm_nil] at h4
    subst h4
    unfold World.target
    dsimp only
    rw [hk, hp]
    unfold symParser
    dsimp only
    rw [show innerParse (((targetE m).expr W.uriSym).build W.final).2.grammar _ _ _ = _ from h3]
    cases x <;> rfl
  · intro hn
    obtain ⟨_, he⟩ := h1 s
    obtain ⟨e, he⟩ := he.mpr hn
    unfold World.target
    dsimp only
    rw [hk, hp]
    unfold symParser
    dsimp only
    rw [show innerParse (((targetE m).expr W.uriSym).build W.final).2.grammar _ _ _ = _ from he]

omit hW in
theorem target_all : (W.all base).parseTarget = W.target := by
  unfold World.all World.env World.around
  dsimp only

/-- **C91**: the form that `Request.target_form` finds is the form that the target is written in, if the method allows it. -/
theorem C91_target (req : Request) (f : TargetForm) :
    req.targetForm (W.all base) = some f ↔ ∃ x : TargetSyn, x.Ok req.method ∧ req.target = x.text ∧ x.form = f := by
  obtain ⟨h1, h2⟩ := target_reads hW (forms_of req.method) req.target
  unfold Request.targetForm
  rw [target_all]
  constructor
  · intro h
    by_cases hx : ∃ x : TargetSyn, x.Ok req.method ∧ req.target = x.text
    · obtain ⟨x, hx, ht⟩ := hx
      rw [h1 x hx ht] at h
      exact ⟨x, hx, ht, Option.some.inj h⟩
    · rw [h2 hx] at h
      cases h
  · rintro ⟨x, hx, ht, rfl⟩
    rw [h1 x hx ht]
    rfl

theorem target_quiet (f : List TargetForm) (s : Str) (r : TargetForm × List Note) (h : (W.all base).parseTarget f s = some r) : r.2 = [] := by
  rw [target_all] at h
  obtain ⟨m, hm⟩ := forms_method f
  obtain ⟨h1, h2⟩ := target_reads hW hm s
  by_cases hx : ∃ x : TargetSyn, x.Ok m ∧ s = x.text
  · obtain ⟨x, hx, ht⟩ := hx
    rw [h1 x hx ht] at h
    cases h
    rfl
  · rw [h2 hx] at h
    cases h

end

/-! ## What is around the payloads -/

theorem around_lower : (W.around base).lower = base.lower := by
  unfold World.around
  dsimp only

theorem all_lower : (W.all base).lower = base.lower := by
  unfold World.all
  rw [env_lower, around_lower]

include hl in
theorem around_ascii : LowersAscii (W.around base).lower := by
  rw [around_lower]
  exact hl

include hl in
theorem all_ascii : LowersAscii (W.all base).lower := by
  rw [all_lower]
  exact hl

theorem all_blind : CaseBlind (W.all base) := env_blind _ _

include hW hl in
theorem all_media : OneIs (W.all base).grammars.contentType (MediaSyn.Ok IsToken) MediaSyn.text
    (fun x => some (x.name, x.params.elems.map fun p => (p.name, p.value.content))) := by
  have h := lit_contentType hW hl (fun e => someOf linkRelOf (W.read "Link" e))
  unfold World.all World.env World.around
  dsimp only
  exact h

include hW in
theorem all_codings : ListIs W.codings (List1Syn.Ok IsToken) (List1Syn.text fun w => w) List1Syn.elems (Being fun w => w) :=
  list_read (s := W.semSym .contentEncoding) (C75_content_encoding hW.order hW.sem.1 hW.sem.2 _) rfl fun _ _ _ _ => rfl

include hW in
theorem all_link : ∀ e v, (W.all base).grammars.link e ≠ .single v := by
  intro e v h
  have hn := never_single_rows hW "Link" (by decide) e
  unfold World.all World.env World.around World.grammars at h
  dsimp only at h
  unfold World.read at h
  generalize ((W.byKey "Link").parse e).1 = p at h hn
  cases p with
  | single v => exact hn ⟨v, rfl⟩
  | list l => cases h
  | unavailable => cases h

include hW in
theorem around_link : ∀ e v, (W.around base).grammars.link e ≠ .single v := by
  intro e v h
  refine all_link hW (base := base) e v ?_
  unfold World.all World.env World.grammars
  dsimp only
  exact h

include hW hl in
/-- **C91**: all that is assumed by the theorems about notices is the case. -/
theorem C91_sensible : Sensible (W.all base) := C89_sensible hW (base := W.around base) (around_ascii hl) (around_link hW)

theorem on_loaded (L : Libs) (E : Env) (c : Entry → Parsed Str) (given : Target → Assigned) (ex : Exchange) (t : Target)
    (P : PayloadInfo → Prop) : (OnMessage (loadPayloads L E c given ex) t fun msg => P msg.payload) ↔
      match t with
      | .req => OnRequest ex fun req => P (loaded E c L (given .req) req.toMessage true)
      | .resp i => OnResponse ex i fun r => P (loaded E c L (given (.resp i)) r.toMessage (contentIsFull E ex.request r))
      | .exch => False := by
  cases t with
  | exch => exact .rfl
  | req =>
    show (∃ _, _) ↔ ∃ _, _
    unfold loadPayloads
    simp only [Option.map_eq_some_iff]
    constructor
    · rintro ⟨_, ⟨req, hr, rfl⟩, hp⟩
      exact ⟨req, hr, hp⟩
    · rintro ⟨req, hr, hp⟩
      exact ⟨_, ⟨req, hr, rfl⟩, hp⟩
  | resp i =>
    show (∃ _, _) ↔ ∃ _, _
    unfold loadPayloads
    simp only [List.getElem?_mapIdx, Option.map_eq_some_iff]
    constructor
    · rintro ⟨_, ⟨r, hr, rfl⟩, hp⟩
      exact ⟨r, hr, hp⟩
    · rintro ⟨r, hr, hp⟩
      exact ⟨_, ⟨r, hr, rfl⟩, hp⟩

variable {L : Libs} {given : Target → Assigned} {ex : Exchange}

theorem loaded_any {P : PayloadInfo → Prop} {Q : Assigned → Message → Prop} {t : Target}
    (h : ∀ msg full, P (loaded (W.all base) W.codings L (given t) msg full) ↔ Q (given t) msg) :
    (OnMessage (loadPayloads L (W.all base) W.codings given ex) t fun msg => P msg.payload) ↔ OnMessage ex t fun msg => Q (given t) msg := by
  rw [on_loaded]
  cases t with
  | exch => exact .rfl
  | req => exact exists_congr fun req => and_congr_right fun _ => h _ _
  | resp i => exact exists_congr fun req => and_congr_right fun _ => h _ _

include hW hl in
theorem loaded_entire {P : PayloadInfo → Prop} {Q : Assigned → Message → Prop} {t : Target}
    (h : ∀ msg full, P (loaded (W.all base) W.codings L (given t) msg full) ↔ full = true ∧ Q (given t) msg) :
    (OnMessage (loadPayloads L (W.all base) W.codings given ex) t fun msg => P msg.payload) ↔
      OnEntire base.lower ex t fun msg => Q (given t) msg := by
  rw [on_loaded]
  cases t with
  | exch => exact .rfl
  | req => exact exists_congr fun req => and_congr_right fun _ => (h _ _).trans (and_iff_right rfl)
  | resp i =>
    refine exists_congr fun req => and_congr_right fun _ => (h _ _).trans (and_congr_left fun _ => ?_)
    rw [complete_iff (all_ascii (W := W) hl) (all_media hW hl), all_lower]

include hW hl

omit hW in
theorem notes_ids (a : Assigned) (msg : Message) (full : Bool) :
    ∀ n ∈ (loaded (W.all base) W.codings L a msg full).notes, n.1 ∈ payloadIds := by
  intro n hn
  rcases (notes_split L a msg full n.1).mp ⟨n, hn, rfl⟩ with ⟨k, hk, h⟩ | ⟨k, hk, h⟩ | ⟨k, hk, h⟩ | ⟨x, _, h⟩ | ⟨b, _, h⟩
  · rw [← h]
    rcases coding_ids L a msg (all_ascii hl) k hk with h | h <;> rw [h] <;> decide
  · rw [← h]
    rcases json_ids L _ _ _ _ k hk with h | h <;> rw [h] <;> decide
  · rw [← h]
    rcases xml_ids L _ _ _ k hk with h | h <;> rw [h] <;> decide
  · rcases (defect_notes x n.1).mp h with ⟨h, _⟩ | ⟨h, _⟩ <;> rw [h] <;> decide
  · rw [((form_notes b n.1).mp h).1]
    decide

/-- **C91**: parsing the target and the payloads reports nothing but what is said here, so all theorems about other notices apply. -/
theorem C91_elsewhere {N : Nat} (hN : N ∉ payloadIds) :
    NotElsewhere (W.all base) (loadPayloads L (W.all base) W.codings given ex) N where
  target := by
    intro f s r hr n hn
    rw [target_quiet hW f s r hr] at hn
    cases hn
  request := by
    intro req hreq n hn hid
    unfold loadPayloads at hreq
    obtain ⟨q, _, rfl⟩ := Option.map_eq_some_iff.mp hreq
    exact hN (hid ▸ notes_ids hl (given .req) q.toMessage true n hn)
  responses := by
    intro r hr n hn hid
    unfold loadPayloads at hr
    obtain ⟨i, hi, rfl⟩ := List.mem_mapIdx.mp hr
    exact hN (hid ▸ notes_ids hl (given (.resp i)) (ex.responses[i]).toMessage _ n hn)

/-- **C91**: what the checks report is reported by nothing else. -/
theorem C91_own {N : Nat} (hN : N ∈ ownIds) : Apart (W.all base) (loadPayloads L (W.all base) W.codings given ex) N := by
  have hx : ∀ n ∈ ownIds, n ∉ payloadIds := by decide +kernel
  exact C90_own hW (base := W.around base) (around_ascii hl) (C91_elsewhere hW hl (hx N hN)) hN

variable (hok : exchangeRaises (W.all base) (loadPayloads L (W.all base) W.codings given ex) = false)
include hok

theorem at_payload {N : Nat} (hN : N ∈ payloadIds) (t : Target) :
    ReportedId (W.all base) (loadPayloads L (W.all base) W.codings given ex) t N ↔
      OnMessage (loadPayloads L (W.all base) W.codings given ex) t fun msg => ∃ n ∈ msg.payload.notes, n.1 = N := by
  have hx : ∀ n ∈ payloadIds, n ∉ ownIds ∧ n ≠ 1000 ∧ n ≠ 1013 ∧ n ≠ 1026 ∧ ∀ l ∈ forms.map FormRow.ids, n ∉ l := by decide +kernel
  obtain ⟨h1, h2, h3, h4, h5⟩ := hx N hN
  rw [at_foreign hok (fun f s r hr n hn => by
    rw [target_quiet hW f s r hr] at hn
    cases hn) (all_ascii hl) all_blind h1 t]
  have hv : ∀ m : Msg, ¬ ∃ e ∈ m.headers ++ m.trailers, ViewSays (W.all base) m e.name N := by
    intro m hm
    rw [says_of_entry (all_ascii hl) all_blind h3 h4] at hm
    obtain ⟨e, _, _, n, hn, rfl⟩ := hm
    obtain ⟨r, hr, _, ⟨_, h⟩ | ⟨_, rfl⟩⟩ := C90_ids hW (base := W.around base) (around_ascii hl) e.name e n hn
    · exact h5 _ (List.mem_map.mpr ⟨r, hr, rfl⟩) h
    · exact h2 rfl
  simp only [hv, false_or]

/-! ## The notices -/

/-- 1045: a target that is not written in a form that the method allows. -/
theorem C91_notice_1045 : ReportedId (W.all base) (loadPayloads L (W.all base) W.codings given ex) .req 1045 ↔
    OnRequest ex fun req => ¬ ∃ x : TargetSyn, x.Ok req.method ∧ req.target = x.text := by
  rw [C70_notice_1045 _ (C91_sensible hW hl) _ hok (C91_own hW hl (by decide +kernel))]
  have h : ∀ req : Request, (∃ f, TargetIs (W.all base) req f) ↔ ∃ x : TargetSyn, x.Ok req.method ∧ req.target = x.text := by
    intro req
    simp only [← targetIs_iff, C91_target hW]
    constructor
    · rintro ⟨_, x, h1, h2, _⟩
      exact ⟨x, h1, h2⟩
    · rintro ⟨x, h1, h2⟩
      exact ⟨_, x, h1, h2, rfl⟩
  simp only [h]
  show (∃ _, _) ↔ ∃ _, _
  unfold loadPayloads
  simp only [Option.map_eq_some_iff]
  constructor
  · rintro ⟨_, ⟨req, hr, rfl⟩, hp⟩
    exact ⟨req, hr, hp⟩
  · rintro ⟨req, hr, hp⟩
    exact ⟨_, ⟨req, hr, rfl⟩, hp⟩

/-- 1036: a coding that there is no way to undo, once those after it have been undone. -/
theorem C91_notice_1036 (t : Target) : ReportedId (W.all base) (loadPayloads L (W.all base) W.codings given ex) t 1036 ↔
    OnMessage ex t fun msg => ∃ c r, ComesTo base.lower L (given t) msg c r ∧ ∀ f, ¬Undoes base.lower L.codecs c f := by
  rw [at_payload hW hl hok (by decide)]
  refine loaded_any (P := fun p => ∃ n ∈ p.notes, n.1 = 1036) (Q := fun a msg => ∃ c r, ComesTo base.lower L a msg c r ∧ ∀ f, ¬Undoes base.lower L.codecs c f) fun msg full => ?_
  have h := unknown_iff (all_ascii (W := W) hl) (all_codings hW) L (given t) msg
  rw [all_lower] at h
  rw [notes_split, h]
  refine or_iff_left ?_
  rintro (⟨k, hk, h⟩ | ⟨k, hk, h⟩ | ⟨x, _, h⟩ | ⟨b, _, h⟩)
  · rcases json_ids L _ _ _ _ k hk with h' | h' <;> rw [h'] at h <;> cases h
  · rcases xml_ids L _ _ _ k hk with h' | h' <;> rw [h'] at h <;> cases h
  · rcases (defect_notes x _).mp h with ⟨h, _⟩ | ⟨h, _⟩ <;> cases h
  · cases ((form_notes b _).mp h).1

/-- 1037: a coding that cannot be undone here. -/
theorem C91_notice_1037 (t : Target) : ReportedId (W.all base) (loadPayloads L (W.all base) W.codings given ex) t 1037 ↔
    OnMessage ex t fun msg => ∃ c r f, ComesTo base.lower L (given t) msg c r ∧ Undoes base.lower L.codecs c f ∧ f r = none := by
  rw [at_payload hW hl hok (by decide)]
  refine loaded_any (P := fun p => ∃ n ∈ p.notes, n.1 = 1037)
    (Q := fun a msg => ∃ c r f, ComesTo base.lower L a msg c r ∧ Undoes base.lower L.codecs c f ∧ f r = none) fun msg full => ?_
  have h := failed_iff (all_ascii (W := W) hl) (all_codings hW) L (given t) msg
  rw [all_lower] at h
  rw [notes_split, h]
  refine or_iff_left ?_
  rintro (⟨k, hk, h⟩ | ⟨k, hk, h⟩ | ⟨x, _, h⟩ | ⟨b, _, h⟩)
  · rcases json_ids L _ _ _ _ k hk with h' | h' <;> rw [h'] at h <;> cases h
  · rcases xml_ids L _ _ _ k hk with h' | h' <;> rw [h'] at h <;> cases h
  · rcases (defect_notes x _).mp h with ⟨h, _⟩ | ⟨h, _⟩ <;> cases h
  · cases ((form_notes b _).mp h).1

theorem json_notice (good : Bool) (N : Nat) (hN : N = if good then 1281 else 1038) (t : Target) :
    ReportedId (W.all base) (loadPayloads L (W.all base) W.codings given ex) t N ↔
    OnEntire base.lower ex t fun msg => ∃ e x s, TypeWritten base.lower msg.fields e x ∧ JsonType base.lower x ∧
      HasText base.lower L (given t) msg s ∧ L.isJson s = good ∧
      (good = true → ∃ c, InCharset base.lower L (given t) msg c ∧ c ≠ str "ascii" ∧ c ≠ str "utf-8") := by
  have hN' : N = 1281 ∨ N = 1038 := by cases good <;> simp [hN]
  rw [at_payload hW hl hok (by rcases hN' with rfl | rfl <;> decide)]
  refine loaded_entire hW hl (P := fun p => ∃ n ∈ p.notes, n.1 = N) (Q := fun a msg => ∃ e x s, TypeWritten base.lower msg.fields e x ∧
      JsonType base.lower x ∧ HasText base.lower L a msg s ∧ L.isJson s = good ∧
      (good = true → ∃ c, InCharset base.lower L a msg c ∧ c ≠ str "ascii" ∧ c ≠ str "utf-8")) fun msg full => ?_
  have h := json_iff (all_ascii (W := W) hl) (all_media hW hl) (all_codings hW) L (given t) msg full good N hN
  rw [all_lower] at h
  rw [notes_split, all_lower, h]
  refine (or_iff_right ?_).trans (or_iff_left ?_)
  · rintro ⟨k, hk, h⟩
    rcases coding_ids L (given t) msg (all_ascii hl) k hk with h' | h' <;> rw [h'] at h <;> subst h <;>
      rcases hN' with h | h <;> cases h
  · rintro (⟨k, hk, h⟩ | ⟨x, _, h⟩ | ⟨b, _, h⟩)
    · rcases xml_ids L _ _ _ k hk with h' | h' <;> rw [h'] at h <;> subst h <;> rcases hN' with h | h <;> cases h
    · rcases (defect_notes x _).mp h with ⟨h, _⟩ | ⟨h, _⟩ <;> subst h <;> rcases hN' with h | h <;> cases h
    · have h := ((form_notes b _).mp h).1
      subst h
      rcases hN' with h | h <;> cases h

/-- 1038: not JSON, though it says so. -/
theorem C91_notice_1038 (t : Target) : ReportedId (W.all base) (loadPayloads L (W.all base) W.codings given ex) t 1038 ↔
    OnEntire base.lower ex t fun msg => ∃ e x s, TypeWritten base.lower msg.fields e x ∧ JsonType base.lower x ∧
      HasText base.lower L (given t) msg s ∧ L.isJson s = false := by
  rw [json_notice hW hl hok false 1038 rfl t]
  simp only [reduceCtorEq, false_implies, and_true]

/-- 1281: JSON in another charset. -/
theorem C91_notice_1281 (t : Target) : ReportedId (W.all base) (loadPayloads L (W.all base) W.codings given ex) t 1281 ↔
    OnEntire base.lower ex t fun msg => ∃ e x s, TypeWritten base.lower msg.fields e x ∧ JsonType base.lower x ∧
      HasText base.lower L (given t) msg s ∧ L.isJson s = true ∧
      ∃ c, InCharset base.lower L (given t) msg c ∧ c ≠ str "ascii" ∧ c ≠ str "utf-8" := by
  rw [json_notice hW hl hok true 1281 rfl t]
  simp only [true_implies]

theorem xml_notice (out : XmlOutcome) (N : Nat) (hN : (out = .entities ∧ N = 1275) ∨ (out = .broken ∧ N = 1039)) (t : Target) :
    ReportedId (W.all base) (loadPayloads L (W.all base) W.codings given ex) t N ↔
    OnEntire base.lower ex t fun msg => ∃ e x b, TypeWritten base.lower msg.fields e x ∧ XmlType base.lower x ∧
      HasBytes base.lower L (given t) msg b ∧ L.xml b = out := by
  have hN' : N = 1275 ∨ N = 1039 := hN.imp And.right And.right
  rw [at_payload hW hl hok (by rcases hN' with rfl | rfl <;> decide)]
  refine loaded_entire hW hl (P := fun p => ∃ n ∈ p.notes, n.1 = N) (Q := fun a msg => ∃ e x b, TypeWritten base.lower msg.fields e x ∧
      XmlType base.lower x ∧ HasBytes base.lower L a msg b ∧ L.xml b = out) fun msg full => ?_
  have h := xml_iff (all_ascii (W := W) hl) (all_media hW hl) (all_codings hW) L (given t) msg full out N hN
  rw [all_lower] at h
  rw [notes_split, all_lower, h]
  refine (or_iff_right ?_).trans ((or_iff_right ?_).trans (or_iff_left ?_))
  · rintro ⟨k, hk, h⟩
    rcases coding_ids L (given t) msg (all_ascii hl) k hk with h' | h' <;> rw [h'] at h <;> subst h <;>
      rcases hN' with h | h <;> cases h
  · rintro ⟨k, hk, h⟩
    rw [← all_lower (W := W) (base := base)] at hk
    rcases json_ids L _ _ _ _ k hk with h' | h' <;> rw [h'] at h <;> subst h <;> rcases hN' with h | h <;> cases h
  · rintro (⟨x, _, h⟩ | ⟨b, _, h⟩)
    · rcases (defect_notes x _).mp h with ⟨h, _⟩ | ⟨h, _⟩ <;> subst h <;> rcases hN' with h | h <;> cases h
    · have h := ((form_notes b _).mp h).1
      subst h
      rcases hN' with h | h <;> cases h

/-- 1039: not XML, though it says so. -/
theorem C91_notice_1039 (t : Target) : ReportedId (W.all base) (loadPayloads L (W.all base) W.codings given ex) t 1039 ↔
    OnEntire base.lower ex t fun msg => ∃ e x b, TypeWritten base.lower msg.fields e x ∧ XmlType base.lower x ∧
      HasBytes base.lower L (given t) msg b ∧ L.xml b = .broken :=
  xml_notice hW hl hok .broken 1039 (.inr ⟨rfl, rfl⟩) t

/-- 1275: XML that defines entities. -/
theorem C91_notice_1275 (t : Target) : ReportedId (W.all base) (loadPayloads L (W.all base) W.codings given ex) t 1275 ↔
    OnEntire base.lower ex t fun msg => ∃ e x b, TypeWritten base.lower msg.fields e x ∧ XmlType base.lower x ∧
      HasBytes base.lower L (given t) msg b ∧ L.xml b = .entities :=
  xml_notice hW hl hok .entities 1275 (.inl ⟨rfl, rfl⟩) t

theorem parts_notice (d : Defect) (N : Nat) (hN : (d = .noBoundary ∧ N = 1139) ∨ (d = .noStart ∧ N = 1140)) (t : Target) :
    ReportedId (W.all base) (loadPayloads L (W.all base) W.codings given ex) t N ↔
    OnEntire base.lower ex t fun msg => ∃ x, HasMultipart base.lower L (given t) msg x ∧ d ∈ x.defects := by
  have hN' : N = 1139 ∨ N = 1140 := hN.imp And.right And.right
  rw [at_payload hW hl hok (by rcases hN' with rfl | rfl <;> decide)]
  refine loaded_entire hW hl (P := fun p => ∃ n ∈ p.notes, n.1 = N)
    (Q := fun a msg => ∃ x, HasMultipart base.lower L a msg x ∧ d ∈ x.defects) fun msg full => ?_
  have h := fun x => parts_iff (all_ascii (W := W) hl) (all_media hW hl) (all_codings hW) L (given t) msg full x
  rw [notes_split]
  have hd : ∀ x : EmailMessage, (∃ n ∈ x.defects.flatMap defectNotes, n.1 = N) ↔ d ∈ x.defects := by
    intro x
    rw [defect_notes]
    rcases hN with ⟨rfl, rfl⟩ | ⟨rfl, rfl⟩ <;> simp
  simp only [h, hd, all_lower]
  refine (or_iff_right ?_).trans ((or_iff_right ?_).trans ((or_iff_right ?_).trans ((or_iff_left ?_).trans ?_)))
  · rintro ⟨k, hk, h⟩
    rcases coding_ids L (given t) msg (all_ascii hl) k hk with h' | h' <;> rw [h'] at h <;> subst h <;>
      rcases hN' with h | h <;> cases h
  · rintro ⟨k, hk, h⟩
    rw [← all_lower (W := W) (base := base)] at hk
    rcases json_ids L _ _ _ _ k hk with h' | h' <;> rw [h'] at h <;> subst h <;> rcases hN' with h | h <;> cases h
  · rintro ⟨k, hk, h⟩
    rw [← all_lower (W := W) (base := base)] at hk
    rcases xml_ids L _ _ _ k hk with h' | h' <;> rw [h'] at h <;> subst h <;> rcases hN' with h | h <;> cases h
  · rintro ⟨b, _, h⟩
    have h := ((form_notes b _).mp h).1
    subst h
    rcases hN' with h | h <;> cases h
  · constructor
    · rintro ⟨x, ⟨h1, h2⟩, h3⟩
      exact ⟨h1, x, h2, h3⟩
    · rintro ⟨h1, x, h2, h3⟩
      exact ⟨x, ⟨h1, h2⟩, h3⟩

/-- 1139: a multipart type without a boundary. -/
theorem C91_notice_1139 (t : Target) : ReportedId (W.all base) (loadPayloads L (W.all base) W.codings given ex) t 1139 ↔
    OnEntire base.lower ex t fun msg => ∃ x, HasMultipart base.lower L (given t) msg x ∧ .noBoundary ∈ x.defects :=
  parts_notice hW hl hok .noBoundary 1139 (.inl ⟨rfl, rfl⟩) t

/-- 1140: the boundary is not in the body. -/
theorem C91_notice_1140 (t : Target) : ReportedId (W.all base) (loadPayloads L (W.all base) W.codings given ex) t 1140 ↔
    OnEntire base.lower ex t fun msg => ∃ x, HasMultipart base.lower L (given t) msg x ∧ .noStart ∈ x.defects :=
  parts_notice hW hl hok .noStart 1140 (.inr ⟨rfl, rfl⟩) t

/-- 1040: characters that cannot be in a form. -/
theorem C91_notice_1040 (t : Target) : ReportedId (W.all base) (loadPayloads L (W.all base) W.codings given ex) t 1040 ↔
    OnEntire base.lower ex t fun msg => ∃ b, HasForm base.lower L (given t) msg b ∧ ∃ c ∈ b, ¬FormChar c := by
  rw [at_payload hW hl hok (by decide)]
  refine loaded_entire hW hl (P := fun p => ∃ n ∈ p.notes, n.1 = 1040)
    (Q := fun a msg => ∃ b, HasForm base.lower L a msg b ∧ ∃ c ∈ b, ¬FormChar c) fun msg full => ?_
  have h := fun x => form_iff (all_ascii (W := W) hl) (all_media hW hl) (all_codings hW) L (given t) msg full x
  rw [notes_split]
  simp only [h, form_notes, true_and, all_lower]
  refine (or_iff_right ?_).trans ((or_iff_right ?_).trans ((or_iff_right ?_).trans ((or_iff_right ?_).trans ?_)))
  · rintro ⟨k, hk, h⟩
    rcases coding_ids L (given t) msg (all_ascii hl) k hk with h' | h' <;> rw [h'] at h <;> cases h
  · rintro ⟨k, hk, h⟩
    rw [← all_lower (W := W) (base := base)] at hk
    rcases json_ids L _ _ _ _ k hk with h' | h' <;> rw [h'] at h <;> cases h
  · rintro ⟨k, hk, h⟩
    rw [← all_lower (W := W) (base := base)] at hk
    rcases xml_ids L _ _ _ k hk with h' | h' <;> rw [h'] at h <;> cases h
  · rintro ⟨x, _, h⟩
    rcases (defect_notes x _).mp h with ⟨h, _⟩ | ⟨h, _⟩ <;> cases h
  · constructor
    · rintro ⟨x, ⟨h1, h2⟩, h3⟩
      exact ⟨h1, x, h2, h3⟩
    · rintro ⟨h1, x, h2, h3⟩
      exact ⟨x, ⟨h1, h2⟩, h3⟩

/-! ## What is read from payloads -/

omit hok in
/-- **C91**: the fields of a form are known if the form is written as it should be, and then they are what the library says. -/
theorem C91_form (t : Target) (ks : List Str) :
    (OnMessage (loadPayloads L (W.all base) W.codings given ex) t fun msg => msg.payload.formKeys = some ks) ↔
    OnEntire base.lower ex t fun msg => ∃ b, HasForm base.lower L (given t) msg b ∧ (∀ c ∈ b, FormChar c) ∧ ks = L.formKeys b := by
  refine loaded_entire hW hl (P := fun p => p.formKeys = some ks)
    (Q := fun a msg => ∃ b, HasForm base.lower L a msg b ∧ (∀ c ∈ b, FormChar c) ∧ ks = L.formKeys b) fun msg full => ?_
  have h := fun x => form_iff (all_ascii (W := W) hl) (all_media hW hl) (all_codings hW) L (given t) msg full x
  simp only [all_lower] at h
  show (formOf (W.all base) W.codings L (given t) msg full).bind _ = some ks ↔ _
  rw [Option.bind_eq_some_iff]
  simp only [h]
  have hall : ∀ b : Str, b.all urlEncodedGood = true ↔ ∀ c ∈ b, FormChar c := fun b => by simp only [List.all_eq_true, form_char]
  constructor
  · rintro ⟨b, ⟨h1, h2⟩, h3⟩
    split at h3
    · next hg => exact ⟨h1, b, h2, (hall b).mp hg, (Option.some.inj h3).symm⟩
    · cases h3
  · rintro ⟨h1, b, h2, hg, rfl⟩
    exact ⟨b, ⟨h1, h2⟩, if_pos ((hall b).mpr hg)⟩

omit hok in
/-- **C91**: the parts of a multipart body are those that the library finds. -/
theorem C91_parts (t : Target) (ps : List (Bool × Bool)) :
    (OnMessage (loadPayloads L (W.all base) W.codings given ex) t fun msg => msg.payload.parts = some ps) ↔
    OnEntire base.lower ex t fun msg => ∃ x, HasMultipart base.lower L (given t) msg x ∧ x.parts = some ps := by
  refine loaded_entire hW hl (P := fun p => p.parts = some ps)
    (Q := fun a msg => ∃ x, HasMultipart base.lower L a msg x ∧ x.parts = some ps) fun msg full => ?_
  have h := fun x => parts_iff (all_ascii (W := W) hl) (all_media hW hl) (all_codings hW) L (given t) msg full x
  simp only [all_lower] at h
  show (emailOf (W.all base) W.codings L (given t) msg full).bind _ = some ps ↔ _
  rw [Option.bind_eq_some_iff]
  simp only [h]
  constructor
  · rintro ⟨b, ⟨h1, h2⟩, h3⟩
    exact ⟨h1, b, h2, h3⟩
  · rintro ⟨h1, b, h2, h3⟩
    exact ⟨b, ⟨h1, h2⟩, h3⟩

omit hok in
/-- **C91**: an exception is raised for the same exchanges whatever the payloads. -/
theorem C91_raises : exchangeRaises (W.all base) (loadPayloads L (W.all base) W.codings given ex) = true ↔
    ∃ r ∈ ex.responses, TooOld (W.all base) r ∨ BadLink (W.all base) r := by
  rw [C58_raises _ (all_ascii hl) (all_link hW)]
  unfold loadPayloads
  constructor
  · rintro ⟨r, hr, h⟩
    obtain ⟨i, hi, rfl⟩ := List.mem_mapIdx.mp hr
    exact ⟨_, List.getElem_mem hi, h⟩
  · rintro ⟨r, hr, h⟩
    obtain ⟨i, hi, rfl⟩ := List.mem_iff_getElem.mp hr
    exact ⟨_, List.mem_mapIdx.mpr ⟨i, hi, rfl⟩, h⟩

end

/-! ## Examples -/

section

open Httpolice.Spec.Toy

/-- Libraries. -/
def tools : Libs where
  codecs := ⟨fun b => if b = str "zip" then some (str "{") else none, fun _ => none, fun _ => none⟩
  charsetName := fun w => some (asciiLower w)
  decode := fun _ b => some b
  isJson := fun s => s == str "{}"
  xml := fun _ => .broken
  email := fun _ => ⟨[.noBoundary], none⟩
  formKeys := fun _ => [str "a"]

/-- Nothing given from outside. -/
def ungiven : Target → Assigned := fun _ => {}

/-- The hypotheses can be met: an exchange with a request only. -/
theorem tools_quiet {W : World} (hW : Ready W) (q : Request) :
    exchangeRaises (W.all Toy.env) (loadPayloads tools (W.all Toy.env) W.codings ungiven ⟨some q, []⟩) = false := by
  cases h : exchangeRaises (W.all Toy.env) (loadPayloads tools (W.all Toy.env) W.codings ungiven ⟨some q, []⟩) with
  | false => rfl
  | true =>
    obtain ⟨r, hr, _⟩ := (C91_raises hW toy_lower).mp h
    cases hr

/-- `application/json; charset=UTF-16`. -/
def jsonUtf16 : MediaSyn := ⟨str "application", str "json", [(([], str " "), ⟨str "Charset", .token (str "UTF-16")⟩)]⟩

theorem jsonUtf16_ok : jsonUtf16.Ok IsToken :=
  ⟨by unfold IsToken IsTchar; decide +kernel, by unfold IsToken IsTchar; decide +kernel, by
    rintro x hx
    obtain rfl := List.mem_singleton.mp hx
    exact ⟨⟨nofun, by unfold IsOws; decide +kernel⟩, by unfold IsToken IsTchar; decide +kernel,
      show IsToken (str "UTF-16") by unfold IsToken IsTchar; decide +kernel⟩⟩

theorem json_written (h0 : List Entry) : TypeWritten Toy.env.lower ⟨h0 ++ [h "content-Type" "application/json; Charset=UTF-16"], []⟩
    (h "content-Type" "application/json; Charset=UTF-16") jsonUtf16 :=
  ⟨h0, [], rfl, by show asciiLower _ = asciiLower _; decide +kernel, nofun, jsonUtf16_ok, by decide +kernel⟩

/-- C91: compressed JSON that is broken. -/
example {W : World} (hW : Ready W) : ReportedId (W.all Toy.env) (loadPayloads tools (W.all Toy.env) W.codings ungiven
    ⟨some (req "POST" ([h "content-Encoding" "GZIP"] ++ [h "content-Type" "application/json; Charset=UTF-16"]) "zip"), []⟩) .req 1038 := by
  have hb : ∀ b, HasBytes Toy.env.lower tools (ungiven .req)
      (req "POST" ([h "content-Encoding" "GZIP"] ++ [h "content-Type" "application/json; Charset=UTF-16"]) "zip").toMessage b → ∃ s, tools.decode (str "utf-16") b = some s :=
    fun b _ => ⟨b, rfl⟩
  refine (C91_notice_1038 hW toy_lower (tools_quiet hW _) .req).mpr ⟨_, rfl, _, _, str "{", json_written _, .inl (by decide +kernel),
    .inr ⟨rfl, str "{", str "utf-16", .inr ⟨rfl, str "zip", [.ok (str "GZIP")], [], [.ok (str "GZIP")], rfl, ?_, rfl, ?_, .inl rfl⟩, ?_, rfl⟩, rfl⟩
  · refine .names (x := ⟨[], str "GZIP", []⟩) ?_ ⟨nofun, show IsToken (str "GZIP") by unfold IsToken IsTchar; decide +kernel, nofun⟩ (by decide +kernel) (.other ?_ .nil)
    · show asciiLower _ = asciiLower _; decide +kernel
    · show ¬ asciiLower _ = asciiLower _; decide +kernel
  · exact .step .nil (by decide) (.gzip (by decide +kernel)) (by decide +kernel)
  · refine ⟨str "UTF-16", .inl ⟨_, _, [], _, [], json_written _, rfl, by decide +kernel, by decide +kernel, nofun⟩, by decide +kernel, hb⟩

/-- C91: a target that OPTIONS may have and GET may not. -/
example {W : World} (hW : Ready W) :
    ReportedId (W.all Toy.env) (loadPayloads tools (W.all Toy.env) W.codings ungiven ⟨some { req "GET" [] with target := str "*" }, []⟩)
      .req 1045 ∧
    ¬ReportedId (W.all Toy.env) (loadPayloads tools (W.all Toy.env) W.codings ungiven ⟨some { req "OPTIONS" [] with target := str "*" }, []⟩)
      .req 1045 := by
  constructor
  · refine (C91_notice_1045 hW toy_lower (tools_quiet hW _)).mpr ⟨_, rfl, ?_⟩
    rintro ⟨x | x | x | _, h1, h2⟩
    · obtain rfl : str "*" = x := h2
      exact absurd (origin_begins h1.2) (by decide +kernel)
    · obtain rfl : str "*" = x := h2
      obtain ⟨c, hc, e⟩ := absolute_begins h1.2
      rw [show (str "*").head? = some 42 by decide +kernel] at e
      cases e
      revert hc
      simp [IsLetter]
    · exact absurd h1.1 (by decide +kernel)
    · exact absurd (show str "GET" = str "OPTIONS" from h1) (by decide +kernel)
  · intro h
    obtain ⟨q, hq, h⟩ := (C91_notice_1045 hW toy_lower (tools_quiet hW _)).mp h
    cases hq
    exact h ⟨.asterisk, rfl, rfl⟩

/-- C91: there is such a world. -/
example : ∃ W : World, Ready W :=
  let ⟨W, _, _, h⟩ := C89_ready (order := fun l => l) (fun _ _ => .rfl) fun _ => false
  ⟨W, h⟩

end

end Httpolice.Props
