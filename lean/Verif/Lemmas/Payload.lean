import Verif.Lemmas.Foreign
import Verif.Lemmas.RawMore
import Verif.Spec.Payload

/-!
# Payloads
-/

namespace Httpolice.Lemmas

open Httpolice.Model Httpolice.Spec Httpolice.Props Httpolice.Lemmas.Check

variable {E : Env} {codings : Entry → Parsed Str} (hl : LowersAscii E.lower)
  (hT : OneIs E.grammars.contentType (MediaSyn.Ok IsToken) MediaSyn.text
    (fun x => some (x.name, x.params.elems.map fun p => (p.name, p.value.content))))
  (hC : ListIs codings (List1Syn.Ok IsToken) (List1Syn.text fun w => w) List1Syn.elems (Being fun w => w))

/-! ## Headers -/

section
include hl

theorem bad_type : E.badForTrailer (str "Content-Type") = true := by
  rw [badForTrailer_eq hl (by decide)]; decide +kernel

theorem bad_encoding : E.badForTrailer (str "Content-Encoding") = true := by
  rw [badForTrailer_eq hl (by decide)]; decide +kernel

theorem lit_lower {w : String} (h : (str w).all (fun c => decide (c < 128)) = true) : E.lower (str w) = asciiLower (str w) :=
  hl _ fun c hc => by
    have := List.all_eq_true.mp h c hc
    simpa using this

theorem names_differ : NamesDiffer E.lower := by
  unfold NamesDiffer
  rw [List.pairwise_iff_forall_sublist]
  have key : [str "gzip", str "x-gzip", str "deflate", str "br"].Pairwise fun a b => asciiLower a ≠ asciiLower b := by decide +kernel
  rw [List.pairwise_iff_forall_sublist] at key
  intro a b hs
  have ha : ∀ x ∈ [str "gzip", str "x-gzip", str "deflate", str "br"], E.lower x = asciiLower x := by
    simp only [List.forall_mem_cons]
    exact ⟨lit_lower hl (by decide), lit_lower hl (by decide), lit_lower hl (by decide), lit_lower hl (by decide), nofun⟩
  rw [ha a (hs.subset (by simp)), ha b (hs.subset (by simp))]
  exact key hs

include hT in
theorem type_iff (m : Msg) (ct : Str × List (Str × Str)) :
    E.single m "Content-Type" E.grammars.contentType = .val ct ↔
      ∃ e x, TypeWritten E.lower m e x ∧ ct = (x.name, x.params.elems.map fun p => (p.name, p.value.content)) := by
  rw [single_iff hl m (by decide) (bad_type hl)]
  unfold LastValue TypeWritten HasName Called
  constructor
  · rintro ⟨a, e, b, h1, h2, h3, h4⟩
    obtain ⟨x, hx, ht, hv⟩ := (hT _ _).mp h4
    exact ⟨e, x, ⟨a, b, h1, h2, h3, hx, ht⟩, (Option.some.inj hv).symm⟩
  · rintro ⟨e, x, ⟨a, b, h1, h2, h3, hx, ht⟩, rfl⟩
    exact ⟨a, e, b, h1, h2, h3, (hT _ _).mpr ⟨x, hx, ht, rfl⟩⟩

theorem type_entry {m : Msg} {e : Entry} {x : MediaSyn} (h : TypeWritten E.lower m e x) :
    (E.entriesOf m "Content-Type").getLast? = some e := by
  obtain ⟨a, b, h1, h2, h3, _⟩ := h
  unfold Env.entriesOf
  rw [preParse_eq]
  dsimp only
  rw [bad_type hl, usable, if_pos rfl, List.append_nil, named_eq hl (by decide)]
  exact getLast_filter.mpr ⟨a, b, h1, decide_eq_true h2, fun y hy => decide_eq_false (h3 y hy)⟩

include hC in
theorem codings_elems (m : Msg) : codingsOf (E.multi m "Content-Encoding" codings) =
    (m.headers.filter fun e => decide (E.lower e.name = asciiLower (str "Content-Encoding"))).flatMap fun e => entryElems (codings e) := by
  have h := (C27_lists E.lower ⟨E.badForTrailer (str "Content-Encoding"), fun e => (codings e, [])⟩ m (str "Content-Encoding") (by
    rintro e _ ⟨v, hv⟩
    exact (hC e).2.2 v hv)).1
  unfold Env.multi
  rw [h]
  dsimp only [codingsOf]
  rw [bad_encoding hl, usable, if_pos rfl, List.append_nil, named_eq hl (by decide)]

end

theorem being_id {l l' : List Str} (h : Pairwise2 (Being fun w => w) l l') : l' = l := by
  induction h with
  | nil => rfl
  | cons h _ ih => rw [ih, show _ = _ from h]

theorem being_refl (l : List Str) : Pairwise2 (Being fun w => w) l l := by
  induction l with
  | nil => exact .nil
  | cons a l ih => exact .cons rfl ih

include hC in
theorem codings_written (es : List Entry) (cs : List (Elem Str)) : CodingsWritten E.lower es cs ↔
    cs = (es.filter fun e => decide (E.lower e.name = asciiLower (str "Content-Encoding"))).flatMap fun e => entryElems (codings e) := by
  have hin : ∀ e (x : List1Syn Str), x.Ok IsToken → e.value = x.text (fun w => w) → entryElems (codings e) = x.elems.map .ok := by
    intro e x hx ht
    rw [((hC e).1 x.elems).mpr ⟨x, hx, ht, being_refl _⟩]
    rfl
  have hout : ∀ e, (¬ ∃ x : List1Syn Str, x.Ok IsToken ∧ e.value = x.text fun w => w) →
      entryElems (codings e) = [.unavailable (some e.value)] := by
    intro e h
    rw [(hC e).2.1 h]
    rfl
  constructor
  · intro h
    induction h with
    | nil => rfl
    | other h _ ih => rw [ih, List.filter_cons, if_neg (by simpa [Called] using h)]
    | names h hx ht _ ih => rw [ih, List.filter_cons, if_pos (by simpa [Called] using h), List.flatMap_cons, hin _ _ hx ht]
    | malformed h hx _ ih => rw [ih, List.filter_cons, if_pos (by simpa [Called] using h), List.flatMap_cons, hout _ hx]; rfl
  · rintro rfl
    induction es with
    | nil => exact .nil
    | cons e es ih =>
      rw [List.filter_cons]
      split
      · next h =>
        rw [List.flatMap_cons]
        by_cases hx : ∃ x : List1Syn Str, x.Ok IsToken ∧ e.value = x.text fun w => w
        · obtain ⟨x, hx, ht⟩ := hx
          rw [hin e x hx ht]
          exact .names (show E.lower e.name = _ from of_decide_eq_true h) hx ht ih
        · rw [hout e hx]
          exact .malformed (show E.lower e.name = _ from of_decide_eq_true h) hx ih
      · next h => exact .other (by simpa [Called] using h) ih

/-! ## Bytes -/

variable (L : Libs) (a : Assigned) (msg : Message)

/-- What the model has. -/
def decodedOf (E : Env) (codings : Entry → Parsed Str) (L : Libs) (a : Assigned) (msg : Message) : Payload × List CodingNote :=
  decodedPayload L E.lower a (codingsOf (E.multi msg.fields "Content-Encoding" codings)) msg.body

section
include hl hC

theorem codings_unique (m : Msg) (cs : List (Elem Str)) : CodingsWritten E.lower m.headers cs ↔
    cs = codingsOf (E.multi m "Content-Encoding" codings) := by
  rw [codings_written hC, codings_elems hl hC]

theorem bytes_iff (b : Str) : okayBytes (decodedOf E codings L a msg).1 = some b ↔ HasBytes E.lower L a msg b := by
  unfold decodedOf decodedPayload HasBytes
  cases hd : a.decoded with
  | some c => simp [okayBytes]
  | none =>
    simp only [reduceCtorEq, false_or, true_and]
    cases hb : msg.body with
    | none => simp [bodyPayload, decodedBody, okayBytes]
    | unavailable => simp [bodyPayload, decodedBody, okayBytes]
    | val body =>
      simp only [bodyPayload, PyVal.val.injEq]
      generalize hp : decodedBody E.lower L.codecs (codingsOf (E.multi msg.fields "Content-Encoding" codings)) (.bytes body) = p
      obtain ⟨p, ns⟩ := p
      rw [C47_decoded (names_differ hl)] at hp
      constructor
      · intro h
        cases hp with
        | all hu =>
          cases h
          exact ⟨_, _, [], _, rfl, (codings_unique hl hC _ _).mpr rfl, rfl, hu, .inl rfl⟩
        | empty hc hu =>
          cases h
          exact ⟨_, _, _, _, rfl, (codings_unique hl hC _ _).mpr rfl, hc, hu, .inr rfl⟩
        | failure => cases h
      · rintro ⟨_, cs, pre, post, rfl, hw, hc, hu, hpre⟩
        rw [codings_unique hl hC] at hw
        have ho : Outcome E.lower L.codecs cs body (.bytes b) [] := by
          rcases hpre with rfl | rfl
          · rw [hc, List.nil_append]
            exact .all hu
          · exact .empty hc hu
        rw [hw] at ho
        rw [(outcome_unique (names_differ hl) hp ho).1]
        rfl

theorem unknown_iff : (∃ n ∈ (decodedOf E codings L a msg).2, n.id = 1036) ↔
    ∃ c r, ComesTo E.lower L a msg c r ∧ ∀ f, ¬Undoes E.lower L.codecs c f := by
  unfold decodedOf decodedPayload ComesTo
  cases hd : a.decoded with
  | some c => simp
  | none =>
    simp only [true_and]
    cases hb : msg.body with
    | none => simp [bodyPayload, decodedBody]
    | unavailable => simp [bodyPayload, decodedBody]
    | val body =>
      simp only [bodyPayload, PyVal.val.injEq]
      generalize hp : decodedBody E.lower L.codecs (codingsOf (E.multi msg.fields "Content-Encoding" codings)) (.bytes body) = p
      obtain ⟨p, ns⟩ := p
      rw [C47_decoded (names_differ hl)] at hp
      constructor
      · rintro ⟨n, hn, hid⟩
        cases hp with
        | all => cases hn
        | empty => cases hn
        | failure hc hu hne hf =>
          cases hf with
          | malformed => cases hn
          | unknown hk => exact ⟨_, _, ⟨_, _, _, _, rfl, (codings_unique hl hC _ _).mpr rfl, hc, hu, hne⟩, hk⟩
          | failed =>
            rw [List.mem_singleton] at hn
            subst hn
            cases hid
      · rintro ⟨c, r, ⟨_, cs, pre, post, rfl, hw, hc, hu, hne⟩, hk⟩
        rw [codings_unique hl hC] at hw
        have ho : Outcome E.lower L.codecs cs body (.unavailable (some r)) [⟨1036, c⟩] := .failure hc hu hne (.unknown hk)
        rw [hw] at ho
        dsimp only
        rw [(outcome_unique (names_differ hl) hp ho).2]
        exact ⟨_, .head _, rfl⟩

theorem failed_iff : (∃ n ∈ (decodedOf E codings L a msg).2, n.id = 1037) ↔
    ∃ c r f, ComesTo E.lower L a msg c r ∧ Undoes E.lower L.codecs c f ∧ f r = none := by
  unfold decodedOf decodedPayload ComesTo
  cases hd : a.decoded with
  | some c => simp
  | none =>
    simp only [true_and]
    cases hb : msg.body with
    | none => simp [bodyPayload, decodedBody]
    | unavailable => simp [bodyPayload, decodedBody]
    | val body =>
      simp only [bodyPayload, PyVal.val.injEq]
      generalize hp : decodedBody E.lower L.codecs (codingsOf (E.multi msg.fields "Content-Encoding" codings)) (.bytes body) = p
      obtain ⟨p, ns⟩ := p
      rw [C47_decoded (names_differ hl)] at hp
      constructor
      · rintro ⟨n, hn, hid⟩
        cases hp with
        | all => cases hn
        | empty => cases hn
        | failure hc hu hne hf =>
          cases hf with
          | malformed => cases hn
          | unknown hk =>
            rw [List.mem_singleton] at hn
            subst hn
            cases hid
          | failed hk hz => exact ⟨_, _, _, ⟨_, _, _, _, rfl, (codings_unique hl hC _ _).mpr rfl, hc, hu, hne⟩, hk, hz⟩
      · rintro ⟨c, r, f, ⟨_, cs, pre, post, rfl, hw, hc, hu, hne⟩, hk, hf⟩
        rw [codings_unique hl hC] at hw
        have ho : Outcome E.lower L.codecs cs body (.unavailable (some r)) [⟨1037, c⟩] := .failure hc hu hne (.failed hk hf)
        rw [hw] at ho
        dsimp only
        rw [(outcome_unique (names_differ hl) hp ho).2]
        exact ⟨_, .head _, rfl⟩

end

theorem coding_ids (hl : LowersAscii E.lower) : ∀ n ∈ (decodedOf E codings L a msg).2, n.id = 1036 ∨ n.id = 1037 := by
  unfold decodedOf decodedPayload
  cases a.decoded with
  | some c => nofun
  | none =>
    cases msg.body with
    | none => nofun
    | unavailable => nofun
    | val body =>
      simp only [bodyPayload]
      generalize hp : decodedBody E.lower L.codecs (codingsOf (E.multi msg.fields "Content-Encoding" codings)) (.bytes body) = p
      obtain ⟨p, ns⟩ := p
      rw [C47_decoded (names_differ hl)] at hp
      intro n hn
      cases hp with
      | all => cases hn
      | empty => cases hn
      | failure hc hu hne hf =>
        cases hf with
        | malformed => cases hn
        | unknown hk => rw [List.mem_singleton.mp hn]; exact .inl rfl
        | failed hk _ => rw [List.mem_singleton.mp hn]; exact .inr rfl

/-! ## Texts -/

section
include hl hT

omit hT in
theorem charset_param (l : List Attr) : ((∀ w, E.getParam "charset" (l.map fun p => (p.name, p.value.content)) = some w ↔
      ∃ x p y, l = x ++ p :: y ∧ E.lower p.name = str "charset" ∧ p.value.content = w ∧ ∀ q ∈ x, E.lower q.name ≠ str "charset")) ∧
    (E.getParam "charset" (l.map fun p => (p.name, p.value.content)) = none ↔ ∀ q ∈ l, E.lower q.name ≠ str "charset") := by
  have hc : E.lower (str "charset") = str "charset" := (lit_lower hl (by decide)).trans (by decide)
  unfold Env.getParam
  rw [List.find?_map]
  constructor
  · intro w
    simp only [Option.map_eq_some_iff, find_first, Function.comp, Env.same, hc]
    constructor
    · rintro ⟨_, ⟨p, ⟨x, y, h1, h2, h3⟩, rfl⟩, rfl⟩
      exact ⟨x, p, y, h1, beq_iff_eq.mp h2, rfl, fun q hq => beq_eq_false_iff_ne.mp (h3 q hq)⟩
    · rintro ⟨x, p, y, h1, h2, rfl, h3⟩
      exact ⟨_, ⟨p, ⟨x, y, h1, beq_iff_eq.mpr h2, fun q hq => beq_eq_false_iff_ne.mpr (h3 q hq)⟩, rfl⟩, rfl⟩
  · simp only [Option.map_eq_none_iff, List.find?_eq_none, Function.comp, Env.same, hc, beq_iff_eq, ne_eq]

include hT in
theorem type_same {m : Msg} {e e' : Entry} {x x' : MediaSyn} (h : TypeWritten E.lower m e x) (h' : TypeWritten E.lower m e' x') :
    e = e' ∧ x.name = x'.name ∧ (x.params.elems.map fun p => (p.name, p.value.content)) =
      x'.params.elems.map fun p => (p.name, p.value.content) := by
  have k := (type_iff hl hT m _).mpr ⟨e, x, h, rfl⟩
  rw [(type_iff hl hT m _).mpr ⟨e', x', h', rfl⟩] at k
  have he := type_entry hl h
  rw [type_entry hl h'] at he
  injection k with k
  injection k with k1 k2
  exact ⟨(Option.some.inj he).symm, k1.symm, k2.symm⟩

include hT in
theorem charset_named (m : Msg) (w : Str) : ((match E.single m "Content-Type" E.grammars.contentType with
    | .val ct => E.getParam "charset" ct.2
    | _ => none).getD (str "utf-8")) = w ↔ CharsetNamed E.lower m w := by
  unfold CharsetNamed
  by_cases ht : ∃ e x, TypeWritten E.lower m e x
  · obtain ⟨e, x, ht⟩ := ht
    rw [(type_iff hl hT m _).mpr ⟨e, x, ht, rfl⟩]
    dsimp only
    constructor
    · intro h
      cases hp : E.getParam "charset" (x.params.elems.map fun p => (p.name, p.value.content)) with
      | none =>
        rw [hp] at h
        refine .inr ⟨fun e' x' ht' => ((charset_param hl _).2).mp ?_, h.symm⟩
        rw [← (type_same hl hT ht ht').2.2]
        exact hp
      | some v =>
        rw [hp] at h
        obtain rfl : v = w := h
        obtain ⟨l, p, l', h1, h2, h3, h4⟩ := ((charset_param hl _).1 _).mp hp
        exact .inl ⟨e, x, l, p, l', ht, h1, h2, h3, h4⟩
    · rintro (⟨e', x', l, p, l', ht', h1, h2, h3, h4⟩ | ⟨h, rfl⟩)
      · have hp := ((charset_param hl _).1 w).mpr ⟨l, p, l', h1, h2, h3, h4⟩
        rw [← (type_same hl hT ht ht').2.2] at hp
        rw [hp]
        rfl
      · rw [((charset_param hl _).2).mpr (h e x ht)]
        rfl
  · have hn : ∀ ct, E.single m "Content-Type" E.grammars.contentType ≠ .val ct := by
      intro ct h
      obtain ⟨e, x, h, _⟩ := (type_iff hl hT m ct).mp h
      exact ht ⟨e, x, h⟩
    have : (match E.single m "Content-Type" E.grammars.contentType with
        | .val ct => E.getParam "charset" ct.2
        | _ => none) = none := by
      split
      · next h => exact absurd h (hn _)
      · rfl
    rw [this]
    constructor
    · rintro rfl
      exact .inr ⟨fun e x h => absurd ⟨e, x, h⟩ ht, rfl⟩
    · rintro (⟨e, x, _, _, _, h, _⟩ | ⟨_, rfl⟩)
      · exact absurd ⟨e, x, h⟩ ht
      · rfl

end

/-- What the model has. -/
def charsetOf (E : Env) (codings : Entry → Parsed Str) (L : Libs) (a : Assigned) (msg : Message) : Option Str :=
  guessedCharset L E (E.single msg.fields "Content-Type" E.grammars.contentType) (okayBytes (decodedOf E codings L a msg).1)

/-- What the model has. -/
def textOf (E : Env) (codings : Entry → Parsed Str) (L : Libs) (a : Assigned) (msg : Message) : Option Str :=
  unicodeText L a (charsetOf E codings L a msg) (okayBytes (decodedOf E codings L a msg).1)

section
include hl hT hC

theorem inCharset_iff (c : Str) : charsetOf E codings L a msg = some c ↔ InCharset E.lower L a msg c := by
  unfold charsetOf guessedCharset InCharset
  simp only [← charset_named hl hT, exists_eq_left']
  generalize L.charsetName _ = n
  cases n with
  | none => simp
  | some name =>
    simp only [Option.some.injEq]
    cases hb : okayBytes (decodedOf E codings L a msg).1 with
    | none =>
      constructor
      · rintro ⟨⟩
        refine ⟨rfl, fun b h => ?_⟩
        rw [← bytes_iff hl hC, hb] at h
        cases h
      · rintro ⟨rfl, _⟩
        rfl
    | some b =>
      have hb' := (bytes_iff hl hC L a msg b).mp hb
      constructor
      · intro h
        dsimp only at h
        split at h
        · next hs =>
          cases h
          refine ⟨rfl, fun b' h => ?_⟩
          rw [← bytes_iff hl hC, hb] at h
          cases h
          exact Option.isSome_iff_exists.mp hs
        · cases h
      · rintro ⟨rfl, h⟩
        dsimp only
        rw [if_pos (Option.isSome_iff_exists.mpr (h b hb'))]

theorem text_iff (s : Str) : textOf E codings L a msg = some s ↔ HasText E.lower L a msg s := by
  unfold textOf unicodeText HasText
  cases a.unicode with
  | some u => simp
  | none =>
    simp only [← inCharset_iff hl hT hC, ← bytes_iff hl hC, reduceCtorEq, false_or, true_and]
    cases okayBytes (decodedOf E codings L a msg).1 <;> cases charsetOf E codings L a msg <;> simp

/-! ## Types -/

omit hC in
theorem on_type {P : Str → Prop} (m : Msg) : (∃ ct, E.single m "Content-Type" E.grammars.contentType = .val ct ∧ P ct.1) ↔
    ∃ e x, TypeWritten E.lower m e x ∧ P x.name := by
  constructor
  · rintro ⟨ct, h, hp⟩
    obtain ⟨e, x, ht, rfl⟩ := (type_iff hl hT m ct).mp h
    exact ⟨e, x, ht, hp⟩
  · rintro ⟨e, x, ht, hp⟩
    exact ⟨_, (type_iff hl hT m _).mpr ⟨e, x, ht, rfl⟩, hp⟩

omit hT hC in
theorem json_type (x : MediaSyn) : isJsonMedia E.lower x.name = true ↔ JsonType E.lower x := by
  unfold isJsonMedia JsonType endsWithCi jsonMedia
  rw [lit_lower hl (show (str "+json").all _ = true by decide), show asciiLower (str "+json") = str "+json" by decide]
  simp only [List.any_cons, List.any_nil, Bool.or_false, Bool.or_eq_true, beq_iff_eq, List.isSuffixOf_iff_suffix]
  rw [lit_lower hl (show (str "application/json").all _ = true by decide),
    show asciiLower (str "application/json") = str "application/json" by decide]
  exact or_congr eq_comm ⟨fun ⟨p, h⟩ => ⟨p, h.symm⟩, fun ⟨p, h⟩ => ⟨p, h.symm⟩⟩

omit hT hC in
theorem xml_type (x : MediaSyn) : isXmlMedia E.lower x.name = true ↔ XmlType E.lower x := by
  unfold isXmlMedia XmlType endsWithCi xmlMedia
  rw [lit_lower hl (show (str "+xml").all _ = true by decide), show asciiLower (str "+xml") = str "+xml" by decide]
  simp only [List.any_cons, List.any_nil, Bool.or_false, Bool.or_eq_true, beq_iff_eq, List.isSuffixOf_iff_suffix, or_assoc]
  rw [lit_lower hl (show (str "application/xml").all _ = true by decide),
    show asciiLower (str "application/xml") = str "application/xml" by decide,
    lit_lower hl (show (str "text/xml").all _ = true by decide), show asciiLower (str "text/xml") = str "text/xml" by decide]
  exact or_congr eq_comm (or_congr eq_comm ⟨fun ⟨p, h⟩ => ⟨p, h.symm⟩, fun ⟨p, h⟩ => ⟨p, h.symm⟩⟩)

omit hT hC in
theorem multipart_type (x : MediaSyn) : mediaIsMultipart E.lower x.name = true ↔ MultipartType E.lower x := by
  unfold mediaIsMultipart MultipartType
  rw [lit_lower hl (show (str "multipart/").all _ = true by decide), show asciiLower (str "multipart/") = str "multipart/" by decide,
    List.isPrefixOf_iff_prefix]
  exact ⟨fun ⟨p, h⟩ => ⟨p, h.symm⟩, fun ⟨p, h⟩ => ⟨p, h.symm⟩⟩

omit hC in
theorem form_type (m : Msg) : E.contentTypeIs m "application/x-www-form-urlencoded" = true ↔
    ∃ e x, TypeWritten E.lower m e x ∧ E.lower x.name = str "application/x-www-form-urlencoded" := by
  rw [← on_type hl hT (P := fun w => E.lower w = str "application/x-www-form-urlencoded")]
  unfold Env.contentTypeIs okayAnd Env.same
  rw [lit_lower hl (show (str "application/x-www-form-urlencoded").all _ = true by decide),
    show asciiLower (str "application/x-www-form-urlencoded") = str "application/x-www-form-urlencoded" by decide]
  cases E.single m "Content-Type" E.grammars.contentType <;> simp

omit hC in
theorem complete_iff (request : Option Request) (r : Response) : contentIsFull E request r = true ↔ Entire E.lower request r := by
  have hm : compareView (fun ct media => !E.same ct.1 media) (E.single r.fields "Content-Type" E.grammars.contentType)
      (.val (str "multipart/byteranges")) = true ↔ ∃ e x, TypeWritten E.lower r.fields e x ∧ E.lower x.name ≠ str "multipart/byteranges" := by
    rw [← on_type hl hT (P := fun w => E.lower w ≠ str "multipart/byteranges")]
    unfold compareView Env.same
    have hb : E.lower (str "multipart/byteranges") = str "multipart/byteranges" :=
      (lit_lower hl (show (str "multipart/byteranges").all _ = true by decide)).trans (by decide)
    cases E.single r.fields "Content-Type" E.grammars.contentType <;> simp [PyVal.okay, hb]
  have hr : (∀ e x, TypeWritten E.lower r.fields e x → E.lower x.name = str "multipart/byteranges") ↔
      ¬ ∃ e x, TypeWritten E.lower r.fields e x ∧ E.lower x.name ≠ str "multipart/byteranges" := by
    constructor
    · rintro h ⟨e, x, ht, hne⟩
      exact hne (h e x ht)
    · intro h e x ht
      exact Decidable.byContradiction fun hne => h ⟨e, x, ht, hne⟩
  unfold contentIsFull Entire
  rw [hr, ← hm]
  generalize compareView _ _ _ = c
  have hb : truthyBody r.body = true ↔ (r.body = .unavailable ∨ ∃ b, r.body = .val b ∧ b ≠ []) := by
    cases r.body <;> simp [truthyBody]
  by_cases h1 : r.status = 304
  · simp [h1]
  by_cases h2 : r.status = 103
  · simp [h2]
  simp only [h1, h2, beq_iff_eq, Bool.or_eq_true, or_self, if_false, ne_eq, not_false_eq_true, true_and, Bool.and_eq_true]
  by_cases h3 : r.status = 206 ∧ c = true
  · rw [if_pos h3]
    simp [h3]
  · rw [if_neg h3]
    have h3' : r.status = 206 → ¬ c = true := fun a b => h3 ⟨a, b⟩
    cases request with
    | some req =>
      simp only [bne_iff_ne, Option.some.injEq, forall_eq', reduceCtorEq, false_implies, and_true, ne_eq]
      exact ⟨fun h => ⟨h3', h⟩, fun h => h.2⟩
    | none =>
      simp only [hb, reduceCtorEq, false_implies, implies_true, true_and, true_implies]
      exact ⟨fun h => ⟨h3', h⟩, fun h => h.2⟩

/-! ## Notices -/

omit hl hT hC in
theorem json_ids (ctype : PyVal (Str × List (Str × Str))) (text charset : Option Str) (full : Bool) :
    ∀ n ∈ jsonNotes L E.lower ctype text charset full, n.1 = 1038 ∨ n.1 = 1281 := by
  unfold jsonNotes
  intro n hn
  repeat' split at hn
  all_goals first | cases hn; done | (rw [List.mem_singleton.mp hn]; simp)

theorem json_iff (full : Bool) (good : Bool) (N : Nat) (hN : N = if good then 1281 else 1038) :
    (∃ n ∈ jsonNotes L E.lower (E.single msg.fields "Content-Type" E.grammars.contentType) (textOf E codings L a msg)
      (charsetOf E codings L a msg) full, n.1 = N) ↔
    full = true ∧ ∃ e x s, TypeWritten E.lower msg.fields e x ∧ JsonType E.lower x ∧ HasText E.lower L a msg s ∧ L.isJson s = good ∧
      (good = true → ∃ c, InCharset E.lower L a msg c ∧ c ≠ str "ascii" ∧ c ≠ str "utf-8") := by
  have hr : (∃ e x s, TypeWritten E.lower msg.fields e x ∧ JsonType E.lower x ∧ HasText E.lower L a msg s ∧ L.isJson s = good ∧
      (good = true → ∃ c, InCharset E.lower L a msg c ∧ c ≠ str "ascii" ∧ c ≠ str "utf-8")) ↔
      ∃ s, textOf E codings L a msg = some s ∧ (∃ e x, TypeWritten E.lower msg.fields e x ∧ isJsonMedia E.lower x.name = true) ∧ L.isJson s = good ∧
      (good = true → ∃ c, charsetOf E codings L a msg = some c ∧ c ≠ str "ascii" ∧ c ≠ str "utf-8") := by
    simp only [text_iff hl hT hC, inCharset_iff hl hT hC, json_type hl]
    constructor
    · rintro ⟨e, x, s, h1, h2, h3, h4⟩
      exact ⟨s, h3, ⟨e, x, h1, h2⟩, h4⟩
    · rintro ⟨s, h3, ⟨e, x, h1, h2⟩, h4⟩
      exact ⟨e, x, s, h1, h2, h3, h4⟩
  rw [hr, ← on_type hl hT (P := fun w => isJsonMedia E.lower w = true)]
  unfold jsonNotes
  cases E.single msg.fields "Content-Type" E.grammars.contentType with
  | none => simp
  | unavailable => simp
  | val ct =>
    cases textOf E codings L a msg with
    | none => simp
    | some s =>
      simp only [PyVal.val.injEq, exists_eq_left', Option.some.injEq]
      cases isJsonMedia E.lower ct.1
      · simp
      cases full
      · simp
      subst hN
      cases good <;> cases L.isJson s
      · simp
      · simp only [Bool.and_self, if_true, reduceCtorEq, false_and, and_false, iff_false]
        split <;> simp
      · simp
      · simp only [Bool.and_self, if_true, true_and, true_implies]
        cases charsetOf E codings L a msg with
        | none => simp
        | some c =>
          by_cases h1 : c = str "ascii"
          · simp [h1]
          by_cases h2 : c = str "utf-8"
          · simp [h2]
          simp [h1, h2]

omit hl hT hC in
theorem xml_ids (ctype : PyVal (Str × List (Str × Str))) (b : Option Str) (full : Bool) :
    ∀ n ∈ xmlNotes L E.lower ctype b full, n.1 = 1275 ∨ n.1 = 1039 := by
  unfold xmlNotes
  intro n hn
  repeat' split at hn
  all_goals first | cases hn; done | (rw [List.mem_singleton.mp hn]; simp)

theorem xml_iff (full : Bool) (out : XmlOutcome) (N : Nat) (hN : (out = .entities ∧ N = 1275) ∨ (out = .broken ∧ N = 1039)) :
    (∃ n ∈ xmlNotes L E.lower (E.single msg.fields "Content-Type" E.grammars.contentType) (okayBytes (decodedOf E codings L a msg).1)
      full, n.1 = N) ↔
    full = true ∧ ∃ e x b, TypeWritten E.lower msg.fields e x ∧ XmlType E.lower x ∧ HasBytes E.lower L a msg b ∧ L.xml b = out := by
  have hr : (∃ e x b, TypeWritten E.lower msg.fields e x ∧ XmlType E.lower x ∧ HasBytes E.lower L a msg b ∧ L.xml b = out) ↔
      ∃ b, okayBytes (decodedOf E codings L a msg).1 = some b ∧
        (∃ e x, TypeWritten E.lower msg.fields e x ∧ isXmlMedia E.lower x.name = true) ∧ L.xml b = out := by
    simp only [bytes_iff hl hC, xml_type hl]
    constructor
    · rintro ⟨e, x, s, h1, h2, h3, h4⟩
      exact ⟨s, h3, ⟨e, x, h1, h2⟩, h4⟩
    · rintro ⟨s, h3, ⟨e, x, h1, h2⟩, h4⟩
      exact ⟨e, x, s, h1, h2, h3, h4⟩
  rw [hr, ← on_type hl hT (P := fun w => isXmlMedia E.lower w = true)]
  unfold xmlNotes
  cases E.single msg.fields "Content-Type" E.grammars.contentType with
  | none => simp
  | unavailable => simp
  | val ct =>
    cases okayBytes (decodedOf E codings L a msg).1 with
    | none => simp
    | some b =>
      simp only [PyVal.val.injEq, exists_eq_left', Option.some.injEq]
      cases isXmlMedia E.lower ct.1
      · simp
      cases full
      · simp
      rcases hN with ⟨rfl, rfl⟩ | ⟨rfl, rfl⟩ <;> cases L.xml b <;> simp

/-- What the model has. -/
def emailOf (E : Env) (codings : Entry → Parsed Str) (L : Libs) (a : Assigned) (msg : Message) (full : Bool) : Option EmailMessage :=
  multipartMessage L E msg.fields (E.single msg.fields "Content-Type" E.grammars.contentType) (okayBytes (decodedOf E codings L a msg).1)
    full

theorem parts_iff (full : Bool) (x : EmailMessage) : emailOf E codings L a msg full = some x ↔ full = true ∧ HasMultipart E.lower L a msg x := by
  unfold emailOf multipartMessage HasMultipart
  constructor
  · intro h
    split at h
    · next ct b entry h1 h2 h3 =>
      split at h
      · next hc =>
        obtain ⟨e, t, ht, rfl⟩ := (type_iff hl hT msg.fields ct).mp h1
        rw [type_entry hl ht] at h3
        obtain rfl := Option.some.inj h3
        simp only [Bool.and_eq_true] at hc
        exact ⟨hc.2, e, t, b, ht, (multipart_type hl t).mp hc.1, (bytes_iff hl hC L a msg b).mp h2, (Option.some.inj h).symm⟩
      · cases h
    · cases h
  · rintro ⟨rfl, e, t, b, ht, hm, hb, rfl⟩
    rw [(type_iff hl hT msg.fields _).mpr ⟨e, t, ht, rfl⟩, (bytes_iff hl hC L a msg b).mpr hb, type_entry hl ht]
    simp [(multipart_type hl t).mpr hm, multipartCode]

/-- What the model has. -/
def formOf (E : Env) (codings : Entry → Parsed Str) (L : Libs) (a : Assigned) (msg : Message) (full : Bool) : Option Str :=
  urlEncodedBody E msg.fields (okayBytes (decodedOf E codings L a msg).1) full

theorem form_iff (full : Bool) (b : Str) : formOf E codings L a msg full = some b ↔ full = true ∧ HasForm E.lower L a msg b := by
  unfold formOf urlEncodedBody HasForm
  have hr : (∃ e t, TypeWritten E.lower msg.fields e t ∧ E.lower t.name = str "application/x-www-form-urlencoded" ∧ HasBytes E.lower L a msg b) ↔
      E.contentTypeIs msg.fields "application/x-www-form-urlencoded" = true ∧ okayBytes (decodedOf E codings L a msg).1 = some b := by
    rw [form_type hl hT, bytes_iff hl hC]
    constructor
    · rintro ⟨e, t, h1, h2, h3⟩
      exact ⟨⟨e, t, h1, h2⟩, h3⟩
    · rintro ⟨⟨e, t, h1, h2⟩, h3⟩
      exact ⟨e, t, h1, h2, h3⟩
  rw [hr]
  cases E.contentTypeIs msg.fields "application/x-www-form-urlencoded" <;> cases full <;> simp

omit hl hT hC in
theorem form_char (c : Nat) : urlEncodedGood c = true ↔ FormChar c := by
  unfold urlEncodedGood FormChar IsLetter IsDigit
  simp only [Bool.or_eq_true, Bool.and_eq_true, decide_eq_true_eq, List.contains_eq_mem, List.mem_cons, List.not_mem_nil, or_false,
    show str "%&*+-.:;<=>?_" = [37, 38, 42, 43, 45, 46, 58, 59, 60, 61, 62, 63, 95] by decide]
  omega

omit hl hT hC in
theorem form_notes (b : Str) (N : Nat) : (∃ n ∈ urlEncodedNotes b, n.1 = N) ↔ N = 1040 ∧ ∃ c ∈ b, ¬ FormChar c := by
  unfold urlEncodedNotes
  cases h : b.find? fun c => !urlEncodedGood c with
  | none =>
    simp only [List.find?_eq_none, Bool.not_eq_true', Bool.not_eq_false, form_char] at h
    constructor
    · rintro ⟨_, h, _⟩
      cases h
    · rintro ⟨_, c, hc, hn⟩
      exact absurd (h c hc) hn
  | some c =>
    have hm := List.mem_of_find?_eq_some h
    have hp := List.find?_some h
    rw [Bool.not_eq_true'] at hp
    have hp : ¬ FormChar c := fun k => by rw [(form_char c).mpr k] at hp; cases hp
    constructor
    · rintro ⟨n, hn, rfl⟩
      rw [List.mem_singleton.mp hn]
      exact ⟨rfl, c, hm, hp⟩
    · rintro ⟨rfl, _⟩
      exact ⟨_, List.mem_singleton.mpr rfl, rfl⟩

omit hl hT hC in
theorem defect_notes (x : EmailMessage) (N : Nat) : (∃ n ∈ x.defects.flatMap defectNotes, n.1 = N) ↔
    (N = 1139 ∧ .noBoundary ∈ x.defects) ∨ (N = 1140 ∧ .noStart ∈ x.defects) := by
  simp only [List.mem_flatMap]
  constructor
  · rintro ⟨n, ⟨d, hd, hn⟩, rfl⟩
    cases d with
    | noBoundary => rw [List.mem_singleton.mp hn]; exact .inl ⟨rfl, hd⟩
    | noStart => rw [List.mem_singleton.mp hn]; exact .inr ⟨rfl, hd⟩
    | other => cases hn
  · rintro (⟨rfl, h⟩ | ⟨rfl, h⟩)
    · exact ⟨_, ⟨_, h, List.mem_singleton.mpr rfl⟩, rfl⟩
    · exact ⟨_, ⟨_, h, List.mem_singleton.mpr rfl⟩, rfl⟩

/-- The payload of the message in the model. -/
abbrev loaded (E : Env) (codings : Entry → Parsed Str) (L : Libs) (a : Assigned) (msg : Message) (full : Bool) : PayloadInfo :=
  payloadOf L E codings a msg.fields msg.body full

omit hl hT hC in
/-- By source. -/
theorem notes_split (full : Bool) (N : Nat) : (∃ n ∈ (loaded E codings L a msg full).notes, n.1 = N) ↔
    (∃ n ∈ (decodedOf E codings L a msg).2, n.id = N) ∨
    (∃ n ∈ jsonNotes L E.lower (E.single msg.fields "Content-Type" E.grammars.contentType) (textOf E codings L a msg)
      (charsetOf E codings L a msg) full, n.1 = N) ∨
    (∃ n ∈ xmlNotes L E.lower (E.single msg.fields "Content-Type" E.grammars.contentType) (okayBytes (decodedOf E codings L a msg).1)
      full, n.1 = N) ∨
    (∃ x, emailOf E codings L a msg full = some x ∧ ∃ n ∈ x.defects.flatMap defectNotes, n.1 = N) ∨
    (∃ b, formOf E codings L a msg full = some b ∧ ∃ n ∈ urlEncodedNotes b, n.1 = N) := by
  have h1 : (∃ n ∈ (match emailOf E codings L a msg full with
      | some x => x.defects.flatMap defectNotes
      | none => []), n.1 = N) ↔ (∃ x, emailOf E codings L a msg full = some x ∧ ∃ n ∈ x.defects.flatMap defectNotes, n.1 = N) := by
    cases emailOf E codings L a msg full <;> simp
  have h2 : (∃ n ∈ (match formOf E codings L a msg full with
      | some b => urlEncodedNotes b
      | none => []), n.1 = N) ↔ (∃ b, formOf E codings L a msg full = some b ∧ ∃ n ∈ urlEncodedNotes b, n.1 = N) := by
    cases formOf E codings L a msg full <;> simp
  have h3 : (∃ n ∈ (decodedOf E codings L a msg).2.map (fun n : CodingNote => (n.id, if n.id = 1037 then [("coding", Datum.text n.coding), ("error", .other)]
        else [("coding", .text n.coding)])), n.1 = N) ↔ ∃ n ∈ (decodedOf E codings L a msg).2, n.id = N := by
    constructor
    · rintro ⟨n, hn, rfl⟩
      obtain ⟨k, hk, rfl⟩ := List.mem_map.mp hn
      exact ⟨k, hk, rfl⟩
    · rintro ⟨k, hk, rfl⟩
      exact ⟨_, List.mem_map_of_mem hk, rfl⟩
  rw [← h1, ← h2, ← h3]
  show (∃ n ∈ _ ++ _ ++ _ ++ _ ++ _, _) ↔ _
  simp only [List.mem_append, or_and_right, exists_or, or_assoc]
  rfl

end

end Httpolice.Lemmas
