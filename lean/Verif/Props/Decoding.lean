import Verif.Model.Decoding

/-!
# C47: undoing content codings
-/

namespace Httpolice.Props

open Httpolice.Model

/-- What is known of a coding: how to undo it, by name, whatever the case. -/
inductive Undoes (lower : Str → Str) (codecs : Codecs) : Str → (Str → Option Str) → Prop
  | gzip {c : Str} : lower c = lower (str "gzip") → Undoes lower codecs c codecs.gunzip
  | xGzip {c : Str} : lower c = lower (str "x-gzip") → Undoes lower codecs c codecs.gunzip
  | deflate {c : Str} : lower c = lower (str "deflate") → Undoes lower codecs c codecs.inflate
  | br {c : Str} : lower c = lower (str "br") → Undoes lower codecs c codecs.unbrotli

/-- Undoing `codings`, the last one first, makes `r` of `b`. Only what is not empty is decoded. -/
inductive Undone (lower : Str → Str) (codecs : Codecs) : List (Elem Str) → Str → Str → Prop
  | nil {b : Str} : Undone lower codecs [] b b
  | step {codings : List (Elem Str)} {coding b r r' : Str} {f : Str → Option Str} :
      Undone lower codecs codings b r → r ≠ [] → Undoes lower codecs coding f → f r = some r' →
      Undone lower codecs (.ok coding :: codings) b r'

/-- The coding cannot be undone, and this is what is reported. -/
inductive Fails (lower : Str → Str) (codecs : Codecs) : Elem Str → Str → List CodingNote → Prop
  | malformed {s : Option Str} {r : Str} : Fails lower codecs (.unavailable s) r []
  | unknown {coding r : Str} : (∀ f, ¬ Undoes lower codecs coding f) →
      Fails lower codecs (.ok coding) r [⟨1036, coding⟩]
  | failed {coding r : Str} {f : Str → Option Str} : Undoes lower codecs coding f → f r = none →
      Fails lower codecs (.ok coding) r [⟨1037, coding⟩]

/-- The four names differ in more than case. -/
def NamesDiffer (lower : Str → Str) : Prop :=
  [str "gzip", str "x-gzip", str "deflate", str "br"].Pairwise fun a b => lower a ≠ lower b

theorem decoderFor_some {lower : Str → Str} (hl : NamesDiffer lower) {codecs : Codecs} {coding : Str}
    {f : Str → Option Str} : decoderFor lower codecs (.ok coding) = some f ↔ Undoes lower codecs coding f := by
  obtain ⟨h1, h2, h3⟩ := by simpa [NamesDiffer] using hl
  obtain ⟨h11, h12, h13⟩ := h1
  obtain ⟨h21, h22⟩ := h2
  simp only [decoderFor, decoders, List.find?_cons, List.find?_nil, Option.map_eq_some_iff]
  constructor
  · rintro ⟨p, hp, rfl⟩
    split at hp
    · next h => cases hp; exact .gzip (of_decide_eq_true h).symm
    split at hp
    · next h => cases hp; exact .xGzip (of_decide_eq_true h).symm
    split at hp
    · next h => cases hp; exact .deflate (of_decide_eq_true h).symm
    split at hp
    · next h => cases hp; exact .br (of_decide_eq_true h).symm
    · cases hp
  · intro h
    cases h with
    | gzip h => simp [h]
    | xGzip h => simp [h, h11]
    | deflate h => simp [h, h12, h21]
    | br h => simp [h, h13, h22, h3]

theorem decoderFor_none {lower : Str → Str} (hl : NamesDiffer lower) {codecs : Codecs} {coding : Str} :
    decoderFor lower codecs (.ok coding) = none ↔ ∀ f, ¬ Undoes lower codecs coding f := by
  constructor
  · intro h f hf
    rw [(decoderFor_some hl).mpr hf] at h
    cases h
  · intro h
    cases hd : decoderFor lower codecs (.ok coding) with
    | none => rfl
    | some f => exact absurd ((decoderFor_some hl).mp hd) (h f)

/-- The outcome of the loop. -/
inductive Outcome (lower : Str → Str) (codecs : Codecs) (codings : List (Elem Str)) (b : Str) :
    Payload → List CodingNote → Prop
  | all {r : Str} : Undone lower codecs codings b r → Outcome lower codecs codings b (.bytes r) []
  | empty {pre post : List (Elem Str)} : codings = pre ++ post → Undone lower codecs post b [] →
      Outcome lower codecs codings b (.bytes []) []
  | failure {pre post : List (Elem Str)} {coding : Elem Str} {r : Str} {ns : List CodingNote} :
      codings = pre ++ coding :: post → Undone lower codecs post b r → r ≠ [] →
      Fails lower codecs coding r ns → Outcome lower codecs codings b (.unavailable (some r)) ns

theorem undone_append {lower : Str → Str} {codecs : Codecs} {l m : List (Elem Str)} {b r s : Str}
    (h1 : Undone lower codecs m b r) (h2 : Undone lower codecs l r s) : Undone lower codecs (l ++ m) b s := by
  induction h2 with
  | nil => exact h1
  | step _ hne hu hf ih => exact .step (ih h1) hne hu hf

theorem decodeLoop_outcome {lower : Str → Str} (hl : NamesDiffer lower) {codecs : Codecs} :
    ∀ (todo done : List (Elem Str)) (b r : Str), Undone lower codecs done b r →
      Outcome lower codecs (todo.reverse ++ done) b (decodeLoop lower codecs todo r).1
        (decodeLoop lower codecs todo r).2 := by
  intro todo
  induction todo with
  | nil => exact fun done b r h => .all h
  | cons coding codings ih =>
    intro done b r h
    cases r with
    | nil => exact .empty rfl h
    | cons c r =>
      have hc : (coding :: codings).reverse ++ done = codings.reverse ++ coding :: done := by simp
      rw [decodeLoop]
      cases coding with
      | unavailable s => exact .failure hc h nofun .malformed
      | ok name =>
        cases hd : decoderFor lower codecs (.ok name) with
        | none => exact .failure hc h nofun (.unknown ((decoderFor_none hl).mp hd))
        | some f =>
          dsimp only
          cases hf : f (c :: r) with
          | none => exact .failure hc h nofun (.failed ((decoderFor_some hl).mp hd) hf)
          | some r' =>
            dsimp only
            rw [hc]
            exact ih _ _ _ (.step h nofun ((decoderFor_some hl).mp hd) hf)

theorem undoes_unique {lower : Str → Str} (hl : NamesDiffer lower) {codecs : Codecs} {c : Str}
    {f g : Str → Option Str} (h1 : Undoes lower codecs c f) (h2 : Undoes lower codecs c g) : f = g := by
  have a := (decoderFor_some hl).mpr h1
  rw [(decoderFor_some hl).mpr h2] at a
  exact (Option.some.inj a).symm

theorem undone_unique {lower : Str → Str} (hl : NamesDiffer lower) {codecs : Codecs} {l : List (Elem Str)}
    {b r s : Str} (h1 : Undone lower codecs l b r) (h2 : Undone lower codecs l b s) : r = s := by
  induction h1 generalizing s with
  | nil => cases h2; rfl
  | step _ _ hu hf ih =>
    cases h2 with
    | step h2 _ hu' hf' =>
      cases ih h2
      cases undoes_unique hl hu hu'
      rw [hf] at hf'
      exact Option.some.inj hf'

/-- An intermediate result from which something was undone is not empty, and did not fail. -/
theorem undone_middle {lower : Str → Str} (hl : NamesDiffer lower) {codecs : Codecs} {pre post : List (Elem Str)}
    {coding : Elem Str} {b r s : Str} (h1 : Undone lower codecs (pre ++ coding :: post) b s)
    (h2 : Undone lower codecs post b r) : r ≠ [] ∧ ∀ ns, ¬ Fails lower codecs coding r ns := by
  induction pre generalizing s with
  | nil =>
    cases h1 with
    | step h1 hne hu hf =>
      cases undone_unique hl h1 h2
      refine ⟨hne, fun ns hfail => ?_⟩
      cases hfail with
      | unknown h => exact h _ hu
      | failed h h' =>
        cases undoes_unique hl hu h
        rw [hf] at h'
        cases h'
  | cons x pre ih =>
    cases h1 with
    | step h1 _ _ _ => exact ih h1

/-- Two ways to cut a list: one cut is not later than the other. -/
theorem cuts {α : Type} {a b c d : List α} (h : a ++ b = c ++ d) :
    (∃ m, a = c ++ m ∧ d = m ++ b) ∨ (∃ m, c = a ++ m ∧ b = m ++ d) := by
  rcases List.append_eq_append_iff.mp h with ⟨m, h1, h2⟩ | ⟨m, h1, h2⟩
  · exact .inr ⟨m, h1, h2⟩
  · exact .inl ⟨m, h1, h2⟩

/-- The outcome is determined. -/
theorem outcome_unique {lower : Str → Str} (hl : NamesDiffer lower) {codecs : Codecs} {codings : List (Elem Str)}
    {b : Str} {p q : Payload} {ns ms : List CodingNote} (h1 : Outcome lower codecs codings b p ns)
    (h2 : Outcome lower codecs codings b q ms) : p = q ∧ ns = ms := by
  have emptyEmpty : ∀ {r : Str} {pre post : List (Elem Str)}, codings = pre ++ post →
      Undone lower codecs post b [] → Undone lower codecs codings b r → r = [] := by
    intro r pre post hc h h'
    subst hc
    rcases List.eq_nil_or_concat pre with rfl | ⟨pre, x, rfl⟩
    · exact undone_unique hl h' h
    · rw [List.concat_eq_append, List.append_assoc] at h'
      exact absurd rfl (undone_middle hl h' h).1
  have allFail : ∀ {r s : Str} {pre post : List (Elem Str)} {c : Elem Str} {ns : List CodingNote},
      codings = pre ++ c :: post → Undone lower codecs post b r → Fails lower codecs c r ns →
      ¬ Undone lower codecs codings b s := by
    intro r s pre post c ns hc h hf h'
    subst hc
    exact (undone_middle hl h' h).2 _ hf
  have emptyFail : ∀ {r : Str} {pre post pre' post' : List (Elem Str)} {c : Elem Str} {ns : List CodingNote},
      codings = pre ++ post → Undone lower codecs post b [] →
      codings = pre' ++ c :: post' → Undone lower codecs post' b r → r ≠ [] → Fails lower codecs c r ns → False := by
    intro r pre post pre' post' c ns hc h hc' h' hne hf
    rcases cuts (hc.symm.trans hc') with ⟨m, rfl, hm⟩ | ⟨m, rfl, hm⟩
    · cases m with
      | nil =>
        simp only [List.nil_append] at hm
        subst hm
        exact (undone_middle (pre := []) hl h h').2 _ hf
      | cons x m =>
        simp only [List.cons_append, List.cons.injEq] at hm
        obtain ⟨rfl, rfl⟩ := hm
        rcases List.eq_nil_or_concat m with rfl | ⟨m, y, rfl⟩
        · exact hne (undone_unique hl h' h)
        · rw [List.concat_eq_append, List.append_assoc] at h'
          exact absurd rfl (undone_middle hl h' h).1
    · subst hm
      exact (undone_middle hl h h').2 _ hf
  have failFail : ∀ {r r' : Str} {pre post pre' post' : List (Elem Str)} {c c' : Elem Str} {ns ns' : List CodingNote},
      codings = pre ++ c :: post → Undone lower codecs post b r → Fails lower codecs c r ns →
      codings = pre' ++ c' :: post' → Undone lower codecs post' b r' → Fails lower codecs c' r' ns' →
      r = r' ∧ ns = ns' := by
    intro r r' pre post pre' post' c c' ns ns' hc h hf hc' h' hf'
    have : c = c' ∧ post = post' := by
      rcases cuts (hc.symm.trans hc') with ⟨m, rfl, hm⟩ | ⟨m, rfl, hm⟩
      · cases m with
        | nil => cases hm; exact ⟨rfl, rfl⟩
        | cons x m =>
          simp only [List.cons_append, List.cons.injEq] at hm
          obtain ⟨rfl, rfl⟩ := hm
          exact absurd hf (fun hf => (undone_middle hl h' h).2 _ hf)
      · cases m with
        | nil => cases hm; exact ⟨rfl, rfl⟩
        | cons x m =>
          simp only [List.cons_append, List.cons.injEq] at hm
          obtain ⟨rfl, rfl⟩ := hm
          exact absurd hf' (fun hf => (undone_middle hl h h').2 _ hf)
    obtain ⟨rfl, rfl⟩ := this
    cases undone_unique hl h h'
    refine ⟨rfl, ?_⟩
    cases hf with
    | malformed => cases hf'; rfl
    | unknown hu =>
      cases hf' with
      | unknown => rfl
      | failed hu' => exact absurd hu' (hu _)
    | failed hu hfl =>
      cases hf' with
      | unknown hu' => exact absurd hu (hu' _)
      | failed => rfl
  cases h1 with
  | all h1 =>
    cases h2 with
    | all h2 => cases undone_unique hl h1 h2; exact ⟨rfl, rfl⟩
    | empty hc h2 => cases emptyEmpty hc h2 h1; exact ⟨rfl, rfl⟩
    | failure hc h2 _ hf => exact absurd h1 (allFail hc h2 hf)
  | empty hc h1 =>
    cases h2 with
    | all h2 => cases emptyEmpty hc h1 h2; exact ⟨rfl, rfl⟩
    | empty => exact ⟨rfl, rfl⟩
    | failure hc' h2 hne hf => exact (emptyFail hc h1 hc' h2 hne hf).elim
  | failure hc h1 hne hf =>
    cases h2 with
    | all h2 => exact absurd h2 (allFail hc h1 hf)
    | empty hc' h2 => exact (emptyFail hc' h2 hc h1 hne hf).elim
    | failure hc' h2 _ hf' =>
      obtain ⟨rfl, rfl⟩ := failFail hc h1 hf hc' h2 hf'
      exact ⟨rfl, rfl⟩

/-- **C47**: `decoded_body` is the body with all codings undone from last to first, or empty if this gives
nothing on the way, or unavailable at the first coding that is malformed, unknown or fails, which is the
one reported. -/
theorem C47_decoded {lower : Str → Str} (hl : NamesDiffer lower) (codecs : Codecs) (codings : List (Elem Str))
    (b : Str) (p : Payload) (ns : List CodingNote) :
    decodedBody lower codecs codings (.bytes b) = (p, ns) ↔ Outcome lower codecs codings b p ns := by
  have h := decodeLoop_outcome hl (codecs := codecs) codings.reverse [] b b .nil
  rw [List.reverse_reverse, List.append_nil] at h
  constructor
  · intro he
    simp only [decodedBody] at he
    rw [he] at h
    exact h
  · intro h'
    obtain ⟨h1, h2⟩ := outcome_unique hl h h'
    exact Prod.ext h1 h2

/-- **C47**: a body that is not there stays so. -/
theorem C47_unknown_body (lower : Str → Str) (codecs : Codecs) (codings : List (Elem Str)) (inner : Option Str) :
    decodedBody lower codecs codings .none = (.none, []) ∧
      decodedBody lower codecs codings (.unavailable inner) = (.unavailable inner, []) := ⟨rfl, rfl⟩

/-- Applying codings, the first one first: `b` becomes `r`. -/
inductive Applied (encode : Str → Str → Str) : List Str → Str → Str → Prop
  | nil {b : Str} : Applied encode [] b b
  | step {coding : Str} {codings : List Str} {b r : Str} : Applied encode codings (encode coding b) r →
      Applied encode (coding :: codings) b r

/-- **C47**: applying known codings and decoding gives the body back, without any notice, provided that the
decoders undo what the encoders do and that encoders do not make something empty. -/
theorem C47_round_trip {lower : Str → Str} (hl : NamesDiffer lower) (codecs : Codecs) (encode : Str → Str → Str)
    (codings : List Str) (hk : ∀ c ∈ codings, ∃ f, Undoes lower codecs c f ∧ ∀ b, f (encode c b) = some b)
    (hne : ∀ c ∈ codings, ∀ b, encode c b ≠ []) (b r : Str) (ha : Applied encode codings b r) :
    decodedBody lower codecs (codings.map .ok) (.bytes r) = (.bytes b, []) := by
  rw [C47_decoded hl]
  refine .all ?_
  induction ha with
  | nil => exact .nil
  | @step c codings b r _ ih =>
    obtain ⟨f, hu, hf⟩ := hk c (by simp)
    exact .step (ih (fun c hc => hk c (by simp [hc])) fun c hc => hne c (by simp [hc])) (hne c (by simp) b) hu (hf b)

/-! ## Concrete cases -/

/-- Codecs that put a byte in front. -/
def toyCodecs : Codecs where
  gunzip s := if s.head? = some 1 then some s.tail else none
  inflate s := if s.head? = some 2 then some s.tail else none
  unbrotli s := if s.head? = some 3 then some s.tail else none

example : NamesDiffer asciiLower ∧
    decodedBody asciiLower toyCodecs [.ok (str "GZip"), .ok (str "br")] (.bytes [3, 1, 7]) = (.bytes [7], []) ∧
    decodedBody asciiLower toyCodecs [.ok (str "gzip"), .ok (str "br")] (.bytes [1, 3, 7]) =
      (.unavailable (some [1, 3, 7]), [⟨1037, str "br"⟩]) ∧
    decodedBody asciiLower toyCodecs [.ok (str "gzip"), .ok (str "zstd"), .ok (str "deflate")] (.bytes [2, 1, 7]) =
      (.unavailable (some [1, 7]), [⟨1036, str "zstd"⟩]) ∧
    decodedBody asciiLower toyCodecs [.ok (str "zstd"), .ok (str "deflate")] (.bytes [2]) = (.bytes [], []) := by
  unfold NamesDiffer
  decide

/-- An encoder for `C47_round_trip`. -/
def toyEncode (c b : Str) : Str := if c = str "gzip" then 1 :: b else 3 :: b

example : Applied toyEncode [str "gzip", str "br"] [7] [3, 1, 7] ∧
    ∀ c ∈ [str "gzip", str "br"], (∃ f, Undoes asciiLower toyCodecs c f ∧ ∀ b, f (toyEncode c b) = some b) ∧
      ∀ b, toyEncode c b ≠ [] := by
  refine ⟨.step (.step .nil), ?_⟩
  intro c hc
  simp only [List.mem_cons, List.not_mem_nil, or_false] at hc
  rcases hc with rfl | rfl
  · exact ⟨⟨_, .gzip rfl, fun b => rfl⟩, fun b => nofun⟩
  · exact ⟨⟨_, .br rfl, fun b => rfl⟩, fun b => nofun⟩

end Httpolice.Props
