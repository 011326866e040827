import Verif.Lemmas.Addresses

/-!
# What the names for URIs come to
-/

namespace Httpolice.Lemmas

open Httpolice.Model Httpolice.Spec

variable {u v w : Str}

/-! ## Parts -/

/-- An authority or not, and a path. -/
def hierL (relative : Prop) : Str → Prop := fun w =>
  ∃ (a : Option Authority) (p : Str), (∀ x, a = some x → x.Ok) ∧ IsPath p ∧ (a ≠ none → p = [] ∨ p.head? = some 47) ∧
    (a = none → ¬ str "//" <+: p) ∧ (a = none → relative → 58 ∉ firstSegment p) ∧
    w = before (str "//") (a.map Authority.text) ++ p

/-- Something after a sign, perhaps. -/
def partL (sign : Str) (L : Str → Prop) : Str → Prop := fun w =>
  ∃ x : Option Str, (∀ y, x = some y → L y) ∧ w = before sign x

theorem part_iff (sign : Str) (L : Str → Prop) (w : Str) : optL (catL (fun w => w = sign) L) w ↔ partL sign L w := by
  constructor
  · rintro (⟨_, y, rfl, h, rfl⟩ | rfl)
    · exact ⟨some y, fun _ e => by cases e; exact h, rfl⟩
    · exact ⟨none, nofun, rfl⟩
  · rintro ⟨_ | y, h, rfl⟩
    · exact .inr rfl
    · exact .inl ⟨sign, y, rfl, h y rfl, rfl⟩

/-- What the names come to. -/
def uriL : UriName → Str → Prop
  | .pctEncoded => percentL
  | .pchar => unitL PathChar
  | .segment => Encoded PathChar
  | .segmentNz => fun w => w ≠ [] ∧ Encoded PathChar w
  | .segmentNzNc => fun w => w ≠ [] ∧ Encoded (fun c => Unreserved c ∨ SubDelim c ∨ c = 64) w
  | .scheme => IsScheme
  | .userinfo => Encoded (fun c => Unreserved c ∨ SubDelim c ∨ c = 58)
  | .decOctet => IsByteNumber
  | .ipv4 => IsIPv4
  | .h16 => IsPiece
  | .ls32 => countL 2
  | .ipv6 => IsIPv6
  | .ipvFuture => IsIPvFuture
  | .zoneId => IsZone
  | .ipv6z => fun w => ∃ a z, IsIPv6 a ∧ IsZone z ∧ w = a ++ str "%25" ++ z
  | .ipLiteral => fun w => ∃ a, IsBracketed a ∧ w = 91 :: a ++ [93]
  | .regName => Encoded (fun c => Unreserved c ∨ SubDelim c)
  | .host => IsHost
  | .port => IsPort
  | .authority | .authorityForm => IsAuthority
  | .pathAbempty => slashesL
  | .pathAbsolute => fun w => IsPath w ∧ w.head? = some 47 ∧ ¬ str "//" <+: w
  | .pathNoscheme => fun w => IsPath w ∧ w ≠ [] ∧ w.head? ≠ some 47 ∧ 58 ∉ firstSegment w
  | .pathRootless => fun w => IsPath w ∧ w ≠ [] ∧ w.head? ≠ some 47
  | .pathEmpty => fun w => w = []
  | .hierPart => hierL False
  | .query | .fragment => IsQuery
  | .absoluteUri | .absoluteForm => IsAbsoluteUri
  | .relativePart => hierL True
  | .uri => fun w => ∃ x : Uri, x.Ok ∧ x.scheme ≠ none ∧ w = x.text
  | .relativeRef => fun w => ∃ x : Uri, x.Ok ∧ x.scheme = none ∧ w = x.text
  | .uriReference | .location => IsUriReference
  | .absolutePath => fun w => IsPath w ∧ w.head? = some 47
  | .partialUri => fun w => ∃ x : Uri, x.Ok ∧ x.scheme = none ∧ x.fragment = none ∧ w = x.text
  | .originForm => IsOriginForm
  | .asteriskForm => fun w => w = str "*"
  | .requestTarget => fun w => IsOriginForm w ∨ IsAbsoluteUri w ∨ IsAuthority w ∨ w = str "*"
  | .hostHeader => IsHostHeader
  | .contentLocation | .referer => IsUriNoFragment

/-- What the names come to. -/
def uriD (n : UriName) : Den := verbD (uriL n)

theorem chars_iff {bits : Nat → Bool} {P : Nat → Prop} (h : ∀ c, bits c = true ↔ P c) (w : Str) :
    timesL (oneL bits) 0 none w ↔ ∀ c ∈ w, P c := by
  constructor
  · rintro ⟨ws, h1, hl, rfl⟩ c hc
    obtain ⟨u, hu, hc⟩ := List.mem_flatten.mp hc
    obtain ⟨d, hd, rfl⟩ := h1 u hu
    obtain rfl := List.mem_singleton.mp hc
    exact (h c).mp hd
  · intro hw
    refine ⟨w.map fun c => [c], ?_, ⟨Nat.zero_le _, nofun⟩, ?_⟩
    · intro u hu
      obtain ⟨c, hc, rfl⟩ := List.mem_map.mp hu
      exact ⟨c, (h c).mpr (hw c hc), rfl⟩
    · rw [← List.flatMap_def, flatMap_single]

theorem chars1_iff {bits : Nat → Bool} {P : Nat → Prop} (h : ∀ c, bits c = true ↔ P c) (w : Str) :
    timesL (oneL bits) 1 none w ↔ w ≠ [] ∧ ∀ c ∈ w, P c := by
  rw [times_one (by rintro _ ⟨c, _, rfl⟩; nofun), chars_iff h]

theorem unit_bits {bits : Nat → Bool} {P : Nat → Prop} (h : ∀ c, bits c = true ↔ P c) :
    orL (oneL bits) percentL = unitL P := by
  funext w
  refine propext (or_congr ⟨?_, ?_⟩ Iff.rfl)
  · rintro ⟨c, hc, rfl⟩; exact ⟨c, (h c).mp hc, rfl⟩
  · rintro ⟨c, hc, rfl⟩; exact ⟨c, (h c).mpr hc, rfl⟩

local macro "verb" : tactic => `(tactic| simp only [GExpr.den, GExpr.part, GExpr.slashSegment, GExpr.maybeQuery, GExpr.maybeFragment,
  GExpr.netPath, GExpr.gap, GExpr.upTo, GExpr.h16s, GExpr.range, uriD, verb_chars, verb_one, verb_or, verb_add, verb_maybe, verb_many, verb_many1,
  lit_percent, lit_1, lit_2, lit_25, lit_dot, lit_colon, lit_gap, lit_zone, lit_open, lit_close, lit_at, lit_slash, lit_slashes,
  lit_mark, lit_hash, lit_star, verb_times _ 1 (some 4) (by simp), verb_times _ 6 (some 6) (by simp), verb_times _ 5 (some 5) (by simp),
  verb_times _ 4 (some 4) (by simp), verb_times _ 3 (some 3) (by simp), verb_times _ 2 (some 2) (by simp),
  verb_times _ 0 (some 1) (by simp), verb_times _ 0 (some 2) (by simp), verb_times _ 0 (some 3) (by simp),
  verb_times _ 0 (some 4) (by simp), verb_times _ 0 (some 5) (by simp), verb_times _ 0 (some 6) (by simp)])

/-- By what the expression comes to as a language. -/
theorem named_verb {p : Bool} {e : GExpr UriName} {L : Str → Prop} {n : UriName} (h : oneD (e.den uriD) = verbD L)
    (hL : ∀ w, L w ↔ uriL n w) : anyOrder ((Defn.named p e).den uriD) = anyOrder (uriD n) :=
  named_alike (.of_eq (h.trans (verb_congr hL)))

theorem percent_iff (w : Str) : catL (catL (fun w => w = [37]) (oneL hexBits)) (oneL hexBits) w ↔ percentL w := by
  constructor
  · rintro ⟨_, _, ⟨_, _, rfl, ⟨a, h1, rfl⟩, rfl⟩, ⟨b, h2, rfl⟩, rfl⟩
    exact ⟨a, b, (hex_iff a).mp h1, (hex_iff b).mp h2, rfl⟩
  · rintro ⟨a, b, h1, h2, rfl⟩
    exact ⟨_, _, ⟨_, _, rfl, ⟨a, (hex_iff a).mpr h1, rfl⟩, rfl⟩, ⟨b, (hex_iff b).mpr h2, rfl⟩, rfl⟩

theorem schemeName_iff (w : Str) : catL (oneL alphaBits) (timesL (oneL schemeBits) 0 none) w ↔ IsScheme w := by
  constructor
  · rintro ⟨_, r, ⟨c, h, rfl⟩, h2, rfl⟩
    exact ⟨c, r, (alpha_iff c).mp h, (chars_iff scheme_iff r).mp h2, rfl⟩
  · rintro ⟨c, r, h, h2, rfl⟩
    exact ⟨[c], r, ⟨c, (alpha_iff c).mpr h, rfl⟩, (chars_iff scheme_iff r).mpr h2, rfl⟩

theorem sameWord_v (w : Str) : SameWord w (str "v") ↔ w = [86] ∨ w = [118] := by
  constructor
  · intro h
    have e : str "v" = [118] := by decide +kernel
    rw [e] at h
    obtain ⟨a, rfl, h'⟩ : ∃ a, w = [a] ∧ SameLetter a 118 := by
      cases h with
      | cons h t => cases t; exact ⟨_, rfl, h⟩
    rcases (show a = 118 ∨ a = 86 by unfold SameLetter at h'; omega) with rfl | rfl
    · exact .inr rfl
    · exact .inl rfl
  · rintro (rfl | rfl)
    · exact .cons (.inr (.inl (by decide))) .nil
    · exact .cons (.inl rfl) .nil

theorem future_iff (w : Str) : catL (catL (catL (fun w => SameWord w (str "v")) (timesL (oneL hexBits) 1 none)) (fun w => w = [46]))
    (timesL (oneL userinfoBits) 1 none) w ↔ IsIPvFuture w := by
  constructor
  · rintro ⟨_, r, ⟨_, _, ⟨v, x, h1, h2, rfl⟩, rfl, rfl⟩, h3, rfl⟩
    have h2 := (chars1_iff hex_iff x).mp h2
    have h3 := (chars1_iff userinfo_iff r).mp h3
    rcases (sameWord_v v).mp h1 with rfl | rfl
    · exact ⟨86, x, r, .inl rfl, h2, h3, by simp⟩
    · exact ⟨118, x, r, .inr rfl, h2, h3, by simp⟩
  · rintro ⟨v, x, r, h1, h2, h3, rfl⟩
    refine ⟨_, r, ⟨_, _, ⟨[v], x, (sameWord_v _).mpr (by simpa using h1), (chars1_iff hex_iff x).mpr h2, rfl⟩, rfl, rfl⟩,
      (chars1_iff userinfo_iff r).mpr h3, by simp⟩

theorem byteNumber_encoded (h : IsByteNumber w) : Encoded (fun c => Unreserved c ∨ SubDelim c) w := by
  have : ∀ v : Str, (∀ c ∈ v, 48 ≤ c ∧ c ≤ 57) → Encoded (fun c => Unreserved c ∨ SubDelim c) v := by
    intro v hv
    induction v with
    | nil => exact .nil
    | cons c v ih =>
      simp only [List.mem_cons, forall_eq_or_imp] at hv
      exact .char (.inl (.inr (.inl hv.1))) (ih hv.2)
  exact this w h.1.2

theorem ipv4_encoded (h : IsIPv4 w) : Encoded (fun c => Unreserved c ∨ SubDelim c) w := by
  obtain ⟨a, b, c, d, h1, h2, h3, h4, rfl⟩ := h
  have dot : Encoded (fun c => Unreserved c ∨ SubDelim c) (str ".") := by
    refine .char (.inl (.inr (.inr ?_))) .nil
    rw [unreserved_signs]
    decide
  exact encoded_append (encoded_append (encoded_append (encoded_append (encoded_append (encoded_append
    (byteNumber_encoded h1) dot) (byteNumber_encoded h2)) dot) (byteNumber_encoded h3)) dot) (byteNumber_encoded h4)

theorem host_iff (w : Str) : orL (orL (uriL .ipLiteral) IsIPv4) (uriL .regName) w ↔ IsHost w :=
  ⟨fun h => by
    rcases h with (h | h) | h
    · exact .inl h
    · exact .inr (ipv4_encoded h)
    · exact .inr h, fun h => h.elim (fun h => .inl (.inl h)) .inr⟩

theorem authority_iff (w : Str) : catL (catL (optL (catL (uriL .userinfo) (fun w => w = [64]))) IsHost)
    (optL (catL (fun w => w = [58]) IsPort)) w ↔ IsAuthority w := by
  constructor
  · rintro ⟨_, p, ⟨x, y, h1, h2, rfl⟩, h3, rfl⟩
    obtain ⟨p, h4, rfl⟩ := (part_iff [58] IsPort p).mp h3
    rcases h1 with ⟨x, _, h1, rfl, rfl⟩ | rfl
    · exact ⟨⟨some x, y, p⟩, ⟨fun _ e => by cases e; exact h1, h2, h4⟩, rfl⟩
    · exact ⟨⟨none, y, p⟩, ⟨nofun, h2, h4⟩, rfl⟩
  · rintro ⟨⟨x, y, p⟩, ⟨h1, h2, h3⟩, rfl⟩
    refine ⟨_, _, ⟨after (str "@") x, y, ?_, h2, rfl⟩, (part_iff [58] IsPort _).mpr ⟨p, h3, rfl⟩, rfl⟩
    cases x with
    | none => exact .inr rfl
    | some x => exact .inl ⟨x, [64], h1 x rfl, rfl, rfl⟩

theorem hostHeader_iff (w : Str) : catL IsHost (optL (catL (fun w => w = [58]) IsPort)) w ↔ IsHostHeader w := by
  constructor
  · rintro ⟨y, p, h2, h3, rfl⟩
    obtain ⟨p, h4, rfl⟩ := (part_iff [58] IsPort p).mp h3
    exact ⟨y, p, h2, h4, rfl⟩
  · rintro ⟨y, p, h2, h3, rfl⟩
    exact ⟨y, _, h2, (part_iff [58] IsPort _).mpr ⟨p, h3, rfl⟩, rfl⟩

/-- `"//" authority path-abempty` and paths. -/
theorem hier_iff (relative : Prop) {R : Str → Prop}
    (hR : ∀ w, R w ↔ IsPath w ∧ w ≠ [] ∧ w.head? ≠ some 47 ∧ (relative → 58 ∉ firstSegment w)) (w : Str) :
    orL (orL (orL (catL (catL (fun w => w = [47, 47]) IsAuthority) slashesL) (uriL .pathAbsolute)) R) (fun w => w = []) w ↔
      hierL relative w := by
  constructor
  · rintro (((⟨_, p, ⟨_, _, rfl, ⟨a, h1, rfl⟩, rfl⟩, h2, rfl⟩ | ⟨h1, h2, h3⟩) | h) | rfl)
    · obtain ⟨h3, h4⟩ := slashes_path h2
      exact ⟨some a, p, fun _ e => by cases e; exact h1, h3, fun _ => h4, nofun, nofun, rfl⟩
    · refine ⟨none, w, nofun, h1, fun h => absurd rfl h, fun _ => h3, fun _ _ => ?_, rfl⟩
      cases w with
      | nil => cases h2
      | cons c w =>
        cases h2
        show 58 ∉ firstSegment (47 :: w)
        simp [firstSegment]
    · obtain ⟨h1, h2, h3, h4⟩ := (hR w).mp h
      refine ⟨none, w, nofun, h1, fun h => absurd rfl h, fun _ => ?_, fun _ => h4, rfl⟩
      rw [twoSlashes]
      rintro ⟨v, rfl⟩
      exact h3 rfl
    · exact ⟨none, [], nofun, .nil, fun h => absurd rfl h, fun _ => by decide, fun _ _ => by decide, rfl⟩
  · rintro ⟨_ | a, p, h1, h2, h3, h4, h5, hw⟩
    · have hw : w = p := hw
      rw [hw]
      by_cases hp : p = []
      · exact .inr hp
      by_cases hs : p.head? = some 47
      · exact .inl (.inl (.inr ⟨h2, hs, h4 rfl⟩))
      · exact .inl (.inr ((hR p).mpr ⟨h2, hp, hs, h5 rfl⟩))
    · rw [hw]
      exact .inl (.inl (.inl ⟨_, p, ⟨_, _, rfl, ⟨a, h1 a rfl, rfl⟩, rfl⟩, (slashes_iff p).mpr ⟨h2, h3 nofun⟩, rfl⟩))

theorem query_iff (w : Str) : timesL (orL (orL (unitL PathChar) (fun w => w = [47])) (fun w => w = [63])) 0 none w ↔ IsQuery w := by
  unfold IsQuery
  rw [← encoded_iff]
  have : orL (orL (unitL PathChar) (fun w => w = [47])) (fun w => w = [63]) = unitL (fun c => PathChar c ∨ c = 47 ∨ c = 63) := by
    funext w
    refine propext ⟨?_, ?_⟩
    · rintro (((⟨c, h, rfl⟩ | h) | rfl) | rfl)
      · exact .inl ⟨c, .inl h, rfl⟩
      · exact .inr h
      · exact .inl ⟨47, .inr (.inl rfl), rfl⟩
      · exact .inl ⟨63, .inr (.inr rfl), rfl⟩
    · rintro (⟨c, h | rfl | rfl, rfl⟩ | h)
      · exact .inl (.inl (.inl ⟨c, h, rfl⟩))
      · exact .inl (.inr rfl)
      · exact .inr rfl
      · exact .inl (.inl (.inr h))
  rw [this]

/-! ## URIs -/

theorem absolute_uri_iff (w : Str) : catL (catL (catL IsScheme (fun w => w = [58])) (hierL False))
    (optL (catL (fun w => w = [63]) IsQuery)) w ↔ IsAbsoluteUri w := by
  constructor
  · rintro ⟨_, q, ⟨_, _, ⟨s, _, h1, rfl, rfl⟩, ⟨a, p, h2, h3, h4, h5, _, rfl⟩, rfl⟩, h7, rfl⟩
    obtain ⟨q, h7', rfl⟩ := (part_iff [63] IsQuery q).mp h7
    refine ⟨⟨some s, a, p, q, none⟩, ⟨fun _ e => by cases e; exact h1, h2, h3, h7', nofun, h4, h5, nofun⟩, nofun, rfl, ?_⟩
    simp [Uri.text, after, before]
    rfl
  · rintro ⟨⟨_ | s, a, p, q, f⟩, h, hs, rfl, rfl⟩
    · exact absurd rfl hs
    · refine ⟨_, before (str "?") q, ⟨_, _, ⟨s, [58], h.scheme s rfl, rfl, rfl⟩,
        ⟨a, p, h.authority, h.path, h.rooted, h.single, nofun, rfl⟩, rfl⟩, (part_iff [63] IsQuery _).mpr ⟨q, h.query, rfl⟩, ?_⟩
      simp [Uri.text, after, before]
      rfl

theorem uri_iff (w : Str) : catL (catL (catL (catL IsScheme (fun w => w = [58])) (hierL False))
    (optL (catL (fun w => w = [63]) IsQuery))) (optL (catL (fun w => w = [35]) IsQuery)) w ↔ uriL .uri w := by
  constructor
  · rintro ⟨_, f, ⟨_, q, ⟨_, _, ⟨s, _, h1, rfl, rfl⟩, ⟨a, p, h2, h3, h4, h5, _, rfl⟩, rfl⟩, h7, rfl⟩, h8, rfl⟩
    obtain ⟨q, h7', rfl⟩ := (part_iff [63] IsQuery q).mp h7
    obtain ⟨f, h8', rfl⟩ := (part_iff [35] IsQuery f).mp h8
    refine ⟨⟨some s, a, p, q, f⟩, ⟨fun _ e => by cases e; exact h1, h2, h3, h7', h8', h4, h5, nofun⟩, nofun, ?_⟩
    simp [Uri.text, after]
    rfl
  · rintro ⟨⟨_ | s, a, p, q, f⟩, h, hs, rfl⟩
    · exact absurd rfl hs
    · refine ⟨_, before (str "#") f, ⟨_, before (str "?") q, ⟨_, _, ⟨s, [58], h.scheme s rfl, rfl, rfl⟩,
        ⟨a, p, h.authority, h.path, h.rooted, h.single, nofun, rfl⟩, rfl⟩, (part_iff [63] IsQuery _).mpr ⟨q, h.query, rfl⟩, rfl⟩,
        (part_iff [35] IsQuery _).mpr ⟨f, h.fragment, rfl⟩, ?_⟩
      simp [Uri.text, after]
      rfl

theorem partial_iff (w : Str) : catL (hierL True) (optL (catL (fun w => w = [63]) IsQuery)) w ↔ uriL .partialUri w := by
  constructor
  · rintro ⟨_, q, ⟨a, p, h2, h3, h4, h5, h6, rfl⟩, h7, rfl⟩
    obtain ⟨q, h7', rfl⟩ := (part_iff [63] IsQuery q).mp h7
    refine ⟨⟨none, a, p, q, none⟩, ⟨nofun, h2, h3, h7', nofun, h4, h5, fun h _ => h6 h trivial⟩, rfl, rfl, ?_⟩
    simp [Uri.text, after, before]
    rfl
  · rintro ⟨⟨_, a, p, q, _⟩, h, rfl, rfl, rfl⟩
    refine ⟨_, before (str "?") q, ⟨a, p, h.authority, h.path, h.rooted, h.single, fun k _ => h.plain k rfl, rfl⟩,
      (part_iff [63] IsQuery _).mpr ⟨q, h.query, rfl⟩, ?_⟩
    simp [Uri.text, after, before]

theorem relative_iff (w : Str) : catL (catL (hierL True) (optL (catL (fun w => w = [63]) IsQuery)))
    (optL (catL (fun w => w = [35]) IsQuery)) w ↔ uriL .relativeRef w := by
  constructor
  · rintro ⟨_, f, ⟨_, q, ⟨a, p, h2, h3, h4, h5, h6, rfl⟩, h7, rfl⟩, h8, rfl⟩
    obtain ⟨q, h7', rfl⟩ := (part_iff [63] IsQuery q).mp h7
    obtain ⟨f, h8', rfl⟩ := (part_iff [35] IsQuery f).mp h8
    refine ⟨⟨none, a, p, q, f⟩, ⟨nofun, h2, h3, h7', h8', h4, h5, fun h _ => h6 h trivial⟩, rfl, ?_⟩
    simp [Uri.text, after]
    rfl
  · rintro ⟨⟨_, a, p, q, f⟩, h, rfl, rfl⟩
    refine ⟨_, before (str "#") f, ⟨_, before (str "?") q, ⟨a, p, h.authority, h.path, h.rooted, h.single,
      fun k _ => h.plain k rfl, rfl⟩, (part_iff [63] IsQuery _).mpr ⟨q, h.query, rfl⟩, rfl⟩,
      (part_iff [35] IsQuery _).mpr ⟨f, h.fragment, rfl⟩, ?_⟩
    simp [Uri.text, after]

theorem reference_iff (w : Str) : orL (uriL .uri) (uriL .relativeRef) w ↔ IsUriReference w := by
  constructor
  · rintro (⟨x, h1, _, h2⟩ | ⟨x, h1, _, h2⟩) <;> exact ⟨x, h1, h2⟩
  · rintro ⟨x, h1, h2⟩
    by_cases h : x.scheme = none
    · exact .inr ⟨x, h1, h, h2⟩
    · exact .inl ⟨x, h1, h, h2⟩

theorem noFragment_iff (w : Str) : orL IsAbsoluteUri (uriL .partialUri) w ↔ IsUriNoFragment w := by
  constructor
  · rintro (⟨x, h1, _, h2, h3⟩ | ⟨x, h1, _, h2, h3⟩) <;> exact ⟨x, h1, h2, h3⟩
  · rintro ⟨x, h1, h2, h3⟩
    by_cases h : x.scheme = none
    · exact .inr ⟨x, h1, h, h2, h3⟩
    · exact .inl ⟨x, h1, h, h2, h3⟩

theorem origin_iff (w : Str) : catL (uriL .absolutePath) (optL (catL (fun w => w = [63]) IsQuery)) w ↔ IsOriginForm w := by
  constructor
  · rintro ⟨p, q, ⟨h1, h2⟩, h3, rfl⟩
    obtain ⟨q, h3', rfl⟩ := (part_iff [63] IsQuery q).mp h3
    exact ⟨p, q, h1, h2, h3', rfl⟩
  · rintro ⟨p, q, h1, h2, h3, rfl⟩
    exact ⟨p, _, ⟨h1, h2⟩, (part_iff [63] IsQuery _).mpr ⟨q, h3, rfl⟩, rfl⟩

theorem target_iff (w : Str) : orL (orL (orL IsOriginForm IsAbsoluteUri) IsAuthority) (fun w => w = str "*") w ↔
    uriL .requestTarget w := by
  show ((_ ∨ _) ∨ _) ∨ _ ↔ _ ∨ _ ∨ _ ∨ _
  rw [or_assoc, or_assoc]

theorem encodedBits_iff {bits : Nat → Bool} {P : Nat → Prop} (h : ∀ c, bits c = true ↔ P c) (w : Str) :
    timesL (orL (oneL bits) percentL) 0 none w ↔ Encoded P w := by
  rw [unit_bits h]
  exact encoded_iff _ w

theorem encodedBits1_iff {bits : Nat → Bool} {P : Nat → Prop} (h : ∀ c, bits c = true ↔ P c) (w : Str) :
    timesL (orL (oneL bits) percentL) 1 none w ↔ w ≠ [] ∧ Encoded P w := by
  rw [unit_bits h]
  exact encoded_iff1 _ w

theorem langs {L M : Str → Prop} (h : ∀ w, L w ↔ M w) : L = M := funext fun w => propext (h w)

/-- The nine forms of an IPv6 address. -/
theorem ipv6_forms (w : Str) :
    orL (orL (orL (orL (orL (orL (orL (orL
      (catL (timesL pieceColonL 6 (some 6)) (countL 2))
      (catL (catL (fun w => w = [58, 58]) (timesL pieceColonL 5 (some 5))) (countL 2)))
      (catL (catL (catL (optL IsPiece) (fun w => w = [58, 58])) (timesL pieceColonL 4 (some 4))) (countL 2)))
      (catL (catL (catL (optL (catL (timesL pieceColonL 0 (some 1)) IsPiece)) (fun w => w = [58, 58]))
        (timesL pieceColonL 3 (some 3))) (countL 2)))
      (catL (catL (catL (optL (catL (timesL pieceColonL 0 (some 2)) IsPiece)) (fun w => w = [58, 58]))
        (timesL pieceColonL 2 (some 2))) (countL 2)))
      (catL (catL (catL (catL (optL (catL (timesL pieceColonL 0 (some 3)) IsPiece)) (fun w => w = [58, 58])) IsPiece)
        (fun w => w = [58])) (countL 2)))
      (catL (catL (optL (catL (timesL pieceColonL 0 (some 4)) IsPiece)) (fun w => w = [58, 58])) (countL 2)))
      (catL (catL (optL (catL (timesL pieceColonL 0 (some 5)) IsPiece)) (fun w => w = [58, 58])) IsPiece))
      (catL (optL (catL (timesL pieceColonL 0 (some 6)) IsPiece)) (fun w => w = [58, 58])) w ↔ IsIPv6 w := by
  have e0 : gapL 0 7 = catL (fun w => w = [58, 58]) (countL 7) := by
    unfold gapL
    rw [← langs front0_iff]
    funext w
    refine propext ⟨?_, fun h => ⟨[], w, rfl, h, rfl⟩⟩
    rintro ⟨_, v, rfl, h, rfl⟩
    exact h
  have e7 : gapL 7 0 = catL (frontL 7) (fun w => w = [58, 58]) := by
    unfold gapL
    rw [← langs count0_iff]
    congr 1
    funext w
    refine propext ⟨?_, fun h => ⟨w, [], h, rfl, (List.append_nil w).symm⟩⟩
    rintro ⟨_, v, rfl, rfl, rfl⟩
    rfl
  rw [← ipv6_iff, e0, e7]
  unfold gapL
  rw [langs (front_iff 1), langs (front_iff 2), langs (front_iff 3), langs (front_iff 4), langs (front_iff 5),
    langs (front_iff 6), langs front1_iff]
  simp only [catL_assoc]
  rw [langs (tail_iff 6), langs (tail_iff 5), langs (tail_iff 4), langs (tail_iff 3), langs (tail_iff 2)]
  rw [← catL_assoc IsPiece, langs tail1_iff, langs count1_iff]

local macro "fine" : tactic => `(tactic| simp_all [Defn.Fine, GExpr.Fine, GExpr.slashSegment, GExpr.maybeQuery, GExpr.maybeFragment,
  GExpr.netPath, GExpr.gap, GExpr.upTo, GExpr.h16s, GExpr.range])

theorem bracketed_iff (w : Str) : catL (catL (fun w => w = [91]) (orL (orL IsIPv6 (uriL .ipv6z)) IsIPvFuture)) (fun w => w = [93]) w ↔
    uriL .ipLiteral w := by
  constructor
  · rintro ⟨_, _, ⟨_, a, rfl, (h | h) | h, rfl⟩, rfl, rfl⟩
    · exact ⟨a, .inl h, rfl⟩
    · exact ⟨a, .inr (.inl h), rfl⟩
    · exact ⟨a, .inr (.inr h), rfl⟩
  · rintro ⟨a, h | h | h, rfl⟩
    · exact ⟨_, _, ⟨_, a, rfl, .inl (.inl h), rfl⟩, rfl, rfl⟩
    · exact ⟨_, _, ⟨_, a, rfl, .inl (.inr h), rfl⟩, rfl, rfl⟩
    · exact ⟨_, _, ⟨_, a, rfl, .inr h, rfl⟩, rfl, rfl⟩

theorem zoned_iff (w : Str) : catL (catL IsIPv6 (fun w => w = [37, 50, 53])) IsZone w ↔ uriL .ipv6z w := by
  constructor
  · rintro ⟨_, z, ⟨a, _, h1, rfl, rfl⟩, h2, rfl⟩
    exact ⟨a, z, h1, h2, rfl⟩
  · rintro ⟨a, z, h1, h2, rfl⟩
    exact ⟨_, z, ⟨a, _, h1, rfl, rfl⟩, h2, rfl⟩

theorem empty_verb : oneD ((GExpr.subst (.text []) .empty : GExpr UriName).den uriD) = verbD (fun w => w = []) := by
  funext w vs cs
  refine propext ⟨?_, ?_⟩
  · rintro ⟨xs, h, rfl⟩
    obtain ⟨rfl, rfl, rfl⟩ := subst_empty.mp h
    exact ⟨[], rfl, rfl, rfl, rfl⟩
  · rintro ⟨_, rfl, rfl, rfl, rfl⟩
    exact ⟨_, subst_empty.mpr ⟨rfl, rfl, rfl⟩, rfl⟩

local macro "by_verb" : term => `(by verb; first | done | rfl)

/-- URIs. -/
theorem uris_solve : Solves [] uriD uriDefs := by
  refine ⟨by fine, named_verb by_verb percent_iff, ?_⟩
  refine ⟨by fine, named_verb by_verb (fun w => iff_of_eq (congrFun (unit_bits pchar_iff) w)), ?_⟩
  refine ⟨by fine, named_verb by_verb (encoded_iff PathChar), ?_⟩
  refine ⟨by fine, named_verb by_verb (encoded_iff1 PathChar), ?_⟩
  refine ⟨by fine, named_verb by_verb (encodedBits1_iff noColon_iff), ?_⟩
  refine ⟨by fine, named_verb by_verb schemeName_iff, ?_⟩
  refine ⟨by fine, named_verb by_verb (encodedBits_iff userinfo_iff), ?_⟩
  refine ⟨by fine, named_verb by_verb byteNumber_iff, ?_⟩
  refine ⟨by fine, named_verb by_verb ipv4_iff, ?_⟩
  refine ⟨by fine, named_verb by_verb piece_iff, ?_⟩
  refine ⟨by fine, named_verb by_verb ls32_iff, ?_⟩
  refine ⟨by fine, named_verb by_verb ipv6_forms, ?_⟩
  refine ⟨by fine, named_verb (by verb; rw [verb_lit]; verb) future_iff, ?_⟩
  refine ⟨by fine, named_verb by_verb (encodedBits1_iff unreserved_iff), ?_⟩
  refine ⟨by fine, named_verb by_verb zoned_iff, ?_⟩
  refine ⟨by fine, named_verb by_verb bracketed_iff, ?_⟩
  refine ⟨by fine, named_verb by_verb (encodedBits_iff regName_iff), ?_⟩
  refine ⟨by fine, named_verb by_verb host_iff, ?_⟩
  refine ⟨by fine, named_verb by_verb (chars_iff digitBits_iff), ?_⟩
  refine ⟨by fine, named_verb by_verb authority_iff, ?_⟩
  refine ⟨by fine, named_verb by_verb (fun _ => Iff.rfl), ?_⟩
  refine ⟨by fine, named_verb by_verb absolute_iff, ?_⟩
  refine ⟨by fine, named_verb by_verb noscheme_iff, ?_⟩
  refine ⟨by fine, named_verb by_verb rootless_iff, ?_⟩
  refine ⟨by fine, named_verb empty_verb (fun _ => Iff.rfl), ?_⟩
  refine ⟨by fine, named_verb by_verb (hier_iff False (R := uriL .pathRootless)
    (fun w => ⟨fun h => ⟨h.1, h.2.1, h.2.2, nofun⟩, fun h => ⟨h.1, h.2.1, h.2.2.1⟩⟩)), ?_⟩
  refine ⟨by fine, named_verb by_verb query_iff, ?_⟩
  refine ⟨by fine, named_verb by_verb query_iff, ?_⟩
  refine ⟨by fine, named_verb by_verb absolute_uri_iff, ?_⟩
  refine ⟨by fine, named_verb by_verb (hier_iff True (R := uriL .pathNoscheme)
    (fun w => ⟨fun h => ⟨h.1, h.2.1, h.2.2.1, fun _ => h.2.2.2⟩, fun h => ⟨h.1, h.2.1, h.2.2.1, h.2.2.2 trivial⟩⟩)), ?_⟩
  refine ⟨by fine, named_verb by_verb uri_iff, ?_⟩
  refine ⟨by fine, named_verb by_verb relative_iff, ?_⟩
  refine ⟨by fine, named_verb by_verb reference_iff, ?_⟩
  refine ⟨by fine, named_verb by_verb slashes1_iff, ?_⟩
  refine ⟨by fine, named_verb by_verb partial_iff, ?_⟩
  refine ⟨by fine, named_verb by_verb origin_iff, ?_⟩
  refine ⟨by fine, named_verb by_verb (fun _ => Iff.rfl), ?_⟩
  refine ⟨by fine, named_verb by_verb (fun _ => Iff.rfl), ?_⟩
  refine ⟨by fine, named_verb by_verb (fun _ => Iff.rfl), ?_⟩
  refine ⟨by fine, named_verb by_verb target_iff, ?_⟩
  refine ⟨by fine, named_verb by_verb hostHeader_iff, ?_⟩
  refine ⟨by fine, named_verb by_verb noFragment_iff, ?_⟩
  refine ⟨by fine, named_verb by_verb (fun _ => Iff.rfl), ?_⟩
  refine ⟨by fine, named_verb by_verb noFragment_iff, ?_⟩
  trivial

end Httpolice.Lemmas
