import Verif.Model.Text
import Verif.Lemmas.Basic

/-!
# Properties C42 (clean report text), C43 (character lists), C56 (joining for humans)
-/

namespace Httpolice.Props

open Httpolice.Model Httpolice.Lemmas

/-! ## C56 -/

theorem nicelyJoin_many_aux (n : Nat) (hn : n > 2) (init : List Str) (k : Nat) (acc : Str)
    (hk : k + init.length < n) :
    (init.zipIdx k).foldl (nicelyJoinStep n) acc = acc ++ init.flatMap (· ++ str ", ") := by
  induction init generalizing k acc with
  | nil => simp
  | cons a init ih =>
    simp only [List.length_cons] at hk
    simp only [List.zipIdx_cons, List.foldl_cons]
    have hstep : nicelyJoinStep n acc (a, k) = acc ++ (a ++ str ", ") := by
      unfold nicelyJoinStep
      have h1 : ¬ ((k : Int) = (n : Int) - 1) := by omega
      have h2 : (k : Int) < (n : Int) - 1 := by omega
      simp only [h1, h2, hn, if_false, and_self, if_true]
      simp
    rw [hstep, ih (k + 1) _ (by omega)]
    simp

/-- **C56**: `nicely_join` of no, one, two and more strings. -/
theorem C56_nicely_join :
    nicelyJoin [] = [] ∧ (∀ a, nicelyJoin [a] = a) ∧
    (∀ a b, nicelyJoin [a, b] = a ++ str " and " ++ b) ∧
    (∀ (init : List Str) (last : Str), init.length ≥ 2 →
      nicelyJoin (init ++ [last]) = init.flatMap (· ++ str ", ") ++ str "and " ++ last) := by
  refine ⟨rfl, ?_, ?_, ?_⟩
  · intro a; simp [nicelyJoin, nicelyJoinStep]
  · intro a b; simp [nicelyJoin, nicelyJoinStep]
  · intro init last h
    unfold nicelyJoin
    have hlen : (init ++ [last]).length = init.length + 1 := by simp
    rw [hlen, List.zipIdx_append, List.foldl_append,
      nicelyJoin_many_aux (init.length + 1) (by omega) init 0 [] (by omega)]
    simp only [List.nil_append, Nat.zero_add, List.zipIdx_singleton, List.foldl_cons,
      List.foldl_nil]
    unfold nicelyJoinStep
    have h1 : (init.length : Int) = ((init.length + 1 : Nat) : Int) - 1 := by omega
    have h2 : ¬ (init.length : Int) < ((init.length + 1 : Nat) : Int) - 1 := by omega
    have h3 : init.length + 1 > 2 := by omega
    simp only [h2, h3, and_false, if_false, if_true]
    rw [if_pos h1]

example : nicelyJoin [str "foo", str "bar baz", str "qux"] = str "foo, bar baz, and qux" := by
  decide

/-! ## C42 -/

/-- Control characters (C0 except tab, LF, CR; DEL; C1), surrogates and noncharacters of the
basic plane. -/
def Forbidden (c : Nat) : Prop :=
  (c < 0x20 ∧ c ≠ 9 ∧ c ≠ 10 ∧ c ≠ 13) ∨ (0x7F ≤ c ∧ c ≤ 0x9F) ∨ (0xD800 ≤ c ∧ c ≤ 0xDFFF) ∨
    (0xFDD0 ≤ c ∧ c ≤ 0xFDEF) ∨ c = 0xFFFE ∨ c = 0xFFFF

instance (c : Nat) : Decidable (Forbidden c) := by unfold Forbidden; infer_instance

/-- The production `Char` of XML 1.0, section 2.2. -/
def XmlChar (c : Nat) : Prop :=
  c = 9 ∨ c = 10 ∨ c = 13 ∨ (0x20 ≤ c ∧ c ≤ 0xD7FF) ∨ (0xE000 ≤ c ∧ c ≤ 0xFFFD) ∨
    (0x10000 ≤ c ∧ c ≤ 0x10FFFF)

theorem unprintable_iff (c : Nat) :
    unprintableRanges.any (fun r => r.1 ≤ c && c ≤ r.2) = true ↔ Forbidden c := by
  simp only [unprintableRanges, List.any_cons, List.any_nil, Bool.or_eq_true, Bool.and_eq_true,
    decide_eq_true_eq, Bool.or_false, Forbidden]
  omega

/-- **C42**: `printable` replaces exactly the forbidden characters, one for one, by U+FFFD. -/
theorem C42_printable (s : Str) (i : Nat) :
    (printable s)[i]? = s[i]?.map fun c => if Forbidden c then 0xFFFD else c := by
  unfold printable
  rw [List.getElem?_map]
  congr 1
  funext c
  simp only [unprintable_iff]

/-- **C42**: length is preserved, no forbidden character is left, text without forbidden
characters is unchanged, `printable` is idempotent, and its output is valid XML character data. -/
theorem C42_printable_clean (s : Str) :
    (printable s).length = s.length ∧ (∀ c ∈ printable s, ¬ Forbidden c) ∧
    ((∀ c ∈ s, ¬ Forbidden c) → printable s = s) ∧ printable (printable s) = printable s ∧
    ((∀ c ∈ s, c ≤ 0x10FFFF) → ∀ c ∈ printable s, XmlChar c) := by
  have hun : ∀ s : Str, (∀ c ∈ s, ¬ Forbidden c) → printable s = s := by
    intro s h
    unfold printable
    conv => rhs; rw [← List.map_id s]
    apply List.map_congr_left
    intro c hc
    simp only [unprintable_iff, if_neg (h c hc), id]
  have hcl : ∀ c ∈ printable s, ¬ Forbidden c := by
    intro c hc
    unfold printable at hc
    obtain ⟨d, hd, rfl⟩ := List.mem_map.1 hc
    simp only [unprintable_iff]
    split
    · decide
    · assumption
  refine ⟨by simp [printable], hcl, hun s, hun _ hcl, ?_⟩
  intro hs c hc
  have h1 := hcl c hc
  unfold printable at hc
  obtain ⟨d, hd, rfl⟩ := List.mem_map.1 hc
  have h2 := hs d hd
  simp only [unprintable_iff] at *
  split at h1
  · next h => rw [if_pos h]; unfold XmlChar; omega
  · next h =>
    rw [if_neg h]
    unfold Forbidden at h
    unfold XmlChar
    omega

example : printable [0x41, 0x00, 0xD800, 0x0A] = [0x41, 0xFFFD, 0xFFFD, 0x0A] := by decide

/-- **C42**: `ellipsize` keeps strings that fit; a longer one is cut to exactly the limit: a
proper prefix followed by three dots. -/
theorem C42_ellipsize (s : Str) (n : Nat) (hn : 3 ≤ n) :
    (s.length ≤ n → ellipsize s n = s) ∧
    (n < s.length → ellipsize s n = s.take (n - 3) ++ str "..." ∧ (ellipsize s n).length = n) ∧
    (ellipsize s n).length ≤ n := by
  have h1 : s.length ≤ n → ellipsize s n = s := by
    intro h
    unfold ellipsize
    rw [if_pos (by omega)]
  have h2 : n < s.length →
      ellipsize s n = s.take (n - 3) ++ str "..." ∧ (ellipsize s n).length = n := by
    intro h
    have : ellipsize s n = s.take (n - 3) ++ str "..." := by
      unfold ellipsize pyTake
      rw [if_neg (by omega), if_pos (by omega)]
      congr 2
      omega
    refine ⟨this, ?_⟩
    rw [this]
    have hl : (str "...").length = 3 := by decide
    simp only [List.length_append, List.length_take, hl]
    omega
  refine ⟨h1, h2, ?_⟩
  by_cases h : s.length ≤ n
  · rw [h1 h]; exact h
  · rw [(h2 (by omega)).2]
    omega

example : ellipsize (str "lorem ipsum dolor sit amet") 20 = str "lorem ipsum dolor..." := by
  decide

/-- The typographic characters `detypographize` is about: curly quotes, dashes, minus sign,
no-break space. -/
def Typographic (c : Nat) : Prop :=
  c ∈ [0x201C, 0x201D, 0x2018, 0x2019, 0x2014, 0x2013, 0x2212, 0x00A0]

instance (c : Nat) : Decidable (Typographic c) := by unfold Typographic; infer_instance

/-- What a single character turns into. -/
def plainText (c : Nat) : Str :=
  if c = 0x201C ∨ c = 0x201D then str "\""
  else if c = 0x2018 ∨ c = 0x2019 then str "'"
  else if c = 0x2014 then str "--"
  else if c = 0x2013 ∨ c = 0x2212 then str "-"
  else if c = 0x00A0 then str " "
  else [c]

theorem replaceChar_append (c : Nat) (r s t : Str) :
    replaceChar c r (s ++ t) = replaceChar c r s ++ replaceChar c r t := by
  simp [replaceChar]

theorem detypographize_append (s t : Str) :
    detypographize (s ++ t) = detypographize s ++ detypographize t := by
  simp only [detypographize, replaceChar_append]

theorem detypographize_singleton (c : Nat) : detypographize [c] = plainText c := by
  by_cases ht : Typographic c
  · have : c ∈ [0x201C, 0x201D, 0x2018, 0x2019, 0x2014, 0x2013, 0x2212, 0x00A0] := ht
    simp only [List.mem_cons, List.not_mem_nil, or_false] at this
    rcases this with rfl | rfl | rfl | rfl | rfl | rfl | rfl | rfl <;> decide
  · have : c ∉ [0x201C, 0x201D, 0x2018, 0x2019, 0x2014, 0x2013, 0x2212, 0x00A0] := ht
    simp only [List.mem_cons, List.not_mem_nil, or_false, not_or] at this
    obtain ⟨h1, h2, h3, h4, h5, h6, h7, h8⟩ := this
    simp [detypographize, replaceChar, plainText, h1, h2, h3, h4, h5, h6, h7, h8]

/-- **C42**: `detypographize` rewrites each character on its own. -/
theorem C42_detypographize (s : Str) : detypographize s = s.flatMap plainText := by
  induction s with
  | nil => rfl
  | cons c s ih =>
    have : c :: s = [c] ++ s := rfl
    rw [this, detypographize_append, ih, detypographize_singleton]
    simp

/-- **C42**: no typographic character is left, text without them is unchanged, and
`detypographize` is idempotent. -/
theorem C42_detypographize_clean (s : Str) :
    (∀ c ∈ detypographize s, ¬ Typographic c) ∧
    ((∀ c ∈ s, ¬ Typographic c) → detypographize s = s) ∧
    detypographize (detypographize s) = detypographize s := by
  have hpl : ∀ c, ¬ Typographic c → plainText c = [c] := by
    intro c h
    unfold Typographic at h
    simp only [List.mem_cons, List.not_mem_nil, or_false, not_or] at h
    obtain ⟨h1, h2, h3, h4, h5, h6, h7, h8⟩ := h
    simp [plainText, h1, h2, h3, h4, h5, h6, h7, h8]
  have hout : ∀ c, ∀ d ∈ plainText c, ¬ Typographic d := by
    intro c
    by_cases ht : Typographic c
    · have : c ∈ [0x201C, 0x201D, 0x2018, 0x2019, 0x2014, 0x2013, 0x2212, 0x00A0] := ht
      simp only [List.mem_cons, List.not_mem_nil, or_false] at this
      rcases this with rfl | rfl | rfl | rfl | rfl | rfl | rfl | rfl <;> decide
    · rw [hpl c ht]
      intro d hd
      simp only [List.mem_singleton] at hd
      subst hd
      exact ht
  have hun : ∀ s : Str, (∀ c ∈ s, ¬ Typographic c) → detypographize s = s := by
    intro s h
    rw [C42_detypographize]
    induction s with
    | nil => rfl
    | cons c s ih =>
      rw [List.flatMap_cons, hpl c (h c (by simp)), ih (fun c hc => h c (by simp [hc]))]
      rfl
  have hcl : ∀ c ∈ detypographize s, ¬ Typographic c := by
    rw [C42_detypographize]
    intro c hc
    obtain ⟨d, _, hd⟩ := List.mem_flatMap.1 hc
    exact hout d c hd
  exact ⟨hcl, hun s, hun _ hcl⟩

example : detypographize [0x201C, 0x61, 0x2014, 0x62, 0x201D] = str "\"a--b\"" := by decide

/-! ## C43 -/

/-- One item of a character list as a human reads it. -/
inductive Piece
  /-- `a–f`, or just `a` if both ends coincide -/
  | range (lo hi : Nat)
  /-- a name such as `space` -/
  | named (c : Nat)
  /-- punctuation written out one after the other, such as `!#$` -/
  | visible (cs : Str)
  /-- `0x00–0x08`, or just `0x00` -/
  | hexRange (lo hi : Nat)

/-- The octets with names. -/
def humanNames : List (Nat × String) :=
  [(0x09, "tab"), (0x0A, "LF"), (0x0D, "CR"), (0x20, "space"), (0x22, "double quote (\")"),
   (0x27, "single quote (')"), (0x2C, "comma (,)"), (0x2E, "period (.)"), (0x3A, "colon (:)"),
   (0x3B, "semicolon (;)"), (0x2D, "dash (-)")]

/-- Two hexadecimal digits. -/
def twoHex (n : Nat) : Str :=
  let d (k : Nat) : Nat := (str "0123456789abcdef").getD k 0
  str "0x" ++ [d (n / 16), d (n % 16)]

/-- How an item is written. -/
def Piece.render : Piece → Str
  | .range lo hi => if lo = hi then [lo] else [lo, 0x2013, hi]
  | .named c => ((humanNames.lookup c).map str).getD []
  | .visible cs => cs
  | .hexRange lo hi => if lo = hi then twoHex lo else twoHex lo ++ [0x2013] ++ twoHex hi

/-- The octets an item stands for. -/
def Piece.Denotes : Piece → Nat → Prop
  | .range lo hi, c => lo ≤ c ∧ c ≤ hi
  | .named n, c => c = n
  | .visible cs, c => c ∈ cs
  | .hexRange lo hi, c => lo ≤ c ∧ c ≤ hi

/-- Items that can be read unambiguously: literal ranges are within the letters or digits of one
kind, names exist, spelled out characters are visible punctuation. -/
def Piece.Readable : Piece → Prop
  | .range lo hi => lo ≤ hi ∧
      ((48 ≤ lo ∧ hi ≤ 57) ∨ (65 ≤ lo ∧ hi ≤ 90) ∨ (97 ≤ lo ∧ hi ≤ 122))
  | .named c => (humanNames.lookup c).isSome
  | .visible cs => cs ≠ [] ∧ ∀ c ∈ cs, 0x21 ≤ c ∧ c < 0x7F ∧
      ¬ (48 ≤ c ∧ c ≤ 57) ∧ ¬ (65 ≤ c ∧ c ≤ 90) ∧ ¬ (97 ≤ c ∧ c ≤ 122)
  | .hexRange lo hi => lo ≤ hi ∧ hi ≤ 0xFF

theorem charIntervals_spec (chars : Str) :
    (∀ p ∈ charIntervals chars, p.1 ≤ p.2) ∧
    ∀ c, c ∈ chars ↔ ∃ p ∈ charIntervals chars, p.1 ≤ c ∧ c ≤ p.2 := by
  induction chars using snocInduction with
  | nil => simp [charIntervals]
  | snoc chars x ih =>
    unfold charIntervals at ih ⊢
    rw [List.foldl_append, List.foldl_cons, List.foldl_nil]
    rcases hst : chars.foldl charRangesStep ([], none) with ⟨ivs, cur⟩
    rw [hst] at ih
    cases cur with
    | none =>
      simp only [charRangesStep] at ih ⊢
      refine ⟨?_, ?_⟩
      · intro p hp
        simp only [List.mem_append, List.mem_singleton] at hp
        rcases hp with hp | rfl
        · exact ih.1 p hp
        · simp
      · intro c
        have := ih.2 c
        simp only [List.mem_append, List.mem_singleton, this]
        constructor
        · rintro (⟨p, hp, h⟩ | rfl)
          · exact ⟨p, Or.inl hp, h⟩
          · exact ⟨(c, c), Or.inr rfl, by simp⟩
        · rintro ⟨p, hp | rfl, h⟩
          · exact Or.inl ⟨p, hp, h⟩
          · exact Or.inr (by simp at h; omega)
    | some q =>
      rcases q with ⟨mn, mx⟩
      simp only [charRangesStep] at ih ⊢
      have hq : mn ≤ mx := ih.1 (mn, mx) (by simp)
      by_cases hadj : (mx : Int) = (x : Int) - 1
      · rw [if_pos hadj]
        simp only
        refine ⟨?_, ?_⟩
        · intro p hp
          simp only [List.mem_append, List.mem_singleton] at hp
          rcases hp with hp | rfl
          · exact ih.1 p (by simp [hp])
          · simp; omega
        · intro c
          have := ih.2 c
          simp only [List.mem_append, List.mem_singleton, this]
          constructor
          · rintro (⟨p, hp | rfl, h⟩ | rfl)
            · exact ⟨p, Or.inl hp, h⟩
            · refine ⟨(mn, x), Or.inr rfl, ?_⟩
              simp only at h ⊢
              omega
            · refine ⟨(mn, c), Or.inr rfl, ?_⟩
              simp only
              omega
          · rintro ⟨p, hp | rfl, h⟩
            · exact Or.inl ⟨p, Or.inl hp, h⟩
            · simp only at h
              by_cases hc : c = x
              · exact Or.inr hc
              · refine Or.inl ⟨(mn, mx), Or.inr rfl, ?_⟩
                simp only
                omega
      · rw [if_neg hadj]
        simp only
        refine ⟨?_, ?_⟩
        · intro p hp
          simp only [List.mem_append, List.mem_singleton] at hp
          rcases hp with hp | rfl
          · exact ih.1 p (by simpa using hp)
          · simp
        · intro c
          have := ih.2 c
          simp only [List.mem_append, List.mem_singleton, this]
          constructor
          · rintro (⟨p, hp, h⟩ | rfl)
            · exact ⟨p, Or.inl hp, h⟩
            · exact ⟨(c, c), Or.inr rfl, by simp⟩
          · rintro ⟨p, hp | rfl, h⟩
            · exact Or.inl ⟨p, hp, h⟩
            · exact Or.inr (by simp at h; omega)

theorem groupChar_foldl (chars : Str) (g : CharGroups) :
    chars.foldl groupChar g =
      { letters := g.letters ++ chars.filter fun c => isAsciiLetter c
        digits := g.digits ++ chars.filter fun c => !isAsciiLetter c && isAsciiDigit c
        named := g.named ++ chars.filter fun c =>
          !isAsciiLetter c && !isAsciiDigit c && (charName c).isSome
        visible := g.visible ++ chars.filter fun c =>
          !isAsciiLetter c && !isAsciiDigit c && !(charName c).isSome &&
            (decide (0x21 ≤ c ∧ c < 0x7F))
        other := g.other ++ chars.filter fun c =>
          !isAsciiLetter c && !isAsciiDigit c && !(charName c).isSome &&
            !(decide (0x21 ≤ c ∧ c < 0x7F)) } := by
  induction chars generalizing g with
  | nil => simp
  | cons c chars ih =>
    rw [List.foldl_cons, ih]
    unfold groupChar
    by_cases h1 : isAsciiLetter c = true
    · simp [h1]
    · simp only [Bool.not_eq_true] at h1
      by_cases h2 : isAsciiDigit c = true
      · simp [h1, h2]
      · simp only [Bool.not_eq_true] at h2
        by_cases h3 : (charName c).isSome = true
        · simp only [List.filter_cons, h1, h2, h3]; simp
        · simp only [Bool.not_eq_true] at h3
          by_cases h4 : 0x21 ≤ c ∧ c < 0x7F
          · simp only [List.filter_cons, h1, h2, h3, h4]; simp
          · simp only [List.filter_cons, h1, h2, h3, h4]; simp

theorem charName_eq (c : Nat) : charName c = (humanNames.lookup c).map str := by
  by_cases h : c ∈ [9, 10, 13, 32, 34, 39, 44, 46, 58, 59, 45]
  · simp only [List.mem_cons, List.not_mem_nil, or_false] at h
    rcases h with rfl | rfl | rfl | rfl | rfl | rfl | rfl | rfl | rfl | rfl | rfl <;> decide
  · have h1 : humanNames.lookup c = none := by
      simp only [List.mem_cons, List.not_mem_nil, or_false, not_or] at h
      obtain ⟨a1, a2, a3, a4, a5, a6, a7, a8, a9, a10, a11⟩ := h
      rw [List.lookup_eq_none_iff]
      intro p hp
      simp only [humanNames, List.mem_cons, List.not_mem_nil, or_false] at hp
      rcases hp with rfl | rfl | rfl | rfl | rfl | rfl | rfl | rfl | rfl | rfl | rfl <;>
        simp [*]
    have h2 : charName c = none := by
      unfold charName
      split <;> simp_all
    rw [h1, h2]
    rfl

theorem showHex_eq (n : Nat) (h : n < 256) : showHex n = twoHex n := by
  have : ∀ n : Fin 256, showHex n.1 = twoHex n.1 := by decide +kernel
  exact this ⟨n, h⟩

/-- **C43**: for every list of octets, the text made by `format_chars` is an " or "-separated list
of unambiguous items which together stand for exactly the octets in the list. -/
theorem C43_format_chars (chars : Str) (hoct : ∀ c ∈ chars, c < 256) :
    ∃ pieces : List Piece,
      formatChars chars = joinWith (str " or ") (pieces.map Piece.render) ∧
      (∀ p ∈ pieces, p.Readable) ∧
      ∀ c, c ∈ chars ↔ ∃ p ∈ pieces, p.Denotes c := by
  let L := chars.filter fun c => isAsciiLetter c
  let D := chars.filter fun c => !isAsciiLetter c && isAsciiDigit c
  let N := chars.filter fun c => !isAsciiLetter c && !isAsciiDigit c && (charName c).isSome
  let V := chars.filter fun c => !isAsciiLetter c && !isAsciiDigit c && !(charName c).isSome &&
            (decide (0x21 ≤ c ∧ c < 0x7F))
  let O := chars.filter fun c => !isAsciiLetter c && !isAsciiDigit c && !(charName c).isSome &&
            !(decide (0x21 ≤ c ∧ c < 0x7F))
  let rng (p : Nat × Nat) : Piece := .range p.1 p.2
  let hex (p : Nat × Nat) : Piece := .hexRange p.1 p.2
  let pieces : List Piece := (charIntervals L).map rng ++ (charIntervals D).map rng ++
    N.map Piece.named ++ (if V = [] then [] else [Piece.visible V]) ++ (charIntervals O).map hex
  have sL := charIntervals_spec L
  have sD := charIntervals_spec D
  have sO := charIntervals_spec O
  -- members of an interval are in the list
  have mem_iv : ∀ l : Str, ∀ p ∈ charIntervals l, p.1 ∈ l ∧ p.2 ∈ l := by
    intro l p hp
    have h := charIntervals_spec l
    have hle := h.1 p hp
    exact ⟨(h.2 _).2 ⟨p, hp, by omega, by omega⟩, (h.2 _).2 ⟨p, hp, by omega, by omega⟩⟩
  refine ⟨pieces, ?_, ?_, ?_⟩
  · -- the text
    unfold formatChars
    rw [groupChar_foldl]
    simp only [List.nil_append]
    congr 1
    have hne : ∀ (sh : Nat → Str) (l : List (Nat × Nat)), (∀ n, sh n ≠ []) →
        (l.map (showInterval sh)).filter (fun p => !p.isEmpty) = l.map (showInterval sh) := by
      intro sh l hsh
      rw [List.filter_eq_self]
      intro s hs
      obtain ⟨p, _, rfl⟩ := List.mem_map.1 hs
      unfold showInterval
      split
      · simpa using hsh p.1
      · simp
    have hnm : (N.map fun c => (charName c).getD []).filter (fun p => !p.isEmpty) =
        N.map fun c => (charName c).getD [] := by
      rw [List.filter_eq_self]
      intro s hs
      obtain ⟨c, hc, rfl⟩ := List.mem_map.1 hs
      have hc2 := (List.mem_filter.1 hc).2
      simp only [Bool.and_eq_true] at hc2
      have hc3 := hc2.2
      unfold charName at hc3 ⊢
      split <;> first | decide | simp_all
    have hv : ([V] : List Str).filter (fun p => !p.isEmpty) = if V = [] then [] else [V] := by
      by_cases h : V = []
      · simp [h]
      · simp [h]
    simp only [List.filter_append]
    rw [show charRanges (chars.filter fun c => isAsciiLetter c) false =
      (charIntervals L).map (showInterval fun p => [p]) from rfl]
    rw [show charRanges (chars.filter fun c => !isAsciiLetter c && isAsciiDigit c) false =
      (charIntervals D).map (showInterval fun p => [p]) from rfl]
    rw [hne _ _ (by simp), hne _ _ (by simp), hnm, hv]
    rw [show charRanges (chars.filter fun c => !isAsciiLetter c && !isAsciiDigit c &&
        !(charName c).isSome && !(decide (0x21 ≤ c ∧ c < 0x7F))) true =
      (charIntervals O).map (showInterval showHex) from rfl]
    rw [hne showHex _ (by intro n; simp [showHex])]
    have hr : (fun p : Nat × Nat => (rng p).render) = showInterval fun p => [p] := by
      funext p
      simp only [rng, Piece.render, showInterval]
      split <;> simp
    have hx : (charIntervals O).map (fun p => (hex p).render) =
        (charIntervals O).map (showInterval showHex) := by
      apply List.map_congr_left
      intro p hp
      have hm := mem_iv O p hp
      have b1 := hoct _ (List.mem_filter.1 hm.1).1
      have b2 := hoct _ (List.mem_filter.1 hm.2).1
      simp only [hex, Piece.render, showInterval, showHex_eq _ b1, showHex_eq _ b2]
    have hn : (fun c => (Piece.named c).render) = fun c => (charName c).getD [] := by
      funext c
      simp only [Piece.render, charName_eq]
    simp only [pieces, List.map_append, List.map_map, Function.comp_def]
    rw [hx]
    simp only [hr, hn]
    congr 2
    by_cases h : V = [] <;> simp [h, Piece.render]
  · -- readable
    intro p hp
    simp only [pieces, List.mem_append, List.mem_map] at hp
    rcases hp with (((⟨q, hq, rfl⟩ | ⟨q, hq, rfl⟩) | ⟨c, hc, rfl⟩) | hp) | ⟨q, hq, rfl⟩
    · have hle := sL.1 q hq
      have hall : ∀ c, q.1 ≤ c → c ≤ q.2 → isAsciiLetter c = true := by
        intro c h1 h2
        have := (sL.2 c).2 ⟨q, hq, h1, h2⟩
        exact (List.mem_filter.1 this).2
      have e1 := hall q.1 (by omega) (by omega)
      have e2 := hall q.2 (by omega) (by omega)
      have e3 : ¬ (q.1 ≤ 91 ∧ 91 ≤ q.2) := by
        rintro ⟨a, b⟩
        have := hall 91 a b
        revert this; decide
      simp only [isAsciiLetter, Bool.or_eq_true, Bool.and_eq_true, decide_eq_true_eq] at e1 e2
      simp only [rng, Piece.Readable]
      omega
    · have hle := sD.1 q hq
      have hm := mem_iv D q hq
      have e1 := (List.mem_filter.1 hm.1).2
      have e2 := (List.mem_filter.1 hm.2).2
      simp only [isAsciiDigit, Bool.and_eq_true, decide_eq_true_eq] at e1 e2
      simp only [rng, Piece.Readable]
      omega
    · have hc2 := (List.mem_filter.1 hc).2
      simp only [Bool.and_eq_true] at hc2
      have hc3 := hc2.2
      rw [charName_eq] at hc3
      simpa [Piece.Readable] using hc3
    · by_cases hV : V = []
      · simp [hV] at hp
      · simp only [if_neg hV, List.mem_singleton] at hp
        subst hp
        refine ⟨hV, ?_⟩
        intro c hc
        have := (List.mem_filter.1 hc).2
        simp only [isAsciiLetter, isAsciiDigit, Bool.and_eq_true, decide_eq_true_eq,
          Bool.not_eq_true', Bool.or_eq_false_iff, Bool.and_eq_false_iff,
          decide_eq_false_iff_not] at this
        omega
    · have hle := sO.1 q hq
      have hm := mem_iv O q hq
      have b2 := hoct _ (List.mem_filter.1 hm.2).1
      simp only [hex, Piece.Readable]
      omega
  · -- denotation
    intro c
    have mL : (∃ p ∈ charIntervals L, p.1 ≤ c ∧ c ≤ p.2) ↔ c ∈ chars ∧ isAsciiLetter c = true := by
      rw [← sL.2 c, List.mem_filter]
    have mD : (∃ p ∈ charIntervals D, p.1 ≤ c ∧ c ≤ p.2) ↔
        c ∈ chars ∧ isAsciiLetter c = false ∧ isAsciiDigit c = true := by
      rw [← sD.2 c, List.mem_filter]; simp
    have mO : (∃ p ∈ charIntervals O, p.1 ≤ c ∧ c ≤ p.2) ↔
        c ∈ chars ∧ isAsciiLetter c = false ∧ isAsciiDigit c = false ∧
          (charName c).isSome = false ∧ ¬ (0x21 ≤ c ∧ c < 0x7F) := by
      rw [← sO.2 c, List.mem_filter]
      simp only [Bool.and_eq_true, Bool.not_eq_true', decide_eq_false_iff_not, and_assoc]
    have hsplit : (∃ p ∈ pieces, p.Denotes c) ↔
        (∃ p ∈ charIntervals L, p.1 ≤ c ∧ c ≤ p.2) ∨
        (∃ p ∈ charIntervals D, p.1 ≤ c ∧ c ≤ p.2) ∨ c ∈ N ∨ c ∈ V ∨
        (∃ p ∈ charIntervals O, p.1 ≤ c ∧ c ≤ p.2) := by
      simp only [pieces, List.mem_append, List.mem_map]
      constructor
      · rintro ⟨p, (((⟨q, hq, rfl⟩ | ⟨q, hq, rfl⟩) | ⟨d, hd, rfl⟩) | hp) | ⟨q, hq, rfl⟩, h⟩
        · exact Or.inl ⟨q, hq, h⟩
        · exact Or.inr (Or.inl ⟨q, hq, h⟩)
        · simp only [Piece.Denotes] at h
          subst h
          exact Or.inr (Or.inr (Or.inl hd))
        · by_cases hV : V = []
          · simp [hV] at hp
          · simp only [if_neg hV, List.mem_singleton] at hp
            subst hp
            exact Or.inr (Or.inr (Or.inr (Or.inl h)))
        · exact Or.inr (Or.inr (Or.inr (Or.inr ⟨q, hq, h⟩)))
      · rintro (⟨q, hq, h⟩ | ⟨q, hq, h⟩ | h | h | ⟨q, hq, h⟩)
        · exact ⟨rng q, Or.inl (Or.inl (Or.inl (Or.inl ⟨q, hq, rfl⟩))), h⟩
        · exact ⟨rng q, Or.inl (Or.inl (Or.inl (Or.inr ⟨q, hq, rfl⟩))), h⟩
        · exact ⟨.named c, Or.inl (Or.inl (Or.inr ⟨c, h, rfl⟩)), rfl⟩
        · refine ⟨.visible V, Or.inl (Or.inr ?_), h⟩
          have hV : V ≠ [] := by
            intro e; rw [e] at h; simp at h
          simp [hV]
        · exact ⟨hex q, Or.inr ⟨q, hq, rfl⟩, h⟩
    rw [hsplit, mL, mD, mO]
    have mN : c ∈ N ↔ c ∈ chars ∧ isAsciiLetter c = false ∧ isAsciiDigit c = false ∧
        (charName c).isSome = true := by
      simp only [N, List.mem_filter]; simp [and_assoc]
    have mV : c ∈ V ↔ c ∈ chars ∧ isAsciiLetter c = false ∧ isAsciiDigit c = false ∧
        (charName c).isSome = false ∧ (0x21 ≤ c ∧ c < 0x7F) := by
      simp only [V, List.mem_filter]; simp [and_assoc]
    rw [mN, mV]
    cases isAsciiLetter c <;> cases isAsciiDigit c <;> cases (charName c).isSome <;>
      by_cases h : 0x21 ≤ c ∧ c < 0x7F <;> simp [h]

example : formatChars [0x00, 0x04, 0x05, 0x20, 0x21, 0x23, 0x30, 0x31, 0x41, 0x42, 0x43] =
    str "A–C or 0–1 or space or !# or 0x00 or 0x04–0x05" := by decide

end Httpolice.Props
