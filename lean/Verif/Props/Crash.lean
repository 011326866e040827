import Verif.Spec.Crash
import Verif.Lemmas.Runs
import Verif.Lemmas.BodyFacts
import Verif.Props.Streams

/-!
# C103: exactly which chunk sizes make the analysis of streams fail
-/

namespace Httpolice.Props

open Httpolice.Model
open Httpolice.Spec
open Httpolice.Lemmas

/-! ## Negative numbers -/

theorem pad_space {c : Nat} : isIntSpace c = true ↔ Pad c := by
  unfold isIntSpace Pad
  simp only [Bool.or_eq_true, Bool.and_eq_true, decide_eq_true_eq, beq_iff_eq, or_assoc]

theorem hexGo_grouped (s : Str) : ∀ (acc : Nat) (b : Bool), (∀ c ∈ s.filter (· ≠ 95), HexDigit c) →
    (b = false → s ≠ [] ∧ s.head? ≠ some 95) → s.getLast? ≠ some 95 →
    (∀ x y, s ≠ x ++ 95 :: 95 :: y) →
    hexGo acc b s = some (acc * 16 ^ (s.filter (· ≠ 95)).length
      + number 16 hexVal (s.filter (· ≠ 95))) := by
  induction s with
  | nil =>
    intro acc b _ hb _ _
    cases b with
    | false => exact absurd rfl (hb rfl).1
    | true => simp [hexGo, number]
  | cons c s ih =>
    intro acc b hd hb hl hs
    have hs' : ∀ x y, s ≠ x ++ 95 :: 95 :: y := fun x y h => hs (c :: x) y (by rw [h]; rfl)
    by_cases hc : c = 95
    · subst hc
      cases b with
      | false => exact absurd rfl (hb rfl).2
      | true =>
        have hne : s ≠ [] := by rintro rfl; exact hl rfl
        have hh : s.head? ≠ some 95 := by
          intro h
          cases s with
          | nil => cases h
          | cons d s =>
            simp only [List.head?_cons, Option.some.injEq] at h
            subst h
            exact hs [] s rfl
        have hf : (95 :: s).filter (· ≠ 95) = s.filter (· ≠ 95) := by simp
        rw [hf] at hd ⊢
        rw [hexGo, if_pos rfl, if_pos rfl]
        refine ih acc false hd (fun _ => ⟨hne, hh⟩) ?_ hs'
        cases s with
        | nil => exact absurd rfl hne
        | cons d s => rwa [List.getLast?_cons_cons] at hl
    · have hf : (c :: s).filter (· ≠ 95) = c :: s.filter (· ≠ 95) := by simp [hc]
      rw [hf] at hd ⊢
      rw [hexGo, if_neg hc, hexDigitVal_eq (hd c List.mem_cons_self)]
      simp only
      rw [ih _ true (fun x hx => hd x (List.mem_cons_of_mem _ hx)) (fun h => nomatch h) ?_ hs',
        number, List.length_cons, Nat.pow_succ, Nat.add_mul]
      · rw [Nat.mul_assoc, Nat.mul_comm 16, Nat.add_assoc]
      · cases s with
        | nil => simp
        | cons d s => rwa [List.getLast?_cons_cons] at hl

theorem grouped_go {s : Str} {n : Nat} (h : Grouped s n) : hexGo 0 false s = some n := by
  rw [hexGo_grouped s 0 false h.digits.2.1 (fun _ => ⟨?_, h.first⟩) h.last h.single]
  · rw [h.digits.2.2]; simp
  · rintro rfl
    exact h.digits.1 rfl

theorem grouped_chars {s : Str} {n : Nat} (h : Grouped s n) : ∀ c ∈ s, HexDigit c ∨ c = 95 := by
  intro c hc
  by_cases h95 : c = 95
  · exact Or.inr h95
  · exact Or.inl (h.digits.2.1 c (List.mem_filter.2 ⟨hc, by simpa using h95⟩))

theorem grouped_ne {s : Str} {n : Nat} (h : Grouped s n) : s ≠ [] := by
  rintro rfl
  exact h.digits.1 rfl

theorem grouped_prefix {px s : Str} {n : Nat} (h : Grouped s n)
    (hp : px ∈ [[], str "0x", str "0X", str "0x_", str "0X_"]) : hexPrefix (px ++ s) = s := by
  have h120 : 120 ∉ s := by
    intro hm; have := grouped_chars h _ hm; unfold HexDigit Digit at this; omega
  have h88 : 88 ∉ s := by
    intro hm; have := grouped_chars h _ hm; unfold HexDigit Digit at this; omega
  simp only [List.mem_cons, List.not_mem_nil, or_false] at hp
  rcases hp with rfl | rfl | rfl | rfl | rfl
  · rw [List.nil_append]
    unfold hexPrefix
    split
    · exact absurd (by simp) h120
    · exact absurd (by simp) h88
    · exact absurd (by simp) h120
    · exact absurd (by simp) h88
    · rfl
  · cases s with
    | nil => rfl
    | cons c s =>
      have : c ≠ 95 := by have := h.first; simpa using this
      show hexPrefix (48 :: 120 :: c :: s) = _
      unfold hexPrefix
      split
      · rename_i he; simp only [List.cons.injEq] at he; exact absurd he.2.2.1 this
      · rename_i he; simp at he
      · rename_i he; simp only [List.cons.injEq] at he; exact he.2.2.symm
      · rename_i he; simp at he
      · rename_i h1 h2 h3 h4 
        exact absurd rfl (h3 (c :: s))
  · cases s with
    | nil => rfl
    | cons c s =>
      have : c ≠ 95 := by have := h.first; simpa using this
      show hexPrefix (48 :: 88 :: c :: s) = _
      unfold hexPrefix
      split
      · rename_i he; simp at he
      · rename_i he; simp only [List.cons.injEq] at he; exact absurd he.2.2.1 this
      · rename_i he; simp at he
      · rename_i he; simp only [List.cons.injEq] at he; exact he.2.2.symm
      · rename_i h1 h2 h3 h4 
        exact absurd rfl (h4 (c :: s))
  · rfl
  · rfl

theorem intStrip_core (pre core post : Str) (hpre : ∀ c ∈ pre, Pad c) (hpost : ∀ c ∈ post, Pad c)
    (h1 : ∀ c t, core = c :: t → ¬Pad c) (h2 : ∀ t c, core = t ++ [c] → ¬Pad c) (hne : core ≠ []) :
    intStrip (pre ++ core ++ post) = core := by
  unfold intStrip
  rw [List.append_assoc, List.dropWhile_append_of_pos (fun c hc => pad_space.2 (hpre c hc))]
  have e1 : (core ++ post).dropWhile isIntSpace = core ++ post := by
    cases core with
    | nil => exact absurd rfl hne
    | cons c t =>
      have : isIntSpace c = false := by
        rw [← Bool.not_eq_true]; exact fun h => h1 c t rfl (pad_space.1 h)
      rw [List.cons_append, List.dropWhile_cons, this]; rfl
  rw [e1, List.reverse_append, List.dropWhile_append_of_pos
    (fun c hc => pad_space.2 (hpost c (List.mem_reverse.1 hc)))]
  have e2 : core.reverse.dropWhile isIntSpace = core.reverse := by
    cases hr : core.reverse with
    | nil => rfl
    | cons c t =>
      have hcore : core = t.reverse ++ [c] := by
        rw [← List.reverse_reverse core, hr]; simp
      have : isIntSpace c = false := by
        rw [← Bool.not_eq_true]; exact fun h => h2 _ c hcore (pad_space.1 h)
      rw [List.dropWhile_cons, this]; rfl
  rw [e2, List.reverse_reverse]

theorem intStrip_blanks (s b : Str) (hb : ∀ c ∈ b, Pad c) : intStrip (s ++ b) = intStrip s := by
  unfold intStrip
  rw [List.dropWhile_append]
  split
  · rename_i h
    rw [List.isEmpty_iff.1 h]
    have := List.dropWhile_append_of_pos (p := isIntSpace) (l₂ := [])
      (fun c hc => pad_space.2 (hb c hc))
    rw [List.append_nil] at this
    rw [this]; rfl
  · rw [List.reverse_append, List.dropWhile_append_of_pos
      (fun c hc => pad_space.2 (hb c (List.mem_reverse.1 hc)))]

theorem blank_pad {c : Nat} (h : isBlank c = true) : Pad c := by
  unfold isBlank at h
  simp only [Bool.or_eq_true, beq_iff_eq] at h
  unfold Pad; omega

/-- The lines that give a negative size are read as such. -/
theorem chunkSize_minus {t : Str} {n : Nat} (h : SaysMinus t n) : chunkSize t = some (-(n : Int)) := by
  obtain ⟨pre, px, num, post, ext, ht, hpre, hpost, hpx, hnum, hext⟩ := h
  have hchars : ∀ c ∈ px ++ num, HexDigit c ∨ c = 95 ∨ c = 120 ∨ c = 88 := by
    intro c hc
    rcases List.mem_append.1 hc with hc | hc
    · simp only [List.mem_cons, List.not_mem_nil, or_false] at hpx
      rcases hpx with rfl | rfl | rfl | rfl | rfl
      · simp at hc
      all_goals
        have hall : ∀ w ∈ [str "0x", str "0X", str "0x_", str "0X_"], ∀ c ∈ w,
          HexDigit c ∨ c = 95 ∨ c = 120 ∨ c = 88 := by decide
        exact hall _ (by simp) c hc
    · rcases grouped_chars hnum c hc with h | h
      · exact Or.inl h
      · exact Or.inr (Or.inl h)
  have hcore : intStrip (pre ++ ([45] ++ px ++ num) ++ post) = [45] ++ px ++ num := by
    refine intStrip_core _ _ _ hpre hpost ?_ ?_ (by simp)
    · intro c t he
      simp only [List.append_assoc, List.cons_append, List.nil_append, List.cons.injEq] at he
      rw [← he.1]; decide
    · intro t c he hp
      have hm : c ∈ [45] ++ px ++ num := by rw [he]; simp
      rw [List.append_assoc] at hm
      rcases List.mem_append.1 hm with hm | hm
      · simp only [List.mem_singleton] at hm; subst hm; revert hp; decide
      · have := hchars c hm
        unfold HexDigit Digit at this
        unfold Pad at hp
        omega
  have hz : ∀ z, z = pre ++ ([45] ++ px ++ num) ++ post → pyIntHex (rstripBlank z) = some (-(n : Int)) := by
    intro z hz
    obtain ⟨b, hb, hbp⟩ := rdrop_pads isBlank z
    have hr : rstripBlank z = (z.reverse.dropWhile isBlank).reverse := rfl
    rw [← hr] at hb
    have : intStrip (rstripBlank z) = [45] ++ px ++ num := by
      rw [← intStrip_blanks _ b (fun c hc => blank_pad (hbp c hc)), ← hb, hz, hcore]
    unfold pyIntHex
    rw [this]
    simp only [List.append_assoc, List.cons_append, List.nil_append, intSign]
    rw [grouped_prefix hnum hpx, grouped_go hnum]
    rfl
  have h59 : 59 ∉ pre ++ ([45] ++ px ++ num) ++ post := by
    intro hm
    rw [List.append_assoc] at hm
    rcases List.mem_append.1 hm with hm | hm
    · have := hpre _ hm; revert this; decide
    · rcases List.mem_append.1 hm with hm | hm
      · rw [List.append_assoc] at hm
        rcases List.mem_append.1 hm with hm | hm
        · simp at hm
        · have := hchars _ hm; revert this; decide
      · have := hpost _ hm; revert this; decide
  have ht' : t = pre ++ ([45] ++ px ++ num) ++ post ++ ext := by rw [ht]; simp only [List.append_assoc]
  unfold chunkSize
  rcases hext with rfl | ⟨x, rfl⟩
  · rw [ht', List.append_nil, partition_none _ _ h59]
    exact hz _ rfl
  · rw [ht', partition_eq _ _ _ h59]
    exact hz _ rfl

theorem pyIntHex_minus {s : Str} {n : Nat} (h : pyIntHex s = some (-(n : Int))) (hn : 0 < n) :
    ∃ pre px num post, s = pre ++ [45] ++ px ++ num ++ post ∧ (∀ c ∈ pre, Pad c) ∧
      (∀ c ∈ post, Pad c) ∧ px ∈ [[], str "0x", str "0X", str "0x_", str "0X_"] ∧ Grouped num n := by
  obtain ⟨a, b, hs, ha, hb⟩ := intStrip_inv s
  unfold pyIntHex at h
  simp only [Option.map_eq_some_iff] at h
  obtain ⟨m, hm, hmn⟩ := h
  split at hmn
  · rename_i hneg
    have hmn : m = n := by omega
    subst hmn
    obtain ⟨px, hpx, h3⟩ := hexPrefix_inv (intSign (intStrip s)).2
    have h1 : intStrip s = [45] ++ (intSign (intStrip s)).2 := by
      generalize intStrip s = t at hneg ⊢
      unfold intSign at hneg ⊢
      split at hneg
      · rfl
      · cases hneg
      · cases hneg
    refine ⟨a, px, _, b, ?_, ha, hb, hpx, grouped_of hm⟩
    have e : intStrip s = [45] ++ px ++ hexPrefix (intSign (intStrip s)).2 := by
      rw [List.append_assoc, ← h3]; exact h1
    calc s = a ++ intStrip s ++ b := hs
      _ = a ++ ([45] ++ px ++ hexPrefix (intSign (intStrip s)).2) ++ b := by rw [← e]
      _ = _ := by simp only [List.append_assoc]
  · omega

/-- Only these lines are read as a negative size. -/
theorem saysMinus_of {t : Str} {n : Nat} (h : chunkSize t = some (-(n : Int))) (hn : 0 < n) :
    SaysMinus t n := by
  unfold chunkSize at h
  have key : ∀ z ext, t = z ++ ext → (ext = [] ∨ ∃ x, ext = 59 :: x) →
      pyIntHex (rstripBlank z) = some (-(n : Int)) → SaysMinus t n := by
    intro z ext ht hext hz
    obtain ⟨pre, px, num, post, h1, h2, h3, h5, h6⟩ := pyIntHex_minus hz hn
    obtain ⟨b, hb, hbp⟩ := rdrop_pads isBlank z
    refine ⟨pre, px, num, post ++ b, ext, ?_, h2, ?_, h5, h6, hext⟩
    · rw [ht, hb]
      have : rstripBlank z = (z.reverse.dropWhile isBlank).reverse := rfl
      rw [← this, h1]; simp only [List.append_assoc]
    · intro c hc
      rcases List.mem_append.1 hc with hc | hc
      · exact h3 c hc
      · exact blank_pad (hbp c hc)
  split at h
  · rename_i a b hp
    exact key a (59 :: b) (partition_inv hp) (Or.inr ⟨b, rfl⟩) h
  · exact key t [] (by simp) (Or.inl rfl) h

theorem stripCR_cases (a : Str) : stripCR a = a ∨ a = stripCR a ++ [13] := by
  unfold stripCR
  split
  · rename_i h
    right
    have hne : a ≠ [] := by rintro rfl; simp at h
    have hl : a.getLast hne = 13 := by
      rw [List.getLast?_eq_some_getLast hne] at h
      exact Option.some.inj h
    have := List.dropLast_concat_getLast hne
    rw [hl] at this
    exact this.symm
  · exact Or.inl rfl

theorem NegLine'.below {s : SS} (h : NegLine' s) : BelowMinusOne s.rest := by
  obtain ⟨p, a, q, n, h1, h2, h3, h4⟩ := h
  have hn : n = -(n.natAbs : Int) := by omega
  rw [hn] at h3
  have hs := saysMinus_of h3 (by omega)
  refine ⟨p, a, q, n.natAbs, h1, h2, by omega, ?_⟩
  rcases stripCR_cases a with h | h
  · rw [h] at hs; exact Or.inl hs
  · exact Or.inr ⟨_, h, hs⟩

/-- **C103**: if an exception escapes `parse_streams`, it is `ValueError`, and some line of the data on one of the streams
gives a chunk size of -2 or less. -/
theorem C103_only_below (env : FrameEnv) (inb outb : Option Str) (e : Exc)
    (h : (runStreams env inb outb).2 = .error e) :
    e = .value ∧
      ((∃ d, inb = some d ∧ BelowMinusOne d) ∨ (∃ d, outb = some d ∧ BelowMinusOne d)) := by
  have h' := parseStreams_exc (ys := (runStreams env inb outb).1) (e := e)
    (show runStreams env inb outb = _ by rw [← h])
  refine ⟨h'.1, ?_⟩
  rcases h'.2 with ⟨i, h1, h2⟩ | ⟨o, h1, h2⟩
  · cases inb with
    | none => cases h1
    | some d => cases h1; exact Or.inl ⟨d, rfl, NegLine'.below h2⟩
  · cases outb with
    | none => cases h1
    | some d => cases h1; exact Or.inr ⟨d, rfl, NegLine'.below h2⟩

/-! ## When it happens -/

theorem parseChunk_minus (s : SS) (l : WLine) (n k : Nat) (t : Str) (hl : l.Ok)
    (hm : SaysMinus l.text n) (hn : 2 ≤ n) (hs : s.rest = l.bytes ++ t) (hk : k ≤ maxBodySize) :
    ∃ s', parseChunk s k = .exc .value s' := by
  unfold parseChunk
  rw [readline_line s l t hl hs]
  simp only [chunkSize_minus hm]
  rw [if_neg (by omega), if_neg (by omega)]
  unfold SS.read
  rw [if_pos (by omega)]
  exact ⟨_, rfl⟩

theorem chunkLoop_minus (fuel : Nat) (s : SS) (cs : List WChunk) (l : WLine) (n : Nat)
    (data t : Str) (hc : ∀ c ∈ cs, c.Ok) (hl : l.Ok) (hm : SaysMinus l.text n) (hn : 2 ≤ n)
    (hs : s.rest = cs.flatMap WChunk.bytes ++ l.bytes ++ t)
    (hd : data.length + (cs.flatMap (·.data)).length ≤ maxBodySize) (hfuel : cs.length < fuel) :
    ∃ s', chunkLoop fuel s data = .exc .value s' := by
  induction cs generalizing fuel s data with
  | nil =>
    cases fuel with
    | zero => simp at hfuel
    | succ fuel =>
      simp only [List.flatMap_nil, List.length_nil, Nat.add_zero] at hd
      obtain ⟨s', h1⟩ := parseChunk_minus s l n data.length t hl hm hn (by simpa using hs) hd
      unfold chunkLoop
      rw [h1]
      exact ⟨_, rfl⟩
  | cons c cs ih =>
    cases fuel with
    | zero => simp at hfuel
    | succ fuel =>
      simp only [List.flatMap_cons, List.length_append] at hd
      unfold chunkLoop
      rw [parseChunk_data s c _ (cs.flatMap WChunk.bytes ++ l.bytes ++ t) (hc c List.mem_cons_self)
        (by rw [hs]; simp) (by omega)]
      simp only
      exact ih fuel _ (data ++ c.data) (fun x hx => hc x (List.mem_cons_of_mem _ hx)) rfl
        (by simp only [List.length_append]; omega) (by simpa using hfuel)

theorem parseChunked_minus (s : SS) (cs : List WChunk) (l : WLine) (n : Nat) (t : Str)
    (hc : ∀ c ∈ cs, c.Ok) (hl : l.Ok) (hm : SaysMinus l.text n) (hn : 2 ≤ n)
    (hs : s.rest = cs.flatMap WChunk.bytes ++ l.bytes ++ t)
    (hd : (cs.flatMap (·.data)).length ≤ gib) : ∃ s', parseChunked s = .exc .value s' := by
  have hg : maxBodySize = gib := by simp [gib, maxBodySize]
  obtain ⟨s', h1⟩ := chunkLoop_minus (s.rest.length + 1) s cs l n [] t hc hl hm hn hs
    (by simpa [hg] using hd)
    (by have := chunks_len cs; rw [hs]; simp only [List.length_append]; omega)
  unfold parseChunked parseChunkedRaw
  rw [h1]
  exact ⟨_, rfl⟩

theorem codings_chunked {env : FrameEnv} {es : List Entry}
    (h : (codings env es).getLast? = some .chunked) :
    ∃ cs, (teCodings env es).reverse = .chunked :: cs := by
  have he : teCodings env es = codings env es := by
    rw [teCodings_eq]
    unfold codings
    congr 1
    funext e
    cases env.te e.value <;> rfl
  rw [he]
  cases hr : (codings env es).reverse with
  | nil =>
    rw [List.reverse_eq_nil_iff] at hr
    rw [hr] at h; cases h
  | cons c cs =>
    have : codings env es = cs.reverse ++ [c] := by
      rw [← List.reverse_reverse (codings env es), hr]; simp
    rw [this, List.getLast?_concat] at h
    exact ⟨cs, by rw [Option.some.inj h]⟩

theorem good_new {d : Str} (h : d ≠ []) : (SS.new d).good = true := by
  cases d with
  | nil => exact absurd rfl h
  | cons c d => rfl

theorem heading_ne (h : WHeading) (t : Str) : h.bytes ++ t ≠ [] := by
  cases hc : h.start.cr <;> simp [WHeading.bytes, WLine.bytes, hc]

/-- **C103**: a chunk size of -2 or less in the first request makes `parse_streams` fail, whatever
follows it and whatever is on the outbound stream; nothing is yielded. -/
theorem C103_request_fails (env : FrameEnv) (h : WHeading) (method target version : Str)
    (es : List Entry) (chunks : List WChunk) (line : WLine) (n : Nat) (t : Str) (outb : Option Str)
    (hh : RequestHeading h method target version es)
    (hte : (codings env es).getLast? = some .chunked) (hc : ∀ c ∈ chunks, c.Ok)
    (hd : (chunks.flatMap (·.data)).length ≤ 2 ^ 30) (hl : line.Ok) (hm : SaysMinus line.text n)
    (hn : 2 ≤ n) :
    runStreams env (some (h.bytes ++ (chunks.flatMap WChunk.bytes ++ line.bytes ++ t))) outb
      = ([], .error .value) := by
  generalize hi : chunks.flatMap WChunk.bytes ++ line.bytes ++ t = rest
  have h1 := requestHeading_wire (SS.new (h.bytes ++ rest)) h method target version es _ hh rfl
  obtain ⟨cs, hcs⟩ := codings_chunked hte
  obtain ⟨s', h2⟩ := parseChunked_minus
    { to (SS.new (h.bytes ++ rest)) h.bytes.length rest [] with complaints := [] } chunks line n t
    hc hl hm hn (by rw [hi]; rfl) hd
  have h3 : parseRequest env (SS.new (h.bytes ++ rest)) = .exc .value s' := by
    unfold parseRequest parseRequestBody
    rw [h1]
    simp only [hcs, if_true]
    rw [h2]
  unfold runStreams parseStreams
  simp only [Option.map_some]
  unfold requestLoop
  rw [if_pos (good_new (heading_ne h rest)), h3]

/-- The text of a line with a negative size, with everything that is allowed around it. -/
theorem minus_example : SaysMinus (str " -0x1_0\t;x=y") 16 :=
  ⟨str " ", str "0x", str "1_0", str "\t", str ";x=y", by decide, by decide, by decide, by decide,
    ⟨⟨by decide, by decide, by decide⟩, by decide, by decide, by
      intro a b h
      have : ∀ k < 3, ¬((str "1_0")[k]? = some 95 ∧ (str "1_0")[k + 1]? = some 95) := by decide
      have hk : a.length < 3 := by
        have := congrArg List.length h
        simp only [List.length_append, List.length_cons] at this
        have h3 : (str "1_0").length = 3 := by decide
        omega
      refine this a.length hk ⟨by rw [h]; simp, by rw [h]; simp⟩⟩, Or.inr ⟨str "x=y", by decide⟩⟩

/-- The heading of a request with chunked. -/
def exHeading : WHeading :=
  ⟨⟨str "POST / HTTP/1.1", true⟩, [⟨str "Transfer-Encoding", str " chunked", true, []⟩], true⟩

theorem exHeading_ok : RequestHeading exHeading (str "POST") (str "/") (str "HTTP/1.1")
    [⟨str "Transfer-Encoding", str "chunked"⟩] :=
  ⟨by decide, by decide, by decide, ⟨49, 49, by decide, by decide, by decide⟩,
    ⟨by decide, (fun h => nomatch h), by decide⟩,
    ⟨by
      intro f hf
      unfold exHeading at hf
      rw [List.mem_singleton] at hf
      subst hf
      exact ⟨⟨by decide, (fun h => nomatch h), by decide⟩, by decide,
        by intro s h; revert h; simp [str], by simp⟩,
      by simp [exHeading]⟩,
    ⟨rfl, str " ", [], by decide, by decide, by decide, by
      intro c s h
      have : c = 99 := by
        have := congrArg List.head? h
        simpa [str] using this.symm
      subst this; decide, by
      intro s c h
      have : c = 100 := by
        have := congrArg List.getLast? h
        rw [List.getLast?_concat] at this
        exact (Option.some.inj (this.symm.trans (by decide)))
      subst this; decide⟩, trivial⟩

/-- A chunk of two bytes. -/
def exChunks : List WChunk := [⟨⟨str "2", [], none⟩, str "ab"⟩]

theorem exChunks_ok : ∀ c ∈ exChunks, c.Ok := by
  intro c hc
  unfold exChunks at hc
  rw [List.mem_singleton] at hc
  subst hc
  exact ⟨⟨⟨by decide, by decide, by decide⟩, by simp, by simp, by decide⟩, by decide⟩

theorem exLine_ok : (⟨str " -0x1_0\t;x=y", true⟩ : WLine).Ok :=
  ⟨by decide, (fun h => nomatch h), by decide⟩

/-- A request the second chunk of which has such a line. -/
theorem exInbound : str ("POST / HTTP/1.1\r\nTransfer-Encoding: chunked\r\n\r\n2\r\nab\r\n" ++
    " -0x1_0\t;x=y\r\nGET\r\n") = exHeading.bytes ++ (exChunks.flatMap WChunk.bytes ++
      (⟨str " -0x1_0\t;x=y", true⟩ : WLine).bytes ++ str "GET\r\n") := by
  decide +kernel

/-- It fails. -/
example : runStreams toyFrame (some (str ("POST / HTTP/1.1\r\nTransfer-Encoding: chunked\r\n\r\n" ++
    "2\r\nab\r\n -0x1_0\t;x=y\r\nGET\r\n"))) (some (str "junk")) = ([], .error .value) := by
  rw [show str ("POST / HTTP/1.1\r\nTransfer-Encoding: chunked\r\n\r\n" ++
    "2\r\nab\r\n -0x1_0\t;x=y\r\nGET\r\n") = _ from exInbound]
  exact C103_request_fails toyFrame _ _ _ _ _ _ _ 16 (str "GET\r\n") (some (str "junk")) exHeading_ok
    (by decide +kernel) exChunks_ok (by decide) exLine_ok minus_example (by decide)

/-- **C103**: the same for the first response, if it is to have a body and no requests are known. -/
theorem C103_response_fails (env : FrameEnv) (h : WHeading) (version : Str) (a b c : Nat)
    (reason : Str) (es : List Entry) (chunks : List WChunk) (line : WLine) (n : Nat) (t : Str)
    (hh : ResponseHeading h version a b c reason es) (hb : HasBody none (status a b c))
    (h101 : status a b c ≠ 101)
    (hte : (codings env es).getLast? = some .chunked) (hc : ∀ c ∈ chunks, c.Ok)
    (hd : (chunks.flatMap (·.data)).length ≤ 2 ^ 30) (hl : line.Ok) (hm : SaysMinus line.text n)
    (hn : 2 ≤ n) :
    runStreams env none (some (h.bytes ++ (chunks.flatMap WChunk.bytes ++ line.bytes ++ t)))
      = ([], .error .value) := by
  generalize hi : chunks.flatMap WChunk.bytes ++ line.bytes ++ t = rest
  have h1 := responseHeading_wire (SS.new (h.bytes ++ rest)) h version a b c reason es _ hh rfl
  obtain ⟨cs, hcs⟩ := codings_chunked hte
  obtain ⟨s', h2⟩ := parseChunked_minus
    { to (SS.new (h.bytes ++ rest)) h.bytes.length rest [] with complaints := [] } chunks line n t
    hc hl hm hn (by rw [hi]; rfl) hd
  have hbody : parseResponseBody env none (status a b c) es
      { to (SS.new (h.bytes ++ rest)) h.bytes.length rest [] with complaints := [] }
      = .exc .value s' := by
    unfold parseResponseBody
    rw [if_neg h101, if_neg (by simp), if_neg (by
      simp only [informational, Bool.and_eq_true, decide_eq_true_eq]
      rintro (h | h | h | h)
      · exact hb.interim h
      · exact hb.s204 h
      · exact hb.s304 h
      · exact hb.head h)]
    simp only [hcs, if_true]
    rw [h2]
  have hg := good_new (heading_ne h rest)
  unfold runStreams parseStreams
  simp only [Option.map_none, Option.map_some]
  unfold finishStreams
  simp only
  rw [if_pos hg]
  unfold responseLoop
  rw [if_pos hg]
  unfold parseResponses
  rw [if_pos hg, h1]
  simp only
  rw [hbody]
  rfl

/-- Whether an exception escapes, for the examples. -/
def fails (inb outb : Option Str) : Bool :=
  match (runStreams toyFrame inb outb).2 with
  | .ok _ => false
  | .error _ => true

/-- A response with a size of -2 fails; one with a size of -1 (which reads the rest) does not, nor
does one with a body that is read to the end. -/
example : fails none (some (str "HTTP/1.1 200 OK\r\nTransfer-Encoding: chunked\r\n\r\n-2\r\n")) = true ∧
    fails none (some (str "HTTP/1.1 200 OK\r\nTransfer-Encoding: chunked\r\n\r\n-1\r\n")) = false ∧
    fails none (some (str "HTTP/1.1 200 OK\r\n\r\n-2\r\n")) = false := by
  decide +kernel

end Httpolice.Props
