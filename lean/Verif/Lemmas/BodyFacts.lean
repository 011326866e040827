import Verif.Lemmas.Bodies

/-!
# Lemmas: sizes of bodies, and notices about the lines of chunked framing
-/

namespace Httpolice.Lemmas

open Httpolice.Model
open Httpolice.Spec

theorem read_any {s s' : SS} {n : Int} {r : Str} (h : s.read n = .ok r s') :
    s.rest = r ++ s'.rest ∧ s'.pos = s.pos + r.length ∧ s'.complaints = s.complaints := by
  unfold SS.read at h
  split at h
  · cases h
  · simp only at h
    split at h
    · cases h
    · cases h
      refine ⟨?_, rfl, rfl⟩
      unfold SS.taken SS.advance
      split
      · simp
      · simp only [List.length_take]
        by_cases hle : n.toNat ≤ s.rest.length
        · rw [Nat.min_eq_left hle, List.take_append_drop]
        · rw [Nat.min_eq_right (by omega), List.take_of_length_le (by omega)]
          simp

/-! ## What a chunk-size line says -/

theorem hexDigitVal_inv {c d : Nat} (h : hexDigitVal c = some d) : HexDigit c ∧ hexVal c = d := by
  unfold hexDigitVal at h
  unfold HexDigit Digit hexVal
  split at h
  · rename_i hc
    obtain rfl := Option.some.inj h
    exact ⟨Or.inl hc, by rw [if_pos hc.2]⟩
  · split at h
    · rename_i hc
      obtain rfl := Option.some.inj h
      exact ⟨Or.inr (Or.inr hc), by rw [if_neg (by omega), if_neg (by omega)]⟩
    · split at h
      · rename_i hc
        obtain rfl := Option.some.inj h
        exact ⟨Or.inr (Or.inl hc), by rw [if_neg (by omega), if_pos hc.2]⟩
      · cases h

theorem hexGo_inv (s : Str) (acc : Nat) (b : Bool) (n : Nat) (h : hexGo acc b s = some n) :
    n = acc * 16 ^ (s.filter (· ≠ 95)).length + number 16 hexVal (s.filter (· ≠ 95)) ∧
    (∀ c ∈ s.filter (· ≠ 95), HexDigit c) ∧ (b = false → s ≠ [] ∧ s.head? ≠ some 95) ∧ s.getLast? ≠ some 95 ∧
    ∀ x y, s ≠ x ++ 95 :: 95 :: y := by
  induction s generalizing acc b with
  | nil =>
    rw [hexGo] at h
    split at h
    · rename_i hb
      obtain rfl := Option.some.inj h
      exact ⟨by simp [number], by simp, by simp [hb], by simp, by simp⟩
    · cases h
  | cons c s ih =>
    rw [hexGo] at h
    split at h
    · rename_i hc
      split at h
      · rename_i hb
        obtain ⟨i1, i2, i3, i4, i5⟩ := ih _ _ h
        obtain ⟨hne, hh⟩ := i3 rfl
        have hf : (c :: s).filter (· ≠ 95) = s.filter (· ≠ 95) := by simp [hc]
        rw [hf]
        refine ⟨i1, i2, by simp [hb], ?_, ?_⟩
        · cases s with
          | nil => exact absurd rfl hne
          | cons d s => rwa [List.getLast?_cons_cons]
        · intro x y he
          cases x with
          | nil =>
            simp only [List.nil_append, List.cons.injEq] at he
            rw [he.2] at hh; exact hh rfl
          | cons d x =>
            simp only [List.cons_append, List.cons.injEq] at he
            exact i5 x y he.2
      · cases h
    · rename_i hc
      split at h
      · cases h
      · rename_i d hd
        obtain ⟨hd1, hd2⟩ := hexDigitVal_inv hd
        obtain ⟨i1, i2, _, i4, i5⟩ := ih _ _ h
        have hf : (c :: s).filter (· ≠ 95) = c :: s.filter (· ≠ 95) := by simp [hc]
        rw [hf]
        refine ⟨?_, ?_, ?_, ?_, ?_⟩
        · rw [i1, number, List.length_cons, Nat.pow_succ, hd2, Nat.add_mul, Nat.mul_assoc, Nat.mul_comm 16, Nat.add_assoc]
        · intro x hx
          rcases List.mem_cons.1 hx with rfl | hx
          · exact hd1
          · exact i2 x hx
        · intro _; exact ⟨by simp, by simpa using hc⟩
        · cases s with
          | nil => simpa using hc
          | cons e s => rwa [List.getLast?_cons_cons]
        · intro x y he
          cases x with
          | nil =>
            simp only [List.nil_append, List.cons.injEq] at he
            exact hc he.1
          | cons e x =>
            simp only [List.cons_append, List.cons.injEq] at he
            exact i5 x y he.2

theorem grouped_of {s : Str} {n : Nat} (h : hexGo 0 false s = some n) : Grouped s n := by
  obtain ⟨h1, h2, h3, h4, h5⟩ := hexGo_inv s 0 false n h
  obtain ⟨hne, hh⟩ := h3 rfl
  refine ⟨⟨?_, h2, by rw [h1]; simp⟩, hh, h4, h5⟩
  cases s with
  | nil => exact absurd rfl hne
  | cons c s =>
    have hc : c ≠ 95 := by simpa using hh
    simp [hc]

theorem hexPrefix_inv (t : Str) : ∃ px ∈ [[], str "0x", str "0X", str "0x_", str "0X_"], t = px ++ hexPrefix t := by
  unfold hexPrefix
  split
  · exact ⟨str "0x_", by decide, rfl⟩
  · exact ⟨str "0X_", by decide, rfl⟩
  · exact ⟨str "0x", by decide, rfl⟩
  · exact ⟨str "0X", by decide, rfl⟩
  · exact ⟨[], by decide, rfl⟩

theorem takeDrop_pads (p : Nat → Bool) (s : Str) : ∃ a, s = a ++ s.dropWhile p ∧ ∀ c ∈ a, p c = true := by
  induction s with
  | nil => exact ⟨[], rfl, by simp⟩
  | cons c s ih =>
    rw [List.dropWhile_cons]
    split
    · rename_i hc
      obtain ⟨a, h1, h2⟩ := ih
      refine ⟨c :: a, by rw [List.cons_append, ← h1], ?_⟩
      intro x hx
      rcases List.mem_cons.1 hx with rfl | hx
      · exact hc
      · exact h2 x hx
    · exact ⟨[], rfl, by simp⟩

theorem rdrop_pads (p : Nat → Bool) (s : Str) : ∃ b, s = (s.reverse.dropWhile p).reverse ++ b ∧ ∀ c ∈ b, p c = true := by
  obtain ⟨a, h1, h2⟩ := takeDrop_pads p s.reverse
  refine ⟨a.reverse, ?_, fun c hc => h2 c (List.mem_reverse.1 hc)⟩
  rw [← List.reverse_append, ← h1, List.reverse_reverse]

theorem pad_of {c : Nat} (h : isIntSpace c = true) : Pad c := by
  unfold isIntSpace at h
  simp only [Bool.or_eq_true, Bool.and_eq_true, decide_eq_true_eq, beq_iff_eq] at h
  unfold Pad; omega

theorem intStrip_inv (s : Str) : ∃ a b, s = a ++ intStrip s ++ b ∧ (∀ c ∈ a, Pad c) ∧ (∀ c ∈ b, Pad c) := by
  obtain ⟨a, h1, h2⟩ := takeDrop_pads isIntSpace s
  obtain ⟨b, h3, h4⟩ := rdrop_pads isIntSpace (s.dropWhile isIntSpace)
  refine ⟨a, b, ?_, fun c hc => pad_of (h2 c hc), fun c hc => pad_of (h4 c hc)⟩
  unfold intStrip
  rw [List.append_assoc, ← h3, ← h1]

theorem pyIntHex_inv {s : Str} {n : Nat} (h : pyIntHex s = some (n : Int)) :
    ∃ pre sign px num post, s = pre ++ sign ++ px ++ num ++ post ∧ (∀ c ∈ pre, Pad c) ∧ (∀ c ∈ post, Pad c) ∧
      (sign = [] ∨ sign = [43] ∨ (sign = [45] ∧ n = 0)) ∧
      px ∈ [[], str "0x", str "0X", str "0x_", str "0X_"] ∧ Grouped num n := by
  obtain ⟨a, b, hs, ha, hb⟩ := intStrip_inv s
  have hsign : ∃ sign, intStrip s = sign ++ (intSign (intStrip s)).2 ∧
      ((sign = [] ∧ (intSign (intStrip s)).1 = false) ∨ (sign = [43] ∧ (intSign (intStrip s)).1 = false) ∨
        (sign = [45] ∧ (intSign (intStrip s)).1 = true)) := by
    generalize intStrip s = t
    unfold intSign
    split
    · exact ⟨[45], rfl, Or.inr (Or.inr ⟨rfl, rfl⟩)⟩
    · exact ⟨[43], rfl, Or.inr (Or.inl ⟨rfl, rfl⟩)⟩
    · exact ⟨[], rfl, Or.inl ⟨rfl, rfl⟩⟩
  obtain ⟨sign, h1, h2⟩ := hsign
  obtain ⟨px, hpx, h3⟩ := hexPrefix_inv (intSign (intStrip s)).2
  unfold pyIntHex at h
  simp only [Option.map_eq_some_iff] at h
  obtain ⟨m, hm, hmn⟩ := h
  have hval : m = n ∧ ((intSign (intStrip s)).1 = true → n = 0) := by
    split at hmn
    · exact ⟨by omega, fun _ => by omega⟩
    · rename_i hneg
      exact ⟨by omega, fun h => absurd h hneg⟩
  obtain ⟨rfl, hz⟩ := hval
  refine ⟨a, sign, px, _, b, ?_, ha, hb, ?_, hpx, grouped_of hm⟩
  · have e : intStrip s = sign ++ px ++ hexPrefix (intSign (intStrip s)).2 := by
      rw [List.append_assoc, ← h3]; exact h1
    calc s = a ++ intStrip s ++ b := hs
      _ = a ++ (sign ++ px ++ hexPrefix (intSign (intStrip s)).2) ++ b := by rw [← e]
      _ = _ := by simp only [List.append_assoc]
  · rcases h2 with h2 | h2 | h2
    · exact Or.inl h2.1
    · exact Or.inr (Or.inl h2.1)
    · exact Or.inr (Or.inr ⟨h2.1, hz h2.2⟩)

theorem partition_inv {c : Nat} {s a b : Str} (h : partitionOn c s = some (a, b)) : s = a ++ c :: b := by
  induction s generalizing a b with
  | nil => cases h
  | cons x s ih =>
    rw [partitionOn] at h
    split at h
    · rename_i hx
      obtain ⟨rfl, rfl⟩ := Prod.mk.inj (Option.some.inj h)
      rw [hx]; rfl
    · simp only [Option.map_eq_some_iff] at h
      obtain ⟨⟨a', b'⟩, h1, h2⟩ := h
      obtain ⟨rfl, rfl⟩ := Prod.mk.inj h2
      rw [ih h1]; rfl

theorem saysSize_of {t : Str} {n : Nat} (h : chunkSize t = some (n : Int)) : SaysSize t n := by
  unfold chunkSize at h
  have key : ∀ z ext, t = z ++ ext → (ext = [] ∨ ∃ x, ext = 59 :: x) → pyIntHex (rstripBlank z) = some (n : Int) →
      SaysSize t n := by
    intro z ext ht hext hz
    obtain ⟨pre, sign, px, num, post, h1, h2, h3, h4, h5, h6⟩ := pyIntHex_inv hz
    obtain ⟨b, hb, hbp⟩ := rdrop_pads isBlank z
    refine ⟨pre, sign, px, num, post ++ b, ext, ?_, h2, ?_, h4, h5, h6, hext⟩
    · rw [ht, hb]
      have : rstripBlank z = (z.reverse.dropWhile isBlank).reverse := rfl
      rw [← this, h1]; simp only [List.append_assoc]
    · intro c hc
      rcases List.mem_append.1 hc with hc | hc
      · exact h3 c hc
      · have := hbp c hc
        unfold isBlank at this
        simp only [Bool.or_eq_true, beq_iff_eq] at this
        unfold Pad; omega
  split at h
  · rename_i a b hp
    exact key a (59 :: b) (partition_inv hp) (Or.inr ⟨b, rfl⟩) h
  · exact key t [] (by simp) (Or.inl rfl) h

/-! ## Chunks -/

theorem read_len {s s' : SS} {n : Int} {r : Str} (h : s.read n = .ok r s') (hn : 0 < n) : (r.length : Int) = n := by
  unfold SS.read at h
  rw [if_neg (by omega)] at h
  simp only at h
  split at h
  · cases h
  · rename_i hl
    simp only [Out.ok.injEq] at h
    obtain ⟨rfl, _⟩ := h
    have : (s.taken n).length ≤ n.toNat := by
      unfold SS.taken
      rw [if_neg (by omega), List.length_take]; omega
    omega

theorem readlineend_more {s s' : SS} {u : Unit} (h : s.readlineend = .ok u s') : s.rest ≠ [] := by
  obtain ⟨cr, e1, _⟩ := line_of_readlineend h
  intro h0
  rw [h0] at e1
  cases cr <;> simp [WLine.bytes] at e1

theorem read_whole {s s' : SS} {n : Int} {r : Str} (h : s.read n = .ok r s') (hn : n < 0) : s'.rest = [] := by
  unfold SS.read at h
  split at h
  · cases h
  · simp only at h
    split at h
    · cases h
    · simp only [Out.ok.injEq] at h
      obtain ⟨_, rfl⟩ := h
      unfold SS.taken SS.advance
      rw [if_pos (by omega)]
      simp

theorem parseChunk_inv {s s' : SS} {k : Nat} {d : Str} (h : parseChunk s k = .ok (some d) s') :
    ∃ l cr, (l.Ok ∧ SaysSize l.text d.length ∧ d ≠ [] ∧ d.length + k ≤ 2 ^ 30) ∧
      s.rest = l.bytes ++ d ++ (⟨[], cr⟩ : WLine).bytes ++ s'.rest ∧
      s'.pos = s.pos + l.bytes.length + d.length + (⟨[], cr⟩ : WLine).bytes.length ∧
      s'.complaints = s.complaints ++ (lineFaults s.pos l ++
        lineFaults (s.pos + l.bytes.length + d.length) ⟨[], cr⟩) := by
  unfold parseChunk at h
  cases hr : s.readline with
  | exc e s1 => rw [hr] at h; cases h
  | ok line s1 =>
    rw [hr] at h
    simp only at h
    split at h
    · cases h
    · rename_i size hsize
      split at h
      · cases h
      · rename_i hzero
        split at h
        · cases h
        · rename_i hbig
          split at h
          · cases h
          · rename_i d' s2 hread
            split at h
            · cases h
            · rename_i s3 hend
              simp only [Out.ok.injEq, Option.some.injEq] at h
              obtain ⟨rfl, rfl⟩ := h
              obtain ⟨l, l1, l2, l3, l4⟩ := line_of_readline hr
              obtain ⟨r1, r2, r3⟩ := read_any hread
              obtain ⟨cr, e1, e2⟩ := line_of_readlineend hend
              have p1 : s1.pos = s.pos + l.bytes.length := congrArg SS.pos l4
              have c1 : s1.complaints = s.complaints ++ lineFaults s.pos l :=
                congrArg SS.complaints l4
              have p3 : s3.pos = s2.pos + (⟨[], cr⟩ : WLine).bytes.length := congrArg SS.pos e2
              have c3 : s3.complaints = s2.complaints ++ lineFaults s2.pos ⟨[], cr⟩ :=
                congrArg SS.complaints e2
              have hpos : 0 < size := by
                rcases Int.lt_trichotomy size 0 with hneg | h0 | hpos
                · exact absurd (read_whole hread hneg) (readlineend_more hend)
                · exact absurd h0 hzero
                · exact hpos
              have hlen := read_len hread hpos
              have hmax : (maxBodySize : Int) = 2 ^ 30 := by decide
              refine ⟨l, cr, ⟨l1, ?_, ?_, ?_⟩, ?_, ?_, ?_⟩
              · rw [← l2] at hsize
                rw [← hlen] at hsize
                exact saysSize_of hsize
              · intro h0; rw [h0] at hlen; simp at hlen; omega
              · omega
              · rw [l3, r1, e1]; simp only [List.append_assoc]
              · rw [p3, r2, p1]
              · rw [c3, r3, c1, r2, p1, List.append_assoc]

theorem parseChunk_inv_last {s s' : SS} {k : Nat} (h : parseChunk s k = .ok none s') :
    ∃ l : WLine, (l.Ok ∧ SaysSize l.text 0) ∧ s.rest = l.bytes ++ s'.rest ∧ s'.pos = s.pos + l.bytes.length ∧
      s'.complaints = s.complaints ++ lineFaults s.pos l := by
  unfold parseChunk at h
  cases hr : s.readline with
  | exc e s1 => rw [hr] at h; cases h
  | ok line s1 =>
    rw [hr] at h
    simp only at h
    split at h
    · cases h
    · rename_i size hsize
      split at h
      · rename_i hzero
        simp only [Out.ok.injEq, true_and] at h
        subst h
        obtain ⟨l, l1, l2, l3, l4⟩ := line_of_readline hr
        have p1 : s1.pos = s.pos + l.bytes.length := congrArg SS.pos l4
        have c1 : s1.complaints = s.complaints ++ lineFaults s.pos l := congrArg SS.complaints l4
        refine ⟨l, ⟨l1, ?_⟩, l3, p1, c1⟩
        rw [← l2, hzero] at hsize
        exact saysSize_of hsize
      · split at h
        · cases h
        · split at h
          · cases h
          · split at h <;> cases h

theorem chunkLoop_inv (fuel : Nat) {s s' : SS} {data r : Str}
    (h : chunkLoop fuel s data = .ok r s') :
    ∃ cs last, (∀ c ∈ cs, c.1.Ok ∧ SaysSize c.1.text c.2.1.length ∧ c.2.1 ≠ []) ∧ (last.Ok ∧ SaysSize last.text 0) ∧
      (data.length ≤ 2 ^ 30 → r.length ≤ 2 ^ 30) ∧ r = data ++ cs.flatMap (fun c => c.2.1) ∧
      s.rest = chunksBytes cs ++ last.bytes ++ s'.rest ∧
      s'.pos = s.pos + (chunksBytes cs ++ last.bytes).length ∧
      s'.complaints = s.complaints ++ (chunksFaults s.pos cs ++
        lineFaults (s.pos + (chunksBytes cs).length) last) := by
  induction fuel generalizing s data with
  | zero => cases h
  | succ fuel ih =>
    unfold chunkLoop at h
    cases hc : parseChunk s data.length with
    | exc e s1 => rw [hc] at h; cases h
    | ok o s1 =>
      rw [hc] at h
      cases o with
      | none =>
        simp only [Out.ok.injEq] at h
        obtain ⟨rfl, rfl⟩ := h
        obtain ⟨l, h1, h2, h3, h4⟩ := parseChunk_inv_last hc
        exact ⟨[], l, by simp, h1, id, by simp, by simpa [chunksBytes] using h2,
          by simpa [chunksBytes] using h3, by simpa [chunksBytes, chunksFaults] using h4⟩
      | some d =>
        simp only at h
        obtain ⟨l, cr, h1, h2, h3, h4⟩ := parseChunk_inv hc
        obtain ⟨cs, last, i1, i2, i0, i3, i4, i5, i6⟩ := ih h
        refine ⟨(l, d, cr) :: cs, last, ?_, i2, ?_, ?_, ?_, ?_, ?_⟩
        · intro c hcm
          rcases List.mem_cons.1 hcm with rfl | hcm
          · exact ⟨h1.1, h1.2.1, h1.2.2.1⟩
          · exact i1 c hcm
        · intro _
          refine i0 ?_
          rw [List.length_append]; have := h1.2.2.2; omega
        · rw [i3]; simp
        · rw [h2, i4]; simp only [chunksBytes, List.append_assoc]
        · rw [i5, h3]; simp only [chunksBytes, List.length_append]; omega
        · rw [i6, h4, h3]
          simp only [chunksFaults, List.append_assoc, chunksBytes, List.length_append, Nat.add_assoc]

theorem chunkedRaw_inv {s s' : SS} {data : Str} {tr : List Entry}
    (h : parseChunkedRaw s = .ok (data, tr) s') :
    ∃ g : WChunked, g.Holds data tr ∧ s.rest = g.bytes ++ s'.rest ∧
      s'.pos = s.pos + g.bytes.length ∧ s'.complaints = s.complaints ++ g.faults s.pos := by
  unfold parseChunkedRaw at h
  cases hr : chunkLoop (s.rest.length + 1) s [] with
  | exc e1 s1 => rw [hr] at h; cases h
  | ok data1 s1 =>
    rw [hr] at h
    simp only at h
    cases hh : parseHeaderFields s1 with
    | exc e2 s2 => rw [hh] at h; cases h
    | ok es s2 =>
      rw [hh] at h
      simp only at h
      cases he : s2.readlineend with
      | exc e3 s3 => rw [he] at h; cases h
      | ok u s3 =>
        rw [he] at h
        simp only [Out.ok.injEq, Prod.mk.injEq] at h
        obtain ⟨⟨rfl, rfl⟩, rfl⟩ := h
        obtain ⟨cs, last, i1, i2, i0, i3, i4, i5, i6⟩ := chunkLoop_inv _ hr
        obtain ⟨fs, cr, f1, f2, f3, f4, f5⟩ := section_inv hh he
        refine ⟨⟨cs, last, fs, cr⟩, ⟨⟨fun c hc => (i1 c hc).1, i2.1⟩, ⟨fun c hc => (i1 c hc).2, i2.2⟩, i0 (by simp), by rw [i3]; simp, f1, f2⟩, ?_, ?_, ?_⟩
        · rw [i4, f3]; simp only [WChunked.bytes, List.append_assoc]
        · rw [f4, i5]; simp only [WChunked.bytes, List.length_append]; omega
        · rw [f5, i6, i5]
          simp only [WChunked.faults, List.append_assoc, List.length_append, Nat.add_assoc]

theorem lineFaultsOf_lineNotes (cs : List (Nat × Nat)) : lineFaultsOf (lineNotes cs) = cs := by
  induction cs with
  | nil => rfl
  | cons c cs ih =>
    have : lineFaultsOf (lineNotes (c :: cs)) = (c.1, c.2) :: lineFaultsOf (lineNotes cs) := rfl
    rw [this, ih]

theorem lineFaultsOf_append (a b : List FNote) :
    lineFaultsOf (a ++ b) = lineFaultsOf a ++ lineFaultsOf b := List.filterMap_append

theorem lineFaultsOf_plain {ns : List FNote} (h : ∀ n ∈ ns, n.line = none) : lineFaultsOf ns = [] := by
  rw [lineFaultsOf, List.filterMap_eq_nil_iff]
  intro n hn
  simp [h n hn]

theorem parseChunked_lines {s s' : SS} {res : BodyRes} (h : parseChunked s = .ok res s')
    (hc : s.complaints = []) :
    (res.body = .unavailable none ∧ res.trailers = [] ∧ lineFaultsOf res.notes = [] ∧
      (⟨1005, none⟩ ∈ res.notes ∨ ⟨1298, none⟩ ∈ res.notes)) ∨
    ∃ (g : WChunked) (data : Str), g.Holds data res.trailers ∧ res.body = .bytes data ∧ s.rest = g.bytes ++ s'.rest ∧
      s'.pos = s.pos + g.bytes.length ∧ res.notes = lineNotes (g.faults s.pos) := by
  unfold parseChunked at h
  split at h
  · cases h; left; simp [plainNote, lineFaultsOf]
  · cases h; left; simp [plainNote, lineFaultsOf]
  · cases h
  · rename_i data tr s1 hraw
    simp only [Out.ok.injEq] at h
    obtain ⟨rfl, rfl⟩ := h
    right
    obtain ⟨g, h1, h2, h3, h4⟩ := chunkedRaw_inv hraw
    refine ⟨g, data, h1, rfl, h2, h3, ?_⟩
    show lineNotes s1.complaints = _
    rw [h4, hc]; rfl

/-! ## Sizes -/

theorem decode_unavailable (env : FrameEnv) (cs : List Coding) (i : Option Str) :
    decodeCodings env cs (.unavailable i) = (.unavailable i, []) := by
  cases cs <;> rfl

theorem decode_1298 (env : FrameEnv) (cs : List Coding) (b : Body) :
    ∀ n ∈ (decodeCodings env cs b).2, n.id = 1002 ∨ n.id = 1003 ∨ n.id = 1027 := by
  induction cs generalizing b with
  | nil => simp [decodeCodings]
  | cons c cs ih =>
    cases b with
    | unavailable i => simp [decodeCodings]
    | bytes b =>
      intro n hn
      simp only [decodeCodings, List.mem_append] at hn
      rcases hn with hn | hn
      · unfold decodeTransferCoding at hn
        cases c with
        | chunked => simp only [List.mem_singleton] at hn; subst hn; simp [plainNote]
        | gzip =>
          cases hg : env.gunzip b <;> simp [hg] at hn
          subst hn; simp [plainNote]
        | deflate =>
          cases hg : env.inflate b <;> simp [hg] at hn
          subst hn; simp [plainNote]
        | other => simp only [List.mem_singleton] at hn; subst hn; simp [plainNote]
        | unavailable => simp at hn
      · exact ih _ n hn

/-- If 1298 is reported, there is no body, and the stream is not read further. -/
def TooLong (res : BodyRes) (s' : SS) : Prop :=
  ∀ n ∈ res.notes, n.id = 1298 → (∃ i, res.body = .unavailable i) ∧ s'.sane = false

theorem parseChunked_long {s s' : SS} {res : BodyRes} (h : parseChunked s = .ok res s')
    (hc : s.complaints = []) :
    (∀ b, res.body = .bytes b → b.length ≤ gib ∧ ∀ n ∈ res.notes, n.id ≠ 1298) ∧
    (∀ i, res.body = .unavailable i → s'.sane = false) := by
  unfold parseChunked at h
  split at h
  · rename_i p s1 hraw
    cases h
    refine ⟨by simp, fun _ _ => ?_⟩
    rcases chunkedRaw_exc hraw with ⟨_, h⟩ | ⟨h, _⟩
    · exact h
    · cases h
  · rename_i p s1 hraw
    cases h
    refine ⟨by simp, fun _ _ => ?_⟩
    rcases chunkedRaw_exc hraw with ⟨_, h⟩ | ⟨h, _⟩
    · exact h
    · cases h
  · cases h
  · rename_i data tr s1 hraw
    obtain ⟨_, _, _, hlen⟩ := chunkedRaw_ok hraw
    obtain ⟨g, h1, h2, h3, h4⟩ := chunkedRaw_inv hraw
    simp only [Out.ok.injEq] at h
    obtain ⟨rfl, rfl⟩ := h
    refine ⟨?_, by simp⟩
    intro b hb
    cases hb
    refine ⟨by simpa [gib, maxBodySize] using hlen, ?_⟩
    intro n hn hid
    have hf : ∀ c ∈ g.faults s.pos, c.1 ≠ 1298 := by
      have hl : ∀ off l, ∀ c ∈ lineFaults off l, c.1 ≠ 1298 := by
        intro off l c hc
        unfold lineFaults at hc
        split at hc
        · simp at hc
        · rw [List.mem_singleton] at hc; subst hc; simp
      have hfo : ∀ fs off, ∀ c ∈ foldFaults off fs, c.1 ≠ 1298 := by
        intro fs
        induction fs with
        | nil => simp [foldFaults]
        | cons f fs ih =>
          intro off c hc
          simp only [foldFaults, List.mem_append, List.mem_singleton] at hc
          rcases hc with (hc | hc) | hc
          · subst hc; simp
          · exact hl _ _ c hc
          · exact ih _ c hc
      have hbl : ∀ fs off, ∀ c ∈ blockFaults off fs, c.1 ≠ 1298 := by
        intro fs
        induction fs with
        | nil => simp [blockFaults]
        | cons f fs ih =>
          intro off c hc
          simp only [blockFaults, List.mem_append] at hc
          rcases hc with (hc | hc) | hc
          · exact hl _ _ c hc
          · exact hfo _ _ c hc
          · exact ih _ c hc
      have hch : ∀ cs off, ∀ c ∈ chunksFaults off cs, c.1 ≠ 1298 := by
        intro cs
        induction cs with
        | nil => simp [chunksFaults]
        | cons x cs ih =>
          intro off c hc
          obtain ⟨l, d, cr⟩ := x
          simp only [chunksFaults, List.mem_append] at hc
          rcases hc with (hc | hc) | hc
          · exact hl _ _ c hc
          · exact hl _ _ c hc
          · exact ih _ c hc
      intro c hc
      simp only [WChunked.faults, List.mem_append] at hc
      rcases hc with ((hc | hc) | hc) | hc
      · exact hch _ _ c hc
      · exact hl _ _ c hc
      · exact hbl _ _ c hc
      · exact hl _ _ c hc
    have hn : n ∈ lineNotes s1.complaints := hn
    rw [h4, hc, List.nil_append, lineNotes, List.mem_map] at hn
    obtain ⟨c, hc1, hc2⟩ := hn
    rw [← hc2] at hid
    exact hf c hc1 hid

/-- What is known of a body parsed from `s` when there are these entries. -/
structure BodyFacts (env : FrameEnv) (es : List Entry) (s s' : SS) (res : BodyRes) : Prop where
  /-- 1298 -/
  long : TooLong res s'
  /-- Content-Length -/
  sized : withName "Transfer-Encoding" es = [] → ∀ e n,
    (withName "Content-Length" es).getLast? = some e → Decimal e.value n →
    (n ≤ gib ∧ ∃ b, res.body = .bytes b ∧ b.length = n ∧ res.notes = []) ∨
    (n ≤ gib ∧ res.body = .unavailable none ∧ res.notes = [⟨1004, none⟩] ∧ s.rest.length < n ∧
      s'.sane = false) ∨
    (gib < n ∧ res.body = .unavailable none ∧ res.notes = [⟨1298, none⟩])
  /-- chunked only -/
  chunked : (withName "Transfer-Encoding" es).map (fun e => env.te e.value)
      = [some [Coding.chunked]] → ∀ b, res.body = .bytes b → b.length ≤ gib
  /-- lines of a body that is not chunked -/
  plainLines : (teCodings env es).getLast? ≠ some .chunked → lineFaultsOf res.notes = []
  /-- lines of chunked framing -/
  lines : (teCodings env es).getLast? = some .chunked →
    (res.body = .unavailable none ∧ lineFaultsOf res.notes = [] ∧
      (⟨1005, none⟩ ∈ res.notes ∨ ⟨1298, none⟩ ∈ res.notes)) ∨
    ∃ (g : WChunked) (data : Str), g.Holds data res.trailers ∧ s.rest = g.bytes ++ s'.rest ∧
      s'.pos = s.pos + g.bytes.length ∧ lineFaultsOf res.notes = g.faults s.pos

theorem sized_facts {n : Nat} {s s' : SS} {res : BodyRes}
    (h : processContentLength (.val n) s = .ok res s') :
    ((n ≤ gib ∧ ∃ b, res.body = .bytes b ∧ b.length = n ∧ res.notes = []) ∨
    (n ≤ gib ∧ res.body = .unavailable none ∧ res.notes = [⟨1004, none⟩] ∧ s.rest.length < n ∧
      s'.sane = false) ∨
    (gib < n ∧ res.body = .unavailable none ∧ res.notes = [⟨1298, none⟩])) ∧ TooLong res s' := by
  unfold processContentLength at h
  simp only at h
  have hg : maxBodySize = gib := by simp [gib, maxBodySize]
  rw [hg] at h
  split at h
  · rename_i hgt
    cases h
    refine ⟨Or.inr (Or.inr ⟨hgt, rfl, rfl⟩), ?_⟩
    intro _ _ _
    exact ⟨⟨_, rfl⟩, rfl⟩
  · rename_i hgt
    split at h
    · rename_i hread
      cases h
      refine ⟨Or.inr (Or.inl ⟨by omega, rfl, rfl, ?_, ?_⟩), ?_⟩
      · unfold SS.read at hread
        rw [if_neg (by omega)] at hread
        simp only at hread
        split at hread
        · rename_i hlt
          unfold SS.taken at hlt
          rw [if_neg (by omega), Int.toNat_natCast, List.length_take] at hlt
          omega
        · cases hread
      · rcases read_exc hread with ⟨h1, _⟩ | ⟨_, h1⟩
        · cases h1
        · exact h1
      · intro x hx hid
        simp only [List.mem_singleton] at hx
        subst hx
        simp [plainNote] at hid
    · cases h
    · rename_i b s1 hread
      cases h
      obtain ⟨h1, h2, h3⟩ := read_nat hread
      refine ⟨Or.inl ⟨by omega, b, rfl, h2, rfl⟩, ?_⟩
      intro x hx
      simp at hx

theorem sized_lines {n : PyVal Nat} {s s' : SS} {res : BodyRes}
    (h : processContentLength n s = .ok res s') : lineFaultsOf res.notes = [] ∧ TooLong res s' := by
  cases n with
  | val n =>
    obtain ⟨h1, h2⟩ := sized_facts h
    refine ⟨?_, h2⟩
    rcases h1 with ⟨_, _, _, _, h⟩ | ⟨_, _, h, _⟩ | ⟨_, _, h⟩ <;> simp [h, lineFaultsOf]
  | none => cases h; exact ⟨rfl, by intro x hx; simp at hx⟩
  | unavailable => cases h; exact ⟨rfl, by intro x hx; simp at hx⟩

theorem te_ne_nil {env : FrameEnv} {es : List Entry} {c : Coding} {cs : List Coding}
    (h : (teCodings env es).reverse = c :: cs) : withName "Transfer-Encoding" es ≠ [] := by
  intro h0
  rw [teCodings_eq, h0] at h
  simp at h

theorem te_single {env : FrameEnv} {es : List Entry}
    (hte : (withName "Transfer-Encoding" es).map (fun e => env.te e.value)
      = [some [Coding.chunked]]) : teCodings env es = [.chunked] := by
  rw [teCodings_eq]
  generalize withName "Transfer-Encoding" es = l at hte ⊢
  cases l with
  | nil => simp at hte
  | cons e l =>
    cases l with
    | cons e' l => simp at hte
    | nil =>
      simp only [List.map_cons, List.map_nil, List.cons.injEq, and_true] at hte
      simp [hte]

/-- Facts for a body with transfer codings, the last one of which is chunked. -/
theorem chunked_facts {env : FrameEnv} {es : List Entry} {s s' : SS} {r : BodyRes}
    {cs : List Coding} (hte : (teCodings env es).reverse = .chunked :: cs)
    (h : parseChunked s = .ok r s') (hc : s.complaints = []) :
    BodyFacts env es s s' ⟨(decodeCodings env cs r.body).1, r.trailers,
      r.notes ++ (decodeCodings env cs r.body).2⟩ := by
  have hlong := parseChunked_long h hc
  have hlines := parseChunked_lines h hc
  have hdl : lineFaultsOf (decodeCodings env cs r.body).2 = [] :=
    lineFaultsOf_plain (decode_notes env cs r.body)
  refine ⟨?_, fun h0 => absurd h0 (te_ne_nil hte), ?_, ?_, ?_⟩
  · intro n hn hid
    simp only [List.mem_append] at hn
    rcases hn with hn | hn
    · cases hb : r.body with
      | bytes b => exact absurd hid ((hlong.1 b hb).2 n hn)
      | unavailable i =>
        rw [decode_unavailable]
        exact ⟨⟨i, rfl⟩, hlong.2 i hb⟩
    · have := decode_1298 env cs r.body n hn
      omega
  · intro h1 b hb
    rw [te_single h1] at hte
    simp only [List.reverse_cons, List.reverse_nil, List.nil_append, List.cons.injEq, true_and] at hte
    subst hte
    exact (hlong.1 b hb).1
  · intro h0
    rw [← List.head?_reverse, hte] at h0
    exact absurd rfl h0
  · intro _
    simp only
    rw [lineFaultsOf_append, hdl, List.append_nil]
    rcases hlines with ⟨hb, _, hl, hx⟩ | ⟨g, data, h1, h2, h3, h4, h5⟩
    · left
      rw [hb, decode_unavailable]
      refine ⟨rfl, hl, ?_⟩
      rcases hx with hx | hx
      · exact Or.inl (List.mem_append_left _ hx)
      · exact Or.inr (List.mem_append_left _ hx)
    · exact Or.inr ⟨g, data, h1, h3, h4, by rw [h5, lineFaultsOf_lineNotes]⟩

/-- Facts for a body with transfer codings, the last one of which is not chunked. -/
theorem coded_facts {env : FrameEnv} {es : List Entry} {s s' : SS} {b : Body} {c : Coding}
    {cs cs' : List Coding} {ns : List FNote} (hte : (teCodings env es).reverse = c :: cs)
    (hcc : c ≠ .chunked) (hns : ∀ n ∈ ns, n.line = none ∧ n.id ≠ 1298) :
    BodyFacts env es s s' ⟨(decodeCodings env cs' b).1, [], ns ++ (decodeCodings env cs' b).2⟩ := by
  refine ⟨?_, fun h0 => absurd h0 (te_ne_nil hte), ?_, ?_, ?_⟩
  · intro n hn hid
    simp only [List.mem_append] at hn
    rcases hn with hn | hn
    · exact absurd hid (hns n hn).2
    · have := decode_1298 env _ _ n hn
      omega
  · intro h1
    rw [te_single h1] at hte
    simp only [List.reverse_cons, List.reverse_nil, List.nil_append, List.cons.injEq] at hte
    exact absurd hte.1.symm hcc
  · intro _
    simp only
    rw [lineFaultsOf_append, lineFaultsOf_plain (decode_notes env _ _),
      lineFaultsOf_plain fun n hn => (hns n hn).1]; rfl
  · intro hl
    rw [← List.head?_reverse, hte] at hl
    exact absurd (Option.some.inj hl) hcc

theorem te_nil {env : FrameEnv} {es : List Entry} (h : (teCodings env es).reverse = []) :
    (teCodings env es).getLast? = none ∧ ∀ env' : FrameEnv, env' = env →
      ¬(withName "Transfer-Encoding" es).map (fun e => env.te e.value) = [some [Coding.chunked]] := by
  have h0 : teCodings env es = [] := by simpa using h
  refine ⟨by rw [h0]; rfl, fun _ _ h1 => ?_⟩
  rw [te_single h1] at h0
  cases h0

theorem requestBody_facts {env : FrameEnv} {es : List Entry} {s s' : SS} {res : BodyRes}
    (h : parseRequestBody env es s = .ok res s') (hc : s.complaints = []) :
    BodyFacts env es s s' res := by
  unfold parseRequestBody at h
  split at h
  · rename_i c cs hte
    simp only at h
    by_cases hcc : c = .chunked
    · subst hcc
      rw [if_pos rfl] at h
      cases hp : parseChunked s with
      | exc e s1 => rw [hp] at h; cases h
      | ok r s1 =>
        rw [hp] at h
        simp only [Out.ok.injEq] at h
        obtain ⟨rfl, rfl⟩ := h
        exact chunked_facts hte hp hc
    · rw [if_neg hcc] at h
      simp only [Out.ok.injEq] at h
      obtain ⟨rfl, rfl⟩ := h
      exact coded_facts (ns := [plainNote 1001]) hte hcc (by simp [plainNote])
  · rename_i hte
    obtain ⟨t1, t2⟩ := te_nil hte
    split at h
    · rename_i ht
      obtain ⟨l1, l2⟩ := sized_lines h
      refine ⟨l2, ?_, fun h1 => absurd h1 (t2 env rfl), fun _ => l1, fun hx => by rw [t1] at hx; cases hx⟩
      intro _ e n he hn
      rw [contentLength_eq, he] at h
      simp only [parseContentLength_eq hn] at h
      exact (sized_facts h).1
    · rename_i ht
      simp only [Out.ok.injEq] at h
      obtain ⟨rfl, rfl⟩ := h
      refine ⟨by intro x hx; simp at hx, ?_, fun h1 => absurd h1 (t2 env rfl), fun _ => rfl,
        fun hx => by rw [t1] at hx; cases hx⟩
      intro _ e n he hn
      rw [contentLength_eq, he] at ht
      simp only [parseContentLength_eq hn, clTruthy] at ht
      have : n = 0 := by simpa using ht
      subst this
      exact Or.inl ⟨Nat.zero_le _, [], rfl, rfl, rfl⟩

theorem responseBody_facts {env : FrameEnv} {m : Option Str} {st : Nat} {es : List Entry} {s s' : SS}
    {res : BodyRes} (h : parseResponseBody env m st es s = .ok res s') (hc : s.complaints = [])
    (hb : HasBody m st) : BodyFacts env es s s' res := by
  unfold parseResponseBody at h
  rw [if_neg (by have := hb.interim; omega), if_neg (by
    rintro ⟨h1, h2⟩
    apply hb.connect
    simp only [successful, Bool.and_eq_true, decide_eq_true_eq] at h2
    exact ⟨h1, h2⟩), if_neg (by
    have h1 := hb.interim; have h2 := hb.s204; have h3 := hb.s304; have h4 := hb.head
    simp only [informational, Bool.and_eq_true, decide_eq_true_eq]
    rintro (h | h | h | h)
    · exact h1 h
    · exact h2 h
    · exact h3 h
    · exact h4 h)] at h
  split at h
  · rename_i c cs hte
    simp only at h
    by_cases hcc : c = .chunked
    · subst hcc
      rw [if_pos rfl] at h
      cases hp : parseChunked s with
      | exc e s1 => rw [hp] at h; cases h
      | ok r s1 =>
        rw [hp] at h
        simp only [if_true, Out.ok.injEq] at h
        obtain ⟨rfl, rfl⟩ := h
        exact chunked_facts hte hp hc
    · rw [if_neg hcc] at h
      cases hp : readToEnd s with
      | exc e s1 => rw [hp] at h; cases h
      | ok r s1 =>
        rw [hp] at h
        simp only [if_neg hcc, Out.ok.injEq] at h
        obtain ⟨rfl, rfl⟩ := h
        unfold readToEnd at hp
        split at hp
        · cases hp
        · cases hp
          exact coded_facts (ns := []) hte hcc (by simp)
  · rename_i hte
    obtain ⟨t1, t2⟩ := te_nil hte
    split at h
    · rename_i hcl
      unfold readToEnd at h
      split at h
      · cases h
      · cases h
        refine ⟨by intro x hx; simp at hx, ?_, fun h1 => absurd h1 (t2 env rfl), fun _ => rfl,
          fun hx => by rw [t1] at hx; cases hx⟩
        intro _ e n he hn
        rw [contentLength_eq, he] at hcl
        simp only [parseContentLength_eq hn] at hcl
        cases hcl
    · obtain ⟨l1, l2⟩ := sized_lines h
      refine ⟨l2, ?_, fun h1 => absurd h1 (t2 env rfl), fun _ => l1, fun hx => by rw [t1] at hx; cases hx⟩
      intro _ e n he hn
      rw [contentLength_eq, he] at h
      simp only [parseContentLength_eq hn] at h
      exact (sized_facts h).1

/-- A response that is not expected to have a body has none, and no notices about it but 1011 and
1012. -/
theorem nobody_facts {env : FrameEnv} {m : Option Str} {st : Nat} {es : List Entry} {s s' : SS}
    {res : BodyRes} (h : parseResponseBody env m st es s = .ok res s') (hb : ¬HasBody m st) :
    res.body = .bytes [] ∧ res.trailers = [] ∧ s'.rest = s.rest ∧ s'.pos = s.pos ∧
      lineFaultsOf res.notes = [] ∧ ∀ n ∈ res.notes, n.id = 1011 ∨ n.id = 1012 := by
  unfold parseResponseBody at h
  split at h
  · cases h; simp [lineFaultsOf, plainNote]
  · split at h
    · cases h; simp [lineFaultsOf, plainNote]
    · split at h
      · cases h; simp [lineFaultsOf]
      · rename_i h1 h2 h3
        exfalso
        apply hb
        simp only [informational, Bool.and_eq_true, decide_eq_true_eq, not_or] at h3
        simp only [successful, Bool.and_eq_true, decide_eq_true_eq] at h2
        exact ⟨h3.1, h3.2.1, h3.2.2.1, h3.2.2.2, h2⟩

end Httpolice.Lemmas
