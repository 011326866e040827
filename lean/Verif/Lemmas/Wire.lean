import Verif.Lemmas.Streams
import Verif.Spec.Wire
import Verif.Props.Header

/-!
# Lemmas: parsing what is on the wire
-/

namespace Httpolice.Lemmas

open Httpolice.Model
open Httpolice.Spec

/-- The stream after reading `n` bytes, with `t` left and some more complaints. -/
def to (s : SS) (n : Nat) (t : Str) (cs : List (Nat × Nat)) : SS :=
  ⟨t, s.pos + n, s.eof || t.isEmpty, s.sane, s.complaints ++ cs⟩

theorem to_to (s : SS) (n m : Nat) (t u : Str) (cs cs' : List (Nat × Nat))
    (h : t = [] → u = []) : to (to s n t cs) m u cs' = to s (n + m) u (cs ++ cs') := by
  have : (s.eof || t.isEmpty || u.isEmpty) = (s.eof || u.isEmpty) := by
    cases t with
    | nil => rw [h rfl]; cases s.eof <;> rfl
    | cons => cases s.eof <;> simp
  simp only [to, Nat.add_assoc, List.append_assoc, this]

theorem to_zero (s : SS) (t : Str) (hs : s.rest = t) (ht : t ≠ []) : to s 0 t [] = s := by
  cases s
  simp only at hs
  subst hs
  simp only [to, Nat.add_zero, List.append_nil, SS.mk.injEq, true_and, and_true]
  cases hs : ‹Bool› <;> simp [ht]

theorem readline_line (s : SS) (l : WLine) (t : Str) (hl : l.Ok) (hs : s.rest = l.bytes ++ t) :
    s.readline = .ok l.text (to s l.bytes.length t (lineFaults s.pos l)) := by
  obtain ⟨text, cr⟩ := l
  cases cr with
  | true =>
    have h := readline_found s (text ++ [13]) t (by rw [hs]; simp [WLine.bytes])
      (by have := hl.lf; simp_all) (by have := hl.len; simp [WLine.bytes, maxLineLength] at this ⊢; omega)
    rw [h]
    simp [stripCR, to, WLine.bytes, lineFaults]; omega
  | false =>
    have hn : text.getLast? ≠ some 13 := by
      intro hg
      have hne : text ≠ [] := by intro h0; rw [h0] at hg; simp at hg
      rw [List.getLast?_eq_some_getLast hne] at hg
      have := List.dropLast_concat_getLast hne
      rw [Option.some.inj hg] at this
      exact hl.cr rfl _ this.symm
    have h := readline_found s text t (by rw [hs]; simp [WLine.bytes]) hl.lf
      (by have := hl.len; simp [WLine.bytes, maxLineLength] at this ⊢; omega)
    rw [h]
    simp [stripCR, hn, to, WLine.bytes, lineFaults]; omega

/-- The converse: what `readline` read was a line. -/
theorem line_of_readline {s s' : SS} {r : Str} (h : s.readline = .ok r s') :
    ∃ l : WLine, l.Ok ∧ l.text = r ∧ s.rest = l.bytes ++ s'.rest ∧
      s' = to s l.bytes.length s'.rest (lineFaults s.pos l) := by
  rcases line_cases maxLineLength s.rest with ⟨a, t, hs, ha, hl⟩ | h'
  · have hex : ∃ l : WLine, l.Ok ∧ s.rest = l.bytes ++ t := by
      by_cases h13 : ∃ l', a = l' ++ [13]
      · obtain ⟨l', rfl⟩ := h13
        refine ⟨⟨l', true⟩, ⟨fun h => ha (by simp [h]), by simp, ?_⟩, ?_⟩
        · simp [WLine.bytes, maxLineLength] at hl ⊢; omega
        · rw [hs]; simp [WLine.bytes]
      · refine ⟨⟨a, false⟩, ⟨ha, fun _ l' hl' => h13 ⟨l', hl'⟩, ?_⟩, ?_⟩
        · simp [WLine.bytes, maxLineLength] at hl ⊢; omega
        · rw [hs]; simp [WLine.bytes]
    obtain ⟨l, hok, hb⟩ := hex
    have hr := readline_line s l t hok hb
    rw [hr] at h
    simp only [Out.ok.injEq] at h
    obtain ⟨rfl, rfl⟩ := h
    exact ⟨l, hok, rfl, hb, rfl⟩
  · rw [readline_notfound s h'] at h; cases h

/-! ## Header blocks -/

theorem isBlank_iff (c : Nat) : isBlank c = true ↔ Blank c := by
  simp [isBlank, Blank]

theorem dropWhile_blanks (a b : Str) (ha : ∀ c ∈ a, Blank c) (hb : ∀ c s, b = c :: s → ¬Blank c) :
    (a ++ b).dropWhile isBlank = b := by
  induction a with
  | nil =>
    cases b with
    | nil => rfl
    | cons c b =>
      have : ¬isBlank c = true := by rw [isBlank_iff]; exact hb c b rfl
      simp [List.dropWhile_cons, this]
  | cons c a ih =>
    have : isBlank c = true := by rw [isBlank_iff]; exact ha c List.mem_cons_self
    simp only [List.cons_append, List.dropWhile_cons, this, if_true]
    exact ih fun x hx => ha x (List.mem_cons_of_mem _ hx)

theorem rstrip_blanks (a b : Str) (hb : ∀ c ∈ b, Blank c) (ha : ∀ s c, a = s ++ [c] → ¬Blank c) :
    rstripBlank (a ++ b) = a := by
  unfold rstripBlank
  rw [List.reverse_append, dropWhile_blanks _ _ (by simpa using hb), List.reverse_reverse]
  intro c s hs hc
  refine ha s.reverse c ?_ hc
  have := congrArg List.reverse hs
  rwa [List.reverse_reverse, List.reverse_cons] at this

theorem strip_of_trimmed {raw v : Str} (h : Trimmed raw v) : stripBlank raw = v := by
  obtain ⟨a, b, rfl, ha, hb, h1, h2⟩ := h
  unfold stripBlank lstripBlank
  cases v with
  | nil =>
    have hall : ∀ c ∈ a ++ ([] ++ b), Blank c := by
      intro c hc
      simp only [List.nil_append, List.mem_append] at hc
      rcases hc with hc | hc
      · exact ha c hc
      · exact hb c hc
    have := dropWhile_blanks (a ++ ([] ++ b)) [] hall (by simp)
    rw [List.append_nil] at this
    rw [List.append_assoc, this]
    rfl
  | cons c v =>
    rw [List.append_assoc, dropWhile_blanks a _ ha]
    · exact rstrip_blanks _ _ hb h2
    · intro c' s' hs
      cases hs
      exact h1 c v rfl

theorem dropWhile_head (s : Str) : ∀ c t, s.dropWhile isBlank = c :: t → ¬Blank c := by
  induction s with
  | nil => intro c t h; cases h
  | cons x s ih =>
    intro c t h
    rw [List.dropWhile_cons] at h
    split at h
    · exact ih c t h
    · rename_i hx
      cases h
      rwa [isBlank_iff] at hx

theorem blanks_split (s : Str) : ∃ w, s = w ++ s.dropWhile isBlank ∧ ∀ c ∈ w, Blank c := by
  refine ⟨s.takeWhile isBlank, (List.takeWhile_append_dropWhile).symm, ?_⟩
  intro c hc
  rw [← isBlank_iff]
  exact List.all_eq_true.1 (List.all_takeWhile) c hc

theorem trimmed_strip (raw : Str) : Trimmed raw (stripBlank raw) := by
  unfold stripBlank lstripBlank rstripBlank
  obtain ⟨a, ha, hab⟩ := blanks_split raw
  obtain ⟨b, hb, hbb⟩ := blanks_split (raw.dropWhile isBlank).reverse
  have hb' := congrArg List.reverse hb
  rw [List.reverse_reverse, List.reverse_append] at hb'
  refine ⟨a, b.reverse, ?_, hab, by simpa using hbb, ?_, ?_⟩
  · rw [List.append_assoc, ← hb', ← ha]
  · intro c s hs
    rw [hs] at hb'
    exact dropWhile_head raw c (s ++ b.reverse) hb'
  · intro s c hs
    have := congrArg List.reverse hs
    rw [List.reverse_reverse, List.reverse_append] at this
    exact dropWhile_head _ c s.reverse this

theorem contLines_stop (fuel : Nat) (s : SS) (h : ∀ c t, s.rest = c :: t → ¬Blank c) :
    contLines (fuel + 1) s = .ok [] s := by
  unfold contLines
  rw [if_neg]
  unfold SS.peek
  rintro (hp | hp)
  · cases hr : s.rest with
    | nil => rw [hr] at hp; cases hp
    | cons c t =>
      rw [hr] at hp
      exact h c t hr (Or.inl (Option.some.inj hp))
  · cases hr : s.rest with
    | nil => rw [hr] at hp; cases hp
    | cons c t =>
      rw [hr] at hp
      exact h c t hr (Or.inr (Option.some.inj hp))

theorem complain_eq (s : SS) (t : Str) (id off n : Nat) (cs : List (Nat × Nat)) :
    to (s.complain id off) n t cs = to s n t ([(id, off)] ++ cs) := by
  simp [to, SS.complain]

theorem contLines_folds (fuel : Nat) (s : SS) (fs : List Fold) (t : Str) (hf : ∀ l ∈ fs, l.Ok)
    (hs : s.rest = (fs.flatMap fun l => l.line.bytes) ++ t) (ht : t ≠ [])
    (hb : ∀ c t', t = c :: t' → ¬Blank c) (hfuel : fs.length < fuel) :
    contLines fuel s = .ok (fs.map fun l => 32 :: l.content)
      (to s (fs.flatMap fun l => l.line.bytes).length t (foldFaults s.pos fs)) := by
  induction fs generalizing fuel s with
  | nil =>
    cases fuel with
    | zero => simp at hfuel
    | succ fuel =>
      have hs : s.rest = t := hs
      rw [contLines_stop fuel s (by rw [hs]; exact hb)]
      simp only [List.map_nil, List.flatMap_nil, List.length_nil, foldFaults, Out.ok.injEq, true_and]
      exact (to_zero s t hs ht).symm
  | cons f fs ih =>
    cases fuel with
    | zero => simp at hfuel
    | succ fuel =>
      have hok := hf f List.mem_cons_self
      have hrest : s.rest = f.line.bytes ++ ((fs.flatMap fun l => l.line.bytes) ++ t) := by
        rw [hs]; simp
      have hpeek : s.peek = some 32 ∨ s.peek = some 9 := by
        unfold SS.peek
        rw [hrest]
        cases hi : f.indent with
        | nil => exact absurd hi hok.ne
        | cons c i =>
          have := hok.blank c (by rw [hi]; exact List.mem_cons_self)
          simp only [Fold.line, WLine.bytes, hi, List.cons_append, List.head?_cons, Option.some.injEq]
          exact this
      unfold contLines
      rw [if_pos hpeek]
      have hr := readline_line (s.complain 1016 s.pos) f.line _ hok.line hrest
      rw [hr]
      simp only
      rw [ih fuel _ (fun l hl => hf l (List.mem_cons_of_mem _ hl)) rfl (by simpa using hfuel)]
      simp only [List.map_cons, Out.ok.injEq, List.cons.injEq, and_true, true_and]
      refine ⟨?_, ?_⟩
      · congr 1
        exact dropWhile_blanks _ _ hok.blank hok.content
      · rw [to_to _ _ _ _ _ _ _ (by simp [ht]), complain_eq]
        congr 1
        · simp

theorem partition_colon (a b : Str) (ha : 58 ∉ a) : partitionOn 58 (a ++ [58] ++ b) = some (a, b) := by
  induction a with
  | nil => simp [partitionOn]
  | cons c a ih =>
    have hc : c ≠ 58 := fun h => ha (by simp [h])
    have := ih fun h => ha (List.mem_cons_of_mem _ h)
    simp only [List.cons_append, partitionOn, if_neg hc]
    rw [this]; rfl

theorem wfield_ne (f : WField) : f.bytes ≠ [] := by
  simp [WField.bytes, WField.first, WLine.bytes]

theorem block_head {fs : List WField} {t : Str} (hb : ∀ f ∈ fs, ∀ c s, f.name = c :: s → ¬Blank c)
    (ht : ∀ c t', t = c :: t' → ¬Blank c) :
    ∀ c u, blockBytes fs ++ t = c :: u → ¬Blank c := by
  intro c u h
  cases fs with
  | nil => exact ht c u h
  | cons f fs =>
    simp only [blockBytes, List.flatMap_cons, WField.bytes, WField.first, WLine.bytes,
      List.append_assoc] at h
    cases hn : f.name with
    | nil =>
      rw [hn] at h
      simp only [List.nil_append, List.cons_append, List.cons.injEq] at h
      rw [← h.1]
      unfold Blank; omega
    | cons x n =>
      rw [hn] at h
      simp only [List.cons_append, List.cons.injEq] at h
      rw [← h.1]
      exact hb f List.mem_cons_self x n hn

theorem BlockOk.tail {f : WField} {fs : List WField} (h : BlockOk (f :: fs)) : BlockOk fs :=
  ⟨fun x hx => h.ok x (List.mem_cons_of_mem _ hx), fun x hx => h.blank x (List.mem_of_mem_tail hx)⟩

theorem folds_len (fs : List Fold) : fs.length ≤ (fs.flatMap fun l => l.line.bytes).length := by
  induction fs with
  | nil => simp
  | cons f fs ih =>
    have : 1 ≤ f.line.bytes.length := by
      simp only [WLine.bytes, List.length_append]
      split <;> simp
    simp only [List.flatMap_cons, List.length_append, List.length_cons]
    omega

theorem headerLoop_block (fuel : Nat) (s : SS) (fs : List WField) (es : List Entry) (t : Str)
    (hf : BlockOk fs) (he : AreEntries fs es) (hs : s.rest = blockBytes fs ++ t)
    (ht : t.head? = some 13 ∨ t.head? = some 10) (hfuel : (blockBytes fs).length < fuel) :
    headerLoop fuel s = .ok es (to s (blockBytes fs).length t (blockFaults s.pos fs)) := by
  have htne : t ≠ [] := by rintro rfl; simp at ht
  have htb : ∀ c t', t = c :: t' → ¬Blank c := by
    rintro c t' rfl
    simp only [List.head?_cons, Option.some.injEq] at ht
    unfold Blank; omega
  induction fs generalizing fuel s es with
  | nil =>
    cases es with
    | cons => exact he.elim
    | nil =>
      cases fuel with
      | zero => simp at hfuel
      | succ fuel =>
        have hs : s.rest = t := hs
        unfold headerLoop
        rw [if_pos]
        · simp only [blockBytes, List.flatMap_nil, List.length_nil, blockFaults, Out.ok.injEq,
            true_and]
          exact (to_zero s t hs htne).symm
        · unfold SS.peek; rw [hs]
          rcases ht with ht | ht
          · exact Or.inl ht
          · exact Or.inr (Or.inl ht)
  | cons f fs ih =>
    cases es with
    | nil => exact he.elim
    | cons e es =>
      obtain ⟨he1, he2⟩ := he
      cases fuel with
      | zero => simp at hfuel
      | succ fuel =>
        have hok := hf.ok f List.mem_cons_self
        have hbb : blockBytes (f :: fs) = f.first.bytes ++ ((f.folds.flatMap fun l => l.line.bytes) ++
            blockBytes fs) := by
          simp [blockBytes, WField.bytes]
        have hrest : s.rest = f.first.bytes ++ ((f.folds.flatMap fun l => l.line.bytes) ++
            (blockBytes fs ++ t)) := by
          rw [hs, hbb]; simp
        have h1 : 1 ≤ f.first.bytes.length := by
          simp only [WLine.bytes, List.length_append]
          split <;> simp
        have hlen : (blockBytes (f :: fs)).length = f.first.bytes.length +
            (f.folds.flatMap fun l => l.line.bytes).length + (blockBytes fs).length := by
          rw [hbb]; simp only [List.length_append]; omega
        have hpeek : ¬(s.peek = some 13 ∨ s.peek = some 10 ∨ s.peek = none) := by
          unfold SS.peek
          rw [hrest]
          cases hn : f.name with
          | nil =>
            simp [WField.first, WLine.bytes, hn]
          | cons c n =>
            have h13 : c ≠ 13 := by rintro rfl; exact hok.start n hn
            have h10 : c ≠ 10 := by
              rintro rfl
              refine hok.first.lf ?_
              simp [WField.first, hn]
            simp [WField.first, WLine.bytes, hn, h13, h10]
        unfold headerLoop
        rw [if_neg hpeek, readline_line s f.first _ hok.first hrest]
        simp only [WField.first, partition_colon f.name f.after hok.colon]
        have hfl := folds_len f.folds
        rw [contLines_folds fuel _ f.folds (blockBytes fs ++ t) hok.folds rfl (by simp [htne])
          (block_head (fun x hx => hf.blank x hx) htb) (by omega)]
        simp only
        rw [ih fuel _ es (BlockOk.tail hf) he2 rfl (by omega)]
        simp only [Out.ok.injEq, List.cons.injEq, and_true]
        refine ⟨?_, ?_⟩
        · obtain ⟨n, v⟩ := e
          obtain ⟨hname, hval⟩ := he1
          simp only at hname hval ⊢
          rw [hname, strip_of_trimmed (v := v)]
          rw [← List.flatMap_def]
          exact hval
        · rw [to_to _ _ _ _ _ _ _ (by simp [htne]), to_to _ _ _ _ _ _ _ (by simp [htne])]
          congr 1
          · rw [hlen]; simp only [WField.first]; omega
          · simp [blockFaults, to, WField.bytes, WField.first, Nat.add_assoc]

theorem parseHeaderFields_block (s : SS) (fs : List WField) (es : List Entry) (t : Str)
    (hf : BlockOk fs) (he : AreEntries fs es) (hs : s.rest = blockBytes fs ++ t)
    (ht : t.head? = some 13 ∨ t.head? = some 10) :
    parseHeaderFields s = .ok es (to s (blockBytes fs).length t (blockFaults s.pos fs)) :=
  headerLoop_block _ s fs es t hf he hs ht (by rw [hs, List.length_append]; omega)

/-! ## The converse for header blocks -/

theorem to_self {s s' : SS} (h : s' = s) (cs : List (Nat × Nat)) (hc : cs = []) :
    s'.rest = s.rest ∧ s'.pos = s.pos ∧ s'.complaints = s.complaints ++ cs := by
  subst h; subst hc; simp

theorem folds_of_contLines (fuel : Nat) {s s' : SS} {vs : List Str}
    (h : contLines fuel s = .ok vs s') :
    ∃ fs : List Fold, (∀ l ∈ fs, l.Ok) ∧ vs = fs.map (fun l => 32 :: l.content) ∧
      s.rest = (fs.flatMap fun l => l.line.bytes) ++ s'.rest ∧
      s'.pos = s.pos + (fs.flatMap fun l => l.line.bytes).length ∧
      s'.complaints = s.complaints ++ foldFaults s.pos fs ∧
      ∀ c t, s'.rest = c :: t → ¬Blank c := by
  induction fuel generalizing s vs with
  | zero => cases h
  | succ fuel ih =>
    unfold contLines at h
    split at h
    · rename_i hpeek
      cases hr : (s.complain 1016 s.pos).readline with
      | exc e s1 => rw [hr] at h; cases h
      | ok line s1 =>
        rw [hr] at h
        simp only at h
        cases hc : contLines fuel s1 with
        | exc e s2 => rw [hc] at h; cases h
        | ok vs2 s2 =>
          rw [hc] at h
          simp only [Out.ok.injEq] at h
          obtain ⟨rfl, rfl⟩ := h
          obtain ⟨fs, h1, h2, h3, h4, h5, h6⟩ := ih hc
          obtain ⟨l, hl1, hl2, hl3, hl4⟩ := line_of_readline hr
          obtain ⟨w, hw1, hw2⟩ := blanks_split line
          have hline : (⟨w, line.dropWhile isBlank, l.cr⟩ : Fold).line = l := by
            obtain ⟨text, cr⟩ := l
            simp only at hl2
            simp only [Fold.line, ← hw1, hl2]
          have hok : (⟨w, line.dropWhile isBlank, l.cr⟩ : Fold).Ok := by
            refine ⟨by rw [hline]; exact hl1, ?_, hw2, dropWhile_head line⟩
            simp only
            intro hw0
            have hlead : ∀ c t, line = c :: t → ¬Blank c := by
              intro c t hct
              refine dropWhile_head line c t ?_
              rw [hw0, List.nil_append] at hw1
              rw [← hw1, hct]
            have hl3' : s.rest = l.bytes ++ s1.rest := hl3
            unfold SS.peek at hpeek
            rw [hl3', WLine.bytes, hl2] at hpeek
            cases line with
            | nil => cases hcr : l.cr <;> simp [hcr] at hpeek
            | cons c t =>
              simp only [List.cons_append, List.head?_cons, Option.some.injEq] at hpeek
              exact hlead c t rfl hpeek
          have hp1 : s1.pos = s.pos + l.bytes.length := by
            have := congrArg SS.pos hl4; exact this
          refine ⟨⟨w, line.dropWhile isBlank, l.cr⟩ :: fs, ?_, ?_, ?_, ?_, ?_, h6⟩
          · intro x hx
            rcases List.mem_cons.1 hx with rfl | hx
            · exact hok
            · exact h1 x hx
          · rw [h2]; rfl
          · have hl3' : s.rest = l.bytes ++ s1.rest := hl3
            rw [hl3', h3]
            simp only [List.flatMap_cons, hline, List.append_assoc]
          · rw [h4, hp1]
            simp only [List.flatMap_cons, hline, List.length_append]
            omega
          · have : s1.complaints = s.complaints ++ [(1016, s.pos)] ++ lineFaults s.pos l := by
              have := congrArg SS.complaints hl4
              exact this
            rw [h5, this, hp1]
            simp only [foldFaults, hline, List.append_assoc]
    · rename_i hpeek
      simp only [Out.ok.injEq] at h
      obtain ⟨rfl, rfl⟩ := h
      refine ⟨[], by simp, rfl, rfl, rfl, by simp [foldFaults], ?_⟩
      intro c t hr hb
      apply hpeek
      unfold SS.peek
      rw [hr]
      simp only [List.head?_cons, Option.some.injEq]
      exact hb

theorem partition_some {c : Nat} {s a b : Str} (h : partitionOn c s = some (a, b)) :
    s = a ++ [c] ++ b ∧ c ∉ a := by
  induction s generalizing a with
  | nil => cases h
  | cons x s ih =>
    unfold partitionOn at h
    split at h
    · rename_i hx
      cases h; simp [hx]
    · rename_i hx
      cases hp : partitionOn c s with
      | none => rw [hp] at h; cases h
      | some p =>
        rw [hp] at h
        simp only [Option.map_some, Option.some.injEq, Prod.mk.injEq] at h
        obtain ⟨rfl, rfl⟩ := h
        obtain ⟨h1, h2⟩ := ih hp
        refine ⟨by rw [h1]; rfl, ?_⟩
        simp only [List.mem_cons, not_or]
        exact ⟨fun h => hx h.symm, h2⟩

theorem block_of_headerLoop (fuel : Nat) {s s' : SS} {es : List Entry}
    (h : headerLoop fuel s = .ok es s') :
    ∃ fs, BlockOk fs ∧ AreEntries fs es ∧ s.rest = blockBytes fs ++ s'.rest ∧
      s'.pos = s.pos + (blockBytes fs).length ∧
      s'.complaints = s.complaints ++ blockFaults s.pos fs ∧
      (s'.rest.head? = some 13 ∨ s'.rest.head? = some 10 ∨ s'.rest = []) := by
  induction fuel generalizing s es with
  | zero => cases h
  | succ fuel ih =>
    unfold headerLoop at h
    split at h
    · rename_i hpeek
      simp only [Out.ok.injEq] at h
      obtain ⟨rfl, rfl⟩ := h
      refine ⟨[], ⟨by simp, by simp⟩, trivial, rfl, rfl, by simp [blockFaults], ?_⟩
      unfold SS.peek at hpeek
      rcases hpeek with hp | hp | hp
      · exact Or.inl hp
      · exact Or.inr (Or.inl hp)
      · exact Or.inr (Or.inr (by simpa using hp))
    · rename_i hpeek
      cases hr : s.readline with
      | exc e s1 => rw [hr] at h; cases h
      | ok line s1 =>
        rw [hr] at h
        simp only at h
        cases hp : partitionOn 58 line with
        | none => rw [hp] at h; cases h
        | some nv =>
          obtain ⟨name, v⟩ := nv
          rw [hp] at h
          simp only at h
          cases hc : contLines fuel s1 with
          | exc e s2 => rw [hc] at h; cases h
          | ok vs s2 =>
            rw [hc] at h
            simp only at h
            cases hh : headerLoop fuel s2 with
            | exc e s3 => rw [hh] at h; cases h
            | ok es2 s3 =>
              rw [hh] at h
              simp only [Out.ok.injEq] at h
              obtain ⟨rfl, rfl⟩ := h
              obtain ⟨fs, b1, b2, b3, b4, b5, b6⟩ := ih hh
              obtain ⟨folds, c1, c2, c3, c4, c5, c6⟩ := folds_of_contLines fuel hc
              obtain ⟨l, l1, l2, l3, l4⟩ := line_of_readline hr
              obtain ⟨hsplit, hcolon⟩ := partition_some hp
              have hfirst : (⟨name, v, l.cr, folds⟩ : WField).first = l := by
                obtain ⟨text, cr⟩ := l
                simp only at l2
                simp only [WField.first, ← hsplit, l2]
              have hp1 : s1.pos = s.pos + l.bytes.length := by
                have := congrArg SS.pos l4; exact this
              have hcm : s1.complaints = s.complaints ++ lineFaults s.pos l := by
                have := congrArg SS.complaints l4; exact this
              have hok : (⟨name, v, l.cr, folds⟩ : WField).Ok := by
                refine ⟨by rw [hfirst]; exact l1, hcolon, ?_, c1⟩
                intro n hn
                simp only at hn
                apply hpeek
                left
                unfold SS.peek
                rw [l3, WLine.bytes, l2, hsplit, hn]
                rfl
              have hbytes : (⟨name, v, l.cr, folds⟩ : WField).bytes =
                  l.bytes ++ folds.flatMap fun l => l.line.bytes := by
                simp only [WField.bytes, hfirst]
              refine ⟨⟨name, v, l.cr, folds⟩ :: fs, ⟨?_, ?_⟩, ⟨⟨rfl, ?_⟩, b2⟩, ?_, ?_, ?_, b6⟩
              · intro x hx
                rcases List.mem_cons.1 hx with rfl | hx
                · exact hok
                · exact b1.ok x hx
              · intro x hx c n hn
                simp only [List.tail_cons] at hx
                cases fs with
                | nil => simp at hx
                | cons f fs =>
                  rcases List.mem_cons.1 hx with rfl | hx
                  · refine c6 c (n ++ [58] ++ (x.after ++ (if x.cr then [13, 10] else [10]) ++
                      (x.folds.flatMap fun l => l.line.bytes) ++ blockBytes fs ++ s3.rest)) ?_
                    rw [b3]
                    simp [blockBytes, WField.bytes, WField.first, WLine.bytes, hn]
                  · exact b1.blank x hx c n hn
              · simp only
                rw [c2, ← List.flatMap_def]
                exact trimmed_strip _
              · rw [l3, c3, b3]
                simp only [blockBytes, List.flatMap_cons, hbytes, List.append_assoc]
              · rw [b4, c4, hp1]
                simp only [blockBytes, List.flatMap_cons, hbytes, List.length_append]
                omega
              · rw [b5, c5, hcm, c4, hp1]
                simp only [blockFaults, hfirst, hbytes, List.length_append, List.append_assoc,
                  Nat.add_assoc]

end Httpolice.Lemmas
