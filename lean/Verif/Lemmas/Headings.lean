import Verif.Lemmas.Wire

/-!
# Lemmas: headings on the wire
-/

namespace Httpolice.Lemmas

open Httpolice.Model
open Httpolice.Spec

/-! ## Splitting -/

theorem splitOn_none (c : Nat) (a : Str) (ha : c ∉ a) : splitOn c a = [a] := by
  induction a with
  | nil => rfl
  | cons x a ih =>
    have hx : x ≠ c := fun h => ha (by simp [h])
    rw [splitOn, if_neg hx, ih fun h => ha (List.mem_cons_of_mem _ h)]

theorem splitOn_cons (c : Nat) (a b : Str) (ha : c ∉ a) :
    splitOn c (a ++ [c] ++ b) = a :: splitOn c b := by
  induction a with
  | nil => simp [splitOn]
  | cons x a ih =>
    have hx : x ≠ c := fun h => ha (by simp [h])
    have := ih fun h => ha (List.mem_cons_of_mem _ h)
    rw [List.cons_append, List.cons_append, splitOn, if_neg hx, this]

theorem splitOn_inv (c : Nat) (s : Str) : ∀ a ps, splitOn c s = a :: ps → c ∉ a ∧
    ((ps = [] ∧ s = a) ∨ (ps ≠ [] ∧ ∃ b, s = a ++ [c] ++ b ∧ splitOn c b = ps)) := by
  induction s with
  | nil =>
    intro a ps h
    simp only [splitOn, List.cons.injEq] at h
    obtain ⟨rfl, rfl⟩ := h
    simp
  | cons x s ih =>
    intro a ps h
    rw [splitOn] at h
    split at h
    · rename_i hx
      simp only [List.cons.injEq] at h
      obtain ⟨rfl, rfl⟩ := h
      refine ⟨by simp, Or.inr ⟨?_, s, by simp [hx], rfl⟩⟩
      cases s with
      | nil => simp [splitOn]
      | cons y s =>
        rw [splitOn]; split
        · simp
        · split <;> simp
    · rename_i hx
      split at h
      · rename_i hs
        cases s with
        | nil => simp [splitOn] at hs
        | cons y s =>
          rw [splitOn] at hs
          split at hs
          · simp at hs
          · split at hs <;> simp at hs
      · rename_i p ps' hs
        simp only [List.cons.injEq] at h
        obtain ⟨rfl, rfl⟩ := h
        obtain ⟨h1, h2⟩ := ih p ps' hs
        refine ⟨by simp only [List.mem_cons, not_or]; exact ⟨fun h => hx h.symm, h1⟩, ?_⟩
        rcases h2 with ⟨rfl, rfl⟩ | ⟨hne, b, hb1, hb2⟩
        · exact Or.inl ⟨rfl, rfl⟩
        · exact Or.inr ⟨hne, b, by rw [hb1]; rfl, hb2⟩

theorem splitOn_three {c : Nat} {s x y z : Str} (h : splitOn c s = [x, y, z]) :
    s = x ++ [c] ++ y ++ [c] ++ z ∧ c ∉ x ∧ c ∉ y ∧ c ∉ z := by
  obtain ⟨hx, ⟨h0, _⟩ | ⟨_, b, rfl, hb⟩⟩ := splitOn_inv c s _ _ h
  · cases h0
  · obtain ⟨hy, ⟨h0, _⟩ | ⟨_, b', rfl, hb'⟩⟩ := splitOn_inv c b _ _ hb
    · cases h0
    · obtain ⟨hz, ⟨_, rfl⟩ | ⟨h0, _⟩⟩ := splitOn_inv c b' _ _ hb'
      · exact ⟨by simp, hx, hy, hz⟩
      · exact absurd rfl h0

theorem isDigit_iff (c : Nat) : isDigit c = true ↔ Digit c := by
  simp [isDigit, Digit]

theorem isHttpVersion_iff (v : Str) : isHttpVersion v = true ↔ HttpVersion v := by
  unfold isHttpVersion
  split
  · rename_i a b
    simp only [Bool.and_eq_true, isDigit_iff]
    constructor
    · rintro ⟨h1, h2⟩; exact ⟨a, b, by simp [str], h1, h2⟩
    · rintro ⟨a', b', h, h1, h2⟩
      have h : [72, 84, 84, 80, 47, a, 46, b] = [72, 84, 84, 80, 47, a', 46, b'] := h
      simp only [List.cons.injEq, true_and, and_true] at h
      rw [h.1, h.2]; exact ⟨h1, h2⟩
  · rename_i hne
    constructor
    · intro h; cases h
    · rintro ⟨a, b, rfl, _, _⟩
      exact absurd rfl (hne a b)

theorem version_no_space {v : Str} (h : HttpVersion v) : 32 ∉ v := by
  obtain ⟨a, b, rfl, ha, hb⟩ := h
  unfold Digit at ha hb
  show 32 ∉ [72, 84, 84, 80, 47, a, 46, b]
  simp only [List.mem_cons, List.not_mem_nil, or_false]
  omega

/-! ## Header sections with their end -/

theorem last_bytes_head (cr : Bool) (t : Str) :
    ((⟨[], cr⟩ : WLine).bytes ++ t).head? = some 13 ∨
      ((⟨[], cr⟩ : WLine).bytes ++ t).head? = some 10 := by
  cases cr <;> simp [WLine.bytes]

theorem last_ok (cr : Bool) : (⟨[], cr⟩ : WLine).Ok := by
  refine ⟨by simp, by simp, by cases cr <;> simp [WLine.bytes]⟩

theorem line_bytes_ne (l : WLine) : l.bytes ≠ [] := by
  unfold WLine.bytes; split <;> simp

theorem readlineend_line (s : SS) (cr : Bool) (t : Str) (hs : s.rest = (⟨[], cr⟩ : WLine).bytes ++ t) :
    s.readlineend = .ok () (to s (⟨[], cr⟩ : WLine).bytes.length t (lineFaults s.pos ⟨[], cr⟩)) := by
  unfold SS.readlineend
  rw [readline_line s ⟨[], cr⟩ t (last_ok cr) hs]
  simp

theorem line_of_readlineend {s s' : SS} (h : s.readlineend = .ok () s') :
    ∃ cr, s.rest = (⟨[], cr⟩ : WLine).bytes ++ s'.rest ∧
      s' = to s (⟨[], cr⟩ : WLine).bytes.length s'.rest (lineFaults s.pos ⟨[], cr⟩) := by
  unfold SS.readlineend at h
  cases hr : s.readline with
  | exc e s1 => rw [hr] at h; cases h
  | ok r s1 =>
    rw [hr] at h
    simp only at h
    split at h
    · cases h
    · rename_i hne
      have hne : r = [] := Decidable.not_not.1 hne
      cases h
      obtain ⟨⟨text, cr⟩, _, h2, h3, h4⟩ := line_of_readline hr
      simp only at h2
      subst h2
      rw [hne] at h3 h4
      exact ⟨cr, h3, h4⟩

/-- The header section and the empty line after it. -/
theorem section_wire (s : SS) (fs : List WField) (es : List Entry) (cr : Bool) (t : Str)
    (hf : BlockOk fs) (he : AreEntries fs es)
    (hs : s.rest = blockBytes fs ++ ((⟨[], cr⟩ : WLine).bytes ++ t)) :
    ∃ s2, parseHeaderFields s = .ok es s2 ∧
      s2.readlineend = .ok () (to s ((blockBytes fs).length + (⟨[], cr⟩ : WLine).bytes.length) t
        (blockFaults s.pos fs ++ lineFaults (s.pos + (blockBytes fs).length) ⟨[], cr⟩)) := by
  refine ⟨_, parseHeaderFields_block s fs es _ hf he hs (last_bytes_head cr t), ?_⟩
  rw [readlineend_line _ cr t rfl, to_to _ _ _ _ _ _ _ (by simp [line_bytes_ne])]
  rfl

theorem section_inv {s s2 s3 : SS} {es : List Entry} (h : parseHeaderFields s = .ok es s2)
    (h' : s2.readlineend = .ok () s3) :
    ∃ fs cr, BlockOk fs ∧ AreEntries fs es ∧
      s.rest = blockBytes fs ++ ((⟨[], cr⟩ : WLine).bytes ++ s3.rest) ∧
      s3.pos = s.pos + ((blockBytes fs).length + (⟨[], cr⟩ : WLine).bytes.length) ∧
      s3.complaints = s.complaints ++ (blockFaults s.pos fs ++
        lineFaults (s.pos + (blockBytes fs).length) ⟨[], cr⟩) := by
  obtain ⟨fs, h1, h2, h3, h4, h5, _⟩ := block_of_headerLoop _ h
  obtain ⟨cr, e1, e2⟩ := line_of_readlineend h'
  have hp : s3.pos = s2.pos + (⟨[], cr⟩ : WLine).bytes.length := congrArg SS.pos e2
  have hc : s3.complaints = s2.complaints ++ lineFaults s2.pos ⟨[], cr⟩ :=
    congrArg SS.complaints e2
  refine ⟨fs, cr, h1, h2, by rw [h3, e1], by rw [hp, h4]; omega, ?_⟩
  rw [hc, h5, h4, List.append_assoc]

/-! ## Headings -/

theorem requestHeading_wire (s : SS) (h : WHeading) (method target version : Str) (es : List Entry)
    (t : Str) (hh : RequestHeading h method target version es) (hs : s.rest = h.bytes ++ t) :
    parseRequestHeading s = .ok ⟨s.pos, method, target, version, es,
        lineNotes (s.complaints ++ h.faults s.pos)⟩
      { to s h.bytes.length t [] with complaints := [] } := by
  obtain ⟨start, fields, cr⟩ := h
  have hrest : s.rest = start.bytes ++ (blockBytes fields ++ ((⟨[], cr⟩ : WLine).bytes ++ t)) := by
    rw [hs]; simp [WHeading.bytes, WHeading.last]
  obtain ⟨s2, h2, h3⟩ := section_wire (to s start.bytes.length
    (blockBytes fields ++ ((⟨[], cr⟩ : WLine).bytes ++ t)) (lineFaults s.pos start)) fields es cr t
    hh.fields hh.entries rfl
  have hsplit : splitOn 32 start.text = [method, target, version] := by
    have : start.text = method ++ [32] ++ (target ++ [32] ++ version) := by rw [hh.text]; simp
    rw [this, splitOn_cons _ _ _ hh.method, splitOn_cons _ _ _ hh.target,
      splitOn_none _ _ (version_no_space hh.version)]
  unfold parseRequestHeading
  rw [readline_line s start _ hh.start hrest]
  simp only [hsplit]
  rw [if_pos ((isHttpVersion_iff _).2 hh.version), h2]
  simp only
  rw [h3]
  simp only
  rw [to_to _ _ _ _ _ _ _ (by simp [line_bytes_ne])]
  simp only [SS.dumpComplaints, Out.ok.injEq, ReqHeading.mk.injEq, true_and]
  refine ⟨?_, ?_⟩
  · simp [to, WHeading.faults, WHeading.last]
  · simp [to, WHeading.bytes, WHeading.last, Nat.add_assoc]

theorem requestHeading_inv {s s' : SS} {r : ReqHeading} (hp : parseRequestHeading s = .ok r s') :
    ∃ h, RequestHeading h r.method r.target r.version r.entries ∧ s.rest = h.bytes ++ s'.rest ∧
      s'.pos = s.pos + h.bytes.length ∧ r.start = s.pos ∧ s'.complaints = [] ∧
      r.notes = lineNotes (s.complaints ++ h.faults s.pos) := by
  unfold parseRequestHeading at hp
  cases hr : s.readline with
  | exc e s1 => rw [hr] at hp; cases hp
  | ok line s1 =>
    rw [hr] at hp
    simp only at hp
    split at hp
    · rename_i method target version hsp
      split at hp
      · rename_i hv
        cases hf : parseHeaderFields s1 with
        | exc e s2 => rw [hf] at hp; cases hp
        | ok es s2 =>
          rw [hf] at hp
          simp only at hp
          cases hl : s2.readlineend with
          | exc e s3 => rw [hl] at hp; cases hp
          | ok u s3 =>
            rw [hl] at hp
            simp only [Out.ok.injEq] at hp
            obtain ⟨rfl, rfl⟩ := hp
            obtain ⟨l, l1, l2, l3, l4⟩ := line_of_readline hr
            obtain ⟨fs, cr, f1, f2, f3, f4, f5⟩ := section_inv hf hl
            obtain ⟨hsp, hm, ht, _⟩ := splitOn_three hsp
            have hp1 : s1.pos = s.pos + l.bytes.length := congrArg SS.pos l4
            have hc1 : s1.complaints = s.complaints ++ lineFaults s.pos l :=
              congrArg SS.complaints l4
            refine ⟨⟨l, fs, cr⟩, ⟨by rw [l2]; exact hsp, hm, ht, (isHttpVersion_iff _).1 hv, l1, f1,
              f2⟩, ?_, ?_, rfl, rfl, ?_⟩
            · rw [l3, f3]; simp [WHeading.bytes, WHeading.last, SS.dumpComplaints]
            · show s3.pos = _
              rw [f4, hp1]; simp only [WHeading.bytes, WHeading.last, List.length_append]; omega
            · show lineNotes s3.complaints = _
              rw [f5, hc1, hp1]
              simp [WHeading.faults, WHeading.last]
      · cases hp
    · cases hp

theorem splitTwice_eq (a b c : Str) (ha : 32 ∉ a) (hb : 32 ∉ b) :
    splitTwice (a ++ [32] ++ b ++ [32] ++ c) = some (a, b, c) := by
  have key : ∀ (x y : Str), 32 ∉ x → partitionOn 32 (x ++ [32] ++ y) = some (x, y) := by
    intro x y hx
    induction x with
    | nil => simp [partitionOn]
    | cons z x ih =>
      have hz : z ≠ 32 := fun h => hx (by simp [h])
      have := ih fun h => hx (List.mem_cons_of_mem _ h)
      simp only [List.cons_append, partitionOn, if_neg hz]
      rw [this]; rfl
  unfold splitTwice
  have h1 : a ++ [32] ++ b ++ [32] ++ c = a ++ [32] ++ (b ++ [32] ++ c) := by simp
  rw [h1, key a _ ha]
  simp only
  rw [key b c hb]

theorem splitTwice_inv {line a b c : Str} (h : splitTwice line = some (a, b, c)) :
    line = a ++ [32] ++ b ++ [32] ++ c ∧ 32 ∉ a ∧ 32 ∉ b := by
  unfold splitTwice at h
  split at h
  · cases h
  · rename_i x r hx
    split at h
    · cases h
    · rename_i y z hy
      simp only [Option.some.injEq, Prod.mk.injEq] at h
      obtain ⟨rfl, rfl, rfl⟩ := h
      obtain ⟨h1, h2⟩ := partition_some hx
      obtain ⟨h3, h4⟩ := partition_some hy
      exact ⟨by rw [h1, h3]; simp, h2, h4⟩

theorem parseStatus_eq {a b c : Nat} (h : Digit a ∧ Digit b ∧ Digit c) :
    parseStatus [a, b, c] = some (status a b c) := by
  obtain ⟨h1, h2, h3⟩ := h
  simp only [parseStatus, (isDigit_iff _).2 h1, (isDigit_iff _).2 h2, (isDigit_iff _).2 h3,
    Bool.and_self, if_true, status, number]
  simp [Nat.add_assoc]

theorem parseStatus_inv {s : Str} {n : Nat} (h : parseStatus s = some n) :
    ∃ a b c, s = [a, b, c] ∧ (Digit a ∧ Digit b ∧ Digit c) ∧ n = status a b c := by
  have h' := h
  unfold parseStatus at h
  split at h
  · rename_i a b c
    split at h
    · rename_i hd
      simp only [Bool.and_eq_true, isDigit_iff] at hd
      have hd : Digit a ∧ Digit b ∧ Digit c := ⟨hd.1.1, hd.1.2, hd.2⟩
      refine ⟨a, b, c, rfl, hd, ?_⟩
      rw [parseStatus_eq hd] at h'
      exact (Option.some.inj h').symm
    · cases h
  · cases h

theorem digits_no_space {a b c : Nat} (h : Digit a ∧ Digit b ∧ Digit c) : 32 ∉ [a, b, c] := by
  unfold Digit at h
  simp only [List.mem_cons, List.not_mem_nil, or_false]
  omega

theorem responseHeading_wire (s : SS) (h : WHeading) (version : Str) (a b c : Nat) (reason : Str)
    (es : List Entry) (t : Str) (hh : ResponseHeading h version a b c reason es)
    (hs : s.rest = h.bytes ++ t) :
    parseResponseHeading s = .ok ⟨s.pos, version, status a b c, reason, es,
        lineNotes (s.complaints ++ h.faults s.pos)⟩
      { to s h.bytes.length t [] with complaints := [] } := by
  obtain ⟨start, fields, cr⟩ := h
  have hrest : s.rest = start.bytes ++ (blockBytes fields ++ ((⟨[], cr⟩ : WLine).bytes ++ t)) := by
    rw [hs]; simp [WHeading.bytes, WHeading.last]
  obtain ⟨s2, h2, h3⟩ := section_wire (to s start.bytes.length
    (blockBytes fields ++ ((⟨[], cr⟩ : WLine).bytes ++ t)) (lineFaults s.pos start)) fields es cr t
    hh.fields hh.entries rfl
  have hsplit : splitTwice start.text = some (version, [a, b, c], reason) := by
    have : start.text = version ++ [32] ++ [a, b, c] ++ [32] ++ reason := hh.text
    rw [this]
    exact splitTwice_eq _ _ _ (version_no_space hh.version) (digits_no_space hh.status)
  unfold parseResponseHeading
  rw [readline_line s start _ hh.start hrest]
  simp only [hsplit]
  rw [if_pos ((isHttpVersion_iff _).2 hh.version), parseStatus_eq hh.status]
  simp only
  rw [h2]
  simp only
  rw [h3]
  simp only
  rw [to_to _ _ _ _ _ _ _ (by simp [line_bytes_ne])]
  simp only [SS.dumpComplaints, Out.ok.injEq, RespHeading.mk.injEq, true_and]
  refine ⟨?_, ?_⟩
  · simp [to, WHeading.faults, WHeading.last]
  · simp [to, WHeading.bytes, WHeading.last, Nat.add_assoc]

theorem responseHeading_inv {s s' : SS} {r : RespHeading}
    (hp : parseResponseHeading s = .ok r s') :
    ∃ h a b c, ResponseHeading h r.version a b c r.reason r.entries ∧ r.status = status a b c ∧
      s.rest = h.bytes ++ s'.rest ∧
      s'.pos = s.pos + h.bytes.length ∧ r.start = s.pos ∧ s'.complaints = [] ∧
      r.notes = lineNotes (s.complaints ++ h.faults s.pos) := by
  unfold parseResponseHeading at hp
  cases hr : s.readline with
  | exc e s1 => rw [hr] at hp; cases hp
  | ok line s1 =>
    rw [hr] at hp
    simp only at hp
    split at hp
    · cases hp
    · rename_i version code reason hsp
      split at hp
      · rename_i hv
        split at hp
        · cases hp
        · rename_i st hst
          cases hf : parseHeaderFields s1 with
          | exc e s2 => rw [hf] at hp; cases hp
          | ok es s2 =>
            rw [hf] at hp
            simp only at hp
            cases hl : s2.readlineend with
            | exc e s3 => rw [hl] at hp; cases hp
            | ok u s3 =>
              rw [hl] at hp
              simp only [Out.ok.injEq] at hp
              obtain ⟨rfl, rfl⟩ := hp
              obtain ⟨l, l1, l2, l3, l4⟩ := line_of_readline hr
              obtain ⟨fs, cr, f1, f2, f3, f4, f5⟩ := section_inv hf hl
              obtain ⟨hsp, _, _⟩ := splitTwice_inv hsp
              obtain ⟨a, b, c, rfl, hd, rfl⟩ := parseStatus_inv hst
              have hp1 : s1.pos = s.pos + l.bytes.length := congrArg SS.pos l4
              have hc1 : s1.complaints = s.complaints ++ lineFaults s.pos l :=
                congrArg SS.complaints l4
              refine ⟨⟨l, fs, cr⟩, a, b, c, ⟨by rw [l2]; exact hsp, (isHttpVersion_iff _).1 hv, hd,
                l1, f1, f2⟩, rfl, ?_, ?_, rfl, rfl, ?_⟩
              · rw [l3, f3]; simp [WHeading.bytes, WHeading.last, SS.dumpComplaints]
              · show s3.pos = _
                rw [f4, hp1]; simp only [WHeading.bytes, WHeading.last, List.length_append]; omega
              · show lineNotes s3.complaints = _
                rw [f5, hc1, hp1]
                simp [WHeading.faults, WHeading.last]
      · cases hp

theorem blockFaults_clean (off : Nat) (fs : List WField) (h : ∀ f ∈ fs, f.Clean) :
    blockFaults off fs = [] := by
  induction fs generalizing off with
  | nil => rfl
  | cons f fs ih =>
    obtain ⟨h1, h2⟩ := h f List.mem_cons_self
    rw [blockFaults, ih _ fun x hx => h x (List.mem_cons_of_mem _ hx), h2]
    simp [foldFaults, lineFaults, WField.first, h1]

theorem faults_clean (off : Nat) (h : WHeading) (hc : h.Clean) : h.faults off = [] := by
  rw [WHeading.faults, blockFaults_clean _ _ hc.fields]
  simp [lineFaults, hc.start, WHeading.last, hc.last]

end Httpolice.Lemmas
