import Verif.Lemmas.Bodies
import Verif.Lemmas.Origin
import Verif.Lemmas.BodyFacts

/-!
# Lemmas: runs on streams that start with well-formed messages
-/

namespace Httpolice.Lemmas

open Httpolice.Model
open Httpolice.Spec

theorem codings_eq (env : FrameEnv) (es : List Entry) : teCodings env es = codings env es := by
  rw [teCodings_eq, codings]
  congr 1
  funext e
  cases env.te e.value <;> rfl

/-! ## Requests -/

theorem requestsWire_ne {env : FrameEnv} {off : Nat} {rs : List FReq} {bs : Str}
    (h : RequestsWire env off rs bs) (hr : rs ≠ []) : bs ≠ [] := by
  cases h with
  | nil => exact absurd rfl hr
  | cons _ r b rs bs h hrs => have := requestWire_ne h; simp [this]

theorem requestsWire_len {env : FrameEnv} {off : Nat} {rs : List FReq} {bs : Str}
    (h : RequestsWire env off rs bs) : rs.length ≤ bs.length := by
  induction h with
  | nil => simp
  | cons off r b rs bs h hrs ih =>
    have := List.length_pos_iff.2 (requestWire_ne h)
    simp only [List.length_cons, List.length_append]; omega

theorem requestLoop_prefix (env : FrameEnv) (fuel : Nat) (i : SS) (rs : List FReq) (bs t : Str)
    (hw : RequestsWire env i.pos rs bs) (hi : i.rest = bs ++ t) (hc : i.complaints = [])
    (hs : i.sane = true) (he : i.eof = i.rest.isEmpty) (hfuel : rs.length < fuel) :
    ∃ fuel', 0 < fuel' ∧ fuel' + rs.length = fuel ∧ requestLoop env fuel i none =
      ((rs.map fun r => .exch (some r) []) ++
        (requestLoop env fuel' ⟨t, i.pos + bs.length, t.isEmpty, true, []⟩ none).1,
        (requestLoop env fuel' ⟨t, i.pos + bs.length, t.isEmpty, true, []⟩ none).2) := by
  induction fuel generalizing i rs bs with
  | zero => simp at hfuel
  | succ fuel ih =>
    cases hw with
    | nil =>
      refine ⟨fuel + 1, by omega, by simp, ?_⟩
      have : i = ⟨t, i.pos + ([] : Str).length, t.isEmpty, true, []⟩ := by
        obtain ⟨a, b, c, d, e⟩ := i
        simp only [List.nil_append] at hi
        subst hi
        simp only at hc hs he
        subst hc; subst hs; subst he
        rfl
      rw [← this]
      simp
    | cons _ r b rs bs h hrs =>
      have hg : i.good = true := by
        rw [good_iff]
        refine ⟨hs, ?_⟩
        rw [he, hi]
        have := requestWire_ne h
        simp [this]
      have hp := request_wire env i r b (bs ++ t) h (by rw [hi]; simp) hc
      have hto : to i b.length (bs ++ t) [] =
          ⟨bs ++ t, i.pos + b.length, (bs ++ t).isEmpty, true, []⟩ := by
        have hne : i.rest ≠ [] := by rw [hi]; have := requestWire_ne h; simp [this]
        simp only [to, hc, hs, he, List.append_nil]
        cases hr : i.rest with
        | nil => exact absurd hr hne
        | cons => rfl
      obtain ⟨f', h0, h1, h2⟩ := ih ⟨bs ++ t, i.pos + b.length, (bs ++ t).isEmpty, true, []⟩ rs bs hrs rfl rfl
        rfl rfl (by simpa using hfuel)
      refine ⟨f', h0, by simp only [List.length_cons]; omega, ?_⟩
      conv => lhs; unfold requestLoop
      rw [if_pos hg, hp]
      simp only
      rw [hto, h2]
      simp only [List.map_cons, List.cons_append, List.length_append, Nat.add_assoc]

/-! ## Responses to unknown requests -/

theorem groupsWire_len {env : FrameEnv} {off : Nat} {gs : List (List FResp)} {bs : Str}
    (h : GroupsWire env off gs bs) : gs.length ≤ bs.length := by
  induction h with
  | nil => simp
  | cons off r b rs bs h hrs ih =>
    have := List.length_pos_iff.2 (responses_ne h)
    simp only [List.length_cons, List.length_append]; omega

theorem responseLoop_prefix (env : FrameEnv) (fuel : Nat) (o : SS) (gs : List (List FResp))
    (bs t : Str) (hw : GroupsWire env o.pos gs bs) (ho : o.rest = bs ++ t) (hc : o.complaints = [])
    (hs : o.sane = true) (he : o.eof = o.rest.isEmpty) (hfuel : gs.length < fuel) :
    ∃ ys, (responseLoop env fuel o).1 = (gs.map fun g => .exch none g) ++ ys ∧
      (t = [] → ys = [] ∧ (responseLoop env fuel o).2 =
        .ok ⟨[], o.pos + bs.length, true, true, []⟩) := by
  induction fuel generalizing o gs bs with
  | zero => simp at hfuel
  | succ fuel ih =>
    cases hw with
    | nil =>
      refine ⟨(responseLoop env (fuel + 1) o).1, by simp, ?_⟩
      rintro rfl
      have hg : ¬o.good = true := by
        rw [good_iff, he, ho]; simp
      unfold responseLoop
      rw [if_neg hg]
      refine ⟨rfl, ?_⟩
      obtain ⟨a, b, c, d, e⟩ := o
      simp only [List.append_nil] at ho
      subst ho
      simp only at hc hs he
      subst hc; subst hs; subst he
      rfl
    | cons _ g b gs bs h hgs =>
      have hb := responses_ne h
      have hne : o.rest ≠ [] := by rw [ho]; simp [hb]
      have hg : o.good = true := by
        rw [good_iff]
        refine ⟨hs, ?_⟩
        rw [he]; simp [hne]
      have hlen := responses_len h
      have hp := responses_wire env none (o.rest.length + 2) o g b (bs ++ t) h
        (by rw [ho]; simp) hc hg (by rw [ho]; simp only [List.length_append]; omega)
      have hto : to o b.length (bs ++ t) [] =
          ⟨bs ++ t, o.pos + b.length, (bs ++ t).isEmpty, true, []⟩ := by
        simp only [to, hc, hs, he, List.append_nil]
        cases hr : o.rest with
        | nil => exact absurd hr hne
        | cons => rfl
      obtain ⟨ys, h1, h2⟩ := ih ⟨bs ++ t, o.pos + b.length, (bs ++ t).isEmpty, true, []⟩ gs bs hgs
        rfl rfl rfl rfl (by simpa using hfuel)
      have hgne : g ≠ [] := by cases h <;> simp
      have hgi : g.isEmpty = false := by cases g with
        | nil => exact absurd rfl hgne
        | cons => rfl
      refine ⟨ys, ?_, ?_⟩
      · unfold responseLoop
        rw [if_pos hg, hp]
        simp only
        rw [hto, h1, hgi]
        simp [boxIf]
      · intro ht
        obtain ⟨h3, h4⟩ := h2 ht
        refine ⟨h3, ?_⟩
        unfold responseLoop
        rw [if_pos hg, hp]
        simp only
        rw [hto, h4]
        simp only [List.length_append, Nat.add_assoc]

/-! ## Oversized chunks -/

theorem parseChunk_big (s : SS) (l : SizeLine) (n k : Nat) (t : Str) (h : l.Ok n)
    (hs : s.rest = l.bytes ++ t) (hn : 0 < n) (hk : maxBodySize < k + n) :
    ∃ s', parseChunk s k = .exc (.tooLong (n + k)) s' ∧ s'.sane = false := by
  rw [sizeLine_bytes] at hs
  unfold parseChunk
  rw [readline_line s ⟨sizeText l, true⟩ t (sizeLine_ok h) hs]
  simp only [chunkSize_eq h]
  rw [if_neg (by omega), if_pos (by omega)]
  exact ⟨_, rfl, rfl⟩

theorem chunkLoop_big (fuel : Nat) (s : SS) (cs : List WChunk) (l : SizeLine) (n : Nat) (data t : Str)
    (hc : ∀ c ∈ cs, c.Ok) (hl : l.Ok n)
    (hs : s.rest = cs.flatMap WChunk.bytes ++ l.bytes ++ t)
    (hd : data.length + (cs.flatMap (·.data)).length ≤ maxBodySize)
    (hk : maxBodySize < data.length + (cs.flatMap (·.data)).length + n) (hfuel : cs.length < fuel) :
    ∃ m s', chunkLoop fuel s data = .exc (.tooLong m) s' ∧ s'.sane = false := by
  induction cs generalizing fuel s data with
  | nil =>
    cases fuel with
    | zero => simp at hfuel
    | succ fuel =>
      simp only [List.flatMap_nil, List.length_nil, Nat.add_zero] at hk hd
      obtain ⟨s', h1, h2⟩ := parseChunk_big s l n data.length t hl (by simpa using hs) (by omega) hk
      unfold chunkLoop
      rw [h1]
      exact ⟨_, _, rfl, h2⟩
  | cons c cs ih =>
    cases fuel with
    | zero => simp at hfuel
    | succ fuel =>
      simp only [List.flatMap_cons, List.length_append] at hk hd
      unfold chunkLoop
      rw [parseChunk_data s c _ (cs.flatMap WChunk.bytes ++ l.bytes ++ t) (hc c List.mem_cons_self)
        (by rw [hs]; simp) (by omega)]
      simp only
      exact ih fuel _ (data ++ c.data) (fun x hx => hc x (List.mem_cons_of_mem _ hx)) rfl
        (by simp only [List.length_append]; omega) (by simp only [List.length_append]; omega)
        (by simpa using hfuel)

theorem parseChunked_big (s : SS) (cs : List WChunk) (l : SizeLine) (n : Nat) (t : Str)
    (hc : ∀ c ∈ cs, c.Ok) (hl : l.Ok n)
    (hs : s.rest = cs.flatMap WChunk.bytes ++ l.bytes ++ t)
    (hd : (cs.flatMap (·.data)).length ≤ gib) (hk : gib < (cs.flatMap (·.data)).length + n) :
    ∃ s', parseChunked s = .ok ⟨.unavailable none, [], [⟨1298, none⟩]⟩ s' ∧ s'.sane = false := by
  have hg : maxBodySize = gib := by simp [gib, maxBodySize]
  obtain ⟨m, s', h1, h2⟩ := chunkLoop_big (s.rest.length + 1) s cs l n [] t hc hl hs
    (by simpa [hg] using hd) (by simpa [hg] using hk)
    (by have := chunks_len cs; rw [hs]; simp only [List.length_append]; omega)
  unfold parseChunked parseChunkedRaw
  rw [h1]
  exact ⟨_, rfl, h2⟩

/-! ## A header line without a colon -/

theorem partition_no_colon (s : Str) (h : 58 ∉ s) : partitionOn 58 s = none := by
  induction s with
  | nil => rfl
  | cons c s ih =>
    have hc : c ≠ 58 := fun h' => h (by simp [h'])
    simp only [partitionOn, if_neg hc, ih fun h' => h (List.mem_cons_of_mem _ h'), Option.map_none]

theorem headerLoop_bad (fuel : Nat) (s : SS) (fs : List WField) (l : WLine) (t : Str)
    (hf : BlockOk fs) (hl : l.Ok) (hcol : 58 ∉ l.text) (hne : l.text ≠ [])
    (h13 : ∀ u, l.text ≠ 13 :: u) (hbl : fs ≠ [] → ∀ c u, l.text = c :: u → ¬Blank c)
    (hs : s.rest = blockBytes fs ++ l.bytes ++ t) (hfuel : (blockBytes fs).length < fuel) :
    ∃ s', headerLoop fuel s = .exc (.parse (s.pos + (blockBytes fs).length)) s' ∧
      s'.sane = false := by
  have htne : l.bytes ++ t ≠ [] := by simp [WLine.bytes, hne]
  induction fs generalizing fuel s with
  | nil =>
    cases fuel with
    | zero => simp at hfuel
    | succ fuel =>
      have hs : s.rest = l.bytes ++ t := by simpa [blockBytes] using hs
      have hpeek : ¬(s.peek = some 13 ∨ s.peek = some 10 ∨ s.peek = none) := by
        unfold SS.peek
        rw [hs]
        cases hn : l.text with
        | nil => exact absurd hn hne
        | cons c n =>
          have h13 : c ≠ 13 := by rintro rfl; exact h13 n hn
          have h10 : c ≠ 10 := by
            rintro rfl
            exact hl.lf (by simp [hn])
          simp [WLine.bytes, hn, h13, h10]
      unfold headerLoop
      rw [if_neg hpeek, readline_line s l _ hl hs]
      simp only [partition_no_colon _ hcol, SS.error]
      exact ⟨_, rfl, rfl⟩
  | cons f fs ih =>
    have hbl := hbl (by simp)
    have htb : ∀ c t', l.bytes ++ t = c :: t' → ¬Blank c := by
      intro c t' h
      cases hn : l.text with
      | nil => exact absurd hn hne
      | cons x n =>
        simp only [WLine.bytes, hn, List.cons_append, List.cons.injEq] at h
        rw [← h.1]
        exact hbl x n hn
    cases fuel with
    | zero => simp at hfuel
    | succ fuel =>
      have hok := hf.ok f List.mem_cons_self
      have hbb : blockBytes (f :: fs) = f.first.bytes ++ ((f.folds.flatMap fun l => l.line.bytes) ++
          blockBytes fs) := by
        simp [blockBytes, WField.bytes]
      have hrest : s.rest = f.first.bytes ++ ((f.folds.flatMap fun l => l.line.bytes) ++
          (blockBytes fs ++ (l.bytes ++ t))) := by
        rw [hs, hbb]; simp
      have h1 : 1 ≤ f.first.bytes.length := by
        simp only [WLine.bytes, List.length_append]
        split <;> simp
      have hlen : (blockBytes (f :: fs)).length = f.first.bytes.length +
          (f.folds.flatMap fun l => l.line.bytes).length + (blockBytes fs).length := by
        rw [hbb]; simp only [List.length_append]; omega
      have hpeek : ¬(s.peek = some 13 ∨ s.peek = some 10 ∨ s.peek = none) := by
        unfold SS.peek
        rw [hrest]
        cases hn : f.name with
        | nil =>
          simp [WField.first, WLine.bytes, hn]
        | cons c n =>
          have h13 : c ≠ 13 := by rintro rfl; exact hok.start n hn
          have h10 : c ≠ 10 := by
            rintro rfl
            refine hok.first.lf ?_
            simp [WField.first, hn]
          simp [WField.first, WLine.bytes, hn, h13, h10]
      have hfl := folds_len f.folds
      unfold headerLoop
      rw [if_neg hpeek, readline_line s f.first _ hok.first hrest]
      simp only [WField.first, partition_colon f.name f.after hok.colon]
      rw [contLines_folds fuel _ f.folds (blockBytes fs ++ (l.bytes ++ t)) hok.folds rfl
        (by simp [htne]) (block_head (fun x hx => hf.blank x hx) htb) (by omega)]
      simp only
      obtain ⟨s', h2, h3⟩ := ih fuel (to (to s (WLine.bytes ⟨f.name ++ [58] ++ f.after, f.cr⟩).length
          ((f.folds.flatMap fun l => l.line.bytes) ++ (blockBytes fs ++ (l.bytes ++ t)))
          (lineFaults s.pos ⟨f.name ++ [58] ++ f.after, f.cr⟩))
          (f.folds.flatMap fun l => l.line.bytes).length (blockBytes fs ++ (l.bytes ++ t))
          (foldFaults (to s (WLine.bytes ⟨f.name ++ [58] ++ f.after, f.cr⟩).length
            ((f.folds.flatMap fun l => l.line.bytes) ++ (blockBytes fs ++ (l.bytes ++ t)))
            (lineFaults s.pos ⟨f.name ++ [58] ++ f.after, f.cr⟩)).pos f.folds))
        (BlockOk.tail hf) (fun _ => hbl) (by simp [to]) (by omega)
      rw [h2]
      refine ⟨s', ?_, h3⟩
      simp only [Out.exc.injEq, Exc.parse.injEq, and_true]
      rw [hlen]
      simp only [to, WField.first]
      omega

end Httpolice.Lemmas
