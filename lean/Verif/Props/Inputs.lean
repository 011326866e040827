import Verif.Lemmas.Inputs
import Verif.Lemmas.Recombine
import Verif.Lemmas.Sniff
import Verif.Props.Streams

/-!
# C35-C39: reading captured streams (`httpolice/inputs/streams.py`)
-/

namespace Httpolice.Props
open Httpolice.Model Httpolice.Spec Httpolice.Lemmas

/-! ## C35 Interleaving connections loses and reorders nothing -/

section
variable {α : Type} (sequences : List (List (Exch α) × Option Int))

theorem start_todo : ((sequences.map fun s => (⟨some (s.2, none), s.1⟩ : Conn α)).map todo) =
    sequences.map (·.1) := by
  rw [List.map_map]
  rfl

theorem start_spent : Spent (sequences.map fun s => (⟨some (s.2, none), s.1⟩ : Conn α)) := by
  intro c hc hp
  obtain ⟨s, _, rfl⟩ := List.mem_map.1 hc
  cases hp

theorem start_weight : weights (sequences.map fun s => (⟨some (s.2, none), s.1⟩ : Conn α)) <
    roundsFor sequences := by
  rw [roundsFor, weights]
  induction sequences with
  | nil => simp
  | cons s sequences ih =>
    simp only [List.map_cons, List.sum_cons, weight] at ih ⊢
    omega

/-- Whatever happens, the output is the beginning of an interleaving of the connections: nothing is
invented, repeated, skipped or reordered. It is all of it unless an exception is raised, and the
generator ends. -/
theorem C35_prefix : ∃ more,
    Interleaving (sequences.map (·.1)) ((rearrangeByTime sequences).1 ++ more) ∧
      ((rearrangeByTime sequences).2 = .finished → more = []) ∧
      (rearrangeByTime sequences).2 ≠ .diverge := by
  have := loop_interleaving (start_spent sequences) (start_weight sequences)
  rwa [start_todo] at this

/-- If every connection has an exchange, and no response has a `Date` and `Age` beyond the year 9999,
then all exchanges are output, as an interleaving of the connections. -/
theorem C35_interleaving (h1 : ∀ s ∈ sequences, s.1 ≠ [])
    (h2 : ∀ s ∈ sequences, ∀ e ∈ s.1, ∀ r ∈ e.resps, Representable r) :
    (rearrangeByTime sequences).2 = .finished ∧
      Interleaving (sequences.map (·.1)) (rearrangeByTime sequences).1 := by
  have hf : (rearrangeByTime sequences).2 = .finished := by
    refine loop_finishes ?_ (start_weight sequences)
    intro c hc
    obtain ⟨s, hs, rfl⟩ := List.mem_map.1 hc
    exact ⟨fun _ => h1 s hs, h2 s hs⟩
  obtain ⟨more, h3, h4, _⟩ := C35_prefix sequences
  rw [h4 hf, List.append_nil] at h3
  exact ⟨hf, h3⟩

/-- So the output has every exchange of every connection exactly once, and those of a connection in
their order. -/
theorem C35_once (h1 : ∀ s ∈ sequences, s.1 ≠ [])
    (h2 : ∀ s ∈ sequences, ∀ e ∈ s.1, ∀ r ∈ e.resps, Representable r) :
    (rearrangeByTime sequences).1.Perm (sequences.flatMap (·.1)) ∧
      ∀ s ∈ sequences, s.1.Sublist (rearrangeByTime sequences).1 := by
  have h := (C35_interleaving sequences h1 h2).2
  refine ⟨?_, fun s hs => interleaving_sublist h _ (List.mem_map_of_mem hs)⟩
  rw [List.flatMap_def]
  exact interleaving_perm h

/-! ## C36 Interleaving follows time -/

/-- If within every connection times do not decrease, and the hint is not later than the start, the
output is sorted by time. -/
theorem C36_sorted (time : Exch α → Int) (h : ∀ s ∈ sequences, InTime time s.2 s.1) :
    ((rearrangeByTime sequences).1.map time).Pairwise (· ≤ ·) := by
  refine loop_sorted (start_spent sequences) (start_weight sequences) ?_
  intro c hc
  obtain ⟨s, hs, rfl⟩ := List.mem_map.1 hc
  exact h s hs

end

/-- A connection without exchanges makes `AttributeError` escape. -/
theorem C35_empty_raises (hint : Option Int) :
    rearrangeByTime [(([] : List (Exch Nat)), hint)] = ([], .raised .attribute) := by
  cases hint <;> rfl

/-- A response from 2016 whose `Age` leads beyond the year 9999 makes `OverflowError` escape. -/
theorem C35_age_raises (a : Nat) (h : a > 251915097599) :
    rearrangeByTime [([(⟨0, none, [(some 63622800000, some a)]⟩ : Exch Nat)], none)] =
      ([], .raised .overflow) := by
  have : (63622800000 : Int) + (a : Int) > maxTime := by
    simp only [maxTime]
    omega
  simp [rearrangeByTime, roundsFor, rearrangeLoop, Model.round, minLoop, startConn, exchangeTime,
    respsTime, this]

/-- Three connections: one with dates and a hint, one without hint, one without any dates. -/
def sampleConns : List (List (Exch Nat) × Option Int) :=
  [([⟨1, some 100, []⟩, ⟨2, none, [(some 140, some 5)]⟩], some 90),
   ([⟨3, some 95, []⟩, ⟨4, some 120, []⟩], none),
   ([⟨5, none, []⟩, ⟨6, none, [(none, none), (some 130, none)]⟩], some 96)]

example : ((rearrangeByTime sampleConns).1.map (·.tag), (rearrangeByTime sampleConns).2) =
    ([3, 5, 1, 4, 6, 2], .finished) := by decide +kernel

/-- The hypotheses of C35 hold of it. -/
example : (∀ s ∈ sampleConns, s.1 ≠ []) ∧
    (∀ s ∈ sampleConns, ∀ e ∈ s.1, ∀ r ∈ e.resps, Representable r) := by
  constructor
  · decide
  · intro s hs e he r hr d a hd
    subst hd
    simp only [maxTime]
    simp only [sampleConns, List.mem_cons, List.not_mem_nil, or_false] at hs
    rcases hs with rfl | rfl | rfl <;>
      · simp only [List.mem_cons, List.not_mem_nil, or_false] at he
        rcases he with rfl | rfl <;> simp at hr <;> omega

/-- The times of these exchanges. -/
def sampleTime (e : Exch Nat) : Int :=
  [0, 100, 145, 95, 120, 96, 130][e.tag]!

/-- The hypothesis of C36 holds of it. -/
example : ∀ s ∈ sampleConns, InTime sampleTime s.2 s.1 := by
  intro s hs
  simp only [sampleConns, List.mem_cons, List.not_mem_nil, or_false] at hs
  rcases hs with rfl | rfl | rfl <;>
    simp [InTime, sampleTime, ownTime]

/-- With a decreasing time the order of the connection is kept, and the output is not sorted. -/
example : ((rearrangeByTime
    [([⟨1, some 100, []⟩, ⟨2, some 80, []⟩], none), ([⟨3, some 90, []⟩], none)]).1.map (·.tag)) =
    [3, 1, 2] := by decide +kernel

/-! ## Connections are not empty -/

theorem parseResponses_some {env : FrameEnv} {method : Option Str} {n : Nat} {s s' : SS}
    {resps : List FResp} {box : Bool} (hs : s.good = true)
    (h : parseResponses env method (n + 1) s = .ok (resps, box) s') : resps ≠ [] ∨ box = true := by
  rw [parseResponses, if_pos hs] at h
  split at h
  · cases h; exact .inr rfl
  · cases h
  · split at h
    · cases h
    · dsimp only at h
      split at h
      · cases h; exact .inl (by simp)
      · split at h
        · cases h
        · cases h; exact .inl (by simp)

/-- Parsing the streams of a connection yields something, unless an exception escapes. So the
connections made by the input functions have exchanges, as C35 requires. -/
theorem C35_connections (env : FrameEnv) (inb outb : Option Str) (ys : List Yield)
    (final : Option SS × Option SS) (h : runStreams env inb outb = (ys, .ok final))
    (hio : inb ≠ none ∨ outb ≠ none) : ys ≠ [] := by
  rw [runStreams] at h
  cases inb with
  | some i =>
    rw [Option.map_some, parseStreams] at h
    have hg : (SS.new i).good = true := rfl
    have key : ∀ (n : Nat) ys' r,
        requestLoop env (n + 1) (SS.new i) (outb.map SS.new) = (ys', .ok r) → ys' ≠ [] := by
      intro n ys' r hl
      rw [requestLoop, if_pos hg] at hl
      have hl1 := congrArg Prod.fst hl
      dsimp only at hl1
      rw [← hl1]
      split
      · simp_all
      · simp
      · split
        · simp
        · split
          · split
            · simp_all
            · simp
          · simp
    split at h
    · cases h
    · next ys' i' outb' hl =>
      have := key _ _ _ hl
      have h1 := congrArg Prod.fst h
      dsimp only at h1
      rw [← h1]
      simp [this]
  | none =>
    cases outb with
    | none => rcases hio with h | h <;> exact absurd rfl h
    | some o =>
      rw [Option.map_none, Option.map_some, parseStreams, finishStreams] at h
      have hg : (SS.new o).good = true := rfl
      rw [if_pos hg] at h
      have key : ∀ (n : Nat) ys' r, responseLoop env (n + 1) (SS.new o) = (ys', .ok r) →
          ys' ≠ [] := by
        intro n ys' r hl
        rw [responseLoop, if_pos hg] at hl
        split at hl
        · cases hl
        · next resps box o' hp =>
          have := parseResponses_some hg hp
          have hl1 := congrArg Prod.fst hl
          dsimp only at hl1
          rw [← hl1]
          rcases this with h1 | rfl
          · cases resps with
            | nil => exact absurd rfl h1
            | cons r rs => simp
          · simp [boxIf]
      cases hr : responseLoop env ((SS.new o).rest.length + 2) (SS.new o) with
      | mk ys2 r =>
        rw [hr] at h
        cases r with
        | error e => cases h
        | ok o' =>
          have := key _ _ _ hr
          cases h
          simp [this]

/-- An empty inbound stream: one complaint box. -/
example : runStreams toyFrame (some []) none =
    ([.box 1006], .ok (some ⟨[], 0, true, false, []⟩, none)) := by rfl

/-- The arguments of the `streams` input are paired in order; an odd number of them is an error. -/
theorem C35_arguments {P : Type} (paths : List P) :
    (∀ pairs, pairUp paths = some pairs → pairs.flatMap (fun p => [p.1, p.2]) = paths) ∧
      (pairUp paths = none ↔ paths.length % 2 = 1) := by
  match paths with
  | [] => exact ⟨fun pairs h => by cases h; rfl, by simp [pairUp]⟩
  | [a] => exact ⟨(fun pairs h => by cases h), by simp [pairUp]⟩
  | a :: b :: ps =>
    have ih := C35_arguments ps
    cases hn : pairUp ps with
    | none =>
      refine ⟨fun pairs h => ?_, ?_⟩
      · rw [pairUp, hn] at h; cases h
      · rw [pairUp, hn]
        have := ih.2.1 hn
        simp only [List.length_cons, true_iff]
        omega
    | some rest =>
      refine ⟨fun pairs h => ?_, ?_⟩
      · rw [pairUp, hn] at h
        cases h
        simp [ih.1 rest hn]
      · rw [pairUp, hn]
        have : ¬ ps.length % 2 = 1 := fun h => by
          have := ih.2.2 h
          rw [hn] at this
          cases this
        simp only [List.length_cons, reduceCtorEq, false_iff]
        omega

example : pairUp [1, 2, 3, 4] = some [(1, 2), (3, 4)] ∧ pairUp [1, 2, 3] = none := by decide

/-! ## C37 Captured streams are paired up exactly -/

theorem key_same {a b : StreamInfo} : a.key = b.key ↔ SameDirection a b := by
  simp [StreamInfo.key, SameDirection]

theorem key_opposite {a b : StreamInfo} : a.key = b.reverseKey ↔ Opposite a b := by
  simp [StreamInfo.key, StreamInfo.reverseKey, Opposite]

theorem pairOf_earliest (p : StreamInfo × Option StreamInfo) :
    Earliest (members p) (pairOf p.1 p.2).2.2 := by
  obtain ⟨a, o⟩ := p
  simp only [Earliest, members, pairOf]
  cases o with
  | none => cases h : a.timeHint <;> simp [pairTime, h]
  | some b =>
    cases h : a.timeHint with
    | none => cases h' : b.timeHint <;> simp [pairTime, h, h']
    | some t =>
      cases h' : b.timeHint with
      | none => simp [pairTime, h, h']
      | some u =>
        simp only [Option.bind_some, h', pairTime]
        split <;> simp [h, h'] <;> omega

/-- The result comes from pairs of the given streams such that:
every stream is in exactly one pair, except for dropped ones, each of which has a stream of the same
connection and direction in a pair; no two streams in pairs have the same connection and direction;
the two streams of a pair are opposite directions of a connection; a stream is alone only if no other
stream is the opposite direction; the time of a pair is the earliest known one. -/
theorem C37_pairs (sis : List StreamInfo) : ∃ pairs : List (StreamInfo × Option StreamInfo),
    (∃ time : StreamInfo × Option StreamInfo → Option Int, recombineStreams sis =
        pairs.map (fun p => (p.1.path, p.2.map (·.path), time p)) ∧
      ∀ p ∈ pairs, Earliest (members p) (time p)) ∧
    (∃ dropped, (pairs.flatMap members ++ dropped).Perm sis ∧
      ∀ d ∈ dropped, ∃ u ∈ pairs.flatMap members, SameDirection u d) ∧
    ((pairs.flatMap members).Pairwise fun a b => ¬ SameDirection a b) ∧
    (∀ a b, (a, some b) ∈ pairs → Opposite b a) ∧
    (∀ a, (a, none) ∈ pairs → ∀ s ∈ sis, Opposite s a → SameDirection s a) := by
  obtain ⟨dropped, d1, d2, d3, _⟩ := od_from (sortStreams sis) [] (by simp)
  have hperm := pairLoop_perm (Nat.le_refl (streamsMap sis).length)
  have hall : ∃ dropped, ((pairLoop (streamsMap sis).length (streamsMap sis)).flatMap members ++
        dropped).Perm sis ∧
      ∀ d ∈ dropped, ∃ u ∈ (pairLoop (streamsMap sis).length (streamsMap sis)).flatMap members,
        SameDirection u d := by
    refine ⟨dropped, ?_, fun d hd => ?_⟩
    · exact ((hperm.append_right dropped).trans d1).trans (by simpa using sortStreams_perm sis)
    · obtain ⟨u, hu, huk⟩ := d2 d hd
      exact ⟨u, hperm.mem_iff.2 hu, key_same.1 huk⟩
  refine ⟨pairLoop (streamsMap sis).length (streamsMap sis), ?_, hall, ?_, ?_, ?_⟩
  · refine ⟨fun p => (pairOf p.1 p.2).2.2, ?_, fun p _ => pairOf_earliest p⟩
    rw [recombineStreams, recombineLoop_pairs]
    rfl
  · have : (((pairLoop (streamsMap sis).length (streamsMap sis)).flatMap members).map (·.key)).Nodup :=
      ((hperm.map (·.key)).nodup_iff).2 d3
    rw [List.Nodup, List.pairwise_map] at this
    exact this.imp fun h hs => h (key_same.2 hs)
  · intro a b h
    exact key_opposite.1 ((pairLoop_sound (Nat.le_refl _) d3 h).1 b rfl)
  · intro a h s hs ho
    have hsound := (pairLoop_sound (Nat.le_refl _) d3 h).2 rfl
    obtain ⟨dropped', e1, e2⟩ := hall
    rcases List.mem_append.1 (e1.mem_iff.2 hs) with hm | hm
    · rw [hsound s (hperm.mem_iff.1 hm) (key_opposite.2 ho)]
      exact ⟨rfl, rfl, rfl⟩
    · obtain ⟨u, hu, hud⟩ := e2 s hm
      have huo : u.key = a.reverseKey := (key_same.2 hud).trans (key_opposite.2 ho)
      rw [← key_same, ← key_same.2 hud, hsound u (hperm.mem_iff.1 hu) huo]

/-- If no two streams have the same connection and direction, nothing is dropped, and the pairs follow
the sort hints of their first streams, which do not come after those of the second. -/
theorem C37_distinct (sis : List StreamInfo) (h : sis.Pairwise fun a b => ¬ SameDirection a b) :
    ∃ pairs : List (StreamInfo × Option StreamInfo),
      (recombineStreams sis).map (fun p => (p.1, p.2.1)) =
        pairs.map (fun p => (p.1.path, p.2.map (·.path))) ∧
      (pairs.flatMap members).Perm sis ∧
      (pairs.Pairwise fun p q => p.1.sortHint ≤ q.1.sortHint) ∧
      ∀ p ∈ pairs, ∀ b, p.2 = some b → p.1.sortHint ≤ b.sortHint := by
  have hk : (sis.map (·.key)).Nodup := by
    rw [List.Nodup, List.pairwise_map]
    exact h.imp fun h hs => h (key_same.1 hs)
  have hmap : streamsMap sis = sortStreams sis := by
    rw [streamsMap, od_distinct]
    · rfl
    · exact (((sortStreams_perm sis).map (·.key)).nodup_iff).2 hk
  have hs := pairLoop_sorted (n := (sortStreams sis).length) (sortStreams_sorted sis)
  refine ⟨pairLoop (sortStreams sis).length (sortStreams sis), ?_, ?_, hs.1, hs.2.1⟩
  · rw [recombineStreams, recombineLoop_pairs, hmap, List.map_map]
    rfl
  · exact (pairLoop_perm (Nat.le_refl _)).trans (sortStreams_perm sis)

/-- Four streams: a connection with both directions, given in the wrong order; one direction of
another; and a stream from an address to itself. -/
def sampleStreams : List StreamInfo :=
  [⟨str "f1", str "A", str "B", none, some 30, 3⟩, ⟨str "f2", str "C", str "B", none, none, 2⟩,
   ⟨str "f3", str "B", str "A", none, some 10, 1⟩, ⟨str "f4", str "D", str "D", none, some 5, 9⟩]

example : recombineStreams sampleStreams =
    [(str "f3", some (str "f1"), some 10), (str "f2", none, none), (str "f4", none, some 5)] := by
  decide +kernel

example : sampleStreams.Pairwise fun a b => ¬ SameDirection a b := by
  simp [sampleStreams, SameDirection, str]

/-- Two streams with the same key: one of them is dropped. -/
example : recombineStreams
    [⟨str "f1", str "A", str "B", none, some 30, 3⟩, ⟨str "f2", str "A", str "B", none, none, 2⟩] =
    [(str "f1", none, some 30)] := by decide +kernel

/-! ## C38 Combined files split at the first markers -/

/-- `parse_combined` succeeds exactly if the file has the inbound marker, what precedes its first
occurrence is UTF-8 and the outbound marker follows it; the three parts are what surrounds the first
occurrences. -/
theorem C38_split (decodeUtf8 : Str → Option Str) (path data inbound outbound text : Str)
    (scheme : Option Str) :
    parseCombined decodeUtf8 path data = .ok (inbound, outbound, scheme, text) ↔
      ∃ preamble rest, CutAt (str "======== BEGIN INBOUND STREAM ========\r\n") data preamble rest ∧
        CutAt (str "======== BEGIN OUTBOUND STREAM ========\r\n") rest inbound outbound ∧
        decodeUtf8 preamble = some text ∧ scheme = combinedScheme path := by
  rw [parseCombined]
  split
  next h =>
    simp only [reduceCtorEq, false_iff]
    rintro ⟨p, r, hc, _⟩
    exact splitFirst_none h ⟨p, r, hc.1⟩
  next p r h =>
    have hc := splitFirst_some h
    have uniq : ∀ {p' r'}, CutAt (str "======== BEGIN INBOUND STREAM ========\r\n") data p' r' →
        p' = p ∧ r' = r := fun h' => cutAt_unique h' hc
    split
    next hd =>
      simp only [reduceCtorEq, false_iff]
      rintro ⟨p', r', hc', _, hd', _⟩
      rw [(uniq hc').1, hd] at hd'
      cases hd'
    next t hd =>
      split
      next ho =>
        simp only [reduceCtorEq, false_iff]
        rintro ⟨p', r', hc', ho', _⟩
        rw [(uniq hc').2] at ho'
        exact splitFirst_none ho ⟨_, _, ho'.1⟩
      next i o ho =>
        simp only [Except.ok.injEq, Prod.mk.injEq]
        constructor
        · rintro ⟨rfl, rfl, rfl, rfl⟩
          exact ⟨p, r, hc, splitFirst_some ho, hd, rfl⟩
        · rintro ⟨p', r', hc', ho', hd', rfl⟩
          obtain ⟨rfl, rfl⟩ := uniq hc'
          obtain ⟨rfl, rfl⟩ := cutAt_unique ho' (splitFirst_some ho)
          rw [hd] at hd'
          exact ⟨rfl, rfl, rfl, Option.some.inj hd'⟩

/-- The parts and the markers make the file again. -/
theorem C38_whole (decodeUtf8 : Str → Option Str) {path data inbound outbound text : Str}
    {scheme : Option Str}
    (h : parseCombined decodeUtf8 path data = .ok (inbound, outbound, scheme, text)) :
    ∃ preamble, decodeUtf8 preamble = some text ∧
      data = preamble ++ str "======== BEGIN INBOUND STREAM ========\r\n" ++ inbound ++
        str "======== BEGIN OUTBOUND STREAM ========\r\n" ++ outbound := by
  obtain ⟨p, r, h1, h2, h3, _⟩ := (C38_split _ _ _ _ _ _ _).1 h
  refine ⟨p, h3, ?_⟩
  rw [h1.1]
  conv => lhs; rw [h2.1]
  simp only [List.append_assoc]

/-- The errors. -/
theorem C38_errors (decodeUtf8 : Str → Option Str) (path data : Str) (e : CombinedError) :
    parseCombined decodeUtf8 path data = .error e ↔
      (e = .noInbound ∧ ¬ Occurs (str "======== BEGIN INBOUND STREAM ========\r\n") data) ∨
      ∃ preamble rest, CutAt (str "======== BEGIN INBOUND STREAM ========\r\n") data preamble rest ∧
        ((e = .badUtf8 ∧ decodeUtf8 preamble = none) ∨
          (e = .noOutbound ∧ decodeUtf8 preamble ≠ none ∧
            ¬ Occurs (str "======== BEGIN OUTBOUND STREAM ========\r\n") rest)) := by
  rw [parseCombined]
  split
  next h =>
    have hn := splitFirst_none h
    constructor
    · intro he; cases he; exact .inl ⟨rfl, hn⟩
    · rintro (⟨rfl, _⟩ | ⟨p, r, hc, _⟩)
      · rfl
      · exact absurd ⟨p, r, hc.1⟩ hn
  next p r h =>
    have hc := splitFirst_some h
    have hocc : Occurs (str "======== BEGIN INBOUND STREAM ========\r\n") data := ⟨p, r, hc.1⟩
    have uniq : ∀ {p' r'}, CutAt (str "======== BEGIN INBOUND STREAM ========\r\n") data p' r' →
        p' = p ∧ r' = r := fun h' => cutAt_unique h' hc
    split
    next hd =>
      constructor
      · intro he; cases he; exact .inr ⟨p, r, hc, .inl ⟨rfl, hd⟩⟩
      · rintro (⟨_, hn⟩ | ⟨p', r', hc', ⟨rfl, _⟩ | ⟨_, hd', _⟩⟩)
        · exact absurd hocc hn
        · rfl
        · rw [(uniq hc').1] at hd'; exact absurd hd hd'
    next t hd =>
      split
      next ho =>
        constructor
        · intro he; cases he
          exact .inr ⟨p, r, hc, .inr ⟨rfl, by rw [hd]; simp, splitFirst_none ho⟩⟩
        · rintro (⟨_, hn⟩ | ⟨p', r', hc', ⟨_, hd'⟩ | ⟨rfl, _⟩⟩)
          · exact absurd hocc hn
          · rw [(uniq hc').1, hd] at hd'; cases hd'
          · rfl
      next i o ho =>
        simp only [reduceCtorEq, false_iff]
        rintro (⟨_, hn⟩ | ⟨p', r', hc', ⟨_, hd'⟩ | ⟨_, _, hn⟩⟩)
        · exact hn hocc
        · rw [(uniq hc').1, hd] at hd'; cases hd'
        · rw [(uniq hc').2] at hn
          exact hn ⟨i, o, (splitFirst_some ho).1⟩

open Classical in
/-- The scheme goes by the end of the name. -/
theorem C38_scheme (path : Str) : combinedScheme path =
    if ∃ a, path = a ++ str ".https" then some (str "https")
    else if ∃ a, path = a ++ str ".noscheme" then none else some (str "http") := by
  have key : ∀ t : Str, endsWith path t = true ↔ ∃ a, path = a ++ t := by
    intro t
    rw [endsWith, List.isPrefixOf_iff_prefix, List.reverse_prefix]
    exact ⟨fun ⟨a, h⟩ => ⟨a, h.symm⟩, fun ⟨a, h⟩ => ⟨a, h.symm⟩⟩
  simp only [combinedScheme, key]

set_option maxRecDepth 10000 in
example : parseCombined some (str "x.https")
    (str "a note\r\n======== BEGIN INBOUND STREAM ========\r\nGET / HTTP/1.1\r\n\r\n======== BEGIN OUTBOUND STREAM ========\r\nHTTP/1.1 204 No Content\r\n\r\n======== BEGIN INBOUND STREAM ========\r\n") =
    .ok (str "GET / HTTP/1.1\r\n\r\n",
      str "HTTP/1.1 204 No Content\r\n\r\n======== BEGIN INBOUND STREAM ========\r\n",
      some (str "https"), str "a note\r\n") := by rfl

set_option maxRecDepth 10000 in
/-- The markers in the wrong order. -/
example : parseCombined some (str "x")
    (str "======== BEGIN OUTBOUND STREAM ========\r\n======== BEGIN INBOUND STREAM ========\r\n") =
    .error .noOutbound := by rfl

/-! ## C39 Direction sniffing -/

section
variable {P : Type} (contents : P → Str)

/-- A file looks outbound exactly if it starts with a status line. -/
theorem C39_outbound (data : Str) : sniffOutbound data = true ↔ StartsWithStatus data :=
  sniffOutbound_iff

/-- A file looks inbound exactly if its first line is a request line. -/
theorem C39_inbound (data : Str) : sniffInbound data = true ↔ StartsWithRequest data :=
  sniffInbound_iff

theorem there_out {path : Option P} : pathAnd (fun p => sniffOutbound (contents p)) path = true ↔
    There contents StartsWithStatus path := by
  cases path with
  | none => simp [pathAnd, There]
  | some p => simp [pathAnd, There, sniffOutbound_iff]

theorem there_in {path : Option P} : pathAnd (fun p => sniffInbound (contents p)) path = true ↔
    There contents StartsWithRequest path := by
  cases path with
  | none => simp [pathAnd, There]
  | some p => simp [pathAnd, There, sniffInbound_iff]

open Classical in
theorem sniff_eq (path1 path2 : Option P) : sniffDirection contents path1 path2 =
    if There contents StartsWithStatus path1 then some (path2, path1)
    else if There contents StartsWithStatus path2 then some (path1, path2)
    else if There contents StartsWithRequest path1 then some (path1, path2)
    else if There contents StartsWithRequest path2 then some (path2, path1)
    else none := by
  simp only [sniffDirection, there_out, there_in]

/-- The result is the two streams, in one order or the other. If one of them starts with a status line,
then the outbound one does; otherwise the inbound one starts with a request line. -/
theorem C39_direction {path1 path2 inbound outbound : Option P}
    (h : sniffDirection contents path1 path2 = some (inbound, outbound)) :
    ((inbound, outbound) = (path1, path2) ∨ (inbound, outbound) = (path2, path1)) ∧
      (There contents StartsWithStatus path1 ∨ There contents StartsWithStatus path2 →
        There contents StartsWithStatus outbound) ∧
      (¬ There contents StartsWithStatus path1 → ¬ There contents StartsWithStatus path2 →
        There contents StartsWithRequest inbound) := by
  classical
  rw [sniff_eq] at h
  split at h
  next h1 => cases h; exact ⟨.inr rfl, fun _ => h1, fun h' => absurd h1 h'⟩
  next h1 =>
    split at h
    next h2 => cases h; exact ⟨.inl rfl, fun _ => h2, fun _ h' => absurd h2 h'⟩
    next h2 =>
      have no : ∀ {q : Prop}, There contents StartsWithStatus path1 ∨
          There contents StartsWithStatus path2 → q := fun h => (h.elim h1 h2).elim
      split at h
      next h3 => cases h; exact ⟨.inl rfl, no, fun _ _ => h3⟩
      next h3 =>
        split at h
        next h4 => cases h; exact ⟨.inr rfl, no, fun _ _ => h4⟩
        next => cases h

/-- Sniffing fails exactly if neither stream starts with a status line or a request line. -/
theorem C39_fails (path1 path2 : Option P) : sniffDirection contents path1 path2 = none ↔
    (¬ There contents StartsWithStatus path1 ∧ ¬ There contents StartsWithStatus path2) ∧
      ¬ There contents StartsWithRequest path1 ∧ ¬ There contents StartsWithRequest path2 := by
  classical
  rw [sniff_eq]
  split
  next h => simp [h]
  next h =>
    split
    next h' => simp [h']
    next h' =>
      split
      next h2 => simp [h2]
      next h2 =>
        split
        next h3 => simp [h3]
        next h3 => simp [h, h', h2, h3]

/-- The order of the streams does not matter, unless both start with a status line, or neither does and
both start with a request line. -/
theorem C39_symmetric (path1 path2 : Option P)
    (h1 : ¬ (There contents StartsWithStatus path1 ∧ There contents StartsWithStatus path2))
    (h2 : There contents StartsWithRequest path1 → There contents StartsWithRequest path2 →
      There contents StartsWithStatus path1 ∨ There contents StartsWithStatus path2) :
    sniffDirection contents path1 path2 = sniffDirection contents path2 path1 := by
  classical
  rw [sniff_eq, sniff_eq]
  by_cases a : There contents StartsWithStatus path1 <;>
    by_cases b : There contents StartsWithStatus path2 <;>
    by_cases c : There contents StartsWithRequest path1 <;>
    by_cases d : There contents StartsWithRequest path2 <;>
    simp_all

variable {X : Type} (parse : Option P → Option P → List X)

/-- For captures, 1279 is reported exactly if neither stream looks like HTTP, and then nothing is
parsed. Otherwise the streams are parsed in the direction that was sniffed. -/
theorem C39_notice (oneSided : Bool) (path1 path2 : Option P) :
    (sniffDirection contents path1 path2 = none →
      connectionSequence contents parse true oneSided path1 path2 =
        (if oneSided ∧ (path1 = none ∨ path2 = none) then [.box 1278] else []) ++ [.box 1279]) ∧
    ∀ i o, sniffDirection contents path1 path2 = some (i, o) →
      connectionSequence contents parse true oneSided path1 path2 =
        (if oneSided ∧ (path1 = none ∨ path2 = none) then [.box 1278] else []) ++
          (parse i o).map .parsed := by
  have hb : (oneSided && (path1.isNone || path2.isNone)) = true ↔
      (oneSided ∧ (path1 = none ∨ path2 = none)) := by simp
  constructor
  · intro h
    simp only [connectionSequence, resolveDirection, h, if_true, hb]
    simp
  · intro i o h
    have hio : (i.isSome || o.isSome) = true := by
      obtain ⟨_, h2, h3⟩ := C39_direction contents h
      have key : ∀ {q looks}, There contents looks q → q.isSome = true := by
        rintro q looks ⟨p, rfl, _⟩
        rfl
      by_cases hs : There contents StartsWithStatus path1 ∨ There contents StartsWithStatus path2
      · simp [key (h2 hs)]
      · simp [key (h3 (fun h => hs (.inl h)) fun h => hs (.inr h))]
    simp only [connectionSequence, resolveDirection, h, if_true, hb, hio]
    simp

/-- Without sniffing, the streams are parsed as given. -/
theorem C39_given (path1 path2 : Option P) (h : path1 ≠ none ∨ path2 ≠ none) :
    connectionSequence contents parse false false path1 path2 =
      (parse path1 path2).map .parsed := by
  have : (path1.isSome || path2.isSome) = true := by
    cases path1 <;> cases path2 <;> simp_all
  simp [connectionSequence, resolveDirection, this]

end

/-- A response and a request. -/
example : StartsWithStatus (str "HTTP/1.1 200 OK\r\n") ∧
    StartsWithRequest (str "GET /x HTTP/1.0\r\nHost: a") := by
  constructor
  · exact ⟨49, 50, 48, 48, str "OK\r\n", by simp [IsDigit], by simp [IsDigit], by simp [IsDigit],
      by simp [IsDigit], by decide⟩
  · exact ⟨str "GET", str "/x", 48, str "\r", str "\nHost: a", by decide, by decide, by decide,
      by simp [IsDigit], by simp [str, IsTrailing], .inr ⟨str "Host: a", by decide⟩, by decide⟩

example : sniffDirection id (some (str "HTTP/1.1 200 OK\r\n")) (some (str "GET /x HTTP/1.0\r\n")) =
    some (some (str "GET /x HTTP/1.0\r\n"), some (str "HTTP/1.1 200 OK\r\n")) := by decide +kernel

example : sniffDirection id none (some (str "GET /x HTTP/1.0\r\n")) =
    some (some (str "GET /x HTTP/1.0\r\n"), none) := by decide +kernel

/-- Both look alike: the order matters. -/
example : sniffDirection (fun n : Nat => if n = 9 then [] else str "HTTP/1.1 200 OK") (some 1) (some 2) =
      some (some 2, some 1) ∧
    sniffDirection (fun n : Nat => if n = 9 then [] else str "HTTP/1.1 200 OK") (some 2) (some 1) =
      some (some 1, some 2) := by decide +kernel

example : connectionSequence id (fun _ _ => [1, 2]) true true (some (str "SSH-2.0\r\n")) none =
    [.box 1278, .box 1279] := by decide +kernel

end Httpolice.Props
