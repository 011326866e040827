import Verif.Lemmas.ViewArgs
import Verif.Props.Structure

/-!
# Entries of Alt-Svc and Forwarded
-/

namespace Httpolice.Lemmas

open Httpolice.Model Httpolice.Spec Httpolice.Props

variable {d : Delims} {e : Entry}

/-! ## Alt-Svc -/

theorem alt_becomes {know : Str → ArgRule} (hk : ∀ n, Meets (know n) (altArg n)) (e : Entry) (x : AltSyn) :
    AltBecomes e x (altProcessOne know e x.value) := by
  obtain ⟨rs, h1, h2⟩ := processEach_list (f := processPairG know e) (val := altEntry) (l := x.params.elems)
    (One := fun a => Settled (str "AltSvcParam") (altArg a.name) e a.name (some a.value.content))
    fun a _ => processPair_meets (hk a.name) rfl
  refine ⟨rs, h1, ?_⟩
  have h2 : argumentsProcess know e (.list (x.params.elems.map altEntry)) = _ := h2
  unfold AltSyn.value AltSyn.valueBy multi altProcessOne
  simp only [h2]

theorem alt_entries {p : SymParser} {know : Str → ArgRule} {notes : AltSvcSyn → List PyComplaint}
    (h : Reads p AltSvcSyn.Ok AltSvcSyn.text AltSvcSyn.value notes) (hn : notes .clear = [])
    (hk : ∀ n, Meets (know n) (altArg n)) :
    ReadsEntries (knownKind "Alt-Svc" p (altProcess know)) AltSvcSyn.Ok AltSvcSyn.text (AltSvcBecomes notes) := by
  have hd : badQuotedDelims (str "Alt-Svc") = (false, false) := by decide
  refine readsEntries_of (readsAs_of h) fun e x v cs as hx hxv hp he => ?_
  subst hxv
  rw [hd]
  cases x with
  | clear =>
    have he : p e.value = .ok (.val (.text (str "clear")), cs, as) := he
    rw [hn] at hp
    rw [readEntry_real he nofun, List.perm_nil.mp hp]
    simp only [altProcess, processEach, delimNotes_off, List.append_nil]
    rfl
  | values l =>
    have he : p e.value = .ok (.val (.list (l.elems.map AltSyn.value)), cs, as) := he
    rw [readEntry_real he nofun]
    obtain ⟨rs, r1, r2⟩ := processEach_list (f := altProcessOne know e) (l := l.elems) fun x _ => alt_becomes hk e x
    refine ⟨rs, r1, ?_, ?_⟩
    · simp only [altProcess, r2]; rfl
    · simp only [altProcess, r2, delimNotes_off, List.append_nil]
      exact (complaintsOn_perm hp).append_right _

/-! ## Names -/

theorem asciiLower_twice (s : Str) : asciiLower (asciiLower s) = asciiLower s := by
  have : ∀ s : Str, asciiLower s = s.map litLower := fun s => rfl
  rw [this, this, List.map_map]
  refine List.map_congr_left fun c _ => ?_
  simp only [Function.comp, litLower]
  split
  · rw [if_neg (by omega)]
  · rfl

theorem mem_duplicates {K : Type} [DecidableEq K] (xs : List K) (x : K) :
    x ∈ Model.duplicates xs ↔ 2 ≤ (xs.filter fun y => decide (y = x)).length := by
  have h : (xs.filter fun y => decide (y = x)) = xs.filter (· == x) := by
    refine List.filter_congr fun m _ => ?_
    rw [Bool.eq_iff_iff]
    simp
  rw [(C44_duplicates xs).1, List.count, List.countP_eq_length_filter, h]
  omega

theorem duplicates_nodup {K : Type} [DecidableEq K] (xs : List K) : Model.duplicates xs = [] ↔ xs.Nodup := by
  rw [List.nodup_iff_count, List.eq_nil_iff_forall_not_mem]
  refine forall_congr' fun a => ?_
  rw [(C44_duplicates xs).1]
  omega

theorem repeats_iff {names : List Str} {n : Str} :
    RepeatsName names n ↔ asciiLower n ∈ Model.duplicates (names.map asciiLower) := by
  rw [mem_duplicates, RepeatsName, List.filter_map, List.length_map]
  have : (names.filter fun m => decide (SameWord m n)) =
      names.filter ((fun y => decide (y = asciiLower n)) ∘ asciiLower) := by
    refine List.filter_congr fun m _ => ?_
    rw [Bool.eq_iff_iff]
    simp [← lower_iff]
  rw [this]

theorem duplicates_low {names : List Str} {m : Str} (h : m ∈ Model.duplicates (names.map asciiLower)) : asciiLower m = m := by
  rw [mem_duplicates] at h
  obtain ⟨y, hy⟩ := List.exists_mem_of_length_pos (Nat.lt_of_lt_of_le Nat.zero_lt_two h)
  obtain ⟨h1, h2⟩ := List.mem_filter.mp hy
  obtain ⟨x, _, hx⟩ := List.mem_map.mp h1
  rw [← of_decide_eq_true h2, ← hx]
  exact asciiLower_twice x

theorem repeat_notes (e : Entry) (x : HopSyn) :
    RepeatNotes e x ((Model.duplicates ((x.pairs.map Attr.name).map asciiLower)).map fun _ => on e 1296) := by
  refine ⟨_, fun n => ?_, ?_, rfl⟩
  · rw [repeats_iff]
    constructor
    · rintro ⟨m, hm, hs⟩
      rw [← lower_iff, duplicates_low hm] at hs
      exact hs ▸ hm
    · intro h
      exact ⟨_, h, lower_iff.mp (asciiLower_twice n)⟩
  · have := (C44_duplicates ((x.pairs.map Attr.name).map asciiLower)).2.1
    refine List.Pairwise.imp_of_mem ?_ this
    intro a b ha hb hne hs
    rw [← lower_iff, duplicates_low ha, duplicates_low hb] at hs
    exact hne hs

theorem duplicates_nil {names : List Str} :
    Model.duplicates (names.map asciiLower) = [] ↔ names.Pairwise (fun a b => ¬ SameWord a b) := by
  rw [duplicates_nodup, List.Nodup, List.pairwise_map]
  simp only [← lower_iff, ne_eq]

/-! ## Forwarded -/

/-- A pair. -/
def forwardedPair (a : Attr) : GVal := .tuple [nameValue (str "ForwardedParam") a.name, .text a.value.content]

theorem hop_becomes {know : Str → ArgRule} (hk : ∀ n, Meets (know n) (forwardedArg n)) (e : Entry) (x : HopSyn) :
    HopBecomes e x (argumentsProcess know e x.value) := by
  obtain ⟨rs, h1, h2⟩ := processEach_list (f := processPairG know e) (val := forwardedPair) (l := x.pairs)
    (One := fun a => Settled (str "ForwardedParam") (forwardedArg a.name) e a.name (some a.value.content))
    fun a _ => processPair_meets (hk a.name) rfl
  exact ⟨rs, h1, h2⟩

theorem names_of {x : HopSyn} {r : GVal × List Note} (h : HopBecomes e x r) :
    paramNames r.1 = (x.pairs.map Attr.name).map asciiLower := by
  obtain ⟨rs, h1, rfl⟩ := h
  show (rs.map Prod.fst).filterMap _ = _
  generalize x.pairs = l at h1
  induction h1 with
  | nil => rfl
  | cons ha _ ih =>
    obtain ⟨a, ns, _, rfl⟩ := ha
    simp only [List.map_cons, List.filterMap_cons]
    rw [ih]
    rfl

theorem pairwise2_fst_map {α : Type} {R : α → GVal × List Note → Prop} {β : Type} {f : GVal → β} {g : α → β} {l : List α} {rs}
    (h : Pairwise2 R l rs) (hf : ∀ x r, R x r → f r.1 = g x) : (rs.map Prod.fst).map f = l.map g := by
  induction h with
  | nil => rfl
  | cons ha _ ih => simp only [List.map_cons, ih, hf _ _ ha]

/-- No delimiters. -/
def Clean (s : Str) : Prop := ∀ c ∈ s, c ≠ 44 ∧ c ≠ 59

theorem clean_append {a b : Str} (ha : Clean a) (hb : Clean b) : Clean (a ++ b) := by
  intro c hc
  rcases List.mem_append.mp hc with h | h
  · exact ha c h
  · exact hb c h

theorem clean_cons {c : Nat} {s : Str} (hc : c ≠ 44 ∧ c ≠ 59) (hs : Clean s) : Clean (c :: s) := by
  intro x hx
  rcases List.mem_cons.mp hx with rfl | h
  · exact hc
  · exact hs x h

theorem clean_shows {s : Str} (h : Clean s) : Shows d e (.text s) [] :=
  shows_plain (fun hc => (h _ hc).1 rfl) (fun hc => (h _ hc).2 rfl)

theorem clean_letter {c : Nat} (h : IsLetter c) : c ≠ 44 ∧ c ≠ 59 := by unfold IsLetter at h; omega

theorem clean_digit {c : Nat} (h : IsDigit c) : c ≠ 44 ∧ c ≠ 59 := by unfold IsDigit at h; omega

theorem clean_scheme {s : Str} (h : IsScheme s) : Clean s := by
  obtain ⟨c, rest, hc, hr, rfl⟩ := h
  refine clean_cons (clean_letter hc) fun c hc => ?_
  rcases hr c hc with h | h | h
  · exact clean_letter h
  · exact clean_digit h
  · clear hc; revert h; revert c; decide

theorem clean_numeral {s : Str} (h : IsNumeral s) : Clean s := fun c hc => clean_digit (h.2 c hc)

theorem clean_v4 {s : Str} (h : IsIPv4 s) : Clean s := by
  obtain ⟨a, b, c, d, ha, hb, hc, hd, rfl⟩ := h
  have dot : Clean (str ".") := by intro c hc; revert c; decide
  exact clean_append (clean_append (clean_append (clean_append (clean_append (clean_append (clean_numeral ha.1) dot)
    (clean_numeral hb.1)) dot) (clean_numeral hc.1)) dot) (clean_numeral hd.1)

theorem clean_piece {s : Str} (h : IsPiece s) : Clean s := by
  intro c hc
  have := h.2.2 c hc
  unfold IsHexDigit IsDigit at this
  omega

theorem clean_colons {l : List Str} (h : ∀ w ∈ l, Clean w) : Clean (colons l) := by
  induction l with
  | nil => exact nofun
  | cons w l ih =>
    cases l with
    | nil => exact h w (.head _)
    | cons v l =>
      rw [colons]
      · exact clean_append (h w (.head _)) (clean_cons (by decide) (ih fun x hx => h x (.tail _ hx)))
      · nofun

theorem clean_pieces {p : Pieces} (h : p.Ok) : Clean p.text := by
  refine clean_colons fun w hw => ?_
  rcases List.mem_append.mp hw with hw | hw
  · exact clean_piece (h.1 w hw)
  · exact clean_v4 (h.2 w (Option.mem_toList.mp hw))

theorem clean_v6 {s : Str} (h : IsIPv6 s) : Clean s := by
  rcases h with ⟨p, hp, _, rfl⟩ | ⟨front, p, hf, hp, _, rfl⟩
  · exact clean_pieces hp
  · exact clean_append (clean_append (clean_colons fun w hw => clean_piece (hf w hw)) (by intro c hc; revert c; decide))
      (clean_pieces hp)

theorem clean_hidden {s : Str} (h : IsHidden s) : Clean s := by
  obtain ⟨v, _, hv, rfl⟩ := h
  refine clean_cons (by decide) fun c hc => ?_
  rcases hv c hc with h | h | h
  · exact clean_letter h
  · exact clean_digit h
  · clear hc; revert h; revert c; decide

theorem quiet_node : Quiet NodeArg := by
  rintro d e s v ns ⟨x, hx, _, rfl, _⟩
  obtain ⟨name, port⟩ := x
  refine shows_tuple (showsAll_two (a := []) (b := []) ?_ ?_)
  · have := hx.1
    cases name with
    | ipv4 w => exact clean_shows (clean_v4 this)
    | ipv6 w => exact clean_shows (clean_v6 this)
    | unknown w => exact shows_token (sameWord_token (v := str "unknown") (by decide) this)
    | hidden w => exact clean_shows (clean_hidden this)
  · have := hx.2
    cases port with
    | none => exact shows_none
    | some p =>
      cases p with
      | number w => exact shows_int _
      | hidden w => exact clean_shows (clean_hidden (this _ rfl))

theorem forwarded_shows {a : Attr} (ha : a.Ok IsToken) {r : GVal × List Note}
    (h : Settled (str "ForwardedParam") (forwardedArg a.name) e a.name (some a.value.content) r) :
    Shows d e r.1 (forwardedTexts a) := by
  refine settled_shows (by decide) ha.1 (fun v ns hv => ?_) h
  unfold forwardedTexts
  by_cases hh : AmongWords a.name ["host"]
  · have hf : forwardedArg a.name = .reads true (TextArg IsHostHeader) := by
      obtain ⟨w, hw, hs⟩ := hh
      cases List.mem_singleton.mp hw
      rw [forwardedArg_congr hs]
      simp (decide := true) only [forwardedArg, if_true, if_false]
    rw [hf] at hv
    rw [if_pos hh]
    cases hv with
    | good hg =>
      obtain ⟨h1, rfl, _⟩ := hg
      rw [if_pos h1]
      exact shows_text _
    | bad hb =>
      rw [if_neg fun h1 => hb _ _ ⟨h1, rfl, rfl⟩]
      exact shows_unavailable _
  · rw [if_neg hh]
    refine free_shows (w := some a.value) (fun y hy => by cases hy; exact ha.2) (fun b R hR => ?_) hv
    unfold forwardedArg at hR
    rw [if_neg hh] at hR
    split at hR
    · cases hR; exact quiet_node
    · split at hR
      · cases hR
        rintro d e s v ns ⟨h1, rfl, _⟩
        exact clean_shows (clean_scheme h1)
      · cases hR

theorem hop_pairs_ok {x : HopSyn} (h : x.Ok) : ∀ a ∈ x.pairs, a.Ok IsToken := by
  intro a ha
  obtain ⟨o, ho, rfl⟩ := List.mem_filterMap.mp ha
  exact h a ho

theorem hop_becomes_shows {x : HopSyn} (hx : x.Ok) {r : GVal × List Note} (h : HopBecomes e x r) :
    Shows d e r.1 (x.pairs.flatMap forwardedTexts) := by
  obtain ⟨rs, h1, rfl⟩ := h
  refine shows_list ?_
  have ok := hop_pairs_ok hx
  generalize x.pairs = l at h1 ok
  induction h1 with
  | nil => exact showsAll_nil
  | cons ha _ ih => exact showsAll_cons (forwarded_shows (ok _ (.head _)) ha) (ih fun y hy => ok y (.tail _ hy))

theorem forwardedProcess_becomes {know : Str → ArgRule} (hk : ∀ n, Meets (know n) (forwardedArg n)) {l : List HopSyn}
    (hl : ∀ x ∈ l, x.Ok) {notes : List PyComplaint} {cs : List PyComplaint} (hp : cs.Perm notes) {w : GVal} {ms : List Note}
    (hw : forwardedProcess know e (.list (l.map HopSyn.value)) = (w, ms)) :
    ForwardedBecomes e l notes (toParsed w, complaintsOn e cs ++ ms ++ delimNotes true true e w) := by
  obtain ⟨rs, r1, r2⟩ := processEach_list (f := argumentsProcess know e) (l := l) fun x _ => hop_becomes hk e x
  have hnames := pairwise2_fst_map r1 (f := paramNames) (g := fun x => (x.pairs.map Attr.name).map asciiLower) fun x r h => names_of h
  rw [forwardedProcess] at hw
  simp only [r2] at hw
  obtain ⟨rfl, rfl⟩ := Prod.mk.inj hw
  have h1 : ((rs.map Prod.fst).flatMap fun el => (Model.duplicates (paramNames el)).map fun _ => (⟨1296, [e]⟩ : Note)) =
      (l.map fun x => (Model.duplicates ((x.pairs.map Attr.name).map asciiLower)).map fun _ => on e 1296).flatten := by
    have a1 := congrArg (fun l => (l.map fun ns => (Model.duplicates ns).map fun _ => (⟨1296, [e]⟩ : Note)).flatten) hnames
    simp only [List.map_map] at a1 ⊢
    rw [List.flatMap, List.map_map]
    exact a1
  have hlen : rs.length = l.length := by
    have := congrArg List.length hnames
    simpa using this
  have hall : (∀ el ∈ rs.map Prod.fst, (paramNames el).length = 1) ↔ ∀ x ∈ l, x.pairs.length = 1 := by
    have a1 : (∀ el ∈ rs.map Prod.fst, (paramNames el).length = 1) ↔ ∀ ns ∈ (rs.map Prod.fst).map paramNames, ns.length = 1 := by
      simp only [List.forall_mem_map]
    rw [a1, hnames]
    simp only [List.forall_mem_map, List.length_map]
  have hflat : (rs.map Prod.fst).flatMap paramNames = (l.flatMap fun x => x.pairs.map Attr.name).map asciiLower := by
    rw [List.flatMap, hnames, List.map_flatMap]
    rfl
  have h2 : (if 1 < (rs.map Prod.fst).length ∧ (∀ el ∈ rs.map Prod.fst, (paramNames el).length = 1) ∧
      Model.duplicates ((rs.map Prod.fst).flatMap paramNames) = [] then [(⟨1297, [e]⟩ : Note)] else []) = semicolonNotes e l := by
    unfold semicolonNotes
    rw [List.length_map, hlen]
    simp only [hall, hflat, duplicates_nil]
    have hiff : (1 < l.length) = (2 ≤ l.length) := rfl
    simp only [hiff]
    rfl
  have hs : ShowsAll (true, true) e (rs.map Prod.fst) (l.flatMap fun x => x.pairs.flatMap forwardedTexts) := by
    clear hnames h1 hlen hall hflat h2 r2 hw
    induction r1 with
    | nil => exact showsAll_nil
    | cons ha _ ih => exact showsAll_cons (hop_becomes_shows (hl _ (.head _)) ha) (ih fun y hy => hl y (.tail _ hy))
  refine ⟨rs, l.map fun x => (Model.duplicates ((x.pairs.map Attr.name).map asciiLower)).map fun _ => on e 1296, r1, ?_, rfl, ?_⟩
  · clear hnames h1 hlen hall hflat h2 r2 hw r1 hs hl
    induction l with
    | nil => exact .nil
    | cons x l ih => exact .cons (repeat_notes e x) ih
  · rw [h1, h2, show delimNotes true true e (.list (rs.map Prod.fst)) = _ from shows_list hs]
    simp only [← List.append_assoc]
    exact (((((complaintsOn_perm hp).append_right _).append_right _).append_right _).append_right _)

theorem forwarded_entries {p : SymParser} {know : Str → ArgRule} (h : ReadsHops p) (hk : ∀ n, Meets (know n) (forwardedArg n)) :
    ReadsEntries (knownKind "Forwarded" p (forwardedProcess know)) (List1Syn.Ok HopSyn.Ok) (List1Syn.text HopSyn.text)
      (fun e x r => ∃ y : List1Syn HopSyn, y.Ok HopSyn.Ok ∧ y.text HopSyn.text = x.text HopSyn.text ∧ y.hops = x.hops ∧
        ForwardedBecomes e y.elems (y.notes HopSyn.notes) r) := by
  have hd : badQuotedDelims (str "Forwarded") = (true, true) := by decide
  intro e
  constructor
  · intro x hx he
    obtain ⟨y, h1, h2, h3, cs, as, h4, h5⟩ := h.2 x hx
    refine ⟨y, h1, h2, h3, ?_⟩
    rw [← he] at h4
    have h4 : p e.value = .ok (.val (.list (y.elems.map HopSyn.value)), cs, as) := h4
    show ForwardedBecomes _ _ _ (readEntry p (forwardedProcess know) (badQuotedDelims (str "Forwarded")) e)
    rw [hd, readEntry_real h4 nofun]
    exact forwardedProcess_becomes hk (elems1_ok h1) h5 rfl
  · intro hn
    obtain ⟨err, he⟩ := (h.1 e.value).2.mpr hn
    exact readEntry_error (process := forwardedProcess know) (d := badQuotedDelims (str "Forwarded")) he

end Httpolice.Lemmas
