import Verif.Lemmas.Search

/-! # `_inner_parse` as a whole, and its errors -/

namespace Httpolice.Lemmas

open Httpolice.Model Httpolice.Spec

variable {V C : Type}

/-! ## The chart and the search together -/

theorem chart_itemOk {g : Grammar V C} (hs : Sane g) {data : Str} {target : Nat}
    {chart : List (List Item)} (h : ChartOk g data target chart) :
    ∀ e, ∀ it ∈ chart.getD e [], ItemOk g data e it :=
  fun e it hit => valid_ok hs (h.valid e it hit)

theorem colBound_mono (g : Grammar V C) {i j : Nat} (h : i ≤ j) : colBound g i ≤ colBound g j := by
  unfold colBound
  exact Nat.mul_le_mul_right _ (by omega)

theorem chart_sizes {g : Grammar V C} (hs : Sane g) {data : Str} {target : Nat}
    {chart : List (List Item)} (h : ChartOk g data target chart) :
    ∀ e, (chart.getD e []).length ≤ colBound g data.length := by
  intro e
  cases hc : chart.getD e [] with
  | nil => simp
  | cons a l =>
    have hb := (chart_itemOk hs h e a (by rw [hc]; exact List.mem_cons_self)).bound
    have := nodup_length_le (u := univ g e) (h.nodup e)
      (fun x hx => mem_univ (chart_itemOk hs h e x hx))
    rw [length_univ, hc] at this
    exact Nat.le_trans this (colBound_mono g hb)

/-- The fuel of the search. -/
def searchFuel (g : Grammar V C) (data : Str) : Nat :=
  data.length * (colBound g data.length + 2) + colBound g data.length + 2

theorem search_total {g : Grammar V C} (hs : Sane g) (ops : ParseOps V) {data : Str} {target : Nat}
    {chart : List (List Item)} (h : ChartOk g data target chart) :
    ∃ rs, findResults g ops data chart (searchFuel g data) (.nt target) data.length [] = some rs := by
  have := findResults_total (g := g) (ops := ops) (data := data)
    (fun e it hit => (chart_itemOk hs h e it hit).start) (chart_sizes hs h) (searchFuel g data)
    (.nt target) data.length [] (by
      unfold meas searchFuel
      have h1 : unvisited chart data.length [] ≤ colBound g data.length :=
        Nat.le_trans List.countP_le_length (chart_sizes hs h _)
      omega)
  exact Option.ne_none_iff_exists'.mp this

theorem seg_full (data : Str) : seg data 0 data.length = data := by simp [seg]

/-- A derivation that can be evaluated is a derivation. -/
theorem evalSeq_gen {g : Grammar V C} (hs : Sane g) {ops : ParseOps V} {i : Nat} {l : List GSym}
    {w : Str} {ns : List (Node V)} {cs : List C} {as : List (Annot V)}
    (he : EvalSeq g ops i l w ns cs as) : GenSeq g l w := by
  induction he with
  | nil => exact .nil
  | term hb _ ih => exact .term hb ih
  | rule hx hr hru _ _ _ _ _ _ ih1 ih2 => exact .nt hx hr hru ih1 ih2
  | @repetition i n m x r ru y l u w ns ns' cs cs' as as' hx hr hru hrep hy _ _ ih1 ih2 =>
    have hempty : ∃ r ∈ x.rules, ∃ ru : GRule V C, g.rls[r]? = some ru ∧ ru.symbols = [] := by
      rcases hs.repeated_shape n x hx hrep with h' | ⟨_, he, _⟩
      · exact absurd (by rw [hy]; rfl) (h' r hr ru hru)
      · exact he
    obtain ⟨r0, hr0, ru0, hru0, hsy0⟩ := hempty
    have key : ∀ k v, GenSeq g (List.replicate k y) v → Gen g (.nt n) v := by
      intro k
      induction k with
      | zero =>
        intro v hv
        cases hv
        have h0 : GenSeq g ru0.symbols [] := by rw [hsy0]; exact .nil
        exact GenSeq.nt (l := []) hx hr0 hru0 h0 .nil
      | succ k ihk =>
        intro v hv
        rw [List.replicate_succ'] at hv
        obtain ⟨v1, v2, rfl, h1, h2⟩ := genSeq_split hv
        have h0 : GenSeq g ru.symbols (v1 ++ v2) := by rw [hy]; exact genSeq_cons' (ihk _ h1) h2
        have := GenSeq.nt (l := []) hx hr hru h0 .nil
        rwa [List.append_nil] at this
    exact genSeq_cons' (key _ _ ih1) ih2

theorem search_iff {g : Grammar V C} (hs : Sane g) (ops : ParseOps V) {data : Str} {target : Nat}
    {chart : List (List Item)} (h : ChartOk g data target chart) {rs : List (PRes V C)}
    (hrs : findResults g ops data chart (searchFuel g data) (.nt target) data.length [] = some rs) :
    (∃ r ∈ rs, r.start = 0) ↔ Gen g (.nt target) data := by
  have hright := findResults_right hs ops (chart_itemOk hs h) (searchFuel g data) _ _ _ rs hrs
  constructor
  · rintro ⟨r, hr, hr0⟩
    have := evalSeq_gen hs (hright r hr).eval
    rw [hr0, seg_full] at this
    exact this
  · intro hg
    have hg' : GenSeq g [.nt target] (seg data 0 data.length) := by rw [seg_full]; exact hg
    obtain ⟨n, hd⟩ := gen_der_seg (Nat.zero_le _) (Nat.le_refl _) hg'
    exact findResults_finds hs h n (searchFuel g data) _ 0 _ n [] (Nat.le_refl _) hd
      (by intro m hm; cases hm; exact target_predicted h) (clear_nil _ _ _ _) rs hrs

/-- How `_inner_parse` ends. -/
theorem innerParse_cases {g : Grammar V C} (hs : Sane g) (ops : ParseOps V) (data : Str)
    (target : Nat) :
    (innerParse g ops data target = .error .recursion ∧ ∃ n, g.nullable n = none) ∨
    ∃ chart, ChartOk g data target chart ∧
      ((Gen g (.nt target) data ∧ ∃ r : PRes V C, r.start = 0 ∧
          ResOk g ops data (.nt target) data.length r ∧
          innerParse g ops data target = .ok (r.node, r.complaints, r.annots)) ∨
        (¬ Gen g (.nt target) data ∧
          innerParse g ops data target = .error (buildParseError g data target chart))) := by
  rcases chart_ok hs data target with ⟨chart, hc, hok⟩ | ⟨hc, hn⟩
  · refine .inr ⟨chart, hok, ?_⟩
    unfold theChart at hc
    unfold innerParse
    rw [hc]
    obtain ⟨rs, hrs⟩ := search_total hs ops hok
    have hiff := search_iff hs ops hok hrs
    simp only
    rcases hok.stop with hlen | ⟨hlen, hemp⟩
    · rw [if_pos hlen]
      unfold searchFuel at hrs
      rw [hrs]
      cases hf : rs.find? fun r => r.start == 0 with
      | none =>
        refine .inr ⟨?_, by simp only [hf]⟩
        rw [← hiff]
        rintro ⟨r, hr, hr0⟩
        have := List.find?_eq_none.mp hf r hr
        simp [hr0] at this
      | some r =>
        have hr0 : r.start = 0 := by simpa using List.find?_some hf
        have hmem := List.mem_of_find?_eq_some hf
        exact .inl ⟨hiff.mp ⟨r, hmem, hr0⟩, r, hr0,
          findResults_right hs ops (chart_itemOk hs hok) _ _ _ _ rs hrs r hmem,
          by simp only [hf]⟩
    · rw [if_neg (by omega)]
      refine .inr ⟨?_, rfl⟩
      intro hg
      exact chart_reaches hs hok (Nat.le_refl _) (v := []) (by simpa using hg) hemp
  · refine .inl ⟨?_, hn⟩
    unfold theChart at hc
    unfold innerParse
    rw [hc]

/-! ## Pivots -/

/-- All pairs of a nonterminal and a position. -/
def pairs (g : Grammar V C) (data : Str) : List (Nat × Nat) :=
  (List.range g.nts.length).flatMap fun n => (List.range (data.length + 1)).map fun i => (n, i)

theorem length_pairs (g : Grammar V C) (data : Str) :
    (pairs g data).length = g.nts.length * (data.length + 1) := by
  unfold pairs
  rw [length_flatMap_const (k := data.length + 1) (by intro a _; simp)]
  simp

theorem mem_pairs {g : Grammar V C} {data : Str} {n i : Nat} (hn : n < g.nts.length)
    (hi : i ≤ data.length) : (n, i) ∈ pairs g data := by
  unfold pairs
  rw [List.mem_flatMap]
  refine ⟨n, List.mem_range.mpr hn, List.mem_map.mpr ⟨i, List.mem_range.mpr (by omega), rfl⟩⟩

theorem findPivots_total {g : Grammar V C} {data : Str} {chart : List (List Item)}
    (hok : ∀ e, ∀ it ∈ chart.getD e [], ItemOk g data e it) {fuel : Nat} :
    ∀ {n start : Nat} {stack : List (Nat × Nat)}, (stack ++ [(n, start)]).Nodup →
    (∀ p ∈ stack ++ [(n, start)], p ∈ pairs g data) →
    (pairs g data).length < fuel + stack.length → findPivots g chart fuel n start stack ≠ none := by
  induction fuel with
  | zero =>
    intro n start stack hnd hin hf
    have := nodup_length_le hnd hin
    simp at this
    omega
  | succ fuel ih =>
    intro n start stack hnd hin hf
    unfold findPivots
    split
    · simp
    · refine collect_total ?_
      intro it hit
      split
      · simp
      · rename_i hns
        have hio := hok start it (mem_candidates.mp hit).1
        obtain ⟨x, hx, _⟩ := nt_of_rule hio.rule
        refine ih ?_ ?_ (by simp; omega)
        · rw [List.nodup_append]
          refine ⟨hnd, by simp, ?_⟩
          intro a ha b hb
          rw [List.mem_singleton] at hb
          rintro rfl
          exact hns (hb ▸ ha)
        · intro p hp
          rcases List.mem_append.mp hp with hp | hp
          · exact hin p hp
          · rw [List.mem_singleton] at hp
            subst hp
            exact mem_pairs (List.getElem?_eq_some_iff.mp hx).1 (Nat.le_trans hio.start hio.bound)

theorem expectedBy_total {g : Grammar V C} {data : Str} {chart : List (List Item)}
    (hok : ∀ e, ∀ it ∈ chart.getD e [], ItemOk g data e it) {e : Nat} {it : Item}
    (hit : it ∈ chart.getD e []) :
    expectedBy g chart (g.nts.length * (data.length + 1) + 1) it ≠ none := by
  unfold expectedBy
  split
  · have hio := hok e it hit
    obtain ⟨x, hx, _⟩ := nt_of_rule hio.rule
    have := findPivots_total (fuel := g.nts.length * (data.length + 1) + 1) hok
      (n := it.sym) (start := it.start) (stack := []) (by simp) (by
        intro p hp
        simp only [List.nil_append, List.mem_singleton] at hp
        subst hp
        exact mem_pairs (List.getElem?_eq_some_iff.mp hx).1 (Nat.le_trans hio.start hio.bound))
      (by rw [length_pairs]; simp)
    simpa using this
  · simp

/-- A pivot that is reported is a pivot. -/
theorem findPivots_pivot {g : Grammar V C} {chart : List (List Item)} {fuel : Nat} :
    ∀ {n start : Nat} {stack : List (Nat × Nat)} {ps : List Nat},
    findPivots g chart fuel n start stack = some ps → ∀ p ∈ ps, g.isPivot p = true := by
  induction fuel with
  | zero => intro n start stack ps h; cases h
  | succ fuel ih =>
    intro n start stack ps h p hp
    unfold findPivots at h
    split at h
    · rename_i hpv
      cases h
      rw [List.mem_singleton] at hp
      exact hp ▸ hpv
    · obtain ⟨it, _, x, hx, hpx⟩ := collect_mem h hp
      split at hx
      · cases hx; cases hpx
      · exact ih hx p hpx

/-! ## The error -/

theorem lastColumn_some {chart : List (List Item)} : ∀ {k i : Nat} {items : List Item},
    lastColumn k chart = some (i, items) →
    k ≤ i ∧ chart.getD (i - k) [] = items ∧ items ≠ [] ∧ ∀ j, i - k < j → chart.getD j [] = [] := by
  induction chart with
  | nil => intro k i items h; cases h
  | cons col cols ih =>
    intro k i items h
    unfold lastColumn at h
    split at h
    · rename_i x hx
      cases h
      obtain ⟨h1, h2, h3, h4⟩ := ih hx
      have he : i - k = (i - (k + 1)) + 1 := by omega
      refine ⟨by omega, ?_, h3, ?_⟩
      · rw [he]; exact h2
      · intro j hj
        cases j with
        | zero => omega
        | succ j => exact h4 j (by omega)
    · rename_i hn
      split at h
      · cases h
      · rename_i hne
        cases h
        refine ⟨Nat.le_refl _, by simp, by simpa using hne, ?_⟩
        intro j hj
        cases j with
        | zero => omega
        | succ j =>
          have hnone : ∀ (cols : List (List Item)) (k : Nat), lastColumn k cols = none →
              ∀ j, cols.getD j [] = [] := by
            intro cols
            induction cols with
            | nil => intro k _ j; rfl
            | cons c cs ih' =>
              intro k h j
              unfold lastColumn at h
              split at h
              · cases h
              · rename_i hn'
                split at h
                · rename_i hce
                  cases j with
                  | zero => simpa using hce
                  | succ j => exact ih' (k + 1) hn' j
                · cases h
          exact hnone cols _ hn j

theorem lastColumn_exists {chart : List (List Item)} {j : Nat} (h : chart.getD j [] ≠ []) (k : Nat) :
    lastColumn k chart ≠ none := by
  induction chart generalizing j k with
  | nil => exact absurd rfl h
  | cons c cs ih =>
    unfold lastColumn
    cases j with
    | zero =>
      split
      · simp
      · split
        · rename_i he; exact absurd (List.isEmpty_iff.mp he) h
        · simp
    | succ j =>
      have := ih (j := j) h (k + 1)
      split
      · simp
      · rename_i hn; exact absurd hn this

/-- What the error says, in terms of the chart. -/
structure ErrOk (g : Grammar V C) (data : Str) (target : Nat) (chart : List (List Item))
    (e : ParseErr) : Prop where
  found : e.found = data[e.position]?
  nonempty : chart.getD e.position [] ≠ []
  last : ∀ j, e.position < j → chart.getD j [] = []
  expected : ∀ c, (∃ x ∈ e.expected, c ∈ x.1) ↔
    c < 256 ∧ ∃ it ∈ chart.getD e.position [], ∃ bits, g.next it = some (.term bits) ∧ bits c = true
  pivots : ∀ x ∈ e.expected, ∀ p ∈ x.2, g.isPivot p = true
  stop : e.endOfData = true ↔
    ∃ it ∈ chart.getD e.position [], it.sym = target ∧ g.next it = none

theorem mem_termChars {bits : Nat → Bool} {c : Nat} :
    c ∈ termChars bits ↔ c < 256 ∧ bits c = true := by
  simp [termChars]

theorem buildParseError_ok {g : Grammar V C} (hs : Sane g) {data : Str} {target : Nat}
    {chart : List (List Item)} (h : ChartOk g data target chart) (hr : g.rulesOf target ≠ []) :
    ∃ e, buildParseError g data target chart = .parse e ∧ ErrOk g data target chart e := by
  have hne : chart.getD 0 [] ≠ [] := by
    cases hrs : g.rulesOf target with
    | nil => exact absurd hrs hr
    | cons r rs => exact List.ne_nil_of_mem (h.seed r (by rw [hrs]; exact List.mem_cons_self))
  unfold buildParseError
  cases hl : lastColumn 0 chart with
  | none => exact absurd hl (lastColumn_exists hne 0)
  | some x =>
    obtain ⟨i, items⟩ := x
    obtain ⟨_, h2, h3, h4⟩ := lastColumn_some hl
    rw [Nat.sub_zero] at h2 h4
    cases hc : collect (expectedBy g chart (g.nts.length * (data.length + 1) + 1)) items with
    | none =>
      refine absurd hc (collect_total ?_)
      intro it hit
      exact expectedBy_total (chart_itemOk hs h) (e := i) (by rw [h2]; exact hit)
    | some expected =>
      simp only [hc]
      refine ⟨_, rfl, ⟨rfl, ?_, h4, ?_, ?_, ?_⟩⟩
      · show chart.getD i [] ≠ []
        rw [h2]; exact h3
      · intro c
        show (∃ x ∈ expected, c ∈ x.1) ↔ _ ∧ ∃ it ∈ chart.getD i [], _
        rw [h2]
        constructor
        · rintro ⟨x, hx, hcx⟩
          obtain ⟨it, hit, y, hy, hxy⟩ := collect_mem hc hx
          unfold expectedBy at hy
          split at hy
          · rename_i bits hn
            rw [Option.map_eq_some_iff] at hy
            obtain ⟨ps, _, rfl⟩ := hy
            rw [List.mem_singleton] at hxy
            subst hxy
            obtain ⟨hc1, hc2⟩ := mem_termChars.mp hcx
            exact ⟨hc1, it, hit, bits, hn, hc2⟩
          · cases hy; cases hxy
        · rintro ⟨hc1, it, hit, bits, hn, hc2⟩
          obtain ⟨y, hy, hyl⟩ := mem_collect hc hit
          unfold expectedBy at hy
          rw [hn] at hy
          simp only [Option.map_eq_some_iff] at hy
          obtain ⟨ps, _, rfl⟩ := hy
          exact ⟨_, hyl _ (List.mem_singleton.mpr rfl), mem_termChars.mpr ⟨hc1, hc2⟩⟩
      · intro x hx p hp
        obtain ⟨it, hit, y, hy, hxy⟩ := collect_mem hc hx
        unfold expectedBy at hy
        split at hy
        · rw [Option.map_eq_some_iff] at hy
          obtain ⟨ps, hps, rfl⟩ := hy
          rw [List.mem_singleton] at hxy
          subst hxy
          exact findPivots_pivot hps p hp
        · cases hy; cases hxy
      · show (items.any fun it => it.sym == target && g.completed it) = true ↔
          ∃ it ∈ chart.getD i [], _
        rw [h2]
        simp [Grammar.completed, List.any_eq_true]

/-- In a productive grammar, whatever is left of a rule derives something. -/
theorem productive_suffix {g : Grammar V C} (hp : Productive g) (l : List GSym)
    (h : ∃ n r l', r ∈ g.rulesOf n ∧ g.symbolsOf r = l' ++ l) : ∃ w, GenSeq g l w := by
  obtain ⟨n, r, l', _, hsy⟩ := h
  have hall : ∀ y ∈ l, ∃ w, Gen g y w := by
    intro y hy
    unfold Grammar.symbolsOf at hsy
    split at hsy
    · rename_i ru hru
      exact hp r ru hru y (by rw [hsy]; exact List.mem_append_right _ hy)
    · cases l with
      | nil => cases hy
      | cons a l => simp at hsy
  clear hsy
  induction l with
  | nil => exact ⟨[], .nil⟩
  | cons y l ih =>
    obtain ⟨w, hw⟩ := hall y List.mem_cons_self
    obtain ⟨v, hv⟩ := ih fun z hz => hall z (List.mem_cons_of_mem _ hz)
    exact ⟨w ++ v, genSeq_cons' hw hv⟩

/-- The items of a target that does not occur within itself start at the beginning. -/
theorem target_start {g : Grammar V C} (hs : Sane g) {data : Str} {target : Nat}
    (hw : ¬ Within g target target) {i : Nat} {it : Item} (h : Valid g data target i it) :
    (it.sym = target ∧ it.start = 0) ∨ (it.sym ≠ target ∧ Within g it.sym target) := by
  have huse : ∀ {i : Nat} {it : Item} {n : Nat}, Valid g data target i it →
      g.next it = some (.nt n) → Within g n it.sym := by
    intro i it n hv hn
    obtain ⟨x, ru, hx, hxr, hru⟩ := rule_of hs (valid_ok hs hv).rule
    refine .here hx hxr hru ?_
    have := List.mem_of_getElem? hn
    rwa [symbolsOf_of hru] at this
  induction h with
  | seed => exact .inl ⟨rfl, rfl⟩
  | @predict i n r it hv hn hr ih =>
    have hu := huse hv hn
    have hw' : Within g n target := by
      rcases ih with ⟨h1, _⟩ | ⟨_, h2⟩
      · exact h1 ▸ hu
      · exact .deeper hu h2
    refine .inr ⟨?_, hw'⟩
    intro he
    exact hw (he ▸ hw')
  | skip _ _ _ ih => exact ih
  | scan _ _ _ _ ih => exact ih
  | complete _ _ _ _ _ ih => exact ih

end Httpolice.Lemmas
