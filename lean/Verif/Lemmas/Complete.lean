import Verif.Lemmas.ChartEnds

/-! # The chart has everything that it should have -/

namespace Httpolice.Lemmas

open Httpolice.Model Httpolice.Spec

variable {V C : Type}

/-- All rules of `n` are predicted at `i`. -/
def Predicted (g : Grammar V C) (chart : List (List Item)) (n i : Nat) : Prop :=
  ∀ r ∈ g.rulesOf n, ⟨n, r, 0, i⟩ ∈ chart.getD i []

theorem take_len {g : Grammar V C} {data : Str} {target : Nat} {chart : List (List Item)}
    (_h : ChartOk g data target chart) {i : Nat} {it : Item} (hit : it ∈ chart.getD i []) :
    (chart.take i).length = i := by
  have : i < chart.length := by
    refine Classical.byContradiction fun hn => ?_
    rw [getD_beyond (Nat.le_of_not_lt hn)] at hit
    cases hit
  simp; omega

theorem chart_predict {g : Grammar V C} {data : Str} {target : Nat} {chart : List (List Item)}
    (h : ChartOk g data target chart) {i n : Nat} {it : Item} (hit : it ∈ chart.getD i [])
    (hn : g.next it = some (.nt n)) : Predicted g chart n i := by
  intro r hr
  have := (h.closed i it hit).predict n hn r hr
  rwa [take_len h hit] at this

theorem chart_complete {g : Grammar V C} {data : Str} {target : Nat} {chart : List (List Item)}
    (h : ChartOk g data target chart) {i : Nat} {it x : Item} (hit : it ∈ chart.getD i [])
    (hn : g.next it = none) (hlt : it.start < i) (hx : x ∈ chart.getD it.start [])
    (hxn : g.next x = some (.nt it.sym)) : x.advance ∈ chart.getD i [] := by
  refine (h.closed i it hit).complete hn ?_ x ?_ hxn
  · rw [take_len h hit]; omega
  · rwa [take_getD hlt]

theorem chart_null {g : Grammar V C} (hs : Sane g) {data : Str} {target : Nat}
    {chart : List (List Item)} (h : ChartOk g data target chart) {i n : Nat} {it : Item}
    (hit : it ∈ chart.getD i []) (hn : g.next it = some (.nt n)) (hg : Gen g (.nt n) []) :
    it.advance ∈ chart.getD i [] := by
  have ht := (h.closed i it hit).total n hn
  cases hb : g.nullable n with
  | none => exact absurd hb ht
  | some b =>
    have : b = true := (nullable_iff hs hb).mpr hg
    exact (h.closed i it hit).null n hn (this ▸ hb)

/-- The main lemma: from an item at `i` whose next symbols derive `data[i:k]`, the parser gets to
the item past these symbols at `k`. -/
theorem chart_derives {g : Grammar V C} (hs : Sane g) {data : Str} {target : Nat}
    {chart : List (List Item)} (h : ChartOk g data target chart) {l : List GSym} {i k n : Nat}
    (hd : Der g data l i k n) : ∀ {it : Item} {l' : List GSym}, it ∈ chart.getD i [] →
    (g.symbolsOf it.rule).drop it.pos = l ++ l' →
    { it with pos := it.pos + l.length } ∈ chart.getD k [] := by
  induction hd with
  | nil => intro it l' hit _; simpa using hit
  | @term bits c i k n l hc hb hd ih =>
    intro it l' hit hl
    have hn : g.next it = some (.term bits) := by
      have := congrArg (·[0]?) hl
      simpa [Grammar.next] using this
    have hadv := (h.closed i it hit).scan bits c hn hc hb
    have hl' : (g.symbolsOf it.advance.rule).drop it.advance.pos = l ++ l' := by
      have := congrArg (List.drop 1) hl
      simpa [List.drop_drop, Nat.add_comm, Item.advance] using this
    have := ih hadv hl'
    simpa [Item.advance, Nat.add_assoc, Nat.add_comm 1] using this
  | @nt m r i j k a b l hr h1 h2 ih1 ih2 =>
    intro it l' hit hl
    have hn : g.next it = some (.nt m) := by
      have := congrArg (·[0]?) hl
      simpa [Grammar.next] using this
    have hadv : it.advance ∈ chart.getD j [] := by
      by_cases hij : i = j
      · subst hij
        refine chart_null hs h hit hn ?_
        have := der_gen hs (.nt hr h1 .nil)
        rwa [seg_self] at this
      · have hlt : i < j := by have := der_le h1; omega
        have hp := chart_predict h hit hn r hr
        have hc := ih1 (l' := []) hp (by simp)
        refine chart_complete h hc ?_ hlt hit hn
        simp [Grammar.next]
    have hl' : (g.symbolsOf it.advance.rule).drop it.advance.pos = l ++ l' := by
      have := congrArg (List.drop 1) hl
      simpa [List.drop_drop, Nat.add_comm, Item.advance] using this
    have := ih2 hadv hl'
    simpa [Item.advance, Nat.add_assoc, Nat.add_comm 1] using this

/-- A predicted nonterminal is completed wherever it should be. -/
theorem chart_completed {g : Grammar V C} (hs : Sane g) {data : Str} {target : Nat}
    {chart : List (List Item)} (h : ChartOk g data target chart) {m r i k n : Nat}
    (hp : Predicted g chart m i) (hr : r ∈ g.rulesOf m) (hd : Der g data (g.symbolsOf r) i k n) :
    ⟨m, r, (g.symbolsOf r).length, i⟩ ∈ chart.getD k [] := by
  have := chart_derives hs h hd (l' := []) (hp r hr) (by simp)
  simpa using this

/-- If some symbols at the beginning of what is left of an item derive `data[i:j]`, then what follows
is predicted at `j`. -/
theorem chart_follows {g : Grammar V C} (hs : Sane g) {data : Str} {target : Nat}
    {chart : List (List Item)} (h : ChartOk g data target chart) {m r i j n p : Nat}
    {l l' : List GSym} (hp : Predicted g chart m i) (hr : r ∈ g.rulesOf m)
    (hl : g.symbolsOf r = l ++ .nt p :: l') (hd : Der g data l i j n) : Predicted g chart p j := by
  have := chart_derives hs h hd (l' := .nt p :: l') (hp r hr) (by simpa using hl)
  refine chart_predict h this ?_
  simp [Grammar.next, hl]

theorem target_predicted {g : Grammar V C} {data : Str} {target : Nat}
    {chart : List (List Item)} (h : ChartOk g data target chart) : Predicted g chart target 0 :=
  h.seed

/-! ## Beyond the data -/

/-- If what is left of an item at `i` derives something that begins with `data[i:k]` and goes on
with `c`, then at `k` there is an item whose next symbol is a terminal that matches `c`. -/
theorem chart_expects {g : Grammar V C} (hs : Sane g) {data : Str} {target : Nat}
    {chart : List (List Item)} (h : ChartOk g data target chart) {l : List GSym} {w : Str}
    (hg : GenSeq g l w) : ∀ {i k c : Nat} {v : Str} {it : Item} {l' : List GSym},
    it ∈ chart.getD i [] → (g.symbolsOf it.rule).drop it.pos = l ++ l' → i ≤ k → k ≤ data.length →
    w = seg data i k ++ c :: v →
    ∃ it' ∈ chart.getD k [], ∃ bits, g.next it' = some (.term bits) ∧ bits c = true := by
  induction hg with
  | nil => intro i k c v it l' _ _ _ _ hw; simp at hw
  | @term bits b l w hb hg ih =>
    intro i k c v it l' hit hl hik hk hw
    have hn : g.next it = some (.term bits) := by
      have := congrArg (·[0]?) hl
      simpa [Grammar.next] using this
    by_cases hik' : i = k
    · subst hik'
      rw [seg_self] at hw
      cases hw
      exact ⟨it, hit, bits, hn, hb⟩
    · have hlt : i < data.length := by omega
      have hc : data[i]? = some data[i] := List.getElem?_eq_getElem hlt
      rw [← seg_append (Nat.le_succ i) (show i + 1 ≤ k by omega), seg_cons hc] at hw
      simp only [List.cons_append, List.nil_append, List.cons.injEq] at hw
      obtain ⟨rfl, hw⟩ := hw
      have hadv := (h.closed i it hit).scan bits _ hn hc hb
      have hl' : (g.symbolsOf it.advance.rule).drop it.advance.pos = l ++ l' := by
        have := congrArg (List.drop 1) hl
        simpa [List.drop_drop, Nat.add_comm, Item.advance] using this
      exact ih hadv hl' (by omega) hk hw
  | @nt m x r ru l u w hx hr hru hgu hgw ihu ihw =>
    intro i k c v it l' hit hl hik hk hw
    have hn : g.next it = some (.nt m) := by
      have := congrArg (·[0]?) hl
      simpa [Grammar.next] using this
    have hr' : r ∈ g.rulesOf m := (rulesOf_of hx).symm ▸ hr
    have hsy := symbolsOf_of hru
    have hseg : (seg data i k).length = k - i := by simp [seg]; omega
    by_cases hul : u.length ≤ (seg data i k).length
    · -- the nonterminal ends within the data
      have hu : u = seg data i (i + u.length) := by
        have h1 := congrArg (List.take u.length) hw
        rw [List.take_left', List.take_append_of_le_length hul] at h1
        · rw [h1]
          unfold seg
          rw [List.drop_take, List.drop_take, List.take_take]
          simp only [List.length_take, List.length_drop]
          congr 1
          omega
        · rfl
      have hw' : w = seg data (i + u.length) k ++ c :: v := by
        rw [← seg_append (show i ≤ i + u.length by omega) (show i + u.length ≤ k by omega), ← hu,
          List.append_assoc] at hw
        exact List.append_cancel_left hw
      have hgu' : GenSeq g (g.symbolsOf r) (seg data i (i + u.length)) := by
        rw [hsy, ← hu]; exact hgu
      obtain ⟨n, hd⟩ := gen_der_seg (by omega) (by omega) hgu'
      have hadv := chart_derives hs h (Der.nt hr' hd .nil) (l' := l ++ l') hit (by simpa using hl)
      have hl' : (g.symbolsOf it.advance.rule).drop it.advance.pos = l ++ l' := by
        have := congrArg (List.drop 1) hl
        simpa [List.drop_drop, Nat.add_comm, Item.advance] using this
      exact ihw (it := it.advance) hadv hl' (by omega) hk hw'
    · -- the nonterminal goes beyond
      have hpre : ∃ v', u = seg data i k ++ c :: v' := by
        have h1 := congrArg (List.take u.length) hw
        rw [List.take_left' rfl, List.take_append] at h1
        rw [List.take_of_length_le (by omega)] at h1
        cases hd : u.length - (seg data i k).length with
        | zero => omega
        | succ d => rw [hd] at h1; exact ⟨_, h1⟩
      obtain ⟨v', hv'⟩ := hpre
      have hp := chart_predict h hit hn r hr'
      exact ihu (l' := []) hp (by simp [hsy]) hik hk hv'

/-- If what is left of an item at `i` derives something that begins with `data[i:k]`, then there are
items at `k`. -/
theorem chart_reaches {g : Grammar V C} (hs : Sane g) {data : Str} {target : Nat}
    {chart : List (List Item)} (h : ChartOk g data target chart) {k : Nat} (hk : k ≤ data.length)
    {v : Str} (hg : Gen g (.nt target) (data.take k ++ v)) : chart.getD k [] ≠ [] := by
  obtain ⟨r, hr, hw⟩ := gen_nt_inv hg
  cases v with
  | nil =>
    have : GenSeq g (g.symbolsOf r) (seg data 0 k) := by simpa [seg] using hw
    obtain ⟨n, hd⟩ := gen_der_seg (Nat.zero_le _) hk this
    exact List.ne_nil_of_mem (chart_completed hs h (target_predicted h) hr hd)
  | cons c v =>
    obtain ⟨it, hit, _⟩ := chart_expects hs h hw (c := c) (v := v) (l' := []) (h.seed r hr) (by simp)
      (Nat.zero_le k) hk (by simp [seg])
    exact List.ne_nil_of_mem hit

/-- A productive grammar: any sequence of existing symbols derives something. -/
theorem valid_viable {g : Grammar V C} (hs : Sane g) (hp : ∀ l : List GSym,
      (∃ n r l', r ∈ g.rulesOf n ∧ g.symbolsOf r = l' ++ l) → ∃ w, GenSeq g l w)
    {data : Str} {target i : Nat} {it : Item}
    (h : Valid g data target i it) : ∀ y, GenSeq g ((g.symbolsOf it.rule).drop it.pos) y →
    ∃ w, Gen g (.nt target) (data.take i ++ y ++ w) := by
  have hdrop : ∀ {it : Item} {x : GSym}, g.next it = some x →
      (g.symbolsOf it.rule).drop it.pos = x :: (g.symbolsOf it.rule).drop (it.pos + 1) := by
    intro it x hn
    obtain ⟨hlt, he⟩ := List.getElem?_eq_some_iff.mp hn
    rw [List.drop_eq_getElem_cons hlt, he]
  induction h with
  | seed hr =>
    intro y hy
    exact ⟨[], by simpa using gen_nt hs hr (by simpa using hy)⟩
  | @predict i n r it hv hn hr ih =>
    intro y hy
    obtain ⟨z, hz⟩ := hp ((g.symbolsOf it.rule).drop (it.pos + 1))
      ⟨it.sym, it.rule, _, (valid_ok hs hv).rule, (List.take_append_drop ..).symm⟩
    have := ih (y ++ z) (by
      rw [hdrop hn]
      exact genSeq_cons' (gen_nt hs hr (by simpa using hy)) hz)
    obtain ⟨w, hw⟩ := this
    exact ⟨z ++ w, by simpa using hw⟩
  | @skip i n it hv hn hnul ih =>
    intro y hy
    exact ih y (by
      rw [hdrop hn]
      exact genSeq_cons' ((nullable_iff hs hnul).mp rfl) hy)
  | @scan i c bits it hv hn hc hb ih =>
    intro y hy
    obtain ⟨w, hw⟩ := ih (c :: y) (by rw [hdrop hn]; exact .term hb hy)
    refine ⟨w, ?_⟩
    rw [List.take_add_one, hc]
    simpa using hw
  | @complete i it x hv hn hvx hnx ih1 ih2 =>
    intro y hy
    have hok := valid_ok hs hv
    obtain ⟨n, hd⟩ := hok.der
    rw [take_completed hn] at hd
    have hg := gen_nt hs hok.rule (der_gen hs hd)
    obtain ⟨w, hw⟩ := ih2 (seg data it.start i ++ y) (by rw [hdrop hnx]; exact genSeq_cons' hg hy)
    refine ⟨w, ?_⟩
    have : data.take i = data.take it.start ++ seg data it.start i := by
      have := seg_append (data := data) (Nat.zero_le it.start) hok.start
      simpa [seg] using this.symm
    rw [this]
    simpa using hw

end Httpolice.Lemmas
