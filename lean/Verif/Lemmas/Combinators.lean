import Verif.Lemmas.Heap

/-!
# Languages of the derived combinators
-/

namespace Httpolice.Lemmas

open Httpolice.Model Httpolice.Spec

variable {V C : Type}

/-! ## Repetition of languages -/

theorem cat_congr {A A' B B' : Str → Prop} (ha : ∀ w, A w ↔ A' w) (hb : ∀ w, B w ↔ B' w) (w : Str) :
    Cat A B w ↔ Cat A' B' w := by
  simp only [Cat, ha, hb]

theorem rep_congr {A A' : Str → Prop} (ha : ∀ w, A w ↔ A' w) (k : Nat) (w : Str) :
    Rep A k w ↔ Rep A' k w := by
  simp only [Rep, ha]

theorem rep_zero {A : Str → Prop} {w : Str} : Rep A 0 w ↔ w = [] := by
  constructor
  · rintro ⟨ws, h1, _, rfl⟩
    rw [List.eq_nil_of_length_eq_zero h1]; rfl
  · rintro rfl
    exact ⟨[], rfl, nofun, rfl⟩

theorem rep_succ {A : Str → Prop} {k : Nat} {w : Str} : Rep A (k + 1) w ↔ Cat A (Rep A k) w := by
  constructor
  · rintro ⟨ws, h1, h2, rfl⟩
    match ws, h1 with
    | u :: ws, h1 =>
      exact ⟨u, ws.flatten, by simp, h2 u List.mem_cons_self, ws, by simpa using h1,
        fun v hv => h2 v (List.mem_cons_of_mem _ hv), rfl⟩
  · rintro ⟨u, v, rfl, hu, ws, h1, h2, rfl⟩
    refine ⟨u :: ws, by simp [h1], ?_, by simp⟩
    intro x hx
    rcases List.mem_cons.mp hx with rfl | hx
    · exact hu
    · exact h2 x hx

theorem rep_one {A : Str → Prop} {w : Str} : Rep A 1 w ↔ A w := by
  rw [rep_succ]
  constructor
  · rintro ⟨u, v, rfl, h1, h2⟩
    rw [rep_zero] at h2
    simpa [h2] using h1
  · intro h
    exact ⟨w, [], by simp, h, rep_zero.mpr rfl⟩

theorem rep_add {A : Str → Prop} {j k : Nat} {w : Str} :
    Rep A (j + k) w ↔ Cat (Rep A j) (Rep A k) w := by
  constructor
  · rintro ⟨ws, h1, h2, rfl⟩
    refine ⟨(ws.take j).flatten, (ws.drop j).flatten, ?_, ⟨ws.take j, ?_, ?_, rfl⟩,
      ⟨ws.drop j, ?_, ?_, rfl⟩⟩
    · rw [← List.flatten_append, List.take_append_drop]
    · rw [List.length_take]; omega
    · exact fun u hu => h2 u (List.mem_of_mem_take hu)
    · rw [List.length_drop]; omega
    · exact fun u hu => h2 u (List.mem_of_mem_drop hu)
  · rintro ⟨u, v, rfl, ⟨us, h1, h2, rfl⟩, vs, h3, h4, rfl⟩
    refine ⟨us ++ vs, by simp [h1, h3], ?_, by simp⟩
    intro x hx
    rcases List.mem_append.mp hx with hx | hx
    · exact h2 x hx
    · exact h4 x hx

theorem rep_snoc {A : Str → Prop} {k : Nat} {w : Str} : Rep A (k + 1) w ↔ Cat (Rep A k) A w := by
  rw [rep_add]
  exact cat_congr (fun _ => Iff.rfl) (fun _ => rep_one) w

/-! ## Histories -/

theorem builds_trans {b : Bool} {h h' h'' : PyHeap} (h1 : Builds b h h') (h2 : Builds b h' h'') :
    Builds b h h'' := by
  induction h2 with
  | refl => exact h1
  | or _ ha hb ih => exact .or ih ha hb
  | mul _ ha hb ih => exact .mul ih ha hb
  | wrap _ ha ih => exact .wrap ih ha
  | «seal» _ ih => exact .seal ih
  | group _ ha ih => exact .group ih ha
  | repeatAll _ ha ih => exact .repeatAll ih ha
  | repeatUpTo _ ha ih => exact .repeatUpTo ih ha
  | recursive _ ih => exact .recursive ih
  | define _ h1 h2 h3 ih => exact .define ih h1 h2 h3

/-- `Makes`, and that it is made by the combinators. -/
structure Made (b : Bool) (h : PyHeap) (out : Sym × PyHeap) (lang : PyHeap → Str → Prop) : Prop
    extends Makes b h out lang where
  builds : Builds b h out.2

theorem Made.conv {b : Bool} {h : PyHeap} {out : Sym × PyHeap} {l l' : PyHeap → Str → Prop}
    (m : Made b h out l) (hc : ∀ h', Ext out.2 h' → WF h' → ∀ w, l h' w ↔ l' h' w) :
    Made b h out l' :=
  ⟨m.toMakes.conv hc, m.builds⟩

theorem Made.after {b : Bool} {h h1 : PyHeap} {out : Sym × PyHeap} {l : PyHeap → Str → Prop}
    (m : Made b h1 out l) (e : Ext h h1) (hb : Builds b h h1) : Made b h out l :=
  ⟨m.toMakes.after e, builds_trans hb m.builds⟩

/-- A second operation on the result of a first one (and maybe others). -/
theorem Made.then {b : Bool} {h : PyHeap} {o1 o2 : Sym × PyHeap} {l1 l2 : PyHeap → Str → Prop}
    (m1 : Made b h o1 l1) (m2 : Made b o1.2 o2 l2) : Made b h o2 l2 :=
  m2.after m1.ext m1.builds

theorem or_made {b : Bool} {h : PyHeap} (hg : Good b h) {s t : Sym} (hs : Usable h s)
    (ht : Usable h t) : Made b h (h.or s t) (fun h' w => Accepts h' s w ∨ Accepts h' t w) :=
  ⟨or_makes hg hs ht, .or .refl hs ht⟩

theorem mul_made {b : Bool} {h : PyHeap} (hg : Good b h) {s t : Sym} (hs : Usable h s)
    (ht : Usable h t) : Made b h (h.mul s t) (fun h' => Cat (Accepts h' s) (Accepts h' t)) :=
  ⟨mul_makes hg hs ht, .mul .refl hs ht⟩

theorem wrap_made {b : Bool} {h : PyHeap} (hg : Good b h) {s : Sym} (hs : Usable h s)
    (f : Func GVal PyComplaint) (c : Bool) : Made b h (h.wrap f s c) (fun h' => Accepts h' s) :=
  ⟨wrap_makes hg hs f c, .wrap .refl hs⟩

theorem seal_made {b : Bool} {h : PyHeap} (hg : Good b h) {s : Sym} (hs : Usable h s) (p : Bool)
    (hd : ∀ n, s = .nt n → Defined h n) : Made b h (h.seal s p) (fun h' => Accepts h' s) :=
  ⟨seal_makes hg hs p hd, .seal .refl⟩

theorem empty_usable {b : Bool} {h : Heap V C} (hg : Good b h) : Usable h emptySym := by
  obtain ⟨x, hx, _, hh, _⟩ := hg.wf.empty
  exact ⟨x, hx, by rw [hh]; nofun⟩

theorem substEmpty_made {b : Bool} {h : PyHeap} (hg : Good b h) (v : GVal) :
    Made b h (h.substEmpty v) (fun _ w => w = []) :=
  (wrap_made hg (empty_usable hg) (substF v) false).conv fun h' e hw w =>
    accepts_empty hg.wf hw ((wrap_made hg (empty_usable hg) (substF v) false).ext.trans e)

theorem add_made {b : Bool} {h : PyHeap} (hg : Good b h) {s t : Sym} (hs : Usable h s)
    (ht : Usable h t) : Made b h (h.add s t) (fun h' => Cat (Accepts h' s) (Accepts h' t)) := by
  have h1 := mul_made hg hs ht
  have h2 := wrap_made h1.good h1.usable addF false
  exact (h1.then h2).conv fun h' e hw w => h1.lang h' (h2.ext.trans e) hw w

theorem mod_made {b : Bool} {h : PyHeap} (hg : Good b h) {s t : Sym} (hs : Usable h s)
    (ht : Usable h t) : Made b h (h.mod s t) (fun h' => Cat (Accepts h' s) (Accepts h' t)) := by
  have h1 := mul_made hg hs ht
  have h2 := wrap_made h1.good h1.usable continueRightListF false
  exact (h1.then h2).conv fun h' e hw w => h1.lang h' (h2.ext.trans e) hw w

theorem skip_made {b : Bool} {h : PyHeap} (hg : Good b h) {s : Sym} (hs : Usable h s) :
    Made b h (h.skip s) (fun h' => Accepts h' s) := wrap_made hg hs skipF false

theorem maybe_made {b : Bool} {h : PyHeap} (hg : Good b h) {s : Sym} (hs : Usable h s) (v : GVal) :
    Made b h (h.maybe s v) (fun h' w => Accepts h' s w ∨ w = []) := by
  have h1 := substEmpty_made hg v
  have h2 := or_made h1.good (h1.ext.usable hs) h1.usable
  exact (h1.then h2).conv fun h' e hw w => or_congr_right (h1.lang h' (h2.ext.trans e) hw w)

/-! ## Unbounded repetition -/

/-- A symbol made by `*`, `<<` or `subst << empty`: it has one rule and will be inlined. -/
structure IsOne (h : Heap V C) (s : Sym) (r : Nat) (ru : GRule V C) : Prop where
  sym : ∃ k, s = .nt k ∧
    h.nts[k]? = some { rules := [r], repeated := false, pivot := false, named := false, eph := none, hole := false }
  rule : h.rls[r]? = some ru

theorem simple_isOne {h : Heap V C} {r : Nat} {ru : GRule V C} (hr : h.rls[r]? = some ru) :
    IsOne (h.simple [r] none).2 (h.simple [r] none).1 r ru :=
  ⟨⟨_, rfl, newNt_get ..⟩, (newNt_ext ..).rls _ _ hr⟩

theorem substEmpty_isOne {h : PyHeap} (hw : WF h) (v : GVal) :
    ∃ r, IsOne (h.substEmpty v).2 (h.substEmpty v).1 r ⟨[], some (wrapAction (substF v) none)⟩ := by
  obtain ⟨x, hx, hr, hh, he⟩ := hw.empty
  have h1 : h.asRules emptySym = ([0], h) := by
    simp only [emptySym, Heap.asRules, hx, NtObj.ephemeral, he, if_true, hr]
  refine ⟨h.rls.length, ?_⟩
  unfold Heap.substEmpty Heap.wrap
  simp only [h1, Heap.wrapAll, Bool.false_eq_true, if_false]
  refine simple_isOne (h := (h.newRule _).2) ?_
  have : h.grammar.symbolsOf 0 = [] := symbolsOf_of (g := h.grammar) hw.empty_rule
  have h2 : h.grammar.actionOf 0 = none := actionOf_of (g := h.grammar) hw.empty_rule
  rw [this, h2]
  exact newRule_get ..

/-- A symbol that is not inlined. -/
def Plain (h : Heap V C) : Sym → Prop
  | .term _ _ => True
  | .nt n => ∃ x : NtObj, h.nts[n]? = some x ∧ x.ephemeral = false

theorem asRule_plain {h : Heap V C} {s : Sym} (hp : Plain h s) :
    h.asRule s = h.newRule ⟨[s.g], none⟩ := by
  cases s with
  | term => rfl
  | nt n =>
    obtain ⟨x, hx, he⟩ := hp
    simp only [Heap.asRule, hx, he]
    rfl

theorem Ext.plain {h h' : Heap V C} (e : Ext h h') {s : Sym} (hp : Plain h s) : Plain h' s := by
  cases s with
  | term => trivial
  | nt n =>
    obtain ⟨x, hx, he⟩ := hp
    obtain ⟨x', h1, _, h3, h4, _⟩ := e.nts n x hx
    exact ⟨x', h1, ephemeral_mono h3 h4 he⟩

theorem group_plain {h : Heap V C} {s : Sym} (hu : Usable h s) : Plain (h.group s).2 (h.group s).1 := by
  cases s with
  | term => trivial
  | nt n =>
    obtain ⟨x, hx, hh⟩ := hu
    simp only [Heap.group, hx]
    cases he : x.ephemeral with
    | false => exact ⟨x, hx, he⟩
    | true => exact ⟨_, newNt_get .., rfl⟩

theorem mul_isOne {h : Heap V C} {s t : Sym} (hs : Plain h s) (ht : Plain h t) :
    ∃ r, IsOne (h.mul s t).2 (h.mul s t).1 r ⟨[s.g, t.g], none⟩ := by
  have e1 := newRule_ext h ⟨[s.g], none⟩
  have e2 := newRule_ext (h.newRule ⟨[s.g], none⟩).2 ⟨[t.g], none⟩
  refine ⟨((h.newRule ⟨[s.g], none⟩).2.newRule ⟨[t.g], none⟩).2.rls.length, ?_⟩
  unfold Heap.mul
  simp only [asRule_plain hs, asRule_plain (e1.plain ht)]
  refine simple_isOne (h := (Heap.concat _ _ _).2) (r := (Heap.concat _ _ _).1) ?_
  unfold Heap.concat
  have g1 := e2.rls _ _ (newRule_get h ⟨[s.g], none⟩)
  have g2 := newRule_get (h.newRule ⟨[s.g], none⟩).2 ⟨[t.g], none⟩
  rw [newRule_get, symbolsOf_of (g := Heap.grammar _) g1, symbolsOf_of (g := Heap.grammar _) g2,
    actionOf_of (g := Heap.grammar _) g1, actionOf_of (g := Heap.grammar _) g2]
  rfl

theorem IsOne.asRules {h : Heap V C} {s : Sym} {r : Nat} {ru : GRule V C} (hi : IsOne h s r ru) :
    h.asRules s = ([r], h) := by
  obtain ⟨k, rfl, hk⟩ := hi.sym
  simp only [Heap.asRules, hk]
  rfl

theorem IsOne.asRule {h : Heap V C} {s : Sym} {r : Nat} {ru : GRule V C} (hi : IsOne h s r ru) :
    h.asRule s = (r, h) := by
  obtain ⟨k, rfl, hk⟩ := hi.sym
  simp only [Heap.asRule, hk]
  rfl

/-- An object that nothing happens to. -/
structure HKeeps (h h' : Heap V C) : Prop where
  nts : ∀ (n : Nat) (x : NtObj), h.nts[n]? = some x → h'.nts[n]? = some x
  rls : ∀ (r : Nat) (ru : GRule V C), h.rls[r]? = some ru → h'.rls[r]? = some ru

theorem HKeeps.trans {h h' h'' : Heap V C} (a : HKeeps h h') (b : HKeeps h' h'') : HKeeps h h'' :=
  ⟨fun n x hx => b.nts n x (a.nts n x hx), fun n x hx => b.rls n x (a.rls n x hx)⟩

theorem HKeeps.refl (h : Heap V C) : HKeeps h h := ⟨fun _ _ h => h, fun _ _ h => h⟩

theorem HKeeps.ext {h h' : Heap V C} (k : HKeeps h h') : Ext h h' :=
  ⟨fun n x hx => ⟨x, k.nts n x hx, rfl, rfl, id, fun hh => ⟨rfl, hh⟩⟩, k.rls⟩

theorem newRule_keeps (h : Heap V C) (ru : GRule V C) : HKeeps h (h.newRule ru).2 :=
  ⟨fun _ _ h => h, (newRule_ext h ru).rls⟩

theorem newNt_keeps (h : Heap V C) (x : NtObj) : HKeeps h (h.newNt x).2 := by
  refine ⟨fun n y hy => ?_, fun _ _ h => h⟩
  simp only [Heap.newNt]
  rw [List.getElem?_append_left (nts_lt hy)]
  exact hy

theorem asRule_keeps (h : Heap V C) (s : Sym) : HKeeps h (h.asRule s).2 := by
  unfold Heap.asRule
  repeat' split
  all_goals first | exact newRule_keeps .. | exact HKeeps.refl _

theorem asRules_keeps (h : Heap V C) (s : Sym) : HKeeps h (h.asRules s).2 := by
  unfold Heap.asRules
  repeat' split
  all_goals first | exact newRule_keeps .. | exact HKeeps.refl _

theorem mul_keeps (h : Heap V C) (s t : Sym) : HKeeps h (h.mul s t).2 :=
  (((asRule_keeps h s).trans (asRule_keeps _ t)).trans (newRule_keeps ..)).trans (newNt_keeps ..)

theorem wrapAll_keeps (h : Heap V C) (f : Func V C) (rs : List Nat) : HKeeps h (h.wrapAll f rs).2 := by
  induction rs generalizing h with
  | nil => exact HKeeps.refl _
  | cons r rs ih => exact (newRule_keeps ..).trans (ih _)

theorem wrap_keeps (h : Heap V C) (f : Func V C) (s : Sym) (c : Bool) : HKeeps h (h.wrap f s c).2 :=
  ((asRules_keeps h s).trans (wrapAll_keeps ..)).trans (newNt_keeps ..)

theorem or_keeps (h : Heap V C) (s t : Sym) : HKeeps h (h.or s t).2 := by
  unfold Heap.or
  split
  · exact HKeeps.refl _
  · exact ((asRules_keeps h s).trans (asRules_keeps _ t)).trans (newNt_keeps ..)

theorem group_keeps (h : Heap V C) (s : Sym) : HKeeps h (h.group s).2 := by
  unfold Heap.group
  repeat' split
  all_goals first | exact newNt_keeps .. | exact HKeeps.refl _

theorem HKeeps.isOne {h h' : Heap V C} (k : HKeeps h h') {s : Sym} {r : Nat} {ru : GRule V C}
    (hi : IsOne h s r ru) : IsOne h' s r ru := by
  obtain ⟨n, hs, hn⟩ := hi.sym
  exact ⟨⟨n, hs, k.nts _ _ hn⟩, k.rls _ _ hi.rule⟩

theorem or_isOne {h : Heap V C} {s t : Sym} {r r' : Nat} {ru ru' : GRule V C} (hs : IsOne h s r ru)
    (ht : IsOne h t r' ru') : h.or s t = h.simple [r, r'] none := by
  obtain ⟨k, rfl, hk⟩ := hs.sym
  simp only [Heap.or, hs.asRules, ht.asRules]
  rfl

/-- What `repeatAll` comes to. -/
structure RepeatShape (h : PyHeap) (inner : Sym) (h1 : PyHeap) (y : Sym) : Prop where
  nt : ∃ re rm, h1.nts[h.nts.length]? =
      some { rules := [re, rm], repeated := true, pivot := false, named := false, eph := some false, hole := false } ∧
    h1.rls[re]? = some ⟨[], some (wrapAction (substF (.list [])) none)⟩ ∧
    h1.rls[rm]? = some ⟨[.nt h.nts.length, y.g], none⟩
  inner : ∀ h', Ext h1 h' → WF h' → ∀ w, Accepts h' y w ↔ Accepts h' inner w

/-- A repetition before it gets its rules. -/
def repeatStart : NtObj :=
  { rules := [], repeated := true, pivot := false, named := false, eph := some false, hole := true }

theorem setRules_keeps {h h1 : Heap V C} (k : HKeeps h h1) (s : Sym) :
    HKeeps h (h1.setRules h.nts.length s) := by
  unfold Heap.setRules
  split
  · exact k
  · refine ⟨fun n x hx => ?_, k.rls⟩
    have := nts_lt hx
    simp only
    rw [List.getElem?_set_ne (by omega)]
    exact k.nts n x hx

theorem repeatAll_step {b : Bool} {h : PyHeap} (hg : Good b h) {s : Sym} (hs : Usable h s) :
    Good b (h.repeatAll s).2 ∧ Ext h (h.repeatAll s).2 ∧
    (∃ y, RepeatShape h s (h.repeatAll s).2 y ∧
      y = (((h.newNt repeatStart).2.substEmpty (.list [])).2.group s).1 ∧
      Ext (((h.newNt repeatStart).2.substEmpty (.list [])).2.group s).2 (h.repeatAll s).2) ∧
    HKeeps h (h.repeatAll s).2 := by
  let x0 : NtObj := { rules := [], repeated := true, pivot := false, named := false, eph := some false, hole := true }
  have g0 : Good b (h.newNt x0).2 := newNt_good hg nofun
  have e0 : Ext h (h.newNt x0).2 := newNt_ext ..
  have u0 : Usable (h.newNt x0).2 (.nt h.nts.length) := ⟨x0, newNt_get .., fun _ => rfl⟩
  have p0 : Plain (h.newNt x0).2 (.nt h.nts.length) := ⟨x0, newNt_get .., rfl⟩
  have m1 := substEmpty_made g0 (.list [])
  obtain ⟨re, one1⟩ := substEmpty_isOne g0.wf (.list [])
  have k1 : HKeeps (h.newNt x0).2 ((h.newNt x0).2.substEmpty (.list [])).2 := wrap_keeps ..
  obtain ⟨g2, e2, u2, l2⟩ := group_step m1.good (m1.ext.usable (e0.usable hs))
  have k2 := group_keeps ((h.newNt x0).2.substEmpty (.list [])).2 s
  have p2 := group_plain (m1.ext.usable (e0.usable hs))
  generalize hH1 : (h.newNt x0).2.substEmpty (.list []) = E at *
  generalize hY : E.2.group s = Y at *
  have m3 := mul_makes g2 (e2.usable (m1.ext.usable u0)) u2
  obtain ⟨rm, one3⟩ := mul_isOne (e2.plain (m1.ext.plain p0)) p2
  have k3 := mul_keeps Y.2 (.nt h.nts.length) Y.1
  generalize hM : Y.2.mul (.nt h.nts.length) Y.1 = M at *
  have one1' : IsOne M.2 E.1 re _ := (k2.trans k3).isOne one1
  have m4 := or_makes m3.good (m3.ext.usable (e2.usable m1.usable)) m3.usable
  have k4 := or_keeps M.2 E.1 M.1
  have hor : M.2.or E.1 M.1 = M.2.simple [re, rm] none := or_isOne one1' one3
  have r1 := k4.rls _ _ one1'.rule
  have r3 := k4.rls _ _ one3.rule
  have hget := newNt_get M.2 { rules := [re, rm], repeated := false, pivot := false, named := false, eph := none, hole := false }
  have hsym : (M.2.or E.1 M.1).1 = .nt M.2.nts.length := by rw [hor]; rfl
  have hget' : (M.2.or E.1 M.1).2.nts[M.2.nts.length]? = some { rules := [re, rm], repeated := false, pivot := false, named := false, eph := none, hole := false } := by
    rw [hor]; exact hget
  generalize hR : M.2.or E.1 M.1 = R at *
  have hxn : R.2.nts[h.nts.length]? = some x0 :=
    (((k1.trans k2).trans k3).trans k4).nts _ _ (newNt_get ..)
  obtain ⟨g5, e5, n5, _⟩ := setRules_step (n := h.nts.length) (m := M.2.nts.length) m4.good hxn rfl hget' rfl
    (by
      intro _
      refine ⟨Y.1.g, ⟨re, by simp, _, r1, rfl⟩, ?_⟩
      intro r hr ru hru
      simp only [List.mem_cons, List.not_mem_nil, or_false] at hr
      rcases hr with rfl | rfl
      · rw [r1] at hru; cases hru; exact .inl rfl
      · rw [r3] at hru; cases hru; exact .inr rfl)
    (fun _ => .inr ⟨re, [rm], _, rfl, r1, rfl⟩)
  have hrep : h.repeatAll s = (.nt h.nts.length, R.2.setRules h.nts.length (.nt M.2.nts.length)) := by
    unfold Heap.repeatAll
    simp only
    rw [show (h.newNt _) = h.newNt x0 from rfl, hH1, hY]
    rw [show (h.newNt x0).1 = .nt h.nts.length from rfl, hM, hR, hsym]
  rw [hrep]
  have eR := ((e0.trans m1.ext).trans (e2.trans m3.ext)).trans m4.ext
  refine ⟨g5, eR.trans e5, ⟨Y.1, ⟨⟨re, rm, n5, ?_, ?_⟩, ?_⟩, ?_, ?_⟩, ?_⟩
  · exact e5.rls _ _ r1
  · exact e5.rls _ _ r3
  · intro h' e hw w
    exact l2 h' (((m3.ext.trans m4.ext).trans e5).trans e) hw w
  · rw [show (h.newNt repeatStart) = h.newNt x0 from rfl, hH1, hY]
  · rw [show (h.newNt repeatStart) = h.newNt x0 from rfl, hH1, hY]
    exact (m3.ext.trans m4.ext).trans e5
  · exact setRules_keeps (((((newNt_keeps ..).trans k1).trans k2).trans k3).trans k4) _

theorem star_of_gen {g : Grammar V C} {n re rm : Nat} {y : GSym} {x : Nonterm}
    (hn : g.nts[n]? = some x) (hx : x.rules = [re, rm]) {ru1 ru2 : GRule V C}
    (h1 : g.rls[re]? = some ru1) (h2 : g.rls[rm]? = some ru2) (h3 : ru1.symbols = [])
    (h4 : ru2.symbols = [.nt n, y]) {l : List GSym} {w : Str} (hg : GenSeq g l w) :
    ∀ l', l = .nt n :: l' → ∃ (ws : List Str) (v : Str), w = ws.flatten ++ v ∧ (∀ u ∈ ws, Gen g y u) ∧
      GenSeq g l' v := by
  induction hg with
  | nil => nofun
  | term _ _ _ => nofun
  | @nt k x' r ru l u w hk hr hru hu hw ihu ihw =>
    intro l' hl'
    cases hl'
    rw [hn] at hk
    cases hk
    rw [hx] at hr
    simp only [List.mem_cons, List.not_mem_nil, or_false] at hr
    rcases hr with rfl | rfl
    · rw [h1] at hru
      cases hru
      rw [h3] at hu
      cases hu
      exact ⟨[], w, rfl, nofun, hw⟩
    · rw [h2] at hru
      cases hru
      obtain ⟨ws, v, rfl, hws, hv⟩ := ihu [y] h4
      refine ⟨ws ++ [v], w, by simp, ?_, hw⟩
      intro u hu
      rcases List.mem_append.mp hu with hu | hu
      · exact hws u hu
      · rw [List.mem_singleton.mp hu]; exact hv

theorem accepts_star {b : Bool} {h : PyHeap} (_hg : Good b h) {s : Sym} {h1 : PyHeap} {y : Sym}
    (hr : RepeatShape h s h1 y) {h' : PyHeap} (e : Ext h1 h') (hw : WF h') (w : Str) :
    Accepts h' (.nt h.nts.length) w ↔ ∃ k, Rep (Accepts h' s) k w := by
  obtain ⟨re, rm, hn, r1, r2⟩ := hr.nt
  obtain ⟨x', hx', _, _, _, h5⟩ := e.nts _ _ hn
  obtain ⟨hrules, _⟩ := h5 rfl
  have r1' := e.rls _ _ r1
  have r2' := e.rls _ _ r2
  have hy := hr.inner h' e hw
  constructor
  · intro hacc
    obtain ⟨ws, v, rfl, hws, hv⟩ := star_of_gen (g := h'.grammar) (grammar_nt hx') hrules r1' r2' rfl rfl
      hacc [] rfl
    cases hv
    refine ⟨ws.length, ws, rfl, fun u hu => (hy u).mp (hws u hu), by simp⟩
  · rintro ⟨k, ws, _, hws, rfl⟩
    have key : ∀ (ws : List Str) (u : Str), (∀ v ∈ ws, Accepts h' s v) →
        Accepts h' (.nt h.nts.length) u → Accepts h' (.nt h.nts.length) (u ++ ws.flatten) := by
      intro ws
      induction ws with
      | nil => intro u _ hu; simpa using hu
      | cons v ws ih =>
        intro u hws hu
        rw [List.flatten_cons, ← List.append_assoc]
        refine ih (u ++ v) (fun x hx => hws x (List.mem_cons_of_mem _ hx)) ?_
        rw [accepts_nt hw hx', hrules]
        refine ⟨rm, by simp, ?_⟩
        unfold RuleLang
        rw [symbolsOf_of (g := h'.grammar) r2']
        exact genSeq_cons' hu ((hy v).mpr (hws v List.mem_cons_self))
    have h0 : Accepts h' (.nt h.nts.length) [] := by
      rw [accepts_nt hw hx', hrules]
      refine ⟨re, by simp, ?_⟩
      unfold RuleLang
      rw [symbolsOf_of (g := h'.grammar) r1']
      exact .nil
    simpa using key ws [] hws h0

theorem repeatAll_made {b : Bool} {h : PyHeap} (hg : Good b h) {s : Sym} (hs : Usable h s) :
    Made b h (h.repeatAll s) (fun h' w => ∃ k, Rep (Accepts h' s) k w) := by
  obtain ⟨h1, h2, ⟨y, h3, _⟩, _⟩ := repeatAll_step hg hs
  obtain ⟨re, rm, hn, _, _⟩ := h3.nt
  have hsym : (h.repeatAll s).1 = .nt h.nts.length := rfl
  refine ⟨⟨h1, h2, ?_, ?_, ?_⟩, .repeatAll .refl hs⟩
  · rw [hsym]; exact ⟨_, hn, nofun⟩
  · intro n hn'
    rw [hsym] at hn'
    cases hn'
    exact ⟨_, hn, rfl⟩
  · intro h' e hw w
    rw [hsym]
    exact accepts_star hg h3 e hw w

/-! ## Bounded repetition -/

theorem newNt_rules_makes {b : Bool} {h : PyHeap} {l : PyHeap → Str → Prop} {o : Sym × PyHeap}
    (m : Makes b h o l) (ho : ∃ n, o.1 = .nt n) (x : NtObj) (hx : x.rules = o.2.rulesOf o.1)
    (hh : x.hole = false) : Makes b h (o.2.newNt x) l := by
  obtain ⟨n, hn⟩ := ho
  obtain ⟨y, hy, hyh⟩ := m.defined n hn
  have hr : x.rules = y.rules := by rw [hx, hn]; simp only [Heap.rulesOf, hy]
  refine ⟨newNt_good m.good (by rw [hr]; exact m.good.wf.rules n y hy), m.ext.trans (newNt_ext ..),
    ⟨x, newNt_get .., by rw [hh]; nofun⟩, ?_, ?_⟩
  · intro k hk
    cases hk
    exact ⟨x, newNt_get .., hh⟩
  · intro h' e hw w
    rw [← m.lang h' ((newNt_ext ..).trans e) hw, hn, accepts_old hw ((newNt_ext ..).trans e) hy hyh]
    rw [← hr]
    exact accepts_old hw e (newNt_get ..) hh

theorem or_nt {h : Heap V C} {n : Nat} {t : Sym} : ∃ k, (h.or (.nt n) t).1 = .nt k := ⟨_, rfl⟩

theorem substEmpty_nt {h : PyHeap} {v : GVal} : ∃ k, (h.substEmpty v).1 = .nt k := ⟨_, rfl⟩

theorem repeatUpTo_makes {b : Bool} {h : PyHeap} (hg : Good b h) {s : Sym} (hs : Usable h s) (k : Nat) :
    Makes b h (h.repeatUpTo s k) (fun h' w => ∃ j, j ≤ k + 1 ∧ Rep (Accepts h' s) j w) := by
  induction k with
  | zero =>
    have m1 := substEmpty_made hg (.list [])
    have m2 := wrap_made m1.good (m1.ext.usable hs) beginListF false
    have m3 := or_made m2.good (m2.ext.usable m1.usable) m2.usable
    have m := ((m1.then m2).then m3)
    obtain ⟨k1, hk1⟩ := substEmpty_nt (h := h) (v := .list [])
    have hnt : ∃ n, ((((h.substEmpty (.list [])).2.wrap beginListF s).2.or (h.substEmpty (.list [])).1
        ((h.substEmpty (.list [])).2.wrap beginListF s).1)).1 = .nt n := by
      rw [hk1]; exact or_nt
    refine (newNt_rules_makes m.toMakes hnt _ rfl rfl).conv fun h' e hw w => ?_
    have e3 := (newNt_ext _ _).trans e
    rw [m1.lang h' ((m2.ext.trans m3.ext).trans e3) hw, m2.lang h' (m3.ext.trans e3) hw]
    constructor
    · rintro (h | h)
      · exact ⟨0, by omega, rep_zero.mpr h⟩
      · exact ⟨1, by omega, rep_one.mpr h⟩
    · rintro ⟨j, hj, h⟩
      match j, hj with
      | 0, _ => exact .inl (rep_zero.mp h)
      | 1, _ => exact .inr (rep_one.mp h)
  | succ k ih =>
    have m1 := substEmpty_made ih.good (.list [])
    have m2 := mul_made m1.good (m1.ext.usable (ih.ext.usable hs)) (m1.ext.usable ih.usable)
    have m3 := wrap_made m2.good m2.usable continueRightListF false
    have m4 := or_made m3.good (m3.ext.usable (m2.ext.usable m1.usable)) m3.usable
    have m := ((m1.then m2).then m3).then m4
    obtain ⟨k1, hk1⟩ := substEmpty_nt (h := (h.repeatUpTo s k).2) (v := .list [])
    have hnt : ∃ n, (((((h.repeatUpTo s k).2.substEmpty (.list [])).2.mul s (h.repeatUpTo s k).1).2.wrap
        continueRightListF (((h.repeatUpTo s k).2.substEmpty (.list [])).2.mul s
          (h.repeatUpTo s k).1).1).2.or ((h.repeatUpTo s k).2.substEmpty (.list [])).1
        ((((h.repeatUpTo s k).2.substEmpty (.list [])).2.mul s (h.repeatUpTo s k).1).2.wrap
        continueRightListF (((h.repeatUpTo s k).2.substEmpty (.list [])).2.mul s
          (h.repeatUpTo s k).1).1).1).1 = .nt n := by
      rw [hk1]; exact or_nt
    refine ((newNt_rules_makes m.toMakes hnt _ rfl rfl).after ih.ext).conv fun h' e hw w => ?_
    have e4 := (newNt_ext _ _).trans e
    have e3 := m4.ext.trans e4
    have e2 := m3.ext.trans e3
    have e1 := m2.ext.trans e2
    rw [m1.lang h' e1 hw, m3.lang h' e3 hw, m2.lang h' e2 hw,
      cat_congr (fun _ => Iff.rfl) (ih.lang h' (m1.ext.trans e1) hw)]
    constructor
    · rintro (h | ⟨u, v, rfl, hu, j, hj, hv⟩)
      · exact ⟨0, by omega, rep_zero.mpr h⟩
      · exact ⟨j + 1, by omega, rep_succ.mpr ⟨u, v, rfl, hu, hv⟩⟩
    · rintro ⟨j, hj, h⟩
      match j with
      | 0 => exact .inl (rep_zero.mp h)
      | j + 1 =>
        obtain ⟨u, v, rfl, hu, hv⟩ := rep_succ.mp h
        exact .inr ⟨u, v, rfl, hu, j, by omega, hv⟩

theorem repeatUpTo_made {b : Bool} {h : PyHeap} (hg : Good b h) {s : Sym} (hs : Usable h s) (k : Nat) :
    Made b h (h.repeatUpTo s k) (fun h' w => ∃ j, j ≤ k + 1 ∧ Rep (Accepts h' s) j w) :=
  ⟨repeatUpTo_makes hg hs k, .repeatUpTo .refl hs⟩

theorem repeated_made {b : Bool} {h : PyHeap} (hg : Good b h) {s : Sym} (hs : Usable h s)
    (max : Option Int) (hm : ∀ k, max = some k → 1 ≤ k) :
    Made b h (h.repeated max s)
      (fun h' w => ∃ j : Nat, (∀ k, max = some k → (j : Int) ≤ k) ∧ Rep (Accepts h' s) j w) := by
  cases max with
  | none =>
    refine (repeatAll_made hg hs).conv fun h' e hw w => ?_
    simp
  | some k =>
    have hk := hm k rfl
    refine (repeatUpTo_made hg hs (k - 1).toNat).conv fun h' e hw w => ?_
    constructor
    · rintro ⟨j, hj, h⟩
      refine ⟨j, ?_, h⟩
      intro k' hk'
      cases hk'
      omega
    · rintro ⟨j, hj, h⟩
      exact ⟨j, by have := hj k rfl; omega, h⟩

/-! ## `times` and its special cases -/

theorem timesLoop_made {b : Bool} {h : PyHeap} (hg : Good b h) {s r : Sym} (hs : Usable h s)
    (hr : Usable h r) (hrd : ∀ n, r = .nt n → Defined h n) (k : Nat) :
    Made b h (h.timesLoop s r k) (fun h' => Cat (Accepts h' r) (Rep (Accepts h' s) k)) := by
  induction k generalizing h r with
  | zero =>
    refine ⟨⟨hg, Ext.refl _, hr, hrd, fun h' e hw w => ?_⟩, .refl⟩
    constructor
    · intro h; exact ⟨w, [], by simp, h, rep_zero.mpr rfl⟩
    · rintro ⟨u, v, rfl, h1, h2⟩
      rw [rep_zero.mp h2, List.append_nil]
      exact h1
  | succ k ih =>
    obtain ⟨g1, e1, u1, l1⟩ := group_step hg hs
    have m2 := mul_made g1 (e1.usable hr) u1
    have m3 := ih m2.good (m2.ext.usable (e1.usable hs)) m2.usable m2.defined
    have m2' := m2.after e1 (.group .refl hs)
    refine (m2'.then m3).conv fun h' e hw w => ?_
    rw [cat_congr (m2.lang h' (m3.ext.trans e) hw) (fun _ => Iff.rfl)]
    have hl := l1 h' (m2.ext.trans (m3.ext.trans e)) hw
    constructor
    · rintro ⟨_, v, rfl, ⟨u1, u2, rfl, h1, h2⟩, h3⟩
      exact ⟨u1, u2 ++ v, by simp, h1, rep_succ.mpr ⟨u2, v, rfl, (hl u2).mp h2, h3⟩⟩
    · rintro ⟨u1, _, rfl, h1, h2⟩
      obtain ⟨u2, v, rfl, h2, h3⟩ := rep_succ.mp h2
      exact ⟨u1 ++ u2, v, by simp, ⟨u1, u2, rfl, h1, (hl u2).mpr h2⟩, h3⟩

theorem empty_defined {b : Bool} {h : Heap V C} (hg : Good b h) : ∀ n, emptySym = .nt n → Defined h n := by
  intro n hn
  cases hn
  obtain ⟨x, hx, _, hh, _⟩ := hg.wf.empty
  exact ⟨x, hx, hh⟩

theorem times_made {b : Bool} {h : PyHeap} (hg : Good b h) {s : Sym} (hs : Usable h s) (min : Nat)
    (max : Option Nat) (hm : ∀ k, max = some k → min ≤ k ∧ 1 ≤ k) :
    Made b h (h.times min max s)
      (fun h' w => ∃ j, min ≤ j ∧ (∀ k, max = some k → j ≤ k) ∧ Rep (Accepts h' s) j w) := by
  unfold Heap.times
  by_cases h0 : min = 0
  · rw [if_pos h0]
    refine (repeated_made hg hs (max.map Int.ofNat) ?_).conv fun h' e hw w => ?_
    · intro k hk
      cases max with
      | none => cases hk
      | some k' =>
        have := (hm k' rfl).2
        simp only [Option.map_some, Option.some.injEq] at hk
        subst hk
        simp only [Int.ofNat_eq_natCast]
        omega
    · constructor
      · rintro ⟨j, hj, h⟩
        refine ⟨j, by omega, ?_, h⟩
        intro k hk
        subst hk
        have := hj k rfl
        omega
      · rintro ⟨j, _, hj, h⟩
        refine ⟨j, ?_, h⟩
        intro k hk
        cases max with
        | none => cases hk
        | some k' =>
          have := hj k' rfl
          simp only [Option.map_some, Option.some.injEq] at hk
          subst hk
          simp only [Int.ofNat_eq_natCast]
          omega
  · rw [if_neg h0]
    have m1 := timesLoop_made hg hs (empty_usable hg) (empty_defined hg) min
    have m2 := wrap_made m1.good m1.usable asListF false
    have lang : ∀ h', Ext ((h.timesLoop s emptySym min).2.wrap asListF (h.timesLoop s emptySym min).1).2 h' →
        WF h' → ∀ w, Accepts h' ((h.timesLoop s emptySym min).2.wrap asListF
          (h.timesLoop s emptySym min).1).1 w ↔ Rep (Accepts h' s) min w := by
      intro h' e hw w
      rw [m2.lang h' e hw, m1.lang h' (m2.ext.trans e) hw]
      have he : ∀ w, Accepts h' emptySym w ↔ w = [] := fun _ =>
        accepts_empty hg.wf hw ((m1.ext.trans m2.ext).trans e)
      constructor
      · rintro ⟨u, v, rfl, h1, h2⟩
        rw [he] at h1
        subst h1
        exact h2
      · intro h
        exact ⟨[], w, rfl, (he _).mpr rfl, h⟩
    by_cases hmax : max = some min
    · simp only
      rw [if_pos hmax]
      refine (m1.then m2).conv fun h' e hw w => ?_
      rw [← m2.lang h' e hw, lang h' e hw]
      constructor
      · intro h
        refine ⟨min, Nat.le_refl _, ?_, h⟩
        intro k hk
        rw [hmax] at hk
        cases hk
        exact Nat.le_refl _
      · rintro ⟨j, h1, h2, h⟩
        have := h2 min hmax
        have : j = min := by omega
        rwa [this] at h
    · simp only
      rw [if_neg hmax]
      have hs2 := m2.ext.usable (m1.ext.usable hs)
      have hpos : ∀ k : Int, max.map (fun k : Nat => (k : Int) - (min : Int)) = some k → 1 ≤ k := by
        intro k hk
        cases max with
        | none => cases hk
        | some k' =>
          have := (hm k' rfl).1
          have hk := Option.some.inj hk
          simp only at hk
          have : k' ≠ min := fun h => hmax (by rw [h])
          omega
      have m3 := repeated_made m2.good hs2 _ hpos
      have m4 := add_made m3.good (m3.ext.usable m2.usable) m3.usable
      refine (((m1.then m2).then m3).then m4).conv fun h' e hw w => ?_
      have e3 := m4.ext.trans e
      rw [cat_congr (lang h' (m3.ext.trans e3) hw) (m3.lang h' e3 hw)]
      constructor
      · rintro ⟨u, v, rfl, h1, j, hj, h2⟩
        refine ⟨min + j, by omega, ?_, rep_add.mpr ⟨u, v, rfl, h1, h2⟩⟩
        intro k hk
        subst hk
        have : ((j : Nat) : Int) ≤ (k : Int) - (min : Int) := hj _ rfl
        omega
      · rintro ⟨j, hj, hk, h⟩
        have : j = min + (j - min) := by omega
        rw [this, rep_add] at h
        obtain ⟨u, v, rfl, h1, h2⟩ := h
        refine ⟨u, v, rfl, h1, j - min, ?_, h2⟩
        intro k hk'
        cases max with
        | none => cases hk'
        | some k' =>
          have := hk k' rfl
          have hk' := Option.some.inj hk'
          simp only at hk'
          omega

theorem wrap_join {b : Bool} {h : PyHeap} {o : Sym × PyHeap} {l : PyHeap → Str → Prop}
    (m : Made b h o l) (f : Func GVal PyComplaint) (c : Bool) : Made b h (o.2.wrap f o.1 c) l := by
  have m2 := wrap_made m.good m.usable f c
  exact (m.then m2).conv fun h' e hw w => m.lang h' (m2.ext.trans e) hw w

theorem stringTimes_made {b : Bool} {h : PyHeap} (hg : Good b h) {s : Sym} (hs : Usable h s) (min : Nat)
    (max : Option Nat) (hm : ∀ k, max = some k → min ≤ k ∧ 1 ≤ k) :
    Made b h (h.stringTimes min max s)
      (fun h' w => ∃ j, min ≤ j ∧ (∀ k, max = some k → j ≤ k) ∧ Rep (Accepts h' s) j w) :=
  wrap_join (times_made hg hs min max hm) joinF false

theorem many_made {b : Bool} {h : PyHeap} (hg : Good b h) {s : Sym} (hs : Usable h s) :
    Made b h (h.many s) (fun h' w => ∃ j, Rep (Accepts h' s) j w) :=
  (times_made hg hs 0 none nofun).conv fun h' e hw w => by simp

theorem string_made {b : Bool} {h : PyHeap} (hg : Good b h) {s : Sym} (hs : Usable h s) :
    Made b h (h.string s) (fun h' w => ∃ j, Rep (Accepts h' s) j w) :=
  wrap_join (many_made hg hs) joinF false

theorem many1_made {b : Bool} {h : PyHeap} (hg : Good b h) {s : Sym} (hs : Usable h s) :
    Made b h (h.many1 s) (fun h' w => ∃ j, 1 ≤ j ∧ Rep (Accepts h' s) j w) :=
  (times_made hg hs 1 none nofun).conv fun h' e hw w => by simp

theorem string1_made {b : Bool} {h : PyHeap} (hg : Good b h) {s : Sym} (hs : Usable h s) :
    Made b h (h.string1 s) (fun h' w => ∃ j, 1 ≤ j ∧ Rep (Accepts h' s) j w) :=
  wrap_join (many1_made hg hs) joinF false

/-! ## Literals -/

theorem charBits_iff (c x : Nat) : charBits c false x = true ↔ SameLetter x c := by
  have : charBits c false x = (decide (litLower c ≤ x ∧ x ≤ litLower c) ||
      decide (litUpper c ≤ x ∧ x ≤ litUpper c)) := rfl
  rw [this, Bool.or_eq_true, decide_eq_true_eq, decide_eq_true_eq]
  unfold litLower litUpper SameLetter
  split <;> split <;> omega

theorem charBits_sens (c x : Nat) : charBits c true x = true ↔ x = c := by
  simp only [charBits, if_true, decide_eq_true_eq]
  omega

theorem sameLetter_iff (a b : Nat) : SameLetter a b ↔ litLower a = litLower b := by
  simp only [SameLetter, litLower]
  split <;> split <;> omega

/-- The words that a literal is to accept. -/
def LitWord (caseSens : Bool) (s w : Str) : Prop := if caseSens then w = s else SameWord w s

theorem litWord_nil {cs : Bool} {w : Str} : LitWord cs [] w ↔ w = [] := by
  cases cs
  · simp only [LitWord, Bool.false_eq_true, if_false]
    constructor
    · intro h; cases h; rfl
    · rintro rfl; exact .nil
  · simp [LitWord]

theorem litWord_cons {cs : Bool} {c : Nat} {s w : Str} :
    LitWord cs (c :: s) w ↔ Cat (OneOf (charBits c cs)) (LitWord cs s) w := by
  cases cs
  · simp only [LitWord, Bool.false_eq_true, if_false]
    constructor
    · intro h
      cases h with
      | cons h1 h2 => exact ⟨[_], _, rfl, ⟨_, (charBits_iff _ _).mpr h1, rfl⟩, h2⟩
    · rintro ⟨_, v, rfl, ⟨d, hd, rfl⟩, h⟩
      exact .cons ((charBits_iff _ _).mp hd) h
  · simp only [LitWord, if_true]
    constructor
    · rintro rfl
      exact ⟨[c], s, rfl, ⟨c, (charBits_sens c c).mpr rfl, rfl⟩, rfl⟩
    · rintro ⟨_, v, rfl, ⟨d, hd, rfl⟩, rfl⟩
      rw [(charBits_sens _ _).mp hd]
      rfl

theorem literalLoop_made {b : Bool} {h : PyHeap} (hg : Good b h) {r : Sym} (hr : Usable h r)
    (hrd : ∀ n, r = .nt n → Defined h n) (cs : Bool) (s : Str) :
    Made b h (h.literalLoop r cs s) (fun h' => Cat (Accepts h' r) (LitWord cs s)) := by
  induction s generalizing h r with
  | nil =>
    refine ⟨⟨hg, Ext.refl _, hr, hrd, fun h' e hw w => ?_⟩, .refl⟩
    constructor
    · intro h; exact ⟨w, [], by simp, h, litWord_nil.mpr rfl⟩
    · rintro ⟨u, v, rfl, h1, h2⟩
      rw [litWord_nil.mp h2, List.append_nil]
      exact h1
  | cons c s ih =>
    have m2 := mul_made hg hr (t := .term (charBits c cs) false) trivial
    have m3 := ih m2.good m2.usable m2.defined
    refine (m2.then m3).conv fun h' e hw w => ?_
    rw [cat_congr (m2.lang h' (m3.ext.trans e) hw) (fun _ => Iff.rfl)]
    constructor
    · rintro ⟨_, v, rfl, ⟨u1, u2, rfl, h1, h2⟩, h3⟩
      exact ⟨u1, u2 ++ v, by simp, h1, litWord_cons.mpr ⟨u2, v, rfl, accepts_term.mp h2, h3⟩⟩
    · rintro ⟨u1, _, rfl, h1, h2⟩
      obtain ⟨u2, v, rfl, h2, h3⟩ := litWord_cons.mp h2
      exact ⟨u1 ++ u2, v, by simp, ⟨u1, u2, rfl, h1, accepts_term.mpr h2⟩, h3⟩

theorem term_made {b : Bool} {h : PyHeap} (hg : Good b h) (bits : Nat → Bool) (nm : Bool) :
    Made b h (.term bits nm, h) (fun _ => OneOf bits) :=
  ⟨⟨hg, Ext.refl _, trivial, nofun, fun _ _ _ _ => accepts_term⟩, .refl⟩

theorem literal_made {b : Bool} {h : PyHeap} (hg : Good b h) (s : Str) (cs : Bool) :
    Made b h (h.literal s cs) (fun _ => LitWord cs s) := by
  have main : Made b h ((h.literalLoop emptySym cs s).2.wrap joinArgsF
      (h.literalLoop emptySym cs s).1) (fun _ => LitWord cs s) := by
    have m1 := literalLoop_made hg (empty_usable hg) (empty_defined hg) cs s
    have m2 := wrap_made m1.good m1.usable joinArgsF false
    refine (m1.then m2).conv fun h' e hw w => ?_
    rw [m1.lang h' (m2.ext.trans e) hw]
    have he : ∀ w, Accepts h' emptySym w ↔ w = [] := fun _ =>
      accepts_empty hg.wf hw ((m1.ext.trans m2.ext).trans e)
    constructor
    · rintro ⟨u, v, rfl, h1, h2⟩
      rw [he] at h1
      subst h1
      exact h2
    · intro h
      exact ⟨[], w, rfl, (he _).mpr rfl, h⟩
  unfold Heap.literal
  split
  · rename_i c
    refine (term_made hg (charBits c cs) false).conv fun h' e hw w => ?_
    rw [litWord_cons]
    constructor
    · intro h; exact ⟨w, [], by simp, h, litWord_nil.mpr rfl⟩
    · rintro ⟨u, v, rfl, h1, h2⟩
      rw [litWord_nil.mp h2, List.append_nil]
      exact h1
  · exact main

end Httpolice.Lemmas
