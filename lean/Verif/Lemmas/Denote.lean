import Verif.Lemmas.Values
import Verif.Lemmas.Parser

/-!
# What expressions evaluate to
-/

namespace Httpolice.Lemmas

open Httpolice.Model Httpolice.Spec

/-- Sequences of nodes and arguments that correspond to each other. -/
structure Means (S : SV GVal PyComplaint) (D : Den) : Prop where
  to : ∀ w ns c d, S w ns c d → ∃ cs, (c ++ d).Perm cs ∧ D w (kept ns) cs
  back : ∀ w vs cs, D w vs cs → ∃ ns c d, S w ns c d ∧ kept ns = vs ∧ (c ++ d).Perm cs

theorem Means.congr {S T : SV GVal PyComplaint} {D : Den} (m : Means S D)
    (h : ∀ w ns c d, T w ns c d ↔ S w ns c d) : Means T D :=
  ⟨fun w ns c d ht => m.to w ns c d ((h ..).mp ht), fun w vs cs hd => by
    obtain ⟨ns, c, d, h1, h2⟩ := m.back w vs cs hd
    exact ⟨ns, c, d, (h ..).mpr h1, h2⟩⟩

theorem Means.conv {S : SV GVal PyComplaint} {D E : Den} (m : Means S D)
    (h : ∀ w vs cs, D w vs cs ↔ E w vs cs) : Means S E :=
  ⟨fun w ns c d ht => by
    obtain ⟨cs, h1, h2⟩ := m.to w ns c d ht
    exact ⟨cs, h1, (h ..).mp h2⟩, fun w vs cs hd => m.back w vs cs ((h ..).mpr hd)⟩

theorem perm4 {α : Type} {a b c d x y : List α} (h1 : (a ++ c).Perm x) (h2 : (b ++ d).Perm y) :
    ((a ++ b) ++ (c ++ d)).Perm (x ++ y) := by
  refine List.Perm.trans ?_ (h1.append h2)
  rw [List.append_assoc, List.append_assoc]
  refine List.Perm.append_left a ?_
  rw [← List.append_assoc, ← List.append_assoc]
  exact List.Perm.append_right d List.perm_append_comm

theorem kept_append (a b : List (Node GVal)) : kept (a ++ b) = kept a ++ kept b := List.filterMap_append

theorem kept_one (a : Node GVal) : kept [a] = argsOf a := by cases a <;> rfl

theorem means_seq {S T : SV GVal PyComplaint} {D E : Den} (m : Means S D) (m' : Means T E) :
    Means (seqV S T) (thenD D E) := by
  constructor
  · rintro w ns c d ⟨u, v, ns1, ns2, c1, c2, d1, d2, rfl, rfl, rfl, rfl, h1, h2⟩
    obtain ⟨cs1, p1, k1⟩ := m.to _ _ _ _ h1
    obtain ⟨cs2, p2, k2⟩ := m'.to _ _ _ _ h2
    exact ⟨cs1 ++ cs2, perm4 p1 p2, u, v, _, _, cs1, cs2, rfl, kept_append .., rfl, k1, k2⟩
  · rintro w vs cs ⟨u, v, xs, ys, c, d, rfl, rfl, rfl, h1, h2⟩
    obtain ⟨ns1, c1, d1, k1, rfl, p1⟩ := m.back _ _ _ h1
    obtain ⟨ns2, c2, d2, k2, rfl, p2⟩ := m'.back _ _ _ h2
    exact ⟨_, _, _, ⟨u, v, ns1, ns2, c1, c2, d1, d2, rfl, rfl, rfl, rfl, k1, k2⟩, kept_append .., perm4 p1 p2⟩

theorem means_or {S T : SV GVal PyComplaint} {D E : Den} (m : Means S D) (m' : Means T E) :
    Means (fun w ns c d => S w ns c d ∨ T w ns c d) (orD D E) := by
  constructor
  · rintro w ns c d (h | h)
    · obtain ⟨cs, p, k⟩ := m.to _ _ _ _ h
      exact ⟨cs, p, .inl k⟩
    · obtain ⟨cs, p, k⟩ := m'.to _ _ _ _ h
      exact ⟨cs, p, .inr k⟩
  · rintro w vs cs (h | h)
    · obtain ⟨ns, c, d, k, p⟩ := m.back _ _ _ h
      exact ⟨ns, c, d, .inl k, p⟩
    · obtain ⟨ns, c, d, k, p⟩ := m'.back _ _ _ h
      exact ⟨ns, c, d, .inr k, p⟩

theorem means_apply {S : SV GVal PyComplaint} {D : Den} (f : Func GVal PyComplaint) (m : Means S D) :
    Means (applyV f S) (appD f D) := by
  constructor
  · rintro w ns c _ ⟨ms, d, h, rfl, rfl⟩
    obtain ⟨cs, p, k⟩ := m.to _ _ _ _ h
    refine ⟨cs ++ (f (kept ms)).2, ?_, kept ms, cs, k, by cases (f (kept ms)).1 <;> rfl, rfl⟩
    rw [← List.append_assoc]
    exact p.append_right _
  · rintro w vs cs ⟨xs, c, h, rfl, rfl⟩
    obtain ⟨ns, c', d, k, rfl, p⟩ := m.back _ _ _ h
    refine ⟨_, c', _, ⟨ns, d, k, rfl, rfl⟩, by cases (f (kept ns)).1 <;> rfl, ?_⟩
    rw [← List.append_assoc]
    exact p.append_right _

theorem collapses_iff {ann : GVal → Bool} {ns : List (Node GVal)} {node : Node GVal} :
    Collapses (pyOps ann) ns node ↔ node = nodeOf (kept ns) := by
  constructor
  · intro h
    cases h with
    | nothing h => rw [h]; rfl
    | single h => rw [h]; rfl
    | several h => rw [h]; rfl
  · rintro rfl
    match h : kept ns with
    | [] => exact .nothing h
    | [v] => exact .single h
    | v :: v' :: vs => exact .several h

theorem means_one {S : SV GVal PyComplaint} {D : Den} (ann : GVal → Bool) (m : Means S D) :
    Means (unpack (pack (pyOps ann) S)) (oneD D) := by
  constructor
  · rintro w _ _ _ ⟨node, rfl, ⟨ns, c, d, h, hc, rfl⟩, rfl⟩
    obtain ⟨cs, p, k⟩ := m.to _ _ _ _ h
    rw [collapses_iff.mp hc]
    exact ⟨cs, by rwa [List.append_nil], _, k, kept_one _⟩
  · rintro w vs cs ⟨xs, h, rfl⟩
    obtain ⟨ns, c, d, k, rfl, p⟩ := m.back _ _ _ h
    exact ⟨_, _, _, ⟨_, rfl, ⟨ns, c, d, k, collapses_iff.mpr rfl, rfl⟩, rfl⟩, kept_one _,
      by rwa [List.append_nil]⟩

/-- At most one argument. -/
def Few (D : Den) : Prop := ∀ w vs cs, D w vs cs → vs.length ≤ 1

theorem args_node {vs : List GVal} (h : vs.length ≤ 1) : argsOf (nodeOf vs) = vs := by
  match vs, h with
  | [], _ => rfl
  | [v], _ => rfl

theorem few_one {D : Den} (h : Few D) {w : Str} {vs : List GVal} {cs : List PyComplaint} :
    oneD D w vs cs ↔ D w vs cs := by
  constructor
  · rintro ⟨xs, h1, rfl⟩
    rwa [args_node (h _ _ _ h1)]
  · intro h1
    exact ⟨vs, h1, (args_node (h _ _ _ h1)).symm⟩

theorem few_args (a : Node GVal) : (argsOf a).length ≤ 1 := by cases a <;> simp [argsOf]

theorem few_app (f : Func GVal PyComplaint) (D : Den) : Few (appD f D) := by
  rintro w vs cs ⟨xs, c, _, rfl, _⟩
  exact few_args _

theorem few_oneD (D : Den) : Few (oneD D) := by
  rintro w vs cs ⟨xs, _, rfl⟩
  exact few_args _

theorem few_or {D E : Den} (h : Few D) (h' : Few E) : Few (orD D E) := by
  rintro w vs cs (k | k)
  · exact h _ _ _ k
  · exact h' _ _ _ k

theorem few_many (D : Den) : Few (manyD D) := by
  rintro w vs cs ⟨l, _, rfl⟩
  simp

theorem few_none : Few noneD := by
  rintro w vs cs ⟨_, rfl, _⟩
  simp

theorem few_upTo (A P : Den) (k : Nat) : Few (upToD A P k) := by
  cases k <;> exact few_or few_none (few_app _ _)

/-! ## Inlining -/

theorem plain_spread {h h' : PyHeap} {s : Sym} (hp : Plain h s) {ops : ParseOps GVal} {w : Str}
    {ns : List (Node GVal)} {c d : List PyComplaint} :
    Spread h h' ops s w ns c d ↔ unpack (Whole h' ops s) w ns c d := by
  cases s with
  | term => exact Iff.rfl
  | nt n =>
    obtain ⟨x, hx, he⟩ := hp
    simp only [Spread, hx, he, Bool.false_eq_true, if_false]

theorem plain_once {h h' : PyHeap} {s : Sym} (hp : Plain h s) {ops : ParseOps GVal} {w : Str}
    {ns : List (Node GVal)} {c d : List PyComplaint} :
    Once h h' ops s w ns c d ↔ unpack (Whole h' ops s) w ns c d := by
  cases s with
  | term => exact Iff.rfl
  | nt n =>
    obtain ⟨x, hx, he⟩ := hp
    simp only [Once, hx, he]

theorem unpack_congr {W W' : WV GVal PyComplaint} (h : ∀ w node cs, W w node cs ↔ W' w node cs) {w : Str}
    {ns : List (Node GVal)} {c d : List PyComplaint} : unpack W w ns c d ↔ unpack W' w ns c d := by
  unfold unpack
  simp only [h]

theorem pack_congr {ops : ParseOps GVal} {S T : SV GVal PyComplaint} (h : ∀ w ns c d, S w ns c d ↔ T w ns c d)
    {w : Str} {node : Node GVal} {cs : List PyComplaint} : pack ops S w node cs ↔ pack ops T w node cs := by
  unfold pack
  simp only [h]

theorem once_cases {h h' : PyHeap} (hf : Full h) (e : Ext h h') (hw : WF h') {s : Sym} (hs : Usable h s)
    (ops : ParseOps GVal) :
    (∀ w ns c d, Once h h' ops s w ns c d ↔ Spread h h' ops s w ns c d) ∨
    (∀ w ns c d, Once h h' ops s w ns c d ↔ unpack (pack ops (Spread h h' ops s)) w ns c d) := by
  cases s with
  | term => exact .inl fun _ _ _ _ => Iff.rfl
  | nt n =>
    obtain ⟨x, hx, hh⟩ := id hs
    cases he : x.ephemeral with
    | false => exact .inl fun w ns c d => by simp only [Once, Spread, hx, he, Bool.false_eq_true, if_false]
    | true =>
      match hr : x.rules with
      | [r] =>
        exact .inl fun w ns c d => by
          simp only [Once, Spread, hx, he, hr, if_true, List.mem_singleton, exists_eq_left]
      | [] =>
        refine .inr fun w ns c d => ?_
        rw [← unpack_congr (fun w node cs => whole_spread hf e hw hs)]
        simp only [Once, hx, he, hr]
      | r :: r' :: rs =>
        refine .inr fun w ns c d => ?_
        rw [← unpack_congr (fun w node cs => whole_spread hf e hw hs)]
        simp only [Once, hx, he, hr]

/-! ## Symbols and what they mean -/

/-- The symbol stands for these arguments, and for those in a sequence. -/
structure Denotes (ann : GVal → Bool) (h : PyHeap) (s : Sym) (D P : PyHeap → Den) : Prop where
  usable : Usable h s
  args : ∀ h', Ext h h' → WF h' → Means (Spread h h' (pyOps ann) s) (D h')
  part : ∀ h', Ext h h' → WF h' → Means (Once h h' (pyOps ann) s) (P h')

/-- The result of some construction stands for this. -/
structure Built (b : Bool) (ann : GVal → Bool) (h : PyHeap) (out : Sym × PyHeap) (D P : PyHeap → Den) : Prop
    extends Denotes ann out.2 out.1 D P where
  builds : Builds b h out.2
  keeps : HKeeps h out.2

section
variable {b : Bool} {ann : GVal → Bool} {h : PyHeap}

theorem Denotes.keep {s : Sym} {D P : PyHeap → Den} (m : Denotes ann h s D P) {h1 : PyHeap} (k : HKeeps h h1) :
    Denotes ann h1 s D P := by
  refine ⟨k.ext.usable m.usable, fun h' e hw => ?_, fun h' e hw => ?_⟩
  · rw [k.spread m.usable]
    exact m.args h' (k.ext.trans e) hw
  · rw [k.once m.usable]
    exact m.part h' (k.ext.trans e) hw

theorem Built.then {o1 o2 : Sym × PyHeap} {D P D' P' : PyHeap → Den} (m : Built b ann h o1 D P)
    (m' : Built b ann o1.2 o2 D' P') : Built b ann h o2 D' P' :=
  ⟨m'.toDenotes, builds_trans m.builds m'.builds, m.keeps.trans m'.keeps⟩

theorem Built.good {o : Sym × PyHeap} {D P : PyHeap → Den} (m : Built b ann h o D P) (hg : Good b h) :
    Good b o.2 := (builds_good m.builds hg).1

theorem Built.full {o : Sym × PyHeap} {D P : PyHeap → Den} (m : Built b ann h o D P) (hg : Good b h)
    (hf : Full h) : Full o.2 := builds_full m.builds hg hf

theorem Denotes.conv {s : Sym} {D P D' P' : PyHeap → Den} (m : Denotes ann h s D P)
    (hd : ∀ h' w vs cs, Ext h h' → WF h' → (D h' w vs cs ↔ D' h' w vs cs))
    (hp : ∀ h' w vs cs, Ext h h' → WF h' → (P h' w vs cs ↔ P' h' w vs cs)) : Denotes ann h s D' P' :=
  ⟨m.usable, fun h' e hw => (m.args h' e hw).conv fun w vs cs => hd h' w vs cs e hw,
    fun h' e hw => (m.part h' e hw).conv fun w vs cs => hp h' w vs cs e hw⟩

theorem Denotes.few (hf : Full h) {s : Sym} {D : PyHeap → Den} (hs : Usable h s)
    (m : ∀ h', Ext h h' → WF h' → Means (Spread h h' (pyOps ann) s) (D h')) (hd : ∀ h', Few (D h')) :
    Denotes ann h s D D := by
  refine ⟨hs, m, fun h' e hw => ?_⟩
  rcases once_cases hf e hw hs (pyOps ann) with h1 | h1
  · exact (m h' e hw).congr h1
  · exact ((means_one ann (m h' e hw)).congr h1).conv fun w vs cs => few_one (hd h')

theorem Denotes.plain {s : Sym} {D : PyHeap → Den} (hs : Usable h s) (hp : Plain h s)
    (m : ∀ h', Ext h h' → WF h' → Means (unpack (Whole h' (pyOps ann) s)) (D h')) : Denotes ann h s D D :=
  ⟨hs, fun h' e hw => (m h' e hw).congr fun _ _ _ _ => plain_spread hp,
    fun h' e hw => (m h' e hw).congr fun _ _ _ _ => plain_once hp⟩

theorem Denotes.whole (hf : Full h) {s : Sym} {D P : PyHeap → Den} (m : Denotes ann h s D P) {h' : PyHeap}
    (e : Ext h h') (hw : WF h') : Means (unpack (Whole h' (pyOps ann) s)) (oneD (D h')) :=
  (means_one ann (m.args h' e hw)).congr fun _ _ _ _ => unpack_congr fun _ _ _ => whole_spread hf e hw m.usable

theorem mul_built (hg : Good b h) {s t : Sym} {D P E Q : PyHeap → Den} (ms : Denotes ann h s D P)
    (mt : Denotes ann h t E Q) :
    Built b ann h (h.mul s t) (fun h' => thenD (P h') (Q h')) (fun h' => thenD (P h') (Q h')) := by
  have m := mul_made hg ms.usable mt.usable
  refine ⟨⟨m.usable, fun h' e hw => ?_, fun h' e hw => ?_⟩, m.builds, mul_keeps ..⟩
  · exact (means_seq (ms.part h' (m.ext.trans e) hw) (mt.part h' (m.ext.trans e) hw)).congr fun _ _ _ _ =>
      mul_spread hg ms.usable mt.usable e
  · exact (means_seq (ms.part h' (m.ext.trans e) hw) (mt.part h' (m.ext.trans e) hw)).congr fun _ _ _ _ =>
      mul_once hg ms.usable mt.usable e

theorem or_once_term {h' : PyHeap} {bits : Nat → Bool} {nm : Bool} {ops : ParseOps GVal} {w : Str}
    {ns : List (Node GVal)} {c d : List PyComplaint} :
    Once h h' ops (.term bits nm) w ns c d ↔
      unpack (pack ops (Spread h h' ops (.term bits nm))) w ns c d :=
  unpack_congr (W := Whole h' ops (.term bits nm)) (W' := pack ops (unpack (Whole h' ops (.term bits nm))))
    fun _ _ _ => pack_unpack.symm

theorem simple_many {h' : PyHeap} {rs : List Nat} (hr : 2 ≤ rs.length) {ops : ParseOps GVal} {w : Str}
    {ns : List (Node GVal)} {c d : List PyComplaint} :
    Once (h.simple rs none).2 h' ops (h.simple rs none).1 w ns c d ↔
      unpack (Whole h' ops (h.simple rs none).1) w ns c d := by
  have := newNt_get h { rules := rs, repeated := false, pivot := false, named := false, eph := none, hole := false }
  show (match (h.simple rs none).2.nts[h.nts.length]? with
    | none => False
    | some x => match x.ephemeral, x.rules with
      | true, [r] => RuleVal h' ops r w ns c d
      | _, _ => unpack (Whole h' ops (.nt h.nts.length)) w ns c d) ↔ _
  rw [show (h.simple rs none).2.nts[h.nts.length]? = some _ from this]
  match rs, hr with
  | r :: r' :: rs, _ => exact Iff.rfl

theorem or_once {h' : PyHeap} (hg : Good b h) (hf : Full h) {s t : Sym} (hs : Usable h s) (ht : Usable h t)
    (e : Ext (h.or s t).2 h') (hw : WF h') {ops : ParseOps GVal} {w : Str}
    {ns : List (Node GVal)} {c d : List PyComplaint} :
    Once (h.or s t).2 h' ops (h.or s t).1 w ns c d ↔
      unpack (pack ops (Spread (h.or s t).2 h' ops (h.or s t).1)) w ns c d := by
  have m := or_made hg hs ht
  have f := or_full hf hs ht
  have key : h.or s t = ((h.asRules s).2.asRules t).2.simple
      ((h.asRules s).1 ++ ((h.asRules s).2.asRules t).1) none →
      (Once (h.or s t).2 h' ops (h.or s t).1 w ns c d ↔
      unpack (pack ops (Spread (h.or s t).2 h' ops (h.or s t).1)) w ns c d) := by
    intro hor
    rw [← unpack_congr fun _ _ _ => whole_spread f e hw m.usable, hor]
    refine simple_many ?_
    have h1 := (asRules_full hf hs).2
    have h2 := (asRules_full (asRules_full hf hs).1 ((asRules_ext h s).usable ht)).2
    have k1 := List.length_pos_iff.mpr h1
    have k2 := List.length_pos_iff.mpr h2
    rw [List.length_append]
    omega
  cases s with
  | nt n => exact key rfl
  | term bits nm =>
    cases t with
    | nt n => exact key rfl
    | term bits' nm' => exact or_once_term

theorem or_built (hg : Good b h) (hf : Full h) {s t : Sym} {D P E Q : PyHeap → Den}
    (ms : Denotes ann h s D P) (mt : Denotes ann h t E Q) :
    Built b ann h (h.or s t) (fun h' => orD (D h') (E h')) (fun h' => oneD (orD (D h') (E h'))) := by
  have m := or_made hg ms.usable mt.usable
  have args : ∀ h', Ext (h.or s t).2 h' → WF h' →
      Means (Spread (h.or s t).2 h' (pyOps ann) (h.or s t).1) (orD (D h') (E h')) := fun h' e hw =>
    (means_or (ms.args h' (m.ext.trans e) hw) (mt.args h' (m.ext.trans e) hw)).congr fun _ _ _ _ =>
      or_spread hg ms.usable mt.usable e
  refine ⟨⟨m.usable, args, fun h' e hw => ?_⟩, m.builds, or_keeps ..⟩
  exact (means_one ann (args h' e hw)).congr fun _ _ _ _ => or_once hg hf ms.usable mt.usable e hw

theorem wrap_built (hg : Good b h) (hf : Full h) {s : Sym} {D P : PyHeap → Den} (ms : Denotes ann h s D P)
    (f : Func GVal PyComplaint) (c : Bool) :
    Built b ann h (h.wrap f s c) (fun h' => appD f (D h')) (fun h' => appD f (D h')) := by
  have m := wrap_made hg ms.usable f c
  refine ⟨?_, m.builds, wrap_keeps ..⟩
  refine Denotes.few (wrap_full hf ms.usable f c) m.usable (fun h' e hw => ?_) fun h' => few_app _ _
  have ma := means_apply f (ms.args h' (m.ext.trans e) hw)
  cases c with
  | false => exact ma.congr fun _ _ _ _ => wrap_spread hg ms.usable f e
  | true =>
    have hget := newNt_get ((h.asRules s).2.wrapAll f (h.asRules s).1).2 { rules := ((h.asRules s).2.wrapAll f (h.asRules s).1).1, repeated := false, pivot := false, named := false, eph := some false, hole := false }
    have hp : Plain (h.wrap f s true).2 (h.wrap f s true).1 := ⟨_, hget, rfl⟩
    obtain ⟨x', k1, k2, k3⟩ := e.spread_rules hget rfl
    refine ((means_one ann ma).conv fun _ _ _ => few_one (few_app _ _)).congr fun w ns c d => ?_
    rw [plain_spread hp]
    refine unpack_congr fun w node cs => ?_
    refine (whole_nt hw k1 k3).trans ?_
    rw [k2]
    exact pack_congr fun _ _ _ _ => wrap_rules hg ms.usable f e

theorem group_built (hg : Good b h) (hf : Full h) {s : Sym} {D P : PyHeap → Den} (ms : Denotes ann h s D P) :
    Built b ann h (h.group s) (fun h' => oneD (D h')) (fun h' => oneD (D h')) := by
  obtain ⟨g1, e1, u1, _⟩ := group_step hg ms.usable
  refine ⟨Denotes.plain u1 (group_plain ms.usable) fun h' e hw => ?_, .group .refl ms.usable, group_keeps ..⟩
  exact (ms.whole hf (e1.trans e) hw).congr fun _ _ _ _ =>
    unpack_congr fun _ _ _ => group_whole hg hf ms.usable e hw

theorem empty_denotes (hg : Good b h) : Denotes ann h emptySym (fun _ => nothingD) (fun _ => nothingD) := by
  obtain ⟨x, hx, hr, hh, he⟩ := hg.wf.empty
  have hrule := hg.wf.empty_rule
  have heph : x.ephemeral = true := by simp [NtObj.ephemeral, he]
  have key : ∀ h', Ext h h' → Means (RuleVal h' (pyOps ann) 0) nothingD := by
    intro h' e
    have h0 := e.rls _ _ hrule
    constructor
    · rintro w ns c d ⟨ms, h1, h2⟩
      rw [symbolsOf_of (g := h'.grammar) h0] at h1
      rw [actionOf_of (g := h'.grammar) h0] at h2
      cases h1
      cases h2
      exact ⟨[], .refl _, rfl, rfl, rfl⟩
    · rintro w vs cs ⟨rfl, rfl, rfl⟩
      refine ⟨[], [], [], ⟨[], ?_, ?_⟩, rfl, .refl _⟩
      · rw [symbolsOf_of (g := h'.grammar) h0]; exact .nil
      · rw [actionOf_of (g := h'.grammar) h0]; exact .none
  refine ⟨empty_usable hg, fun h' e _ => (key h' e).congr fun w ns c d => ?_,
    fun h' e _ => (key h' e).congr fun w ns c d => ?_⟩
  · simp only [emptySym, Spread, hx, heph, if_true, hr, List.mem_singleton, exists_eq_left]
  · simp only [emptySym, Once, hx, heph, hr]

/-- One octet. -/
def charD (bits : Nat → Bool) : Den := fun w vs cs =>
  ∃ c, bits c = true ∧ w = [c] ∧ vs = [.text [c]] ∧ cs = []

theorem term_means {h' : PyHeap} (bits : Nat → Bool) (nm : Bool) :
    Means (unpack (Whole h' (pyOps ann) (.term bits nm))) (charD bits) := by
  constructor
  · rintro w _ c _ ⟨node, rfl, h1, rfl⟩
    cases h1 with
    | term hc hv =>
      cases hv
      exact ⟨[], .refl _, _, hc, rfl, rfl, rfl⟩
  · rintro w vs cs ⟨c, hc, rfl, rfl, rfl⟩
    exact ⟨_, [], [], ⟨_, rfl, .term hc .nil, rfl⟩, rfl, .refl _⟩

theorem term_denotes (bits : Nat → Bool) (nm : Bool) :
    Denotes ann h (.term bits nm) (fun _ => charD bits) (fun _ => charD bits) :=
  .plain trivial trivial fun _ _ _ => term_means bits nm

theorem sym_denotes {s : Sym} (hp : Plain h s) (hs : Usable h s) :
    Denotes ann h s (fun h' => symbolD h' (pyOps ann) s) (fun h' => symbolD h' (pyOps ann) s) := by
  refine .plain hs hp fun h' e hw => ⟨?_, ?_⟩
  · rintro w _ c _ ⟨node, rfl, h1, rfl⟩
    exact ⟨c, by rw [List.append_nil], node, c, value_iff.mpr h1, kept_one _, .refl _⟩
  · rintro w vs cs ⟨node, c, h1, rfl, p⟩
    exact ⟨[node], c, [], ⟨node, rfl, value_iff.mp h1, rfl⟩, kept_one _, by rw [List.append_nil]; exact p.symm⟩

/-! ## Literals -/

/-- The characters one by one. -/
def charsD (caseSens : Bool) (s : Str) : Den := fun w vs cs =>
  LitWord caseSens s w ∧ vs = w.map (fun c => .text [c]) ∧ cs = []

theorem Denotes.same {s : Sym} {D D' : PyHeap → Den} (m : Denotes ann h s D D)
    (hd : ∀ h' w vs cs, Ext h h' → WF h' → (D h' w vs cs ↔ D' h' w vs cs)) : Denotes ann h s D' D' :=
  m.conv hd hd

theorem Built.same {o : Sym × PyHeap} {D D' : PyHeap → Den} (m : Built b ann h o D D)
    (hd : ∀ h' w vs cs, Ext o.2 h' → WF h' → (D h' w vs cs ↔ D' h' w vs cs)) : Built b ann h o D' D' :=
  ⟨m.toDenotes.same hd, m.builds, m.keeps⟩

theorem Denotes.built {s : Sym} {D P : PyHeap → Den} (m : Denotes ann h s D P) : Built b ann h (s, h) D P :=
  ⟨m, .refl, .refl _⟩

theorem charsD_cons {cs : Bool} {c : Nat} {s : Str} {R : Den} {w : Str} {vs : List GVal} {ds : List PyComplaint} :
    thenD (thenD R (charD (charBits c cs))) (charsD cs s) w vs ds ↔ thenD R (charsD cs (c :: s)) w vs ds := by
  constructor
  · rintro ⟨_, v, _, _, _, _, rfl, rfl, rfl, ⟨u, _, xs, _, c1, _, rfl, rfl, rfl, h1, ⟨d, hd, rfl, rfl, rfl⟩⟩,
      h2, rfl, rfl⟩
    refine ⟨u, d :: v, xs, _, c1, [], by simp, List.append_assoc .., by simp, h1, ?_, rfl, rfl⟩
    exact litWord_cons.mpr ⟨[d], v, rfl, ⟨d, hd, rfl⟩, h2⟩
  · rintro ⟨u, _, xs, _, c1, _, rfl, rfl, rfl, h1, h2, rfl, rfl⟩
    obtain ⟨_, v, rfl, ⟨d, hd, rfl⟩, h3⟩ := litWord_cons.mp h2
    exact ⟨u ++ [d], v, xs ++ [.text [d]], _, c1 ++ [], [], by simp, by simp, by simp,
      ⟨u, [d], xs, _, c1, [], rfl, rfl, rfl, h1, d, hd, rfl, rfl, rfl⟩, h3, rfl, rfl⟩

theorem charsD_nil {cs : Bool} {R : Den} {w : Str} {vs : List GVal} {ds : List PyComplaint} :
    R w vs ds ↔ thenD R (charsD cs []) w vs ds := by
  constructor
  · intro h
    exact ⟨w, [], vs, [], ds, [], by simp, by simp, by simp, h, litWord_nil.mpr rfl, rfl, rfl⟩
  · rintro ⟨u, v, xs, _, c, _, rfl, rfl, rfl, h, h2, rfl, rfl⟩
    rw [litWord_nil.mp h2]
    simpa using h

theorem literalLoop_built (hg : Good b h) {r : Sym} {R : PyHeap → Den} (mr : Denotes ann h r R R) (cs : Bool)
    (s : Str) : Built b ann h (h.literalLoop r cs s) (fun h' => thenD (R h') (charsD cs s))
      (fun h' => thenD (R h') (charsD cs s)) := by
  induction s generalizing h r R with
  | nil => exact Built.same (Denotes.built mr) fun _ _ _ _ _ _ => charsD_nil
  | cons c s ih =>
    have m2 := mul_built hg mr (term_denotes (charBits c cs) false)
    exact (m2.then (ih (m2.good hg) m2.toDenotes)).same fun _ _ _ _ _ _ => charsD_cons

theorem joinTexts_chars (w : Str) : joinTexts (w.map fun c => .text [c]) = w := by
  induction w with
  | nil => rfl
  | cons c w ih =>
    simp only [joinTexts, List.map_cons, List.flatMap_cons] at ih ⊢
    rw [ih]
    rfl

theorem literal_built (hg : Good b h) (hf : Full h) (s : Str) (cs : Bool) :
    Built b ann h (h.literal s cs) (fun _ => litD s cs) (fun _ => litD s cs) := by
  have main : Built b ann h ((h.literalLoop emptySym cs s).2.wrap joinArgsF
      (h.literalLoop emptySym cs s).1) (fun _ => litD s cs) (fun _ => litD s cs) := by
    have m1 := literalLoop_built hg (empty_denotes (ann := ann) hg) cs s
    have m2 := wrap_built (m1.good hg) (m1.full hg hf) m1.toDenotes joinArgsF false
    refine (m1.then m2).same fun h' w vs ds _ _ => ?_
    constructor
    · rintro ⟨_, _, ⟨_, v, _, _, _, _, rfl, rfl, rfl, ⟨rfl, rfl, rfl⟩, h1, rfl, rfl⟩, rfl, rfl⟩
      refine ⟨h1, ?_, rfl⟩
      simp only [joinArgsF, pureFunc, argsOf, List.nil_append, joinTexts_chars]
    · rintro ⟨h1, rfl, rfl⟩
      refine ⟨w.map (fun c => .text [c]), [], ⟨[], w, [], _, [], [], rfl, rfl, rfl, ⟨rfl, rfl, rfl⟩, h1, rfl, rfl⟩,
        ?_, rfl⟩
      simp only [joinArgsF, pureFunc, argsOf, joinTexts_chars]
  unfold Heap.literal
  split
  · rename_i c
    refine Built.same (Denotes.built (term_denotes (charBits c cs) false)) fun h' w vs ds _ _ => ?_
    constructor
    · rintro ⟨d, hd, rfl, rfl, rfl⟩
      exact ⟨litWord_cons.mpr ⟨[d], [], rfl, ⟨d, hd, rfl⟩, litWord_nil.mpr rfl⟩, rfl, rfl⟩
    · rintro ⟨h1, rfl, rfl⟩
      obtain ⟨_, v, rfl, ⟨d, hd, rfl⟩, h2⟩ := litWord_cons.mp h1
      rw [litWord_nil.mp h2]
      exact ⟨d, hd, rfl, rfl, rfl⟩
  · exact main

/-! ## Repetition -/

theorem ofNode_node (xs : List GVal) : GVal.ofNode (nodeOf xs) = elementOf xs := by
  match xs with
  | [] => rfl
  | [v] => rfl
  | v :: v' :: vs => rfl

/-- Elements, from a sequence of nodes. -/
theorem each_to {h' : PyHeap} {y : GSym} {A : Den}
    (hy : ∀ w node cs, ValSeq h'.grammar (pyOps ann) [y] w [node] cs → ∃ xs c, A w xs c ∧ node = nodeOf xs ∧
      cs.Perm c) {m : Nat} {w : Str} {ns : List (Node GVal)} {cs : List PyComplaint}
    (hv : ValSeq h'.grammar (pyOps ann) (List.replicate m y) w ns cs) :
    ∃ c, EachD A w (ns.map GVal.ofNode) c ∧ cs.Perm c := by
  induction m generalizing w ns cs with
  | zero =>
    cases hv
    exact ⟨[], .nil, .refl _⟩
  | succ m ih =>
    rw [List.replicate_succ] at hv
    obtain ⟨u, v, ns1, ns2, c1, c2, rfl, rfl, rfl, h1, h2⟩ := valSeq_split (l := [y]) hv
    obtain ⟨c, k1, p1⟩ := ih h2
    have hl := valSeq_length h1
    match ns1, hl with
    | [node], _ =>
      obtain ⟨xs, c', k2, rfl, p2⟩ := hy _ _ _ h1
      refine ⟨c' ++ c, ?_, p2.append p1⟩
      simp only [List.cons_append, List.nil_append, List.map_cons, ofNode_node]
      exact .cons k2 k1

theorem each_back {h' : PyHeap} {y : GSym} {A : Den}
    (hy : ∀ w xs c, A w xs c → ∃ cs, ValSeq h'.grammar (pyOps ann) [y] w [nodeOf xs] cs ∧ cs.Perm c)
    {w : Str} {l : List GVal} {c : List PyComplaint} (he : EachD A w l c) :
    ∃ ns cs, ValSeq h'.grammar (pyOps ann) (List.replicate l.length y) w ns cs ∧ ns.map GVal.ofNode = l ∧
      cs.Perm c := by
  induction he with
  | nil => exact ⟨[], [], .nil, rfl, .refl _⟩
  | @cons u v xs l c d h1 _ ih =>
    obtain ⟨ns, cs, h2, rfl, p2⟩ := ih
    obtain ⟨cs1, h3, p3⟩ := hy _ _ _ h1
    refine ⟨[nodeOf xs] ++ ns, cs1 ++ cs, ?_, ?_, p3.append p2⟩
    · exact valSeq_append (l := [y]) h3 h2
    · simp only [List.cons_append, List.nil_append, List.map_cons, ofNode_node]

theorem node_args (node : Node GVal) : nodeOf (argsOf node) = node := by cases node <;> rfl

theorem repeatAll_built (hg : Good b h) (hf : Full h) {s : Sym} {D P : PyHeap → Den}
    (ms : Denotes ann h s D P) :
    Built b ann h (h.repeatAll s) (fun h' => manyD (D h')) (fun h' => manyD (D h')) := by
  obtain ⟨g1, e1, ⟨y, hshape, hy, ey⟩, hk⟩ := repeatAll_step hg ms.usable
  obtain ⟨re, rm, hn, r1, r2⟩ := hshape.nt
  have hg0 : Good b (h.newNt repeatStart).2 := newNt_good hg nofun
  have k0 : HKeeps h (h.newNt repeatStart).2 := newNt_keeps ..
  have f0 : Full (h.newNt repeatStart).2 := newNt_full hf nofun
  have m1 := substEmpty_made hg0 (.list [])
  have k1 : HKeeps (h.newNt repeatStart).2 ((h.newNt repeatStart).2.substEmpty (.list [])).2 := wrap_keeps ..
  have f1 := substEmpty_full hg0 f0 (.list [])
  have mg := group_built m1.good f1 (ms.keep (k0.trans k1))
  refine ⟨Denotes.plain ⟨_, hn, nofun⟩ ⟨_, hn, rfl⟩ fun h' e hw => ?_, .repeatAll .refl ms.usable, hk⟩
  have hwhole : Means (unpack (Whole h' (pyOps ann) y)) (oneD (D h')) := by
    have := mg.args h' (ey.trans e) hw
    rw [← hy] at this
    exact this.congr fun _ _ _ _ => by
      rw [hy]
      exact (plain_spread (group_plain (ms.keep (k0.trans k1)).usable)).symm
  have hto : ∀ w node cs, ValSeq h'.grammar (pyOps ann) [y.g] w [node] cs →
      ∃ xs c, D h' w xs c ∧ node = nodeOf xs ∧ cs.Perm c := by
    intro w node cs hv
    obtain ⟨c, p, xs, h1, h2⟩ := hwhole.to w [node] cs [] ⟨node, rfl, hv, rfl⟩
    rw [List.append_nil] at p
    rw [kept_one] at h2
    refine ⟨xs, c, h1, ?_, p⟩
    have := congrArg nodeOf h2
    rwa [node_args, node_args] at this
  have hback : ∀ w xs c, D h' w xs c → ∃ cs, ValSeq h'.grammar (pyOps ann) [y.g] w [nodeOf xs] cs ∧ cs.Perm c := by
    intro w xs c hd
    obtain ⟨ns, cs, ds, ⟨node, rfl, h1, rfl⟩, h2, p⟩ := hwhole.back w _ c ⟨xs, hd, rfl⟩
    rw [kept_one] at h2
    have := congrArg nodeOf h2
    rw [node_args, node_args] at this
    subst this
    exact ⟨cs, h1, by rwa [List.append_nil] at p⟩
  obtain ⟨x', hx', hrules, hrep⟩ := e.spread_rules hn rfl
  have r1' := e.rls _ _ r1
  have r2' := e.rls _ _ r2
  have hsym : (h.repeatAll s).1 = .nt h.nts.length := rfl
  rw [hsym]
  constructor
  · rintro w _ cs _ ⟨node, rfl, hv, rfl⟩
    unfold Whole at hv
    simp only [Sym.g] at hv
    cases hv with
    | @rule _ _ r ru _ u _ ns _ ms _ cs _ ds k1 k2 k3 k4 k5 k6 k7 k8 =>
      cases k8
      rw [grammar_nt hx'] at k1
      cases k1
      rw [show x'.plain.rules = x'.rules from rfl, hrules] at k2
      simp only [List.mem_cons, List.not_mem_nil, or_false] at k2
      rcases k2 with rfl | rfl
      · rw [show h'.grammar.rls[r]? = some _ from r1'] at k3
        cases k3
        cases k5
        cases k6
        rw [collapses_iff.mp k7]
        exact ⟨[], .refl _, [], .nil, rfl⟩
      · rw [show h'.grammar.rls[r]? = some _ from r2'] at k3
        cases k3
        exact absurd ⟨show x'.plain.repeated = true from hrep, rfl⟩ k4
    | @repetition _ m _ r ru y' _ u _ ns _ cs _ k1 k2 k3 k4 k5 k6 k7 =>
      cases k7
      rw [grammar_nt hx'] at k1
      cases k1
      rw [show x'.plain.rules = x'.rules from rfl, hrules] at k2
      simp only [List.mem_cons, List.not_mem_nil, or_false] at k2
      rcases k2 with rfl | rfl
      · rw [show h'.grammar.rls[r]? = some _ from r1'] at k3
        cases k3
        cases k5
      · rw [show h'.grammar.rls[r]? = some _ from r2'] at k3
        cases k3
        cases k5
        obtain ⟨c, h1, p⟩ := each_to hto k6
        refine ⟨c, ?_, _, ?_, rfl⟩
        · simpa using p
        · rw [List.append_nil]; exact h1
  · rintro w vs cs ⟨l, he, rfl⟩
    cases he with
    | nil =>
      refine ⟨[.val (.list [])], [], [], ⟨_, rfl, ?_, rfl⟩, rfl, .refl _⟩
      have := ValSeq.rule (g := h'.grammar) (ops := pyOps ann) (l := []) (w := []) (ns' := []) (cs' := [])
        (grammar_nt hx') (show re ∈ x'.plain.rules by
          show re ∈ x'.rules
          rw [hrules]; simp) r1' (by rintro ⟨_, h⟩; cases h) .nil .some
        (collapses_iff (ann := ann).mpr rfl) .nil
      exact this
    | @cons u v xs l c d h1 h2 =>
      obtain ⟨ns, cs, k1, k2, p⟩ := each_back hback (.cons h1 h2)
      refine ⟨[.val (.list (elementOf xs :: l))], cs, [], ⟨_, rfl, ?_, rfl⟩, rfl, by rwa [List.append_nil]⟩
      have := ValSeq.repetition (g := h'.grammar) (ops := pyOps ann) (l := []) (w := []) (ns' := []) (cs' := [])
        (grammar_nt hx') (show rm ∈ x'.plain.rules by
          show rm ∈ x'.rules
          rw [hrules]; simp) r2' (show x'.plain.repeated = true from hrep) rfl k1 .nil
      rw [show (pyOps ann).list ns = .list (elementOf xs :: l) from congrArg GVal.list k2] at this
      show ValSeq h'.grammar (pyOps ann) [.nt h.nts.length] _ _ _
      simpa only [List.append_nil] using this

theorem substEmpty_built (hg : Good b h) (hf : Full h) (v : GVal) :
    Built b ann h (h.substEmpty v) (fun _ => fun w vs cs => w = [] ∧ vs = [v] ∧ cs = [])
      (fun _ => fun w vs cs => w = [] ∧ vs = [v] ∧ cs = []) := by
  refine (wrap_built hg hf (empty_denotes hg) (substF v) false).same fun h' w vs cs _ _ => ?_
  constructor
  · rintro ⟨_, _, ⟨rfl, rfl, rfl⟩, rfl, rfl⟩
    exact ⟨rfl, rfl, rfl⟩
  · rintro ⟨rfl, rfl, rfl⟩
    exact ⟨[], [], ⟨rfl, rfl, rfl⟩, rfl, rfl⟩

/-- A `RepeatedNonterminal` that takes over the rules of another symbol. -/
theorem takeOver_built (hg : Good b h) {n : Nat} {D P : PyHeap → Den}
    (ms : Denotes ann h (.nt n) D P) {x0 : NtObj} (hx0 : h.nts[n]? = some x0)
    (he : x0.ephemeral = true) (hD : ∀ h', Few (D h')) (x : NtObj)
    (hx : x = { rules := x0.rules, repeated := true, pivot := false, named := false, eph := some false, hole := false }) :
    Denotes ann (h.newNt x).2 (h.newNt x).1 D D := by
  have hget := newNt_get h x
  refine Denotes.plain ⟨_, hget, by rw [hx]; nofun⟩ ⟨_, hget, by rw [hx]; rfl⟩ fun h' e hw => ?_
  have e0 := (newNt_ext h x).trans e
  have m1 := (ms.args h' e0 hw)
  refine ((means_one ann m1).conv fun _ _ _ => few_one (hD h')).congr fun w ns c d => ?_
  refine unpack_congr fun w node cs => ?_
  obtain ⟨x', k1, k2, k3⟩ := e.spread_rules hget (by rw [hx])
  refine (whole_nt' hw k1 ?_).trans ?_
  · intro _ r hr
    rw [k2, hx] at hr
    have hlt := hg.wf.rules n x0 hx0 r hr
    rw [e0.symbols hlt]
    obtain ⟨ru, hru⟩ := lt_rls hlt
    rw [symbolsOf_of (g := h.grammar) hru]
    intro hc
    have : GSym.nt h.nts.length ∈ ru.symbols := List.mem_of_mem_head? hc
    have := hg.wf.syms r ru hru _ this
    omega
  · rw [k2, hx]
    exact pack_congr fun _ _ _ _ => by simp only [Spread, hx0, he, if_true]

theorem or_get {s t : Sym} (hs : ∃ n, s = .nt n) : ∃ n x, (h.or s t).1 = .nt n ∧
    (h.or s t).2.nts[n]? = some x ∧ x.hole = false ∧ x.ephemeral = true ∧
    x.rules = (h.or s t).2.rulesOf (h.or s t).1 := by
  obtain ⟨k, rfl⟩ := hs
  have hget := newNt_get ((h.asRules (.nt k)).2.asRules t).2 { rules := (h.asRules (.nt k)).1 ++ ((h.asRules (.nt k)).2.asRules t).1, repeated := false, pivot := false, named := false, eph := none, hole := false }
  refine ⟨((h.asRules (.nt k)).2.asRules t).2.nts.length, _, rfl, hget, rfl, rfl, ?_⟩
  show _ = (match (h.or (.nt k) t).2.nts[((h.asRules (.nt k)).2.asRules t).2.nts.length]? with
    | some x => x.rules
    | none => [])
  rw [show (h.or (.nt k) t).2.nts[((h.asRules (.nt k)).2.asRules t).2.nts.length]? = some _ from hget]

theorem repeatUpTo_built (hg : Good b h) (hf : Full h) {s : Sym} {D P : PyHeap → Den}
    (ms : Denotes ann h s D P) (k : Nat) :
    Built b ann h (h.repeatUpTo s k) (fun h' => upToD (D h') (P h') k) (fun h' => upToD (D h') (P h') k) := by
  induction k with
  | zero =>
    have m1 := substEmpty_built (b := b) (ann := ann) hg hf (.list [])
    have m2 := wrap_built (m1.good hg) (m1.full hg hf) (ms.keep m1.keeps) beginListF false
    have g2 := m2.good (m1.good hg)
    have f2 := m2.full (m1.good hg) (m1.full hg hf)
    have m3 := or_built g2 f2 (m1.toDenotes.keep m2.keeps) m2.toDenotes
    obtain ⟨n, x, h1, h2, h3, h4, h5⟩ := or_get (h := ((h.substEmpty (.list [])).2.wrap beginListF s).2)
      (t := ((h.substEmpty (.list [])).2.wrap beginListF s).1) (substEmpty_nt (h := h) (v := .list []))
    refine ⟨?_, .repeatUpTo .refl ms.usable, ((m1.keeps.trans m2.keeps).trans m3.keeps).trans (newNt_keeps ..)⟩
    refine takeOver_built (m3.good g2) (n := n) (by rw [← h1]; exact m3.toDenotes) h2 h4 ?_ _ ?_
    · intro h'
      exact few_upTo _ _ 0
    · rw [h5]
  | succ k ih =>
    have g0 := ih.good hg
    have f0 := ih.full hg hf
    have m1 := substEmpty_built (b := b) (ann := ann) g0 f0 (.list [])
    have g1 := m1.good g0
    have f1 := m1.full g0 f0
    have m2 := mul_built g1 (ms.keep (ih.keeps.trans m1.keeps)) (ih.toDenotes.keep m1.keeps)
    have g2 := m2.good g1
    have f2 := m2.full g1 f1
    have m3 := wrap_built g2 f2 m2.toDenotes continueRightListF false
    have g3 := m3.good g2
    have f3 := m3.full g2 f2
    have m4 := or_built g3 f3 (m1.toDenotes.keep (m2.keeps.trans m3.keeps)) m3.toDenotes
    obtain ⟨n, x, h1, h2, h3, h4, h5⟩ := or_get (h := ((((h.repeatUpTo s k).2.substEmpty (.list [])).2.mul s (h.repeatUpTo s k).1).2.wrap
        continueRightListF (((h.repeatUpTo s k).2.substEmpty (.list [])).2.mul s
          (h.repeatUpTo s k).1).1).2)
      (t := ((((h.repeatUpTo s k).2.substEmpty (.list [])).2.mul s (h.repeatUpTo s k).1).2.wrap
        continueRightListF (((h.repeatUpTo s k).2.substEmpty (.list [])).2.mul s
          (h.repeatUpTo s k).1).1).1) (substEmpty_nt (h := (h.repeatUpTo s k).2) (v := .list []))
    refine ⟨?_, .repeatUpTo .refl ms.usable,
      (((((ih.keeps.trans m1.keeps).trans m2.keeps).trans m3.keeps).trans m4.keeps)).trans (newNt_keeps ..)⟩
    refine takeOver_built (m4.good g3) (n := n) (by rw [← h1]; exact m4.toDenotes) h2 h4 ?_ _ ?_
    · intro h'
      exact few_upTo _ _ (k + 1)
    · rw [h5]

theorem repeated_built (hg : Good b h) (hf : Full h) {s : Sym} {D P : PyHeap → Den}
    (ms : Denotes ann h s D P) (max : Option Int) :
    Built b ann h (h.repeated max s) (fun h' => repeatedD (D h') (P h') max)
      (fun h' => repeatedD (D h') (P h') max) := by
  cases max with
  | none => exact repeatAll_built hg hf ms
  | some k => exact repeatUpTo_built hg hf ms _

theorem timesLoop_built (hg : Good b h) (hf : Full h) {s r : Sym} {D P R : PyHeap → Den}
    (ms : Denotes ann h s D P) (mr : Denotes ann h r R R) (k : Nat) :
    Built b ann h (h.timesLoop s r k) (fun h' => copiesD (D h') (R h') k) (fun h' => copiesD (D h') (R h') k) := by
  induction k generalizing h r R with
  | zero => exact Denotes.built mr
  | succ k ih =>
    have m1 := group_built hg hf ms
    have g1 := m1.good hg
    have f1 := m1.full hg hf
    have m2 := mul_built g1 (mr.keep m1.keeps) m1.toDenotes
    have m3 := ih (m2.good g1) (m2.full g1 f1) (ms.keep (m1.keeps.trans m2.keeps)) m2.toDenotes
    exact (m1.then m2).then m3

theorem times_built (hg : Good b h) (hf : Full h) {s : Sym} {D P : PyHeap → Den}
    (ms : Denotes ann h s D P) (min : Nat) (max : Option Nat) :
    Built b ann h (h.times min max s) (fun h' => timesD (D h') (P h') min max)
      (fun h' => timesD (D h') (P h') min max) := by
  unfold Heap.times timesD
  by_cases h0 : min = 0
  · simp only [if_pos h0]
    exact repeated_built hg hf ms _
  · simp only [if_neg h0]
    have m1 := timesLoop_built hg hf ms (empty_denotes (ann := ann) hg) min
    have g1 := m1.good hg
    have f1 := m1.full hg hf
    have m2 := wrap_built g1 f1 m1.toDenotes asListF false
    by_cases hmax : max = some min
    · simp only [if_pos hmax]
      exact m1.then m2
    · simp only [if_neg hmax]
      have g2 := m2.good g1
      have f2 := m2.full g1 f1
      have m3 := repeated_built g2 f2 (ms.keep (m1.keeps.trans m2.keeps))
        (max.map fun k : Nat => (k : Int) - (min : Int))
      have g3 := m3.good g2
      have f3 := m3.full g2 f2
      have m4 := mul_built g3 (m2.toDenotes.keep m3.keeps) m3.toDenotes
      have m5 := wrap_built (m4.good g3) (m4.full g3 f3) m4.toDenotes addF false
      exact (((m1.then m2).then m3).then m4).then m5

/-! ## Expressions -/

/-- Every symbol of the expression stands for something. -/
def Given (ann : GVal → Bool) (h : PyHeap) (σ π : PyHeap → Sym → Den) : Expr → Prop
  | .sym s => Denotes ann h s (fun h' => σ h' s) (fun h' => π h' s)
  | .empty => True
  | .lit _ _ => True
  | .seq a b => Given ann h σ π a ∧ Given ann h σ π b
  | .alt a b => Given ann h σ π a ∧ Given ann h σ π b
  | .app _ _ a => Given ann h σ π a
  | .group a => Given ann h σ π a
  | .times _ _ a => Given ann h σ π a

theorem given_keep {σ π : PyHeap → Sym → Den} {h1 : PyHeap} (k : HKeeps h h1) {e : Expr} (hu : Given ann h σ π e) :
    Given ann h1 σ π e := by
  induction e with
  | sym s => exact Denotes.keep hu k
  | empty => trivial
  | lit => trivial
  | seq a c ih1 ih2 => exact ⟨ih1 hu.1, ih2 hu.2⟩
  | alt a c ih1 ih2 => exact ⟨ih1 hu.1, ih2 hu.2⟩
  | app f c a ih => exact ih hu
  | group a ih => exact ih hu
  | times min max a ih => exact ih hu

theorem given_of_uses {e : Expr} (hu : e.Uses h) :
    Given ann h (fun h' => symbolD h' (pyOps ann)) (fun h' => symbolD h' (pyOps ann)) e := by
  induction e with
  | sym s =>
    cases s with
    | term bits nm => exact sym_denotes (s := .term bits nm) trivial trivial
    | nt n =>
      obtain ⟨x, hx, he⟩ := hu
      exact sym_denotes (s := .nt n) ⟨x, hx, he⟩ ⟨x, hx, fun _ => he⟩
  | empty => trivial
  | lit => trivial
  | seq a c ih1 ih2 => exact ⟨ih1 hu.1, ih2 hu.2⟩
  | alt a c ih1 ih2 => exact ⟨ih1 hu.1, ih2 hu.2⟩
  | app f c a ih => exact ih hu
  | group a ih => exact ih hu
  | times min max a ih => exact ih hu

theorem expr_built {σ π : PyHeap → Sym → Den} (hg : Good b h) (hf : Full h) {e : Expr} (hu : Given ann h σ π e) :
    Built b ann h (e.build h) (fun h' => e.den (σ h') (π h'))
      (fun h' => e.part (π h') (e.den (σ h') (π h'))) := by
  induction e generalizing h with
  | sym s => exact Denotes.built hu
  | empty => exact Denotes.built (empty_denotes hg)
  | lit s cs => exact literal_built hg hf s cs
  | seq a c ih1 ih2 =>
    have m1 := ih1 hg hf hu.1
    have g1 := m1.good hg
    have m2 := ih2 g1 (m1.full hg hf) (given_keep m1.keeps hu.2)
    exact (m1.then m2).then (mul_built (m2.good g1) (m1.toDenotes.keep m2.keeps) m2.toDenotes)
  | alt a c ih1 ih2 =>
    have m1 := ih1 hg hf hu.1
    have g1 := m1.good hg
    have f1 := m1.full hg hf
    have m2 := ih2 g1 f1 (given_keep m1.keeps hu.2)
    exact (m1.then m2).then (or_built (m2.good g1) (m2.full g1 f1) (m1.toDenotes.keep m2.keeps) m2.toDenotes)
  | app f c a ih =>
    have m1 := ih hg hf hu
    exact m1.then (wrap_built (m1.good hg) (m1.full hg hf) m1.toDenotes f c)
  | group a ih =>
    have m1 := ih hg hf hu
    exact m1.then (group_built (m1.good hg) (m1.full hg hf) m1.toDenotes)
  | times min max a ih =>
    have m1 := ih hg hf hu
    exact m1.then (times_built (m1.good hg) (m1.full hg hf) m1.toDenotes min max)

/-- What a whole symbol evaluates to, up to the order of complaints. -/
theorem Denotes.value (hf : Full h) {s : Sym} {D P : PyHeap → Den} (m : Denotes ann h s D P) {h' : PyHeap}
    (e : Ext h h') (hw : WF h') {w : Str} {node : Node GVal} {cs : List PyComplaint} :
    (∃ c, Value h' (pyOps ann) s w node c ∧ cs.Perm c) ↔
      ∃ vs c, D h' w vs c ∧ node = nodeOf vs ∧ cs.Perm c := by
  have mw := m.whole hf e hw
  constructor
  · rintro ⟨c, hv, p⟩
    obtain ⟨c', p', xs, h1, h2⟩ := mw.to w [node] c [] ⟨node, rfl, value_iff.mp hv, rfl⟩
    rw [kept_one] at h2
    have := congrArg nodeOf h2
    rw [node_args, node_args] at this
    rw [List.append_nil] at p'
    exact ⟨xs, c', h1, this, p.trans p'⟩
  · rintro ⟨vs, c, hd, rfl, p⟩
    obtain ⟨ns, c1, d1, ⟨node, rfl, h1, rfl⟩, h2, p'⟩ := mw.back w _ c ⟨vs, hd, rfl⟩
    rw [kept_one] at h2
    have := congrArg nodeOf h2
    rw [node_args, node_args] at this
    subst this
    rw [List.append_nil] at p'
    exact ⟨c1, value_iff.mpr h1, p.trans p'.symm⟩

/-! ## Naming and recursive definitions -/

theorem seal_whole (hg : Good b h) {s : Sym} (hs : Usable h s) (p : Bool) {h' : PyHeap}
    (e : Ext (h.seal s p).2 h') (hw : WF h') {ops : ParseOps GVal} {w : Str} {node : Node GVal}
    {cs : List PyComplaint} : Whole h' ops (h.seal s p).1 w node cs ↔ Whole h' ops s w node cs := by
  have key : ∀ x : NtObj, x = { rules := [h.rls.length], repeated := false, pivot := p, named := true, eph := none, hole := false } →
      Ext ((h.newRule ⟨[s.g], none⟩).2.newNt x).2 h' →
      (Whole h' ops (.nt h.nts.length) w node cs ↔ Whole h' ops s w node cs) := by
    intro x hx e
    have hget := newNt_get (h.newRule ⟨[s.g], none⟩).2 x
    obtain ⟨x', k1, k2, k3⟩ := e.spread_rules hget (by rw [hx])
    have e1 := (newNt_ext ..).trans e
    refine (whole_nt hw (n := h.nts.length) k1 (by rw [k3, hx])).trans ?_
    rw [k2, hx]
    simp only [List.mem_singleton, exists_eq_left]
    exact (pack_congr fun _ _ _ _ => ruleVal_single s e1).trans pack_unpack
  cases s with
  | term bits nm =>
    cases nm with
    | false => exact Iff.rfl
    | true => exact key _ rfl e
  | nt n =>
    obtain ⟨x, hx, hh⟩ := hs
    simp only [Heap.seal, hx] at e ⊢
    cases hn : x.named with
    | false => exact Iff.rfl
    | true =>
      simp only [hn, if_true] at e ⊢
      exact key _ rfl e

theorem seal_plain (hf : Full h) {s : Sym} (hs : Usable h s) (p : Bool) :
    Plain (h.seal s p).2 (h.seal s p).1 := by
  cases s with
  | term bits nm =>
    cases nm with
    | false => trivial
    | true => exact ⟨_, newNt_get .., rfl⟩
  | nt n =>
    obtain ⟨x, hx, hh⟩ := hs
    simp only [Heap.seal, hx]
    cases hn : x.named with
    | false =>
      simp only [Bool.false_eq_true, if_false]
      refine ⟨_, List.getElem?_set_self (nts_lt hx), ?_⟩
      match h1 : x.eph with
      | none => simp [NtObj.ephemeral, h1]
      | some true =>
        have := (hf n x hx).2.2 h1
        rw [hn] at this
        cases this
      | some false => simp [NtObj.ephemeral, h1]
    | true => exact ⟨_, newNt_get .., rfl⟩

theorem define_whole (hg : Good b h) {n m : Nat} (hn : Undefined h n) {y : NtObj} (hy : h.nts[m]? = some y)
    (hyh : y.hole = false) (hyr : y.repeated = false) (hgd : b = true → StartsWithTerminals h m) {h' : PyHeap}
    (e : Ext (h.setRules n (.nt m)) h') (hw : WF h') {ops : ParseOps GVal} {w : Str} {node : Node GVal}
    {cs : List PyComplaint} : Whole h' ops (.nt n) w node cs ↔ Whole h' ops (.nt m) w node cs := by
  obtain ⟨x, hx, hxh, hxr⟩ := hn
  have hne : m ≠ n := by
    rintro rfl
    rw [hx] at hy
    cases hy
    rw [hxh] at hyh
    cases hyh
  have h1 : (h.setRules n (.nt m)).nts[n]? = some { x with rules := y.rules, hole := false } := by
    simp only [Heap.setRules, hx, Heap.rulesOf, hy]
    exact List.getElem?_set_self (nts_lt hx)
  have h2 : (h.setRules n (.nt m)).nts[m]? = some y := by
    simp only [Heap.setRules, hx]
    rw [List.getElem?_set_ne (fun h => hne h.symm)]
    exact hy
  obtain ⟨x', k1, k2, k3⟩ := e.spread_rules h1 rfl
  obtain ⟨y', j1, j2, j3⟩ := e.spread_rules h2 hyh
  rw [whole_nt hw k1 (by rw [k3]; exact hxr), whole_nt hw j1 (by rw [j3]; exact hyr), k2, j2]

/-! ## Everything that is accepted has a value -/

theorem collapses_exists {V : Type} (ops : ParseOps V) (ns : List (Node V)) : ∃ node, Collapses ops ns node := by
  match h : kept ns with
  | [] => exact ⟨_, .nothing h⟩
  | [v] => exact ⟨_, .single h⟩
  | v :: v' :: vs => exact ⟨_, .several h⟩

theorem val_of_gen {V C : Type} {h : Heap V C} (hw : WF h) (ops : ParseOps V) {l : List GSym} {w : Str}
    (hg : GenSeq h.grammar l w) : ∃ ns cs, ValSeq h.grammar ops l w ns cs := by
  induction hg with
  | nil => exact ⟨[], [], .nil⟩
  | term h1 _ ih =>
    obtain ⟨ns, cs, k⟩ := ih
    exact ⟨_, _, .term h1 k⟩
  | @nt n x r ru l u v h1 h2 h3 _ _ ih1 ih2 =>
    obtain ⟨ns, cs, k1⟩ := ih1
    obtain ⟨ns', cs', k2⟩ := ih2
    by_cases hc : x.repeated = true ∧ ru.symbols.head? = some (.nt n)
    · obtain ⟨y, hy, rfl⟩ := grammar_nt_inv h1
      rcases hw.shape n y hy hc.1 with hs | ⟨z, _, hs⟩
      · exact absurd hc.2 (hs r h2 ru h3)
      · rcases hs r h2 ru h3 with hsym | hsym
        · rw [hsym] at hc; cases hc.2
        · rw [hsym] at k1
          obtain ⟨u1, u2, n1, n2, c1, c2, rfl, rfl, rfl, j1, j2⟩ := valSeq_split (l := [.nt n]) (l' := [z]) k1
          have hl := valSeq_length j1
          match n1, hl with
          | [node], _ =>
            cases j1 with
            | rule i1 i2 i3 i4 i5 i6 i7 i8 =>
              cases i8
              rw [h1] at i1
              cases i1
              rcases hs _ i2 _ i3 with hsym' | hsym'
              · rw [hsym'] at i5
                cases i5
                exact ⟨_, _, .repetition (m := 0) h1 h2 h3 hc.1 hsym j2 k2⟩
              · exact absurd ⟨hc.1, by rw [hsym']; rfl⟩ i4
            | @repetition _ m _ _ _ z' _ _ _ _ _ _ _ i1 i2 i3 i4 i5 i6 i7 =>
              cases i7
              rw [h1] at i1
              cases i1
              have : z' = z := by
                rcases hs _ i2 _ i3 with hsym' | hsym'
                · rw [hsym'] at i5; cases i5
                · rw [hsym'] at i5; cases i5; rfl
              subst this
              have := valSeq_append i6 j2
              rw [show List.replicate (m + 1) z' ++ [z'] = List.replicate (m + 1 + 1) z' from
                (List.replicate_succ' ..).symm] at this
              rw [List.append_nil]
              exact ⟨_, _, .repetition h1 h2 h3 hc.1 hsym this k2⟩
    · obtain ⟨node, hcol⟩ := collapses_exists ops (runAction ru.action ns).1
      exact ⟨_, _, .rule h1 h2 h3 hc k1 (acts_iff.mpr rfl) hcol k2⟩

theorem accepts_value {h' : PyHeap} (hw : WF h') (ops : ParseOps GVal) {s : Sym} {w : Str} :
    Accepts h' s w ↔ ∃ node cs, Value h' ops s w node cs := by
  constructor
  · intro ha
    obtain ⟨ns, cs, hv⟩ := val_of_gen hw ops ha
    have hl := valSeq_length hv
    match ns, hl with
    | [node], _ => exact ⟨node, cs, value_iff.mpr hv⟩
  · rintro ⟨node, cs, as, hv⟩
    exact evalSeq_gen (wf_sane hw) hv

end

end Httpolice.Lemmas
