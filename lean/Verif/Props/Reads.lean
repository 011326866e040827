import Verif.Lemmas.ModuleNt
import Verif.Props.Modules
import Verif.Spec.Reads

/-!
# Reading headers
-/

namespace Httpolice.Props

open Httpolice.Model Httpolice.Spec Httpolice.Lemmas

variable {N : Type} [DecidableEq N] {h h' : PyHeap} {env : N → Sym} {δ : N → Den} {ds : List (N × Defn N)} {α : Type}
  {P : α → Prop} {t : α → Str} {v : α → GVal} {c : α → List PyComplaint}

/-- What a name comes to is what is read. -/
theorem module_some (hb : Builds true Heap.init h) (hs : Solves [] δ ds) {n : N}
    (hn : n ∈ ds.map Prod.fst ∧ n ∈ compounds [] ds) (hd : δ n = tabD P t (fun x => [v x]) c)
    (later : Builds true (runDefs env h ds).2 h') (ann : GVal → Bool) :
    ∃ k, (runDefs env h ds).1 n = .nt k ∧
      ReadsSome (fun data => innerParse h'.grammar (pyOps ann) data k) P t v c := by
  obtain ⟨k, hk⟩ := module_nt ds env h (nts := []) nofun hn.2
  refine ⟨k, hk, fun data => ?_, fun data node cs as hr => ?_⟩
  · obtain ⟨p1, p2, _⟩ := C57_module_parses hb hs hn.1 later ann hk data
    have key : (∃ vs cs, δ n data vs cs) ↔ ∃ x, P x ∧ data = t x := by
      rw [hd]
      constructor
      · rintro ⟨vs, cs, x, h1, h2, _⟩
        exact ⟨x, h1, h2⟩
      · rintro ⟨x, h1, h2⟩
        exact ⟨_, _, x, h1, h2, rfl, rfl⟩
    exact ⟨p1.trans key, p2.trans (not_congr key)⟩
  · obtain ⟨_, _, p3⟩ := C57_module_parses hb hs hn.1 later ann hk data
    have := p3 _ _ _ hr
    rw [hd] at this
    obtain ⟨x, k1, k2, k3, k4⟩ := anyOrder_tab.mp this
    refine ⟨x, k1, k2, ?_, k4⟩
    cases node with
    | skip => cases k3
    | val v => cases k3; rfl

omit [DecidableEq N] in
/-- If the text determines what is written, then this is what is read. -/
theorem reads_of_some {parse : Str → Parsing} (h : ReadsSome parse P t v c) (hu : ∀ x y, P x → P y → t x = t y → x = y) :
    Reads parse P t v c := by
  refine ⟨h.1, fun x hx => ?_⟩
  obtain ⟨⟨node, cs, as⟩, hr⟩ := (h.1 (t x)).1.mpr ⟨x, hx, rfl⟩
  obtain ⟨y, h1, h2, h3, h4⟩ := h.2 _ _ _ _ hr
  cases hu x y hx h1 h2
  exact ⟨cs, as, by rw [hr, h3], h4⟩

/-- The same for a name. -/
theorem module_reads (hb : Builds true Heap.init h) (hs : Solves [] δ ds) {n : N}
    (hn : n ∈ ds.map Prod.fst ∧ n ∈ compounds [] ds) (hd : δ n = tabD P t (fun x => [v x]) c)
    (hu : ∀ x y, P x → P y → t x = t y → x = y) (later : Builds true (runDefs env h ds).2 h') (ann : GVal → Bool) :
    ∃ k, (runDefs env h ds).1 n = .nt k ∧
      Reads (fun data => innerParse h'.grammar (pyOps ann) data k) P t v c := by
  obtain ⟨k, hk, hr⟩ := module_some (env := env) hb hs hn hd later ann
  exact ⟨k, hk, reads_of_some hr hu⟩

/-- What an expression without a name comes to, some time after a module. -/
theorem module_expr_later {h₁ : PyHeap} (hb : Builds true Heap.init h) (hs : Solves [] δ ds) {e : GExpr N} (he : e.Fine (ds.map Prod.fst))
    (mid : Builds true (runDefs env h ds).2 h₁) {k : Nat} (hk : ((e.expr (runDefs env h ds).1).build h₁).1 = .nt k)
    (hd : oneD (e.den δ) = tabD P t (fun x => [v x]) c)
    (later : Builds true ((e.expr (runDefs env h ds).1).build h₁).2 h') (ann : GVal → Bool) :
    ReadsSome (fun data => innerParse h'.grammar (pyOps ann) data k) P t v c := by
  obtain ⟨l, hkn⟩ := defs_know (b := true) (ann := ann) (env := env) hb (nothing_known ann) hs
  have hkn : Knows true ann (runDefs env h ds).2 (runDefs env h ds).1 (fun n => anyOrder (δ n)) (ds.map Prod.fst) :=
    fun n hn => hkn n (by simpa using hn)
  have hkn := hkn.later (builds_trans hb l) mid
  have hb1 := builds_trans (builds_trans hb l) mid
  have m := expr_built (b := true) (ann := ann) (builds_good hb1 init_good).1 (builds_full hb1 init_good init_full)
    (given_of_usable (fine_usable hkn he))
  have hb2 := builds_trans hb1 m.builds
  have hb' := builds_trans hb2 later
  obtain ⟨g, ex⟩ := builds_good later (builds_good hb2 init_good).1
  have hdef : Defined h' k := ex.defined (gexpr_defined hb1 hkn he hk)
  have key : symbolD h' (pyOps ann) (.nt k) = permD (tabD P t (fun x => [v x]) c) := by
    rw [← hk, symbol_of_denotes (builds_full hb2 init_good init_full) m.toDenotes ex g.wf,
      (gexpr_den hkn (builds_trans m.builds later) he).1, ← hd]
    exact alike_one (alike_den (fun n => anyOrder_idem (δ n)) e).1
  have acc : ∀ data, Accepts h' (.nt k) data ↔ ∃ x, P x ∧ data = t x := by
    intro data
    rw [accepts_value g.wf (pyOps ann)]
    constructor
    · rintro ⟨node, cs, hv⟩
      have : symbolD h' (pyOps ann) (.nt k) data (argsOf node) cs := ⟨node, cs, hv, rfl, .refl _⟩
      rw [key] at this
      obtain ⟨_, ⟨x, h1, h2, _⟩, _⟩ := this
      exact ⟨x, h1, h2⟩
    · rintro ⟨x, h1, h2⟩
      have : permD (tabD P t (fun x => [v x]) c) data [v x] (c x) := ⟨c x, ⟨x, h1, h2, rfl, rfl⟩, .refl _⟩
      rw [← key] at this
      obtain ⟨node, c, hv, _⟩ := this
      exact ⟨node, c, hv⟩
  refine ⟨fun data => ?_, fun data node cs as hr => ?_⟩
  · obtain ⟨p1, p2⟩ := C09_parses hb' hdef (pyOps ann) data
    exact ⟨p1.trans (acc data), p2.trans (not_congr (acc data))⟩
  · have hv := C02_value (C09_built hb').1 (pyOps ann) data k node cs as hr
    have : symbolD h' (pyOps ann) (.nt k) data (argsOf node) cs := ⟨node, cs, ⟨as, hv⟩, rfl, .refl _⟩
    rw [key] at this
    obtain ⟨_, ⟨x, k1, k2, k3, rfl⟩, k4⟩ := this
    refine ⟨x, k1, k2, ?_, k4⟩
    cases node with
    | skip => cases k3
    | val v => cases k3; rfl

/-- What an expression without a name comes to, after a module. -/
theorem module_expr (hb : Builds true Heap.init h) (hs : Solves [] δ ds) {e : GExpr N} (he : e.Fine (ds.map Prod.fst))
    {k : Nat} (hk : ((e.expr (runDefs env h ds).1).build (runDefs env h ds).2).1 = .nt k)
    (hd : oneD (e.den δ) = tabD P t (fun x => [v x]) c)
    (later : Builds true ((e.expr (runDefs env h ds).1).build (runDefs env h ds).2).2 h') (ann : GVal → Bool) :
    ReadsSome (fun data => innerParse h'.grammar (pyOps ann) data k) P t v c :=
  module_expr_later hb hs he .refl hk hd later ann

end Httpolice.Props
