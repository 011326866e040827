import Verif.Lemmas.Program

/-!
# Names of nonterminals
-/

namespace Httpolice.Lemmas

open Httpolice.Model Httpolice.Spec

variable {N : Type}

variable [DecidableEq N]

/-- Surely a nonterminal, if these names are. -/
def _root_.Httpolice.Model.GExpr.compound (nts : List N) : GExpr N → Bool
  | .ref n => decide (n ∈ nts)
  | .app _ _ _ => true
  | .alt a b => a.compound nts || b.compound nts
  | .seq _ _ => true
  | .lit (_ :: _ :: _) _ => true
  | _ => false

/-- Surely a nonterminal, if these names are. -/
def _root_.Httpolice.Model.Defn.compound (nts : List N) : Defn N → Bool
  | .named _ e => e.compound nts
  | .list _ _ => true
  | .list1 _ _ => true
  | .nested _ _ _ => true

/-- Names that are surely nonterminals. -/
def compounds (nts : List N) : List (N × Defn N) → List N
  | [] => nts
  | (n, d) :: ds => compounds (if d.compound nts then n :: nts else nts.filter (fun m => decide (m ≠ n))) ds

theorem or_is_nt {V C : Type} (h : Heap V C) {a b : Sym} (hab : (∃ k, a = .nt k) ∨ ∃ k, b = .nt k) :
    ∃ k, (h.or a b).1 = .nt k := by
  rcases hab with ⟨k, rfl⟩ | ⟨k, rfl⟩
  · exact ⟨_, rfl⟩
  · cases a <;> exact ⟨_, rfl⟩

theorem mul_is_nt {V C : Type} (h : Heap V C) (a b : Sym) : ∃ k, (h.mul a b).1 = .nt k := by
  cases a <;> cases b <;> exact ⟨_, rfl⟩

theorem compound_nt (env : N → Sym) {nts : List N} (hn : ∀ n ∈ nts, ∃ k, env n = .nt k) (e : GExpr N)
    (he : e.compound nts = true) (h : PyHeap) : ∃ k, ((e.expr env).build h).1 = .nt k := by
  induction e generalizing h with
  | ref n => exact hn n (of_decide_eq_true he)
  | app f c a _ => exact ⟨_, rfl⟩
  | seq a b _ _ => exact mul_is_nt _ _ _
  | lit s c =>
    obtain _ | ⟨_, _ | ⟨_, _⟩⟩ := s
    · cases he
    · cases he
    · exact ⟨_, rfl⟩
  | alt a b iha ihb =>
    rw [GExpr.compound, Bool.or_eq_true] at he
    refine or_is_nt _ ?_
    rcases he with he | he
    · exact .inl (iha he h)
    · exact .inr (ihb he _)
  | _ => cases he

theorem seal_is_nt {V C : Type} (h : Heap V C) {a : Sym} (ha : ∃ k, a = .nt k) (p : Bool) :
    ∃ k, (h.seal a p).1 = .nt k := by
  obtain ⟨n, rfl⟩ := ha
  simp only [Heap.seal]
  split
  · exact ⟨n, rfl⟩
  · split
    · exact ⟨_, rfl⟩
    · exact ⟨n, rfl⟩

theorem app_nt (f : Func GVal PyComplaint) (c : Bool) (a : Expr) (h : PyHeap) (p : Bool) :
    ∃ k, ((Expr.app f c a).define h p).1 = .nt k := seal_is_nt _ ⟨_, rfl⟩ p

theorem defn_nt (env : N → Sym) {nts : List N} (hn : ∀ n ∈ nts, ∃ k, env n = .nt k) (d : Defn N)
    (hd : d.compound nts = true) (h : PyHeap) : ∃ k, (d.run env h).1 = .nt k := by
  cases d with
  | named p e => exact seal_is_nt _ (compound_nt env hn e hd h) p
  | list o e => exact app_nt ..
  | list1 o e => exact app_nt ..
  | nested first last e =>
    simp only [Defn.run]
    exact seal_is_nt h.recursive.2 (a := h.recursive.1) ⟨h.nts.length, rfl⟩ false

theorem module_nt (ds : List (N × Defn N)) (env : N → Sym) (h : PyHeap) {nts : List N}
    (hn : ∀ n ∈ nts, ∃ k, env n = .nt k) {n : N} (hm : n ∈ compounds nts ds) :
    ∃ k, (runDefs env h ds).1 n = .nt k := by
  induction ds generalizing env h nts with
  | nil => exact hn n hm
  | cons x ds ih =>
    obtain ⟨m, d⟩ := x
    rw [runDefs]
    refine ih (nts := _) _ _ ?_ hm
    intro n hn'
    unfold assignSym
    by_cases hd : d.compound nts = true
    · rw [if_pos hd] at hn'
      by_cases e : n = m
      · rw [if_pos e]
        exact defn_nt env hn d hd h
      · rw [if_neg e]
        exact hn n ((List.mem_cons.mp hn').resolve_left e)
    · rw [if_neg hd] at hn'
      obtain ⟨h1, h2⟩ := List.mem_filter.mp hn'
      rw [if_neg (of_decide_eq_true h2)]
      exact hn n h1

/-! ## What matters for this -/

/-- What matters of an expression. -/
def _root_.Httpolice.Model.GExpr.shape : GExpr N → GExpr N
  | .ref n => .ref n
  | .app _ _ _ => .app skipF false .empty
  | .alt a b => .alt a.shape b.shape
  | .seq _ _ => .seq .empty .empty
  | .lit s c => .lit s c
  | _ => .empty

/-- What matters of a definition. -/
def _root_.Httpolice.Model.Defn.shape : Defn N → Defn N
  | .named _ e => .named true e.shape
  | .list o _ => .list o .empty
  | .list1 o _ => .list1 o .empty
  | .nested first last _ => .nested first last .empty

/-- What matters of a module. -/
def shapes (ds : List (N × Defn N)) : List (N × Defn N) := ds.map fun x => (x.1, x.2.shape)

theorem shape_compound (nts : List N) (e : GExpr N) : e.shape.compound nts = e.compound nts := by
  induction e with
  | alt a b iha ihb => simp [GExpr.shape, GExpr.compound, iha, ihb]
  | _ => rfl

theorem shape_compound' (nts : List N) (d : Defn N) : d.shape.compound nts = d.compound nts := by
  cases d with
  | named p e => exact shape_compound nts e
  | _ => rfl

theorem compounds_shapes (nts : List N) (ds : List (N × Defn N)) : compounds nts (shapes ds) = compounds nts ds := by
  induction ds generalizing nts with
  | nil => rfl
  | cons x ds ih =>
    obtain ⟨n, d⟩ := x
    show compounds _ (shapes ds) = _
    rw [ih, compounds, shape_compound']

omit [DecidableEq N] in
theorem names_shapes (ds : List (N × Defn N)) : (shapes ds).map Prod.fst = ds.map Prod.fst := by
  rw [shapes, List.map_map]
  rfl

/-- The same for modules that are alike. -/
theorem known_shapes {ds ds' : List (N × Defn N)} {n : N} (hs : shapes ds = shapes ds')
    (h : n ∈ ds'.map Prod.fst ∧ n ∈ compounds [] ds') : n ∈ ds.map Prod.fst ∧ n ∈ compounds [] ds := by
  rw [← names_shapes, ← compounds_shapes, hs, names_shapes, compounds_shapes]
  exact h

end Httpolice.Lemmas
