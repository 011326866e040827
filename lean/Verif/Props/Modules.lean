import Verif.Lemmas.Words
import Verif.Props.CommaList

/-!
# C57: modules of definitions
-/

namespace Httpolice.Props

open Httpolice.Model Httpolice.Spec Httpolice.Lemmas

section
variable {N : Type} [DecidableEq N] {b : Bool} {h h' : PyHeap} {env : N → Sym} {δ : N → Den} {ds : List (N × Defn N)}

omit [DecidableEq N] in
theorem nothing_known (ann : GVal → Bool) : Knows b ann h env (fun n => anyOrder (δ n)) [] := nofun

/-- **C57**: if `δ` agrees with all definitions of a module, each of which uses earlier names only, then the names
evaluate to what `δ` says; whatever was built before, and whatever is built later. -/
theorem C57_module (hb : Builds b Heap.init h) (hs : Solves [] δ ds) {n : N} (hn : n ∈ ds.map Prod.fst)
    (later : Builds b (runDefs env h ds).2 h') (ann : GVal → Bool) (w : Str) (node : Node GVal) (cs : List PyComplaint) :
    (∃ c, Value h' (pyOps ann) ((runDefs env h ds).1 n) w node c ∧ cs.Perm c) ↔ anyOrder (δ n) w (argsOf node) cs := by
  obtain ⟨_, hk⟩ := defs_know (b := b) (ann := ann) (env := env) hb (nothing_known ann) hs
  rw [value_of_symbol, (hk n (by simpa using hn)).1.means h' later]

/-- **C57**: so `parse` succeeds on the texts of `δ`, fails on others, and returns such values and complaints. -/
theorem C57_module_parses (hb : Builds true Heap.init h) (hs : Solves [] δ ds) {n : N} (hn : n ∈ ds.map Prod.fst)
    (later : Builds true (runDefs env h ds).2 h') (ann : GVal → Bool) {k : Nat} (hk : (runDefs env h ds).1 n = .nt k)
    (data : Str) :
    ((∃ res, innerParse h'.grammar (pyOps ann) data k = .ok res) ↔ ∃ vs cs, δ n data vs cs) ∧
    ((∃ e, innerParse h'.grammar (pyOps ann) data k = .error (.parse e)) ↔ ¬ ∃ vs cs, δ n data vs cs) ∧
    ∀ node complaints annots, innerParse h'.grammar (pyOps ann) data k = .ok (node, complaints, annots) →
      anyOrder (δ n) data (argsOf node) complaints := by
  obtain ⟨l, hkn⟩ := defs_know (b := true) (ann := ann) (env := env) hb (nothing_known ann) hs
  obtain ⟨i, hd⟩ := hkn n (by simpa using hn)
  have hb' := builds_trans (builds_trans hb l) later
  have hdef : Defined h' k :=
    (builds_good later (builds_good (builds_trans hb l) init_good).1).2.defined (hd k hk)
  have key := C57_module (env := env) hb hs hn later ann data
  rw [hk] at key
  have acc : Accepts h' (.nt k) data ↔ ∃ vs cs, δ n data vs cs := by
    rw [accepts_value (builds_good hb' init_good).1.wf (pyOps ann)]
    constructor
    · rintro ⟨node, cs, hv⟩
      obtain ⟨c, hc, _⟩ := (key node cs).mp ⟨cs, hv, .refl _⟩
      exact ⟨_, _, hc⟩
    · rintro ⟨vs, cs, hc⟩
      have hm := i.means h' later
      rw [hk] at hm
      have : symbolD h' (pyOps ann) (.nt k) data vs cs := by rw [hm]; exact ⟨cs, hc, .refl _⟩
      obtain ⟨node, c, hv, _⟩ := this
      exact ⟨node, c, hv⟩
  obtain ⟨p1, p2⟩ := C09_parses hb' hdef (pyOps ann) data
  refine ⟨p1.trans acc, p2.trans (not_congr acc), fun node complaints annots hr => ?_⟩
  exact (key node complaints).mp
    ⟨complaints, ⟨annots, C02_value (C09_built hb').1 (pyOps ann) data k node complaints annots hr⟩, .refl _⟩

end

/-- A module with a number, and two of them with a semicolon: `y = n * skip(';') * n`. -/
def halves : List (Bool × Defn Bool) := [
  (false, .named true (.stringTimes 1 none (.chars digitBits true))),
  (true, .named false (.seq (.seq (.ref false) (.skip (.lit (str ";") false))) (.ref false)))]

/-- Some digits. -/
def Digits (w : Str) : Prop := (∀ c ∈ w, digitBits c = true) ∧ 1 ≤ w.length

/-- What it comes to. -/
def halvesD : Bool → Den
  | false => tabD Digits (fun w => w) (fun w => [.text w]) (fun _ => [])
  | true => tabD (fun x : Str × Str => Digits x.1 ∧ Digits x.2) (fun x => x.1 ++ str ";" ++ x.2)
      (fun x => [.tuple [.text x.1, .text x.2]]) (fun _ => [])

/-- It meets the conditions of the theorems. -/
theorem halves_solve : Solves [] halvesD halves := by
  refine ⟨⟨nofun, trivial⟩, named_alike (.of_eq ?_), ⟨⟨.head _, trivial⟩, .head _⟩, named_alike (.of_eq ?_), trivial⟩
  · show oneD (appD joinF (timesD (octetD digitBits) (octetD digitBits) 1 none)) = _
    rw [tab_stringTimes digitBits 1 none nofun, tab_one]
    exact tab_eq (fun w => w) (fun w => w) (fun w h => ⟨⟨h.1, h.2.1⟩, rfl, rfl, rfl⟩)
      (fun w h => ⟨⟨h.1, h.2, nofun⟩, rfl, rfl, rfl⟩)
  · show oneD (thenD (thenD (halvesD false) (appD skipF (litD (str ";") false))) (halvesD false)) = _
    have : appD skipF (litD (str ";") false) = silentD (str ";") := skip_char (k := 59) (by decide)
    rw [this]
    simp only [halvesD]
    rw [then_silent, tab_then, tab_one]
    rfl

/-- The symbols. -/
def halvesNumber : Sym → Option Nat
  | .nt k => some k
  | _ => none

example : Solves [] halvesD halves ∧ true ∈ halves.map Prod.fst ∧
    halvesNumber ((loadDefs halves).1 true) = some 12 ∧
    shown (innerParse (loadDefs halves).2.grammar (pyOps fun _ => false) (str "12;3") 12) =
      some (some (render (.tuple [.text (str "12"), .text (str "3")])), []) ∧
    shown (innerParse (loadDefs halves).2.grammar (pyOps fun _ => false) (str "12;") 12) = none :=
  ⟨halves_solve, by decide, by decide +kernel, by decide +kernel, by decide +kernel⟩

end Httpolice.Props
