import Verif.Model.Import
import Verif.Lemmas.Tab

/-!
# Imports between grammar modules
-/

namespace Httpolice.Lemmas

open Httpolice.Model Httpolice.Spec

variable {N M : Type} {f : N → M} {δ : M → Den} {δ' : N → Den}

theorem rename_part (e : GExpr N) (D : Den) : (e.rename f).part D = e.part D := by cases e <;> rfl

theorem rename_den (hd : ∀ n, δ (f n) = δ' n) (e : GExpr N) : (e.rename f).den δ = e.den δ' := by
  induction e with
  | ref n => exact hd n
  | seq a b iha ihb =>
    show thenD ((a.rename f).part ((a.rename f).den δ)) ((b.rename f).part ((b.rename f).den δ)) = _
    rw [iha, ihb, rename_part, rename_part]
    rfl
  | alt a b iha ihb => show orD _ _ = _; rw [iha, ihb]; rfl
  | app g c a ih => show appD _ _ = _; rw [ih]; rfl
  | group a ih => show oneD _ = _; rw [ih]; rfl
  | times min max a ih =>
    show timesD ((a.rename f).den δ) ((a.rename f).part ((a.rename f).den δ)) min max = _
    rw [ih, rename_part]
    rfl
  | _ => rfl

theorem rename_fine {known : List N} {known' : List M} (hk : ∀ n ∈ known, f n ∈ known') {e : GExpr N} (h : e.Fine known) :
    (e.rename f).Fine known' := by
  induction e with
  | ref n => exact hk n h
  | seq a b iha ihb => exact ⟨iha h.1, ihb h.2⟩
  | alt a b iha ihb => exact ⟨iha h.1, ihb h.2⟩
  | app g c a ih => exact ih h
  | group a ih => exact ih h
  | times min max a ih => exact ⟨h.1, ih h.2⟩
  | excl order bits nm xs => exact h
  | _ => trivial

theorem rename_defn {known : List N} {known' : List M} (hk : ∀ n ∈ known, f n ∈ known') (hd : ∀ n, δ (f n) = δ' n)
    (d : Defn N) (h : d.Fine known δ') : (d.rename f).Fine known' δ ∧ (d.rename f).den δ = d.den δ' := by
  cases d with
  | named p e =>
    refine ⟨rename_fine hk h, ?_⟩
    show anyOrder (oneD _) = _
    rw [rename_den hd]
    rfl
  | list ows e =>
    refine ⟨⟨hk _ h.1, (hd ows).trans h.2.1, rename_fine hk h.2.2.1, ?_⟩, ?_⟩
    · rw [rename_den hd]
      exact h.2.2.2
    · show listD _ = _
      rw [rename_den hd]
      rfl
  | list1 ows e =>
    refine ⟨⟨hk _ h.1, (hd ows).trans h.2.1, rename_fine hk h.2.2.1, ?_⟩, ?_⟩
    · rw [rename_den hd]
      exact h.2.2.2
    · show list1D _ = _
      rw [rename_den hd]
      rfl
  | nested first last e =>
    refine ⟨rename_fine (known := none :: known.map some) (fun n hn => ?_) h, ?_⟩
    · cases n with
      | none => exact .head _
      | some n =>
        obtain ⟨m, hm, e⟩ := List.mem_map.mp ((List.mem_cons.mp hn).resolve_left nofun)
        cases e
        exact .tail _ (List.mem_map.mpr ⟨f n, hk n hm, rfl⟩)
    · refine congrArg overAndOver (funext fun X => ?_)
      refine congrArg (fun D => anyOrder (oneD D)) (rename_den (e := e.between first last) (f := Option.map f) fun n => ?_)
      cases n with
      | none => rfl
      | some n => exact hd n

/-- What follows an import may use what was imported. -/
theorem solves_import {known : List N} {known' : List M} {ds : List (N × Defn N)} {rest : List (M × Defn M)}
    (hk : ∀ n ∈ known, f n ∈ known') (hd : ∀ n, δ (f n) = δ' n) (h : Solves known δ' ds)
    (hr : Solves ((ds.map fun x => f x.1).reverse ++ known') δ rest) : Solves known' δ (importDefs f ds ++ rest) := by
  induction ds generalizing known known' with
  | nil => exact hr
  | cons x ds ih =>
    obtain ⟨h1, h2, h3⟩ := h
    obtain ⟨k1, k2⟩ := rename_defn hk hd x.2 h1
    refine ⟨k1, ?_, ih (known := x.1 :: known) ?_ h3 ?_⟩
    · rw [k2, h2, hd]
    · intro n hn
      rcases List.mem_cons.mp hn with rfl | hn
      · exact .head _
      · exact .tail _ (hk n hn)
    · simpa [List.append_assoc] using hr

end Httpolice.Lemmas
