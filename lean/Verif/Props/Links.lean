import Verif.Lemmas.Links
import Verif.Props.Reads
import Verif.Props.Uri
import Verif.Props.Settings

/-!
# C79: links
-/

namespace Httpolice.Props

open Httpolice.Model Httpolice.Spec Httpolice.Lemmas

/-- **C79**: `_process_params` returns exactly what the parameters become, or else raises an exception; and it does the latter
exactly if a parameter that counts lacks a value. -/
theorem C79_params (P : LinkParser) (l : List LinkEntry) :
    (∀ v cs, processParams P (l.map wire) = .ok (v, cs) ↔ Sound l ∧ Become P l v cs) ∧
      ((∃ r, processParams P (l.map wire) = .ok r) ↔ Sound l) ∧
      ((∃ e, processParams P (l.map wire) = .error e) ↔ ∃ x ∈ counted l, Lacking x) := by
  refine ⟨fun v cs => process_ok, ?_, ?_⟩
  · rcases process_spec P l with ⟨v, cs, e, h, _⟩ | ⟨err, e, x, hx, h⟩
    · exact ⟨fun _ => h, fun _ => ⟨_, e⟩⟩
    · exact ⟨(fun ⟨r, k⟩ => by rw [e] at k; cases k), fun k => absurd h (k x hx)⟩
  · rcases process_spec P l with ⟨v, cs, e, h, _⟩ | ⟨err, e, x, hx, h⟩
    · exact ⟨(fun ⟨r, k⟩ => by rw [e] at k; cases k), fun ⟨x, hx, k⟩ => absurd k (h x hx)⟩
    · exact ⟨fun _ => ⟨x, hx, h⟩, fun _ => ⟨_, e⟩⟩

theorem gives (P : LinkParser) (x : LinkSyn) : x.Gives P (LinkSyn.made P x, LinkSyn.told P x) := by
  refine ⟨(made P x.entries).1, (made P x.entries).2, rfl, ?_⟩
  unfold made
  rcases process_spec P x.entries with ⟨v, cs, e, h, hb⟩ | ⟨err, e, y, hy, h⟩
  · rw [e]
    exact .inl ⟨h, hb⟩
  · rw [e]
    exact .inr ⟨fun k => k y hy h, ⟨err, rfl⟩, rfl⟩

theorem pairwise_map {α β : Type} {R : α → β → Prop} {f : α → β} (h : ∀ a, R a (f a)) (l : List α) :
    Pairwise2 R l (l.map f) := by
  induction l with
  | nil => exact .nil
  | cons a l ih => exact .cons (h a) ih

/-- **C79**: Link. All links are read, in this order, with their targets and parameters as they are. Whitespace after a parameter
without a value can be understood in several ways: as bad whitespace in the parameter, with 1015, or as what may follow it; `y` is
how it was understood. -/
theorem C79_link {P : LinkParser} {h h' : PyHeap} {env : LinkName → Sym} (hb : Builds true Heap.init h)
    (later : Builds true (runDefs env h (linkDefs P)).2 h') (ann : GVal → Bool) :
    ∃ k, (runDefs env h (linkDefs P)).1 .link = .nt k ∧
      Takes (fun data => innerParse h'.grammar (pyOps ann) data k) (ListSyn.Ok LinkSyn.Ok) (ListSyn.text LinkSyn.text) ∧
      ∀ x : ListSyn LinkSyn, x.Ok LinkSyn.Ok → ∃ (y : ListSyn LinkSyn) (rs : List (GVal × List PyComplaint)) (cs : List PyComplaint)
        (as : List (Annot GVal)), y.Ok LinkSyn.Ok ∧ y.text LinkSyn.text = x.text LinkSyn.text ∧
        (y.elems.map fun a => (a.target, a.entries)) = (x.elems.map fun a => (a.target, a.entries)) ∧
        Pairwise2 (LinkSyn.Gives P) y.elems rs ∧
        innerParse h'.grammar (pyOps ann) (x.text LinkSyn.text) k = .ok (.val (.list (rs.map Prod.fst)), cs, as) ∧
        cs.Perm (rs.flatMap Prod.snd ++ gapNotes y.Gaps) := by
  obtain ⟨k, hk, ht, hr⟩ := module_some (n := .link) (env := env) hb (links_solve P)
    (by exact of_decide_eq_true (Eq.refl true)) rfl later ann
  refine ⟨k, hk, ht, fun x hx => ?_⟩
  obtain ⟨⟨node, cs, as⟩, he⟩ := (ht _).1.mpr ⟨x, hx, rfl⟩
  obtain ⟨y, h1, h2, h3, h4⟩ := hr _ _ _ _ he
  refine ⟨y, y.elems.map fun a => (LinkSyn.made P a, LinkSyn.told P a), cs, as, h1, h2.symm, links_same h1 hx h2.symm,
    pairwise_map (gives P) _, ?_, ?_⟩
  · refine he.trans ?_
    rw [h3]
    simp [ListSyn.value, List.map_map, Function.comp_def]
  · simpa [ListSyn.notes, List.flatMap_map] using h4

/-! ## Examples -/

/-- Here no value can be read. -/
abbrev noParser : LinkParser := fun _ _ => .error .index

/-- `rel=next; title="b"; Rel=prev`: the second `rel` does not count. -/
example : Sound [(str "rel", some (.token (str "next"))), (str "title", some (.quoted [.plain 98])),
    (str "Rel", some (.token (str "prev")))] :=
  (C79_params noParser _).2.1.mp ⟨_, rfl⟩

/-- `title` alone; and `media=x; hreflang`. -/
example : (∃ x ∈ counted [(str "title", none)], Lacking x) ∧
    ∃ x ∈ counted [(str "media", some (.token (str "x"))), (str "hreflang", none)], Lacking x :=
  ⟨(C79_params noParser _).2.2.mp ⟨.unbound, rfl⟩, (C79_params noParser _).2.2.mp ⟨.noValue, rfl⟩⟩

/-- `media=x; title`: 1307 for the other parameter, and 1309. -/
example : (match processParams noParser ([(str "media", some (.token (str "x"))), (str "title", none)].map wire) with
    | .ok (_, cs) => some (cs.map Prod.fst)
    | .error _ => none) = some [1307, 1309] := by decide +kernel

/-- `, </a>; rel=next`. -/
def someLinks : ListSyn LinkSyn :=
  ⟨none, [([32], some (⟨str "/a", [(([], [32]), ⟨str "rel", [], some ([], .token (str "next"))⟩)]⟩, []))]⟩

example : someLinks.Ok LinkSyn.Ok ∧ someLinks.text LinkSyn.text = str ", </a>; rel=next" ∧ someLinks.Gaps := by
  refine ⟨⟨trivial, fun x hx => ?_⟩, by decide +kernel, by decide +kernel⟩
  obtain rfl := List.mem_singleton.mp hx
  have sp : IsOws [32] := fun c hc => .inl (List.mem_singleton.mp hc)
  refine ⟨sp, ⟨⟨⟨none, none, str "/a", none, none⟩, ⟨nofun, nofun, path_bits _ (by decide +kernel), nofun, nofun, nofun,
    fun _ => by decide +kernel, fun _ _ => by decide +kernel⟩, by decide +kernel⟩, fun y hy => ?_⟩, nofun⟩
  obtain rfl := List.mem_singleton.mp hy
  refine ⟨⟨nofun, sp⟩, isToken_bits (by decide +kernel), nofun, fun s w e => ?_⟩
  cases e
  exact ⟨nofun, isToken_bits (by decide +kernel)⟩

end Httpolice.Props
