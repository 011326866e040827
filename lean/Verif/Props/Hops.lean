import Verif.Lemmas.Hops
import Verif.Props.Reads
import Verif.Props.Dates

/-!
# C73: headers for one connection
-/

namespace Httpolice.Props

open Httpolice.Model Httpolice.Spec Httpolice.Lemmas

section
variable {order : List Nat → List Nat} (ho : ∀ l c, c ∈ order l ↔ c ∈ l) {env : HopName → Sym} {h h' : PyHeap}
  (hb : Builds true Heap.init h) (later : Builds true (runDefs env h (hopDefs order)).2 h') (ann : GVal → Bool)
include ho hb later

/-- **C73**: Connection. -/
theorem C73_connection : ∃ k, (runDefs env h (hopDefs order)).1 .connection = .nt k ∧
    Reads (fun data => innerParse h'.grammar (pyOps ann) data k) (List1Syn.Ok IsToken) (List1Syn.text fun w => w)
      (List1Syn.value (nameValue (str "ConnectionOption"))) (List1Syn.notes fun _ => []) :=
  module_reads hb (hops_solve ho) (by exact of_decide_eq_true (Eq.refl true)) rfl names_inj later ann

/-- **C73**: Trailer. -/
theorem C73_trailer : ∃ k, (runDefs env h (hopDefs order)).1 .trailer = .nt k ∧
    Reads (fun data => innerParse h'.grammar (pyOps ann) data k) (List1Syn.Ok IsToken) (List1Syn.text fun w => w)
      (List1Syn.value (nameValue (str "FieldName"))) (List1Syn.notes fun _ => []) :=
  module_reads hb (hops_solve ho) (by exact of_decide_eq_true (Eq.refl true)) rfl names_inj later ann

/-- **C73**: Upgrade. -/
theorem C73_upgrade : ∃ k, (runDefs env h (hopDefs order)).1 .upgrade = .nt k ∧
    Reads (fun data => innerParse h'.grammar (pyOps ann) data k) (List1Syn.Ok Protocol.Ok) (List1Syn.text Protocol.text)
      (List1Syn.value Protocol.value) (List1Syn.notes fun _ => []) :=
  module_reads hb (hops_solve ho) (by exact of_decide_eq_true (Eq.refl true)) rfl protocol_inj later ann

/-- **C73**: Transfer-Encoding. -/
theorem C73_transfer_encoding : ∃ k, (runDefs env h (hopDefs order)).1 .transferEncoding = .nt k ∧
    Reads (fun data => innerParse h'.grammar (pyOps ann) data k) (List1Syn.Ok CodingSyn.Ok) (List1Syn.text CodingSyn.text)
      (List1Syn.value CodingSyn.value) (List1Syn.notes CodingSyn.notes) :=
  module_reads hb (hops_solve ho) (by exact of_decide_eq_true (Eq.refl true)) rfl codings_inj later ann

/-- **C73**: TE. -/
theorem C73_te : ∃ k, (runDefs env h (hopDefs order)).1 .te = .nt k ∧
    Reads (fun data => innerParse h'.grammar (pyOps ann) data k) (ListSyn.Ok TeSyn.Ok) (ListSyn.text TeSyn.text)
      (ListSyn.value TeSyn.value) (ListSyn.notes TeSyn.notes) :=
  module_reads hb (hops_solve ho) (by exact of_decide_eq_true (Eq.refl true)) rfl te_inj later ann

/-- **C73**: Content-Length. -/
theorem C73_content_length : ∃ k, (runDefs env h (hopDefs order)).1 .contentLength = .nt k ∧
    Reads (fun data => innerParse h'.grammar (pyOps ann) data k) IsNumeral (fun w => w) (fun w => .int (numeral w))
      (fun _ => []) :=
  module_reads hb (hops_solve ho) (by exact of_decide_eq_true (Eq.refl true)) rfl (fun _ _ _ _ e => e) later ann

end

/-! ## Examples -/

/-- The conditions of the theorems. -/
example : (∀ (l : List Nat) c, c ∈ id l ↔ c ∈ l) ∧ Builds true Heap.init Heap.init := ⟨fun _ _ => Iff.rfl, .refl⟩

/-- `foo;a = "b\\c"` -/
def someCoding : CodingSyn := ⟨str "foo", [(([], []), ⟨str "a", str " ", str " ", .quoted [.plain 98, .escaped 99]⟩)]⟩

/-- `Trailers, foo;a = "b\\c" ; Q=0.5,` -/
def someTe : ListSyn TeSyn := ⟨some (.trailers (str "Trailers"), []),
  [(str " ", some (.coding someCoding (some ⟨str " ", str " ", str "Q=", ⟨false, some (str "5")⟩⟩), [])), ([], none)]⟩

theorem someCoding_ok : someCoding.Ok := by
  refine ⟨⟨by decide +kernel, ?_⟩, ?_, ?_⟩
  · exact fun c hc => (tchar_iff c).mp ((by decide +kernel : ∀ c ∈ someCoding.name, tcharBits c = true) c hc)
  · intro x hx
    obtain rfl := List.mem_singleton.mp hx
    refine ⟨⟨nofun, nofun⟩, ⟨by decide +kernel, ?_⟩, ?_, ?_, ?_⟩
    · exact fun c hc => (tchar_iff c).mp ((by decide +kernel : ∀ c ∈ str "a", tcharBits c = true) c hc)
    · exact fun c hc => .inl (List.mem_singleton.mp hc)
    · exact fun c hc => .inl (List.mem_singleton.mp hc)
    · show ∀ c ∈ _, QChar.Ok c
      decide +kernel
  · rintro (h | h | h | h) <;> exact absurd h (by decide +kernel)

example : someTe.Ok TeSyn.Ok := by
  refine ⟨⟨by show SameWord _ _; decide +kernel, nofun⟩, fun x hx => ?_⟩
  simp only [someTe, List.mem_cons, List.not_mem_nil, or_false] at hx
  rcases hx with rfl | rfl
  · refine ⟨fun c hc => .inl (List.mem_singleton.mp hc), ⟨someCoding_ok, by decide +kernel, ?_, ?_⟩, nofun⟩
    · intro p hp
      obtain rfl := List.mem_singleton.mp hp
      decide +kernel
    · rintro _ ⟨⟩
      refine ⟨fun c hc => .inl (List.mem_singleton.mp hc), fun c hc => .inl (List.mem_singleton.mp hc), by decide +kernel, ?_⟩
      rintro _ ⟨⟩
      exact ⟨by decide, by decide +kernel⟩
  · exact ⟨nofun, trivial⟩

example : someTe.text TeSyn.text = str "Trailers, foo;a = \"b\\c\" ; Q=0.5," ∧
    (someTe.notes TeSyn.notes).map Prod.fst = [1015, 1015, 1017, 1151] := ⟨by decide +kernel, by decide +kernel⟩

/-- What is needed for Connection. -/
def onlyConnection : List (HopName × Defn HopName) := (hopDefs id).filter fun x =>
  x.1 ∈ [.str .token, .str .ows, .connectionOption, .connectionOptions, .connection]

/-- The grammar, with nothing built before or after. -/
def connectionHeap : PyHeap := (loadDefs onlyConnection).2

example : halvesNumber ((loadDefs onlyConnection).1 .connection) = some 41 := by decide +kernel

example : shown (innerParse connectionHeap.grammar (pyOps fun _ => false) (str "close,, Foo") 41) =
    some (some (render (.list [nameValue (str "ConnectionOption") (str "close"),
      nameValue (str "ConnectionOption") (str "Foo")])), [1151]) := by decide +kernel

example : shown (innerParse connectionHeap.grammar (pyOps fun _ => false) (str ",") 41) = none := by decide +kernel

end Httpolice.Props
