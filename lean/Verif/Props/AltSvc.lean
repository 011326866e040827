import Verif.Lemmas.AltSvc
import Verif.Props.Languages

/-!
# C83: alternative services
-/

namespace Httpolice.Props

open Httpolice.Model Httpolice.Spec Httpolice.Lemmas

set_option maxRecDepth 10000 in
theorem alt_shapes {order : List Nat → List Nat} {P Q : AltParser} : shapes (altDefs order P) = shapes (altDefs id Q) := rfl

/-- **C83**: the name in the report names the same protocol, and is written in the right way. -/
theorem C83_correct (l : ProtocolSyn) (h : l.Ok) :
    ProtocolSyn.Ok (l.bytes.map properly) ∧ (∀ c ∈ l.bytes.map properly, c.Proper) ∧
      ProtocolSyn.bytes (l.bytes.map properly) = l.bytes := by
  obtain ⟨h1, h2, h3⟩ := properly_all h.2.1
  refine ⟨⟨fun e => h.1 (List.map_eq_nil_iff.mp (List.map_eq_nil_iff.mp e)), fun c hc => (h1 c hc).1, h2⟩,
    fun c hc => (h1 c hc).2, h3⟩

/-- **C83**: there is just one right way to write a name. -/
theorem C83_canonical (l m : ProtocolSyn) (hl : l.Ok) (hm : m.Ok) (pl : ∀ c ∈ l, c.Proper) (pm : ∀ c ∈ m, c.Proper)
    (e : l.bytes = m.bytes) : l.text = m.text := by
  rw [(proper_all_iff hl.2.1 hl.2.2).mpr pl, (proper_all_iff hm.2.1 hm.2.2).mpr pm, e]

/-- **C83**: what `_check_alt_authority` gives the value to. -/
theorem C83_authority {env : AuthorityName → Sym} {h h' : PyHeap} (hb : Builds true Heap.init h)
    (later : Builds true (runDefs env h authorityDefs).2 h') (ann : GVal → Bool) :
    ∃ k, (runDefs env h authorityDefs).1 .whole = .nt k ∧
      ReadsVerbatim (fun data => innerParse h'.grammar (pyOps ann) data k) IsAltAuthority :=
  module_reads hb authority_solve (by decide +kernel) rfl (fun _ _ _ _ e => e) later ann

section
variable {order : List Nat → List Nat} (ho : ∀ l c, c ∈ order l ↔ c ∈ l) {P : AltParser} {env : AltName → Sym} {h h' : PyHeap}
  (hb : Builds true Heap.init h) (later : Builds true (runDefs env h (altDefs order P)).2 h') (ann : GVal → Bool)
include ho hb later

/-- **C83**: names of protocols. -/
theorem C83_protocol : ∃ k, (runDefs env h (altDefs order P)).1 .protocolId = .nt k ∧
    Reads (fun data => innerParse h'.grammar (pyOps ann) data k) ProtocolSyn.Ok ProtocolSyn.text
      (fun l => .obj (str "bytes") [.text l.bytes]) ProtocolSyn.notes :=
  module_reads hb (alts_solve ho P) (known_shapes (alt_shapes (Q := fun _ => .error .index)) (by decide +kernel)) rfl
    (fun _ _ h1 h2 e => protocolSyn_inj h1 h2 e) later ann

/-- **C83**: Alt-Svc, if authorities are read as they should be. -/
theorem C83_alt_svc (hP : ReadsVerbatim P IsAltAuthority) : ∃ k, (runDefs env h (altDefs order P)).1 .altSvc = .nt k ∧
    Reads (fun data => innerParse h'.grammar (pyOps ann) data k) AltSvcSyn.Ok AltSvcSyn.text AltSvcSyn.value
      (AltSvcSyn.notes P) := by
  have e1 : (fun w => (authorityBy P w).1) = authorityValue := funext fun w => (authority_value hP w).1
  have e2 : (fun w => (authorityBy P w).2) = authorityNotes P := funext fun w => (authority_value hP w).2
  have hD : altD P .altSvc = tabD AltSvcSyn.Ok AltSvcSyn.text (fun x => [x.value]) (AltSvcSyn.notes P) := by
    show tabD _ _ _ _ = _
    rw [e1, e2]
    rfl
  exact module_reads hb (alts_solve ho P) (known_shapes (alt_shapes (Q := fun _ => .error .index)) (by decide +kernel)) hD
    altSvc_inj later ann

/-- **C83**: Alt-Used. -/
theorem C83_alt_used : ∃ k, (runDefs env h (altDefs order P)).1 .altUsed = .nt k ∧
    ReadsVerbatim (fun data => innerParse h'.grammar (pyOps ann) data k) IsHostHeader :=
  module_reads hb (alts_solve ho P) (known_shapes (alt_shapes (Q := fun _ => .error .index)) (by decide +kernel)) rfl
    (fun _ _ _ _ e => e) later ann

/-- **C83**: how long it is fresh. -/
theorem C83_ma : ∃ k, (runDefs env h (altDefs order P)).1 .ma = .nt k ∧
    Reads (fun data => innerParse h'.grammar (pyOps ann) data k) IsNumeral (fun w => w) (fun w => .int (numeral w))
      (fun _ => []) :=
  module_reads hb (alts_solve ho P) (known_shapes (alt_shapes (Q := fun _ => .error .index)) (by decide +kernel)) rfl
    (fun _ _ _ _ e => e) later ann

/-- **C83**: whether it lasts. -/
theorem C83_persist : ∃ k, (runDefs env h (altDefs order P)).1 .persist = .nt k ∧
    Reads (fun data => innerParse h'.grammar (pyOps ann) data k) (fun w => w = str "1") (fun w => w)
      (fun _ => .obj (str "True") []) (fun _ => []) :=
  module_reads hb (alts_solve ho P) (known_shapes (alt_shapes (Q := fun _ => .error .index)) (by decide +kernel)) rfl
    (fun _ _ _ _ e => e) later ann

end

/-- **C83**: Alt-Svc, with the parser for authorities that the code makes. -/
theorem C83_whole {order : List Nat → List Nat} (ho : ∀ l c, c ∈ order l ↔ c ∈ l) {aenv : AuthorityName → Sym} {g g' : PyHeap}
    (ha : Builds true Heap.init g) (alater : Builds true (runDefs aenv g authorityDefs).2 g') {env : AltName → Sym} {h : PyHeap}
    (hb : Builds true Heap.init h) (ann : GVal → Bool) :
    ∃ j, (runDefs aenv g authorityDefs).1 .whole = .nt j ∧ ∀ (P : AltParser),
      P = (fun data => innerParse g'.grammar (pyOps ann) data j) → ∀ h', Builds true (runDefs env h (altDefs order P)).2 h' →
        ∃ k, (runDefs env h (altDefs order P)).1 .altSvc = .nt k ∧
          Reads (fun data => innerParse h'.grammar (pyOps ann) data k) AltSvcSyn.Ok AltSvcSyn.text AltSvcSyn.value
            (AltSvcSyn.notes P) := by
  obtain ⟨j, hj, hr⟩ := C83_authority (env := aenv) ha alater ann
  refine ⟨j, hj, ?_⟩
  rintro P rfl h' later
  exact C83_alt_svc ho hb later ann hr

/-! ## Some cases -/

/-- `w%3Dx`: in the right way. -/
def someProtocol : ProtocolSyn := [.plain 119, .percent 51 68, .plain 120]

example : someProtocol.Ok ∧ someProtocol.text = str "w%3Dx" ∧ someProtocol.bytes = str "w=x" := by
  refine ⟨⟨nofun, fun c hc => ?_, fun l1 a b l2 e => ?_⟩, by decide +kernel, by decide +kernel⟩
  · simp only [someProtocol, List.mem_cons, List.not_mem_nil, or_false] at hc
    rcases hc with rfl | rfl | rfl
    · exact .inr (.inl (by decide))
    · exact ⟨.inl (by unfold IsDigit; decide), .inr (.inl (by decide))⟩
    · exact .inr (.inl (by decide))
  · have : XChar.plain 37 ∈ someProtocol := e ▸ by simp
    exact absurd this (by decide +kernel)

example : someProtocol.notes = [] := by
  refine if_pos fun c hc => ?_
  simp only [someProtocol, List.mem_cons, List.not_mem_nil, or_false] at hc
  rcases hc with rfl | rfl | rfl
  · show 119 ≠ 37
    decide
  · refine ⟨.inl (by unfold IsDigit; decide), .inr (by decide), ?_⟩
    unfold IsTchar
    decide +kernel
  · show 120 ≠ 37
    decide

/-- `w%3dx` is not. -/
example : ∃ c, ProtocolSyn.notes [.plain 119, .percent 51 100, .plain 120] = [(1256, c)] := by
  refine ⟨_, if_neg fun h => ?_⟩
  have := h (.percent 51 100) (by simp)
  simp [XChar.Proper, IsDigit] at this

/-- What is needed for Alt-Svc. -/
def onlyAlt (P : AltParser) : List (AltName × Defn AltName) := (altDefs id P).filter fun x =>
  x.1 ∈ [.cache (.hop (.str .token)), .cache (.hop (.str .pair)), .cache (.hop (.str .quoted)), .cache (.hop (.str .ows)),
    .clear, .protocolId, .altAuthority, .alternative, .parameter, .altValue, .altValues, .altSvc]

/-- A parser for `:443` alone. -/
def oneAuthority : AltParser := fun w => if w = str ":443" then .ok (.val (.text w), [], []) else .error .index

/-- `h2=":443"; ma=3600`. -/
def someAlt : AltSyn := ⟨[.plain 104, .plain 50], (str ":443").map QChar.plain, [(([], [32]), ⟨str "ma", .token (str "3600")⟩)]⟩

example : halvesNumber ((loadDefs (onlyAlt oneAuthority)).1 .altSvc) = some 82 ∧
    someAlt.text = str "h2=\":443\"; ma=3600" := ⟨by decide +kernel, by decide +kernel⟩

example : shown (innerParse (loadDefs (onlyAlt oneAuthority)).2.grammar (pyOps fun _ => false) someAlt.text 82) =
    some (some (render (.list [someAlt.valueBy GVal.text])), []) := by decide +kernel

example : shown (innerParse (loadDefs (onlyAlt oneAuthority)).2.grammar (pyOps fun _ => false) (str "clear") 82) =
    some (some (render (AltSvcSyn.valueBy GVal.text .clear)), []) := by decide +kernel

/-- The protocol in an odd way, and no port. -/
def oddAlt : AltSyn := ⟨[.percent 54 56, .plain 50], (str "x").map QChar.plain, []⟩

example : shown (innerParse (loadDefs (onlyAlt oneAuthority)).2.grammar (pyOps fun _ => false) oddAlt.text 82) =
    some (some (render (.list [oddAlt.valueBy unavailableObj])), [1256, 1257]) := by decide +kernel

/-- Any authority has a colon. -/
example : ¬ IsAltAuthority (str "x") := by
  rintro ⟨a, b, _, _, e⟩
  have : 58 ∈ str "x" := e ▸ by simp
  exact absurd this (by decide +kernel)

end Httpolice.Props
