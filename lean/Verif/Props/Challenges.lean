import Verif.Lemmas.ChallengesText
import Verif.Props.Negotiation

/-!
# Challenges and credentials

**C76.** The grammars of RFC 7235, built by Python as the module does it, read challenges and credentials as they are written.
-/

namespace Httpolice.Props

open Httpolice.Model Httpolice.Spec Httpolice.Lemmas

section
variable {h h' : PyHeap} {env : AuthName → Sym}
  (hb : Builds true Heap.init h) (later : Builds true (runDefs env h authDefs).2 h') (ann : GVal → Bool)
include hb later

/-- **C76**: Authorization and Proxy-Authorization. -/
theorem C76_credentials {n : AuthName} (hn : n = .authorization ∨ n = .proxyAuthorization) :
    ∃ k, (runDefs env h authDefs).1 n = .nt k ∧
      Reads (fun data => innerParse h'.grammar (pyOps ann) data k) AuthSyn.Ok AuthSyn.text AuthSyn.value AuthSyn.notes := by
  rcases hn with rfl | rfl
  · exact module_reads hb auths_solve (by exact of_decide_eq_true (Eq.refl true)) rfl auth_inj later ann
  · exact module_reads hb auths_solve (by exact of_decide_eq_true (Eq.refl true)) rfl auth_inj later ann

/-- **C76**: WWW-Authenticate and Proxy-Authenticate. Some commas may belong to the list of challenges or to that of
parameters; this makes no difference but for how many times 1151 is reported. -/
theorem C76_challenges {n : AuthName} (hn : n = .wwwAuthenticate ∨ n = .proxyAuthenticate) :
    ∃ k, (runDefs env h authDefs).1 n = .nt k ∧
      ReadsButGaps (fun data => innerParse h'.grammar (pyOps ann) data k) (List1Syn.Ok AuthSyn.Ok) (List1Syn.text AuthSyn.text)
        (List1Syn.value AuthSyn.value) (List1Syn.notes AuthSyn.notes) := by
  rcases hn with rfl | rfl
  · obtain ⟨k, hk, hr⟩ := module_some (env := env) (n := .wwwAuthenticate) hb auths_solve
      (by exact of_decide_eq_true (Eq.refl true)) rfl later ann
    exact ⟨k, hk, readsButGaps_of_some hr fun _ _ => challenges_same⟩
  · obtain ⟨k, hk, hr⟩ := module_some (env := env) (n := .proxyAuthenticate) hb auths_solve
      (by exact of_decide_eq_true (Eq.refl true)) rfl later ann
    exact ⟨k, hk, readsButGaps_of_some hr fun _ _ => challenges_same⟩

end

/-! ## Examples -/

/-- `Basic Realm=x, b = "c"` -/
def oneChallenge : AuthSyn := ⟨str "Basic", .params (str " ") ⟨some (⟨str "Realm", [], [], .token (str "x")⟩, []),
  [(str " ", some (⟨str "b", str " ", str " ", .quoted [.plain 99]⟩, []))]⟩⟩

/-- `Negotiate a==` -/
def otherChallenge : AuthSyn := ⟨str "Negotiate", .token (str " ") ⟨str "a", 2⟩⟩

theorem oneChallenge_ok : oneChallenge.Ok := by
  refine ⟨isToken_bits (by decide +kernel), ⟨by decide +kernel, by decide +kernel⟩, ⟨⟨isToken_bits (by decide +kernel), nofun,
    nofun, isToken_bits (by decide +kernel)⟩, nofun⟩, fun x hx => ?_⟩
  obtain rfl := List.mem_singleton.mp hx
  have blank : IsOws (str " ") := fun c hc => .inl (List.mem_singleton.mp hc)
  refine ⟨blank, ⟨isToken_bits (by decide +kernel), blank, blank, ?_⟩, nofun⟩
  show ∀ c ∈ _, QChar.Ok c
  decide +kernel

theorem otherChallenge_ok : otherChallenge.Ok :=
  ⟨isToken_bits (by decide +kernel), ⟨by decide +kernel, by decide +kernel⟩, by decide +kernel,
    fun c hc => (token68_iff c).mp (by revert c; decide +kernel)⟩

example : oneChallenge.text = str "Basic Realm=x, b = \"c\"" ∧ otherChallenge.text = str "Negotiate a==" ∧
    oneChallenge.notes.map Prod.fst = [1196, 1015, 1015] := ⟨by decide +kernel, by decide +kernel, by decide +kernel⟩

/-- `Basic Realm=x, b = "c",, Negotiate a==` -/
def someChallenges : List1Syn AuthSyn := ⟨[], oneChallenge, [([], none), ([], some (str " ", otherChallenge))]⟩

example : someChallenges.Ok AuthSyn.Ok := by
  refine ⟨nofun, oneChallenge_ok, fun x hx => ?_⟩
  rcases List.mem_cons.mp hx with rfl | hx
  · exact ⟨nofun, trivial⟩
  · obtain rfl := List.mem_singleton.mp hx
    exact ⟨nofun, fun c hc => .inl (List.mem_singleton.mp hc), otherChallenge_ok⟩

/-- The gap may also be in the list of parameters. -/
example : someChallenges.text AuthSyn.text = str "Basic Realm=x, b = \"c\",, Negotiate a==" ∧
    List1Syn.text AuthSyn.text ⟨[], ⟨str "Basic", .params (str " ") ⟨some (⟨str "Realm", [], [], .token (str "x")⟩, []),
      [(str " ", some (⟨str "b", str " ", str " ", .quoted [.plain 99]⟩, [])), ([], none)]⟩⟩,
      [([], some (str " ", otherChallenge))]⟩ = str "Basic Realm=x, b = \"c\",, Negotiate a==" :=
  ⟨by decide +kernel, by decide +kernel⟩

/-- The condition of the theorems. -/
example : Builds true Heap.init Heap.init := .refl

/-- The grammar, with nothing built before or after. -/
def authHeap : PyHeap := (loadDefs authDefs).2

example : halvesNumber ((loadDefs authDefs).1 .wwwAuthenticate) = some 128 := by decide +kernel

example : shown (innerParse authHeap.grammar (pyOps fun _ => false) (str "B Realm=x,,N a==") 128) =
    some (some (render (.list [AuthSyn.value ⟨str "B", .params [32] ⟨some (⟨str "Realm", [], [], .token (str "x")⟩, []), []⟩⟩,
      AuthSyn.value ⟨str "N", .token [32] ⟨str "a", 2⟩⟩])), [1196, 1151]) := by decide +kernel

end Httpolice.Props
