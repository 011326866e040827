import Verif.Lemmas.Uri
import Verif.Props.Reads

/-!
# URIs

**C77.** The grammars of RFC 3986, and of RFC 7230 and RFC 7231 where they are about URIs, accept exactly the URIs that
are allowed, and return them as they are; the target of a request is of the form that its method allows.
-/

namespace Httpolice.Props

open Httpolice.Model Httpolice.Spec Httpolice.Lemmas

section
variable {h h' : PyHeap} {env : UriName → Sym}
  (hb : Builds true Heap.init h) (later : Builds true (runDefs env h uriDefs).2 h') (ann : GVal → Bool)
include hb later

/-- **C77**: references, for instance in `Location`. -/
theorem C77_reference {n : UriName} (hn : n = .uriReference ∨ n = .location) :
    ∃ k, (runDefs env h uriDefs).1 n = .nt k ∧
      ReadsVerbatim (fun data => innerParse h'.grammar (pyOps ann) data k) IsUriReference := by
  rcases hn with rfl | rfl
  · exact module_reads hb uris_solve (by exact of_decide_eq_true (Eq.refl true)) rfl (fun _ _ _ _ h => h) later ann
  · exact module_reads hb uris_solve (by exact of_decide_eq_true (Eq.refl true)) rfl (fun _ _ _ _ h => h) later ann

/-- **C77**: absolute URIs have no fragment. -/
theorem C77_absolute : ∃ k, (runDefs env h uriDefs).1 .absoluteUri = .nt k ∧
    ReadsVerbatim (fun data => innerParse h'.grammar (pyOps ann) data k) IsAbsoluteUri :=
  module_reads hb uris_solve (by exact of_decide_eq_true (Eq.refl true)) rfl (fun _ _ _ _ h => h) later ann

/-- **C77**: URIs have a scheme. -/
theorem C77_uri : ∃ k, (runDefs env h uriDefs).1 .uri = .nt k ∧
    ReadsVerbatim (fun data => innerParse h'.grammar (pyOps ann) data k)
      (fun w => ∃ u : Uri, u.Ok ∧ u.scheme ≠ none ∧ w = u.text) :=
  module_reads hb uris_solve (by exact of_decide_eq_true (Eq.refl true)) rfl (fun _ _ _ _ h => h) later ann

/-- **C77**: Content-Location and Referer have no fragment. -/
theorem C77_no_fragment {n : UriName} (hn : n = .contentLocation ∨ n = .referer) :
    ∃ k, (runDefs env h uriDefs).1 n = .nt k ∧
      ReadsVerbatim (fun data => innerParse h'.grammar (pyOps ann) data k) IsUriNoFragment := by
  rcases hn with rfl | rfl
  · exact module_reads hb uris_solve (by exact of_decide_eq_true (Eq.refl true)) rfl (fun _ _ _ _ h => h) later ann
  · exact module_reads hb uris_solve (by exact of_decide_eq_true (Eq.refl true)) rfl (fun _ _ _ _ h => h) later ann

/-- **C77**: Host. -/
theorem C77_host : ∃ k, (runDefs env h uriDefs).1 .hostHeader = .nt k ∧
    ReadsVerbatim (fun data => innerParse h'.grammar (pyOps ann) data k) IsHostHeader :=
  module_reads hb uris_solve (by exact of_decide_eq_true (Eq.refl true)) rfl (fun _ _ _ _ h => h) later ann

/-- **C77**: addresses. -/
theorem C77_ipv6 : ∃ k, (runDefs env h uriDefs).1 .ipv6 = .nt k ∧
    ReadsVerbatim (fun data => innerParse h'.grammar (pyOps ann) data k) IsIPv6 :=
  module_reads hb uris_solve (by exact of_decide_eq_true (Eq.refl true)) rfl (fun _ _ _ _ h => h) later ann

/-- **C77**: addresses. -/
theorem C77_ipv4 : ∃ k, (runDefs env h uriDefs).1 .ipv4 = .nt k ∧
    ReadsVerbatim (fun data => innerParse h'.grammar (pyOps ann) data k) IsIPv4 :=
  module_reads hb uris_solve (by exact of_decide_eq_true (Eq.refl true)) rfl (fun _ _ _ _ h => h) later ann

/-- **C77**: targets of requests, whatever their method. -/
theorem C77_any_target : ∃ k, (runDefs env h uriDefs).1 .requestTarget = .nt k ∧
    ReadsVerbatim (fun data => innerParse h'.grammar (pyOps ann) data k)
      (fun w => IsOriginForm w ∨ IsAbsoluteUri w ∨ IsAuthority w ∨ w = str "*") :=
  module_reads hb uris_solve (by exact of_decide_eq_true (Eq.refl true)) rfl (fun _ _ _ _ h => h) later ann

end

/-! ## Targets -/

theorem mark_den (n : UriName) (name : Str) : (GExpr.mark name n).den uriD =
    tabD (uriL n) (fun w => w) (fun w => [.tuple [.obj name [], .text w]]) (fun _ => []) := by
  show appD (markF name) (uriD n) = _
  rw [uriD, tab_app]
  exact tab_iff (fun w h => ⟨w, h, rfl, rfl, rfl⟩) (fun w h => ⟨w, h, rfl, rfl, rfl⟩)

theorem target_den (method : Str) : oneD ((targetE method).den uriD) =
    tabD (TargetSyn.Ok method) TargetSyn.text (fun x => [x.value]) (fun _ => []) := by
  unfold targetE
  split
  · next e =>
    show oneD ((GExpr.mark _ .authorityForm).den uriD) = _
    rw [mark_den, tab_one]
    refine tab_iff (fun w h => ⟨.authority w, ⟨e, h⟩, rfl, rfl, rfl⟩) ?_
    rintro (w | w | w | _) h
    · exact absurd e h.1
    · exact absurd e h.1
    · exact ⟨w, h.2, rfl, rfl, rfl⟩
    · exact absurd (e.symm.trans h) (by decide)
  · next e =>
    split
    · next e2 =>
      show oneD (orD (orD ((GExpr.mark _ .originForm).den uriD) ((GExpr.mark _ .asteriskForm).den uriD))
        ((GExpr.mark _ .absoluteForm).den uriD)) = _
      rw [mark_den, mark_den, mark_den, tab_or, tab_or, tab_one]
      refine tab_iff ?_ ?_
      · rintro ((w | w) | w) h
        · exact ⟨.origin w, ⟨e, h⟩, rfl, rfl, rfl⟩
        · have h : w = str "*" := h
          subst h
          exact ⟨.asterisk, e2, rfl, rfl, rfl⟩
        · exact ⟨.absolute w, ⟨e, h⟩, rfl, rfl, rfl⟩
      · rintro (w | w | w | _) h
        · exact ⟨.inl (.inl w), h.2, rfl, rfl, rfl⟩
        · exact ⟨.inr w, h.2, rfl, rfl, rfl⟩
        · exact absurd h.1 e
        · exact ⟨.inl (.inr (str "*")), rfl, rfl, rfl, rfl⟩
    · next e2 =>
      show oneD (orD ((GExpr.mark _ .originForm).den uriD) ((GExpr.mark _ .absoluteForm).den uriD)) = _
      rw [mark_den, mark_den, tab_or, tab_one]
      refine tab_iff ?_ ?_
      · rintro (w | w) h
        · exact ⟨.origin w, ⟨e, h⟩, rfl, rfl, rfl⟩
        · exact ⟨.absolute w, ⟨e, h⟩, rfl, rfl, rfl⟩
      · rintro (w | w | w | _) h
        · exact ⟨.inl w, h.2, rfl, rfl, rfl⟩
        · exact ⟨.inr w, h.2, rfl, rfl, rfl⟩
        · exact absurd h.1 e
        · exact absurd h e2

theorem origin_begins {w : Str} (h : IsOriginForm w) : w.head? = some 47 := by
  obtain ⟨_ | ⟨c, p⟩, q, _, h, _, rfl⟩ := h
  · cases h
  · exact h

theorem absolute_begins {w : Str} (h : IsAbsoluteUri w) : ∃ c, IsLetter c ∧ w.head? = some c := by
  obtain ⟨⟨_ | s, a, p, q, f⟩, h, hs, _, rfl⟩ := h
  · exact absurd rfl hs
  · obtain ⟨c, r, hc, _, rfl⟩ := h.scheme s rfl
    exact ⟨c, hc, rfl⟩

theorem target_inj {method : Str} (x y : TargetSyn) (hx : x.Ok method) (hy : y.Ok method) (e : x.text = y.text) : x = y := by
  have no1 : ∀ w, IsOriginForm w → ¬ IsAbsoluteUri w := by
    intro w h h'
    obtain ⟨c, hc, e⟩ := absolute_begins h'
    rw [origin_begins h] at e
    cases e
    revert hc
    simp [IsLetter]
  have no2 : ¬ IsOriginForm (str "*") := fun h => absurd (origin_begins h) (by decide +kernel)
  have no3 : ¬ IsAbsoluteUri (str "*") := by
    intro h
    obtain ⟨c, hc, e⟩ := absolute_begins h
    rw [show (str "*").head? = some 42 by decide +kernel] at e
    cases e
    revert hc
    simp [IsLetter]
  cases x <;> cases y <;> simp only [TargetSyn.text] at e <;> try subst e
  all_goals first
    | rfl
    | exact absurd hy.2 (no1 _ hx.2)
    | exact absurd hx.2 (no1 _ hy.2)
    | exact absurd hx.2 no2
    | exact absurd hy.2 no2
    | exact absurd hx.2 no3
    | exact absurd hy.2 no3
    | exact absurd hy.1 hx.1
    | exact absurd hx.1 hy.1
    | exact absurd (hx.1.symm.trans hy) (by decide +kernel)
    | exact absurd (hy.1.symm.trans hx) (by decide +kernel)

/-- **C77**: the target of a request, as `Request.target_form` reads it by the method: the form, which the method must
allow, and the text as it is. The symbol for it may be made at any later time. -/
theorem C77_target_later {h h₁ h' : PyHeap} {env : UriName → Sym} (hb : Builds true Heap.init h) (method : Str)
    (mid : Builds true (runDefs env h uriDefs).2 h₁)
    (later : Builds true (((targetE method).expr (runDefs env h uriDefs).1).build h₁).2 h')
    (ann : GVal → Bool) :
    ∃ k, (((targetE method).expr (runDefs env h uriDefs).1).build h₁).1 = .nt k ∧
      Reads (fun data => innerParse h'.grammar (pyOps ann) data k) (TargetSyn.Ok method) TargetSyn.text TargetSyn.value
        (fun _ => []) := by
  obtain ⟨k, hk⟩ := compound_nt (nts := []) (runDefs env h uriDefs).1 nofun (targetE method)
    (by unfold targetE; split; rfl; split <;> rfl) h₁
  refine ⟨k, hk, reads_of_some (module_expr_later hb uris_solve ?_ mid hk (target_den method) later ann) target_inj⟩
  have key : ∀ n : UriName, n ∈ uriDefs.map Prod.fst := by
    intro n
    cases n <;> decide
  unfold targetE
  split
  · exact key .authorityForm
  · split
    · exact ⟨⟨key .originForm, key .asteriskForm⟩, key .absoluteForm⟩
    · exact ⟨key .originForm, key .absoluteForm⟩

/-- **C77**: the same, made at once. -/
theorem C77_target {h h' : PyHeap} {env : UriName → Sym} (hb : Builds true Heap.init h) (method : Str)
    (later : Builds true (((targetE method).expr (runDefs env h uriDefs).1).build (runDefs env h uriDefs).2).2 h')
    (ann : GVal → Bool) :
    ∃ k, (((targetE method).expr (runDefs env h uriDefs).1).build (runDefs env h uriDefs).2).1 = .nt k ∧
      Reads (fun data => innerParse h'.grammar (pyOps ann) data k) (TargetSyn.Ok method) TargetSyn.text TargetSyn.value
        (fun _ => []) :=
  C77_target_later hb method .refl later ann

/-! ## Examples -/

/-- Checks that a text is encoded. -/
def encodedBits (bits : Nat → Bool) : Str → Bool
  | [] => true
  | 37 :: a :: b :: w => hexBits a && (hexBits b && encodedBits bits w)
  | c :: w => bits c && encodedBits bits w

theorem encoded_bits {bits : Nat → Bool} {P : Nat → Prop} (hp : ∀ c, bits c = true → P c) (w : Str)
    (h : encodedBits bits w = true) : Encoded P w := by
  fun_induction encodedBits bits w with
  | case1 => exact .nil
  | case2 a b w ih =>
    simp only [Bool.and_eq_true] at h
    exact .percent ((hex_iff a).mp h.1) ((hex_iff b).mp h.2.1) (ih h.2.2)
  | case3 c w _ ih =>
    simp only [Bool.and_eq_true] at h
    exact .char (hp c h.1) (ih h.2)

theorem path_bits (w : Str) (h : encodedBits (fun c => pcharBits c || c == 47) w = true) : IsPath w :=
  encoded_bits (fun c h => by rw [Bool.or_eq_true, pchar_iff, beq_iff_eq] at h; exact h) w h

/-- `x://u@[::1%25z]:/a%2F//?/?#`, with all components, some of them empty. -/
def someUri : Uri := ⟨some (str "x"), some ⟨some (str "u"), str "[::1%25z]", some []⟩, str "/a%2F//", some (str "/?"), some []⟩

theorem piece_one : IsPiece (str "1") :=
  ⟨by decide, by decide, fun c hc => (hex_iff c).mp (by revert c; decide +kernel)⟩

theorem loopback : IsIPv6 (str "::1") :=
  .inr ⟨[], ⟨[str "1"], none⟩, nofun, ⟨fun w hw => by obtain rfl := List.mem_singleton.mp hw; exact piece_one, nofun⟩,
    by decide, by decide +kernel⟩

theorem scheme_x : IsScheme (str "x") := ⟨120, [], by simp [IsLetter], nofun, by decide +kernel⟩

theorem someUri_ok : someUri.Ok where
  scheme := fun w e => by cases e; exact scheme_x
  authority := fun a e => by
    cases e
    refine ⟨fun w e => ?_, .inl ⟨str "::1%25z", .inr (.inl ⟨_, str "z", loopback, ⟨by decide, ?_⟩, by decide +kernel⟩),
      by decide +kernel⟩, ?_⟩
    · cases e
      exact encoded_bits (fun c => (userinfo_iff c).mp) _ (by decide +kernel)
    · exact encoded_bits (fun c => (unreserved_iff c).mp) _ (by decide +kernel)
    · intro w e
      cases e
      exact nofun
  path := path_bits _ (by decide +kernel)
  query := fun w e => by cases e; exact .char (.inr (.inl rfl)) (.char (.inr (.inr rfl)) .nil)
  fragment := fun w e => by cases e; exact .nil
  rooted := fun _ => .inr rfl
  single := fun e => by cases e
  plain := fun e => by cases e

example : IsUriReference (str "x://u@[::1%25z]:/a%2F//?/?#") := ⟨someUri, someUri_ok, by decide +kernel⟩

/-- `x:` is absolute, with an empty path; `a/b:` has no scheme. -/
example : IsAbsoluteUri (str "x:") ∧ IsUriNoFragment (str "a/b:") :=
  ⟨⟨⟨some (str "x"), none, [], none, none⟩,
    ⟨fun w e => by cases e; exact scheme_x, nofun, .nil, nofun, nofun, nofun, fun _ => by decide, nofun⟩, nofun, rfl,
      by decide +kernel⟩,
   ⟨⟨none, none, str "a/b:", none, none⟩,
    ⟨nofun, nofun, path_bits _ (by decide +kernel), nofun, nofun, nofun, fun _ => by decide +kernel,
      fun _ _ => by decide +kernel⟩, rfl, by decide +kernel⟩⟩

/-- `*` is a target for OPTIONS, `/` for any but CONNECT. -/
example : TargetSyn.asterisk.Ok (str "OPTIONS") ∧ (TargetSyn.origin (str "/")).Ok (str "GET") :=
  ⟨rfl, by decide, ⟨str "/", none, .char (.inr rfl) .nil, rfl, nofun, by decide +kernel⟩⟩

/-- The condition of the theorems. -/
example : Builds true Heap.init Heap.init := .refl

/-- A part of the grammar, with nothing built before or after. -/
def fewUris : List (UriName × Defn UriName) :=
  uriDefs.filter fun x => x.1 ∈ [.pctEncoded, .pchar, .segment, .absolutePath, .query, .originForm]

example : halvesNumber ((loadDefs fewUris).1 .originForm) = some 37 ∧
    shown (innerParse (loadDefs fewUris).2.grammar (pyOps fun _ => false) (str "/?") 37) =
      some (some (render (.text (str "/?"))), []) ∧
    shown (innerParse (loadDefs fewUris).2.grammar (pyOps fun _ => false) (str "/%a") 37) = none :=
  ⟨by decide +kernel, by decide +kernel, by decide +kernel⟩

end Httpolice.Props
