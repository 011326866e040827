import Verif.Lemmas.Uri

/-!
# Characters in URIs
-/

namespace Httpolice.Lemmas

open Httpolice.Model Httpolice.Spec

/-- No whitespace, quotes or angle brackets. -/
def UriChar (c : Nat) : Prop := 33 ≤ c ∧ c ≤ 126 ∧ c ≠ 34 ∧ c ≠ 60 ∧ c ≠ 62

/-- All of them. -/
abbrev UriChars (w : Str) : Prop := ∀ c ∈ w, UriChar c

theorem uriChars_append {u v : Str} (hu : UriChars u) (hv : UriChars v) : UriChars (u ++ v) :=
  fun c hc => (List.mem_append.mp hc).elim (hu c) (hv c)

theorem uriChars_cons {c : Nat} {w : Str} (hc : UriChar c) (hw : UriChars w) : UriChars (c :: w) :=
  List.forall_mem_cons.mpr ⟨hc, hw⟩

theorem hexDigit_uriChar {c : Nat} (h : IsHexDigit c) : UriChar c := by
  unfold IsHexDigit IsDigit at h
  unfold UriChar
  omega

theorem digit_uriChar {c : Nat} (h : IsDigit c) : UriChar c := by
  unfold IsDigit at h
  unfold UriChar
  omega

theorem letter_uriChar {c : Nat} (h : IsLetter c) : UriChar c := by
  unfold IsLetter at h
  unfold UriChar
  omega

theorem unreserved_uriChar {c : Nat} (h : Unreserved c) : UriChar c := by
  rcases h with h | h | h
  · exact letter_uriChar h
  · exact digit_uriChar h
  · rw [unreserved_signs] at h
    simp only [List.mem_cons, List.not_mem_nil, or_false] at h
    unfold UriChar
    omega

theorem subDelim_uriChar {c : Nat} (h : SubDelim c) : UriChar c := by
  unfold SubDelim at h
  rw [subDelim_signs] at h
  simp only [List.mem_cons, List.not_mem_nil, or_false] at h
  unfold UriChar
  omega

theorem pathChar_uriChar {c : Nat} (h : PathChar c) : UriChar c := by
  rcases h with h | h | h | h
  · exact unreserved_uriChar h
  · exact subDelim_uriChar h
  · subst h; unfold UriChar; decide
  · subst h; unfold UriChar; decide

theorem encoded_uriChars {P : Nat → Prop} (hp : ∀ c, P c → UriChar c) {w : Str} (h : Encoded P w) : UriChars w := by
  intro c hc
  rcases encoded_mem h hc with k | k | k
  · exact hp c k
  · subst k; unfold UriChar; decide
  · exact hexDigit_uriChar k

local macro "sign" : tactic => `(tactic| (unfold UriChars UriChar; decide +kernel))

theorem ipv4_uriChars {w : Str} (h : IsIPv4 w) : UriChars w :=
  encoded_uriChars (fun _ hc => hc.elim unreserved_uriChar subDelim_uriChar) (ipv4_encoded h)

theorem colons_uriChars {l : List Str} (h : ∀ w ∈ l, UriChars w) : UriChars (colons l) := by
  induction l with
  | nil => exact nofun
  | cons w l ih =>
    obtain ⟨h1, h2⟩ := List.forall_mem_cons.mp h
    cases l with
    | nil => exact h1
    | cons v l => exact uriChars_append h1 (uriChars_cons (by unfold UriChar; decide) (ih h2))

theorem piece_uriChars {w : Str} (h : IsPiece w) : UriChars w := fun c hc => hexDigit_uriChar (h.2.2 c hc)

theorem pieces_uriChars {p : Pieces} (h : p.Ok) : UriChars p.text := by
  refine colons_uriChars fun w hw => ?_
  rcases List.mem_append.mp hw with hw | hw
  · exact piece_uriChars (h.1 w hw)
  · exact ipv4_uriChars (h.2 w (by simpa using hw))

theorem ipv6_uriChars {w : Str} (h : IsIPv6 w) : UriChars w := by
  rcases h with ⟨p, hp, _, rfl⟩ | ⟨front, p, hf, hp, _, rfl⟩
  · exact pieces_uriChars hp
  · exact uriChars_append (uriChars_append (colons_uriChars fun u hu => piece_uriChars (hf u hu)) (by sign)) (pieces_uriChars hp)

theorem host_uriChars {w : Str} (h : IsHost w) : UriChars w := by
  rcases h with ⟨a, h, rfl⟩ | h
  · refine uriChars_append (uriChars_cons (by unfold UriChar; decide) ?_) (by sign)
    rcases h with h | ⟨b, z, h1, h2, rfl⟩ | ⟨v, hex, rest, h1, h2, h3, rfl⟩
    · exact ipv6_uriChars h
    · exact uriChars_append (uriChars_append (ipv6_uriChars h1) (by sign)) (encoded_uriChars (fun _ => unreserved_uriChar) h2.2)
    · refine uriChars_append (uriChars_cons (by unfold UriChar; omega) fun c hc => hexDigit_uriChar (h2.2 c hc))
        (uriChars_cons (by unfold UriChar; decide) fun c hc => pathChar_uriChar ?_)
      rcases h3.2 c hc with k | k | k
      · exact .inl k
      · exact .inr (.inl k)
      · exact .inr (.inr (.inl k))
  · exact encoded_uriChars (fun _ hc => hc.elim unreserved_uriChar subDelim_uriChar) h

theorem before_uriChars {s : Str} (hs : UriChars s) {o : Option Str} (h : ∀ w, o = some w → UriChars w) :
    UriChars (before s o) := by
  cases o with
  | none => exact nofun
  | some w => exact uriChars_append hs (h w rfl)

theorem after_uriChars {s : Str} (hs : UriChars s) {o : Option Str} (h : ∀ w, o = some w → UriChars w) :
    UriChars (after s o) := by
  cases o with
  | none => exact nofun
  | some w => exact uriChars_append (h w rfl) hs

theorem authority_uriChars {a : Authority} (h : a.Ok) : UriChars a.text := by
  refine uriChars_append (uriChars_append (after_uriChars (by sign) fun w hw => ?_) (host_uriChars h.2.1))
    (before_uriChars (by sign) fun w hw c hc => digit_uriChar (h.2.2 w hw c hc))
  refine encoded_uriChars (fun c hc => pathChar_uriChar ?_) (h.1 w hw)
  rcases hc with k | k | k
  · exact .inl k
  · exact .inr (.inl k)
  · exact .inr (.inr (.inl k))

theorem query_uriChars {w : Str} (h : IsQuery w) : UriChars w := by
  refine encoded_uriChars (fun c hc => ?_) h
  rcases hc with k | k | k
  · exact pathChar_uriChar k
  · subst k; unfold UriChar; decide
  · subst k; unfold UriChar; decide

theorem scheme_uriChars {w : Str} (h : IsScheme w) : UriChars w := by
  obtain ⟨c, rest, h1, h2, rfl⟩ := h
  refine uriChars_cons (letter_uriChar h1) fun d hd => ?_
  rcases h2 d hd with k | k | k
  · exact letter_uriChar k
  · exact digit_uriChar k
  · rw [scheme_signs] at k
    simp only [List.mem_cons, List.not_mem_nil, or_false] at k
    unfold UriChar
    omega

theorem uri_uriChars {u : Uri} (h : u.Ok) : UriChars u.text := by
  refine uriChars_append (uriChars_append (uriChars_append (uriChars_append ?_ ?_) ?_) ?_) ?_
  · exact after_uriChars (by sign) fun w hw => scheme_uriChars (h.scheme w hw)
  · refine before_uriChars (by sign) fun w hw => ?_
    obtain ⟨a, ha, rfl⟩ := Option.map_eq_some_iff.mp hw
    exact authority_uriChars (h.authority a ha)
  · refine encoded_uriChars (fun c hc => ?_) h.path
    rcases hc with k | k
    · exact pathChar_uriChar k
    · subst k; unfold UriChar; decide
  · exact before_uriChars (by sign) fun w hw => query_uriChars (h.query w hw)
  · exact before_uriChars (by sign) fun w hw => query_uriChars (h.fragment w hw)

theorem reference_uriChars {w : Str} (h : IsUriReference w) : UriChars w := by
  obtain ⟨u, hu, rfl⟩ := h
  exact uri_uriChars hu

end Httpolice.Lemmas
