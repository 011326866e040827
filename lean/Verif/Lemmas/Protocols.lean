import Verif.Lemmas.ExtText
import Verif.Spec.AltSvc

/-!
# Names of protocols and how they are encoded
-/

namespace Httpolice.Lemmas

open Httpolice.Model Httpolice.Spec

theorem hexDigitOf_none {c : Nat} (h : ¬ IsHexDigit c) : hexDigitOf c = none := by
  unfold IsHexDigit IsDigit at h
  unfold hexDigitOf
  rw [if_neg (by omega), if_neg (by omega), if_neg (by omega)]

theorem hex_ne {c : Nat} (h : IsHexDigit c) : c ≠ 37 := by
  unfold IsHexDigit IsDigit at h
  omega

/-- No percent sign by itself has two digits after it. -/
abbrev Bare (l : ProtocolSyn) : Prop :=
  ∀ l1 a b l2, l = l1 ++ .plain 37 :: .plain a :: .plain b :: l2 → ¬ (IsHexDigit a ∧ IsHexDigit b)

theorem bare_cons {x : XChar} {l : ProtocolSyn} : Bare (x :: l) ↔
    Bare l ∧ (x = .plain 37 → ∀ a b l2, l = .plain a :: .plain b :: l2 → ¬ (IsHexDigit a ∧ IsHexDigit b)) := by
  constructor
  · intro h
    exact ⟨fun l1 a b l2 e => h (x :: l1) a b l2 (by rw [e]; rfl), fun ex a b l2 e => h [] a b l2 (by rw [e, ex]; rfl)⟩
  · rintro ⟨h1, h2⟩ l1 a b l2 e
    cases l1 with
    | nil =>
      obtain ⟨e1, e2⟩ := List.cons.inj e
      exact h2 e1 a b l2 e2
    | cons y l1 => exact h1 l1 a b l2 (List.cons.inj e).2

theorem text_hex1 {l : ProtocolSyn} {a : Nat} {w : Str} (e : l.text = a :: w) (ha : IsHexDigit a) :
    ∃ l2 : ProtocolSyn, l = .plain a :: l2 ∧ l2.text = w := by
  cases l with
  | nil => cases e
  | cons x l =>
    cases x with
    | plain c =>
      obtain ⟨rfl, e1⟩ := List.cons.inj e
      exact ⟨l, rfl, e1⟩
    | percent c d => exact absurd (List.cons.inj e).1.symm (hex_ne ha)

theorem text_hex2 {l : ProtocolSyn} {a b : Nat} {w : Str} (e : l.text = a :: b :: w) (ha : IsHexDigit a) (hb : IsHexDigit b) :
    ∃ l2 : ProtocolSyn, l = .plain a :: .plain b :: l2 := by
  obtain ⟨l2, rfl, e1⟩ := text_hex1 e ha
  obtain ⟨l3, rfl, e2⟩ := text_hex1 e1 hb
  exact ⟨l3, rfl⟩

/-- The text determines what is written. -/
theorem protocol_text_inj {l m : ProtocolSyn} (hl : ∀ c ∈ l, c.InToken) (hl' : Bare l) (hm : ∀ c ∈ m, c.InToken) (hm' : Bare m)
    (e : l.text = m.text) : l = m := by
  induction l generalizing m with
  | nil =>
    cases m with
    | nil => rfl
    | cons y m => cases y <;> cases e
  | cons x l ih =>
    cases m with
    | nil => cases x <;> cases e
    | cons y m =>
      obtain ⟨h1, h2⟩ := List.forall_mem_cons.mp hl
      obtain ⟨k1, k2⟩ := List.forall_mem_cons.mp hm
      obtain ⟨h3, h4⟩ := bare_cons.mp hl'
      obtain ⟨k3, k4⟩ := bare_cons.mp hm'
      cases x with
      | plain c =>
        cases y with
        | plain d =>
          obtain ⟨rfl, e1⟩ := List.cons.inj e
          rw [ih h2 h3 k2 k3 e1]
        | percent a b =>
          obtain ⟨rfl, e1⟩ := List.cons.inj e
          obtain ⟨l2, rfl⟩ := text_hex2 (l := l) e1 k1.1 k1.2
          exact absurd k1 (h4 rfl a b l2 rfl)
      | percent a b =>
        cases y with
        | plain d =>
          obtain ⟨rfl, e1⟩ := List.cons.inj e
          obtain ⟨l2, rfl⟩ := text_hex2 (l := m) e1.symm h1.1 h1.2
          exact absurd h1 (k4 rfl a b l2 rfl)
        | percent a' b' =>
          obtain ⟨_, e1⟩ := List.cons.inj e
          obtain ⟨ea, e2⟩ := List.cons.inj e1
          obtain ⟨eb, e3⟩ := List.cons.inj e2
          rw [ih h2 h3 k2 k3 e3, ea, eb]

theorem protocolSyn_inj {l m : ProtocolSyn} (hl : l.Ok) (hm : m.Ok) (e : l.text = m.text) : l = m :=
  protocol_text_inj hl.2.1 hl.2.2 hm.2.1 hm.2.2 e

/-- Whatever is in a token can be read like this. -/
theorem protocol_exists (w : Str) (h : ∀ c ∈ w, IsTchar c) : ∃ l : ProtocolSyn, (∀ c ∈ l, c.InToken) ∧ Bare l ∧ l.text = w := by
  generalize hn : w.length = n
  induction n using Nat.strongRecOn generalizing w with
  | ind n ih =>
    cases w with
    | nil => exact ⟨[], nofun, fun l1 a b l2 e => absurd e (by simp), rfl⟩
    | cons c w =>
      obtain ⟨h1, h2⟩ := List.forall_mem_cons.mp h
      by_cases k : c = 37 ∧ ∃ a b v, w = a :: b :: v ∧ IsHexDigit a ∧ IsHexDigit b
      · obtain ⟨rfl, a, b, v, rfl, ha, hb⟩ := k
        obtain ⟨l, i1, i2, i3⟩ := ih v.length (by simp at hn; omega) v (fun c hc => h2 c (.tail _ (.tail _ hc))) rfl
        refine ⟨.percent a b :: l, List.forall_mem_cons.mpr ⟨⟨ha, hb⟩, i1⟩, bare_cons.mpr ⟨i2, nofun⟩, ?_⟩
        rw [← i3]
        rfl
      · obtain ⟨l, i1, i2, i3⟩ := ih w.length (by simp at hn; omega) w h2 rfl
        refine ⟨.plain c :: l, List.forall_mem_cons.mpr ⟨h1, i1⟩, bare_cons.mpr ⟨i2, fun e a b l2 e2 hab => k ?_⟩, ?_⟩
        · cases e
          rw [e2] at i3
          exact ⟨rfl, a, b, l2.flatMap XChar.text, i3.symm, hab⟩
        · rw [← i3]
          rfl

theorem token_protocol (w : Str) : IsToken w ↔ ∃ l : ProtocolSyn, l.Ok ∧ w = l.text := by
  constructor
  · rintro ⟨h1, h2⟩
    obtain ⟨l, i1, i2, rfl⟩ := protocol_exists w h2
    exact ⟨l, ⟨fun e => h1 (by rw [e]; rfl), i1, i2⟩, rfl⟩
  · rintro ⟨l, ⟨h1, h2, _⟩, rfl⟩
    refine ⟨fun e => ?_, fun c hc => ?_⟩
    · cases l with
      | nil => exact h1 rfl
      | cons x l => cases x <;> cases e
    · obtain ⟨x, hx, hc⟩ := List.mem_flatMap.mp hc
      have := h2 x hx
      cases x with
      | plain d =>
        obtain rfl := List.mem_singleton.mp hc
        exact this
      | percent a b =>
        have hex : ∀ {a}, IsHexDigit a → IsTchar a := by
          intro a ha
          unfold IsHexDigit IsDigit at ha
          unfold IsTchar
          omega
        rcases List.mem_cons.mp hc with rfl | hc
        · exact .inr (.inr (.inr (by decide +kernel)))
        · rcases List.mem_cons.mp hc with rfl | hc
          · exact hex this.1
          · obtain rfl := List.mem_singleton.mp hc
            exact hex this.2

theorem unquote_bare {w : Str} (h : ∀ a b v, w = a :: b :: v → ¬ (IsHexDigit a ∧ IsHexDigit b)) :
    unquote (37 :: w) = 37 :: unquote w := by
  match w, h with
  | [], _ => rfl
  | [a], _ => rfl
  | a :: b :: v, h =>
    have := h a b v rfl
    rw [unquote]
    by_cases ha : IsHexDigit a
    · have hb : ¬ IsHexDigit b := fun hb => this ⟨ha, hb⟩
      rw [hexDigitOf_none hb]
      cases hexDigitOf a <;> rfl
    · rw [hexDigitOf_none ha]

theorem unquote_protocol {l : ProtocolSyn} (h : ∀ c ∈ l, c.InToken) (hb : Bare l) : unquote l.text = l.bytes := by
  induction l with
  | nil => rfl
  | cons x l ih =>
    obtain ⟨h1, h2⟩ := List.forall_mem_cons.mp h
    obtain ⟨h3, h4⟩ := bare_cons.mp hb
    cases x with
    | plain c =>
      show unquote (c :: ProtocolSyn.text l) = c :: ProtocolSyn.bytes l
      rw [← ih h2 h3]
      by_cases k : c = 37
      · subst k
        refine unquote_bare fun a b v e hab => ?_
        obtain ⟨l2, rfl⟩ := text_hex2 e hab.1 hab.2
        exact h4 rfl a b l2 rfl hab
      · exact unquote_plain k _
    | percent a b =>
      show unquote (37 :: a :: b :: ProtocolSyn.text l) = (16 * hexVal a + hexVal b) :: ProtocolSyn.bytes l
      rw [← ih h2 h3, unquote, hexDigitOf_eq h1.1, hexDigitOf_eq h1.2]

/-! ## The way it should be -/

theorem digit_at : ∀ n < 16, (str "0123456789ABCDEF").getD n 0 = upperDigit n := by decide +kernel

theorem upper_hex {n : Nat} (h : n < 16) : IsDigit (upperDigit n) ∨ (65 ≤ upperDigit n ∧ upperDigit n ≤ 70) := by
  unfold upperDigit IsDigit
  split <;> omega

theorem upper_val {n : Nat} (h : n < 16) : hexVal (upperDigit n) = n := by
  unfold upperDigit hexVal
  split
  · rw [if_pos (by omega)]
    omega
  · rw [if_neg (by omega), if_pos (by omega)]
    omega

theorem val_upper {a : Nat} (h : IsDigit a ∨ (65 ≤ a ∧ a ≤ 70)) : hexVal a < 16 ∧ upperDigit (hexVal a) = a := by
  unfold IsDigit at h
  unfold hexVal upperDigit
  split <;> rename_i k
  · exact ⟨by omega, by split <;> omega⟩
  · rw [if_pos (by omega)]
    exact ⟨by omega, by split <;> omega⟩

theorem hexVal_lt {a : Nat} (h : IsHexDigit a) : hexVal a < 16 := by
  unfold IsHexDigit IsDigit at h
  unfold hexVal
  split
  · omega
  · split <;> omega

theorem properly_else {c : Nat} (hc : c < 256) (h : ¬ (IsTchar c ∧ c ≠ 37)) :
    properly c = .percent (upperDigit (c / 16)) (upperDigit (c % 16)) := by
  unfold properly
  rw [if_neg h, digit_at _ (by omega), digit_at _ (by omega)]

theorem properly_ok {c : Nat} (hc : c < 256) : (properly c).InToken ∧ properly c ≠ .plain 37 ∧ (properly c).Proper ∧
    (properly c).byte = c ∧ (properly c).text = protocolByte c := by
  by_cases h : IsTchar c ∧ c ≠ 37
  · have e : properly c = .plain c := if_pos h
    rw [e]
    refine ⟨h.1, fun e => h.2 (XChar.plain.inj e), h.2, rfl, ?_⟩
    unfold protocolByte
    rw [if_pos]
    · rfl
    · rw [Bool.and_eq_true, tchar_iff, bne_iff_ne]
      exact h
  · have h1 : c / 16 < 16 := by omega
    have h2 : c % 16 < 16 := by omega
    have up : ∀ {n}, n < 16 → IsHexDigit (upperDigit n) := fun hn => (upper_hex hn).imp_right .inl
    have ev : 16 * hexVal (upperDigit (c / 16)) + hexVal (upperDigit (c % 16)) = c := by
      rw [upper_val h1, upper_val h2]
      omega
    rw [properly_else hc h]
    refine ⟨⟨up h1, up h2⟩, nofun, ⟨upper_hex h1, upper_hex h2, fun k => ?_⟩, ev, ?_⟩
    · rw [ev] at k ⊢
      exact Classical.byContradiction fun n => h ⟨k, n⟩
    · unfold protocolByte
      rw [if_neg]
      · rfl
      · rw [Bool.and_eq_true, tchar_iff, bne_iff_ne]
        exact h

theorem byte_lt {x : XChar} (h : x.InToken) : x.byte < 256 := by
  cases x with
  | plain c =>
    have hs : str "!#$%&'*+-.^_`|~" = [33, 35, 36, 37, 38, 39, 42, 43, 45, 46, 94, 95, 96, 124, 126] := by decide +kernel
    have h : IsTchar c := h
    unfold IsTchar at h
    rw [hs] at h
    simp only [List.mem_cons, List.not_mem_nil, or_false] at h
    show c < 256
    omega
  | percent a b =>
    have h1 := hexVal_lt h.1
    have h2 := hexVal_lt h.2
    show 16 * hexVal a + hexVal b < 256
    omega

theorem proper_iff {x : XChar} (h : x.InToken) : x.Proper ↔ properly x.byte = x := by
  constructor
  · intro k
    cases x with
    | plain c => exact if_pos ⟨h, k⟩
    | percent a b =>
      obtain ⟨k1, k2, k3⟩ := k
      obtain ⟨i1, i2⟩ := val_upper k1
      obtain ⟨i3, i4⟩ := val_upper k2
      show properly (16 * hexVal a + hexVal b) = _
      rw [properly_else (by omega) (fun j => j.2 (k3 j.1)), show (16 * hexVal a + hexVal b) / 16 = hexVal a by omega,
        show (16 * hexVal a + hexVal b) % 16 = hexVal b by omega, i2, i4]
  · intro k
    rw [← k]
    exact (properly_ok (byte_lt h)).2.2.1

theorem proper_text {l : ProtocolSyn} (h : ∀ c ∈ l, c.InToken) :
    l.bytes.flatMap protocolByte = ProtocolSyn.text (l.bytes.map properly) := by
  show _ = (l.bytes.map properly).flatMap XChar.text
  rw [List.flatMap_map]
  induction l with
  | nil => rfl
  | cons x l ih =>
    obtain ⟨h1, h2⟩ := List.forall_mem_cons.mp h
    show protocolByte x.byte ++ (ProtocolSyn.bytes l).flatMap protocolByte =
      (properly x.byte).text ++ (ProtocolSyn.bytes l).flatMap _
    rw [ih h2, (properly_ok (byte_lt h1)).2.2.2.2]

/-- The name in the way it should be written. -/
theorem properly_all {l : ProtocolSyn} (h : ∀ c ∈ l, c.InToken) : (∀ c ∈ l.bytes.map properly, c.InToken ∧ c.Proper) ∧
    Bare (l.bytes.map properly) ∧ ProtocolSyn.bytes (l.bytes.map properly) = l.bytes := by
  have lt : ∀ b ∈ l.bytes, b < 256 := by
    intro b hb
    obtain ⟨x, hx, rfl⟩ := List.mem_map.mp hb
    exact byte_lt (h x hx)
  have mem : ∀ c ∈ l.bytes.map properly, ∃ b, b < 256 ∧ c = properly b := by
    intro c hc
    obtain ⟨b, hb, rfl⟩ := List.mem_map.mp hc
    exact ⟨b, lt b hb, rfl⟩
  refine ⟨fun c hc => ?_, fun l1 a b l2 e => ?_, ?_⟩
  · obtain ⟨b, hb, rfl⟩ := mem c hc
    exact ⟨(properly_ok hb).1, (properly_ok hb).2.2.1⟩
  · obtain ⟨b, hb, e⟩ := mem (.plain 37) (by rw [e]; simp)
    exact absurd e.symm (properly_ok hb).2.1
  · show ((l.bytes.map properly).map XChar.byte) = _
    rw [List.map_map]
    conv => rhs; rw [← List.map_id l.bytes]
    exact List.map_congr_left fun b hb => (properly_ok (lt b hb)).2.2.2.1

theorem proper_all_iff {l : ProtocolSyn} (h : ∀ c ∈ l, c.InToken) (hb : Bare l) :
    l.text = l.bytes.flatMap protocolByte ↔ ∀ c ∈ l, c.Proper := by
  rw [proper_text h]
  obtain ⟨h1, h2, _⟩ := properly_all h
  constructor
  · intro e
    have := protocol_text_inj h hb (fun c hc => (h1 c hc).1) h2 e
    rw [this]
    exact fun c hc => (h1 c hc).2
  · intro k
    have : l.bytes.map properly = l := by
      show (l.map XChar.byte).map properly = l
      rw [List.map_map]
      conv => rhs; rw [← List.map_id l]
      exact List.map_congr_left fun x hx => (proper_iff (h x hx)).mp (k x hx)
    rw [this]

theorem checkProtocol_eq {l : ProtocolSyn} (h : l.Ok) :
    checkProtocolIdF [.text l.text] = (.val (.obj (str "bytes") [.text l.bytes]), l.notes) := by
  show (Node.val (bytesObj (unquote l.text)), if l.text = (unquote l.text).flatMap protocolByte then [] else
    [(1256, [(str "actual", CtxVal.other (GVal.text l.text)), (str "correct", CtxVal.other (GVal.text ((unquote l.text).flatMap protocolByte)))])]) = _
  rw [unquote_protocol h.2.1 h.2.2]
  unfold ProtocolSyn.notes
  by_cases k : ∀ c ∈ l, c.Proper
  · rw [if_pos ((proper_all_iff h.2.1 h.2.2).mpr k), if_pos k]
  · rw [if_neg (fun e => k ((proper_all_iff h.2.1 h.2.2).mp e)), if_neg k, proper_text h.2.1]

end Httpolice.Lemmas
