import Verif.Model.Comments
import Verif.Spec.Comments
import Verif.Lemmas.Settings
import Verif.Lemmas.UriChars
import Verif.Lemmas.Preferences
import Verif.Lemmas.NegotiationText
import Verif.Lemmas.Fetch

/-!
# What comments and the headers where they are used come to
-/

namespace Httpolice.Lemmas

open Httpolice.Model Httpolice.Spec

/-! ## Comments -/

/-- What is repeated in a comment. -/
inductive Remark
  | plain (c : Nat)
  | escaped (c : Nat)
  | comment (r : Remarks)

/-- Before others. -/
def Remark.before (x : Remark) (r : Remarks) : Remarks :=
  match x with
  | .plain c => .plain c r
  | .escaped c => .escaped c r
  | .comment i => .comment i r

def Remark.alone (x : Remark) : Remarks := x.before .done

/-- In parentheses, this is a comment. -/
def remarksOf : List Remark → Remarks
  | [] => .done
  | x :: l => x.before (remarksOf l)

theorem remarks_list : ∀ r : Remarks, ∃ l, remarksOf l = r
  | .done => ⟨[], rfl⟩
  | .plain c r => let ⟨l, h⟩ := remarks_list r; ⟨.plain c :: l, by rw [remarksOf, h]; rfl⟩
  | .escaped c r => let ⟨l, h⟩ := remarks_list r; ⟨.escaped c :: l, by rw [remarksOf, h]; rfl⟩
  | .comment i r => let ⟨l, h⟩ := remarks_list r; ⟨.comment i :: l, by rw [remarksOf, h]; rfl⟩

theorem before_facts (x : Remark) (r : Remarks) : ((x.before r).Ok ↔ x.alone.Ok ∧ r.Ok) ∧
    (x.before r).inside = x.alone.inside ++ r.inside ∧ (x.before r).content = x.alone.content ++ r.content ∧
    (x.before r).notes = x.alone.notes ++ r.notes := by
  cases x <;> simp [Remark.alone, Remark.before, Remarks.Ok, Remarks.inside, Remarks.content, Remarks.notes]

theorem remarks_facts (l : List Remark) : ((remarksOf l).Ok ↔ ∀ x ∈ l, x.alone.Ok) ∧
    (remarksOf l).inside = l.flatMap (fun x => x.alone.inside) ∧ (remarksOf l).content = l.flatMap (fun x => x.alone.content) ∧
    (remarksOf l).notes = l.flatMap (fun x => x.alone.notes) := by
  induction l with
  | nil => simp [remarksOf, Remarks.Ok, Remarks.inside, Remarks.content, Remarks.notes]
  | cons x l ih =>
    obtain ⟨h1, h2, h3, h4⟩ := before_facts x (remarksOf l)
    obtain ⟨k1, k2, k3, k4⟩ := ih
    simp only [remarksOf, h1, h2, h3, h4, k1, k2, k3, k4, List.forall_mem_cons, List.flatMap_cons, and_self]

theorem ctext_iff (c : Nat) : ctextBits c = true ↔ (Remark.plain c).alone.Ok := by
  simp only [ctextBits, spBits, obsTextBits, Remark.alone, Remark.before, Remarks.Ok, Bool.or_eq_true, decide_eq_true_eq, and_true]
  omega

/-- Quoted pairs in comments. -/
abbrev commentPairD : Den := tabD (fun c => (Remark.escaped c).alone.Ok) (fun c => (Remark.escaped c).alone.inside)
  (fun c => [.text [c]]) (fun c => (Remark.escaped c).alone.notes)

theorem comment_notes (c : Nat) : (if c ∈ str "()\\" then [] else [(1017, [(str "char", .other (.text [c]))])]) =
    (Remark.escaped c).alone.notes := by
  have : str "()\\" = [40, 41, 92] := by decide +kernel
  rw [this]
  simp [Remark.alone, Remark.before, Remarks.notes]

theorem quotable_escaped (c : Nat) : quotableBits c = true ↔ (Remark.escaped c).alone.Ok := by
  rw [quotable_iff]
  simp [Remark.alone, Remark.before, Remarks.Ok, QChar.Ok]

section
variable {N : Type} {δ : N → Den}

theorem commentPair_den : oneD ((GExpr.quotedPair (str "()\\") : GExpr N).den δ) = commentPairD := by
  show oneD (appD (sensibleF _) (thenD (appD skipF (litD (str "\\") false)) (octetD quotableBits))) = _
  rw [backslash_is, tab_chars, silent_then, tab_app, tab_one]
  exact tab_iff (fun c h => ⟨c, (quotable_escaped c).mp h, rfl, rfl, comment_notes c⟩)
    (fun c h => ⟨c, (quotable_escaped c).mpr h, rfl, rfl, (comment_notes c).symm⟩)

/-- A comment with its parentheses. -/
abbrev innerD : Den := tabD Remarks.Ok Remarks.text (fun r => [.text (40 :: (r.content ++ [41]))]) Remarks.notes

theorem remark_den : orD (orD (octetD ctextBits) commentPairD) innerD =
    tabD (fun x : Remark => x.alone.Ok) (fun x => x.alone.inside) (fun x => [.text x.alone.content]) (fun x => x.alone.notes) := by
  have h1 : ∀ r : Remarks, (Remark.comment r).alone.Ok ↔ r.Ok := fun r => by simp [Remark.alone, Remark.before, Remarks.Ok]
  have h2 : ∀ r : Remarks, (Remark.comment r).alone.notes = r.notes := fun r => by
    simp [Remark.alone, Remark.before, Remarks.notes]
  rw [tab_chars, tab_or, tab_or]
  refine tab_iff ?_ ?_
  · rintro ((c | c) | r) h
    · exact ⟨.plain c, (ctext_iff c).mp h, rfl, rfl, rfl⟩
    · exact ⟨.escaped c, h, rfl, rfl, rfl⟩
    · exact ⟨.comment r, (h1 r).mpr h, rfl, rfl, (h2 r).symm⟩
  · rintro (c | c | r) h
    · exact ⟨.inl (.inl c), (ctext_iff c).mpr h, rfl, rfl, rfl⟩
    · exact ⟨.inl (.inr c), h, rfl, rfl, rfl⟩
    · exact ⟨.inr r, (h1 r).mp h, rfl, rfl, h2 r⟩

theorem inner_den {pair : N} (hp : δ pair = commentPairD) :
    oneD (((GExpr.string (.alt (.alt (.chars ctextBits true) (.ref (some pair))) (.ref none))).between 40 41).den
      (withSelf δ innerD)) = innerD := by
  show oneD (appD addF (thenD (appD addF (thenD (litD [40] false) (appD joinF (timesD (orD (orD (octetD ctextBits) (δ pair)) innerD)
    (oneD (orD (orD (octetD ctextBits) (δ pair)) innerD)) 0 none)))) (litD [41] false))) = _
  rw [hp, remark_den, tab_one_single, tab_times (fun a _ => ⟨_, rfl⟩) 0 none nofun, tab_app, tab_lit_char (by decide), tab_then,
    tab_app, tab_lit_char (by decide), tab_then, tab_app, tab_one]
  have hj : ∀ l : List Remark, joinTexts (l.map fun x => elementOf [GVal.text x.alone.content]) = (remarksOf l).content := by
    intro l
    rw [(remarks_facts l).2.2.1, List.flatMap_def, ← join_texts, List.map_map]
    rfl
  have hv : ∀ l : List Remark, argsOf (nodeOf (argsOf (addF (argsOf (addF ([GVal.text [40]] ++ argsOf (joinF [GVal.list
      (l.map fun x => elementOf [GVal.text x.alone.content])]).1)).1 ++ [GVal.text [41]])).1)) =
      [GVal.text (40 :: ((remarksOf l).content ++ [41]))] := by
    intro l
    rw [← hj]
    rfl
  refine tab_iff ?_ ?_
  · rintro ⟨⟨_, l⟩, _⟩ ⟨⟨_, h, _⟩, _⟩
    refine ⟨remarksOf l, (remarks_facts l).1.mpr h, ?_, hv l, ?_⟩
    · show [40] ++ _ ++ [41] = _
      rw [Remarks.text, (remarks_facts l).2.1]
      simp
    · rw [(remarks_facts l).2.2.2]
      simp [addF, joinF, pureFunc]
  · intro r h
    obtain ⟨l, rfl⟩ := remarks_list r
    refine ⟨(((), l), ()), ⟨⟨trivial, (remarks_facts l).1.mp h, Nat.zero_le _, nofun⟩, trivial⟩, ?_, (hv l).symm, ?_⟩
    · show _ = [40] ++ _ ++ [41]
      rw [Remarks.text, (remarks_facts l).2.1]
      simp
    · rw [(remarks_facts l).2.2.2]
      simp [addF, joinF, pureFunc]

/-- A comment without its parentheses. -/
abbrev commentD : Den := tabD Remarks.Ok Remarks.text (fun r => [.text r.content]) Remarks.notes

theorem comment_den {inner : N} (hi : δ inner = innerD) : oneD ((GExpr.app stripF false (.ref inner)).den δ) = commentD := by
  show oneD (appD stripF (δ inner)) = _
  rw [hi, tab_app, tab_one]
  have hv : ∀ r : Remarks, argsOf (nodeOf (argsOf (stripF [GVal.text (40 :: (r.content ++ [41]))]).1)) = [GVal.text r.content] := by
    intro r
    show [GVal.text ((40 :: (r.content ++ [41])).drop 1).dropLast] = _
    simp
  exact tab_iff (fun r h => ⟨r, h, rfl, hv r, by simp [stripF, pureFunc]⟩)
    (fun r h => ⟨r, h, rfl, (hv r).symm, by simp [stripF, pureFunc]⟩)

end

/-! ## The module -/

abbrev productD : Den := tabD Protocol.Ok Protocol.text (fun x => [productValue x]) (fun _ => [])

/-- The protocol in Via. -/
abbrev receivedD : Den := tabD (fun x : Option Str × Str => optT True IsToken x.1 ∧ IsToken x.2)
  (fun x => optT [] (fun n => n ++ str "/") x.1 ++ x.2)
  (fun x => [.obj (str "Versioned") [.text (x.1.getD (str "HTTP")), .text x.2]]) (fun _ => [])

def warnDateD : Den := tabD (fun x : DateFormat × Stamp => x.2.Fits x.1)
  (fun x => 34 :: (x.2.text x.1 ++ [34])) (fun x => [x.2.value]) (fun x => x.2.notes x.1)

/-- What the names come to. -/
def cmtD : CommentName → Den
  | .cache n => cacheD n
  | .uri n => uriD n
  | .pair _ => commentPairD
  | .inner _ => innerD
  | .comment _ => commentD
  | .receivedProtocol => receivedD
  | .pseudonym | .productVersion => tokenD
  | .receivedBy | .warnAgent => verbD IsAgent
  | .viaItems | .via => list1sD Hop.Ok Hop.text Hop.value Hop.notes
  | .product => productD
  | .userAgent | .server => tabD Products.Ok Products.text (fun x => [x.value]) Products.notes
  | .warnCode => tabD (fun w => IsNumeral w ∧ w.length = 3) (fun w => w) (fun w => [.obj (str "WarnCode") [.int (numeral w)]])
      (fun _ => [])
  | .warnText => quotedD
  | .warnDate => warnDateD
  | .warningValue => tabD WarningSyn.Ok WarningSyn.text (fun x => [x.value]) WarningSyn.notes
  | .warnings | .warning => list1sD WarningSyn.Ok WarningSyn.text WarningSyn.value WarningSyn.notes

theorem received_den : oneD ((GExpr.app (classF (str "Versioned")) true (.seq
    (.maybe (.seq (.ref (.cache (.hop .protocolName))) (.skip (.lit (str "/") false))) (.text (str "HTTP")))
    (.ref (.cache (.hop .protocolVersion)))) : GExpr CommentName).den cmtD) = receivedD := by
  show oneD (appD (classF (str "Versioned")) (thenD (oneD (orD (thenD tokenD (appD skipF (litD (str "/") false)))
    (appD (substF (.text (str "HTTP"))) nothingD))) tokenD)) = _
  rw [slash_is, then_silent, tab_maybe, tab_one, tab_then, tab_class, tab_one_single]
  refine tab_iff ?_ ?_
  · rintro ⟨_ | n, v⟩ h
    · exact ⟨(none, v), h, rfl, rfl, rfl⟩
    · exact ⟨(some n, v), h, rfl, rfl, rfl⟩
  · rintro ⟨_ | n, v⟩ h
    · exact ⟨(none, v), h, rfl, rfl, rfl⟩
    · exact ⟨(some n, v), h, rfl, rfl, rfl⟩

theorem agent_den : oneD (agentE.den cmtD) = verbD IsAgent := by
  show oneD (orD (appD addF (thenD (verbD IsHost) (oneD (orD (appD addF (thenD (litD (str ":") false) (verbD IsPort)))
    (appD (substF (.text [])) nothingD))))) (verbD IsToken)) = _
  rw [lit_colon, verb_add, verb_maybe, verb_one, verb_add, verb_or, verb_one]
  exact verb_congr fun w => or_congr (hostHeader_iff w) Iff.rfl

abbrev viaItemE : GExpr CommentName := .seq (.seq (.seq (.ref .receivedProtocol) (.skip (.cms .rws)))
    (.ref .receivedBy)) (.maybe (.seq (.skip (.cms .rws)) (.ref (.comment .via))))

theorem via_den : viaItemE.den cmtD = tabD Hop.Ok Hop.text (fun x => [.obj (str "Versioned") [.text (x.name.getD (str "HTTP")),
    .text x.version], .text x.host, match x.comment with | none => .none | some (_, r) => .text r.content]) Hop.notes := by
  show thenD (thenD (thenD receivedD (appD skipF requiredSpacesD)) (verbD IsAgent)) (oneD (orD (thenD (appD skipF requiredSpacesD)
    commentD) (appD (substF .none) nothingD))) = _
  rw [tab_skip, tab_then, tab_then, tab_then, tab_maybe, tab_one, tab_then]
  refine tab_iff ?_ ?_
  · rintro ⟨⟨⟨⟨n, v⟩, s⟩, a⟩, o⟩ ⟨⟨⟨⟨h1, h2⟩, h3⟩, h4⟩, h5⟩
    rcases o with _ | ⟨s', r⟩
    · refine ⟨⟨n, v, s, a, none⟩, ⟨?_, h2, h3, h4, nofun⟩, ?_, rfl, ?_⟩
      · rintro _ rfl
        exact h1
      · cases n <;> simp [optT, Hop.text]
      · simp [optT, Hop.notes]
    · refine ⟨⟨n, v, s, a, some (s', r)⟩, ⟨?_, h2, h3, h4, fun _ _ e => by cases e; exact h5⟩, ?_, rfl, ?_⟩
      · rintro _ rfl
        exact h1
      · cases n <;> simp [optT, Hop.text]
      · simp [optT, Hop.notes]
  · rintro ⟨n, v, s, a, o⟩ ⟨h1, h2, h3, h4, h5⟩
    have hn : optT True IsToken n := by
      cases n with
      | none => trivial
      | some n => exact h1 n rfl
    rcases o with _ | ⟨s', r⟩
    · refine ⟨((((n, v), s), a), none), ⟨⟨⟨⟨hn, h2⟩, h3⟩, h4⟩, trivial⟩, ?_, rfl, ?_⟩
      · cases n <;> simp [optT, Hop.text]
      · simp [optT, Hop.notes]
    · refine ⟨((((n, v), s), a), some (s', r)), ⟨⟨⟨⟨hn, h2⟩, h3⟩, h4⟩, h5 s' r rfl⟩, ?_, rfl, ?_⟩
      · cases n <;> simp [optT, Hop.text]
      · simp [optT, Hop.notes]

/-- The elements of a list are single values anyway. -/
theorem list1_one {D E : Den} (h : oneD D = E) (h' : oneD E = E) : list1D D = list1D E := by
  have : elementsD D = elementsD E := by
    funext w x cs
    unfold elementsD
    rw [h, h']
  funext w vs cs
  unfold list1D
  rw [this]

theorem viaItems_den : Alike (list1D (viaItemE.den cmtD)) (cmtD .viaItems) := by
  rw [list1_one (E := tabD Hop.Ok Hop.text (fun x => [x.value]) Hop.notes) (by rw [via_den, tab_one]; rfl) tab_one_single]
  exact tab_list1 (fun _ _ => nofun)

theorem product_den : oneD ((GExpr.app (classF (str "Versioned")) true (.seq
    (.app (classF (str "ProductName")) true (.cms .token))
    (.maybe (.seq (.skip (.lit (str "/") false)) (.ref .productVersion)))) : GExpr CommentName).den cmtD) = productD := by
  show oneD (appD (classF (str "Versioned")) (thenD (appD (classF (str "ProductName")) tokenD)
    (oneD (orD (thenD (appD skipF (litD (str "/") false)) tokenD) (appD (substF .none) nothingD))))) = _
  rw [slash_is, silent_then, tab_maybe, tab_one, tab_class, tab_then, tab_class, tab_one_single]
  refine tab_iff ?_ ?_
  · rintro ⟨n, _ | v⟩ h
    · exact ⟨⟨n, none⟩, ⟨h.1, nofun⟩, rfl, rfl, rfl⟩
    · exact ⟨⟨n, some v⟩, ⟨h.1, fun x e => by cases e; exact h.2⟩, rfl, rfl, rfl⟩
  · rintro ⟨n, _ | v⟩ h
    · exact ⟨(n, none), ⟨h.1, trivial⟩, rfl, rfl, rfl⟩
    · exact ⟨(n, some v), ⟨h.1, h.2 v rfl⟩, rfl, rfl, rfl⟩

theorem part_den : oneD (orD productD commentD) =
    tabD ProductPart.Ok ProductPart.text (fun x => [x.value]) ProductPart.notes := by
  rw [tab_or, tab_one]
  refine tab_iff ?_ ?_
  · rintro (p | r) h
    · exact ⟨.product p, h, rfl, rfl, rfl⟩
    · exact ⟨.comment r, h, rfl, rfl, rfl⟩
  · rintro (p | r) h
    · exact ⟨.inl p, h, rfl, rfl, rfl⟩
    · exact ⟨.inr r, h, rfl, rfl, rfl⟩

theorem products_den (u : CommentUse) : oneD ((productsE u).den cmtD) =
    tabD Products.Ok Products.text (fun x => [x.value]) Products.notes := by
  show oneD (appD continueRightListF (thenD productD (timesD (thenD (appD skipF requiredSpacesD) (oneD (orD productD commentD)))
    (thenD (appD skipF requiredSpacesD) (oneD (orD productD commentD))) 0 none))) = _
  rw [part_den, tab_skip, tab_then]
  have hd : tabD (fun x : Str × ProductPart => IsRws x.1 ∧ x.2.Ok) (fun x => x.1 ++ x.2.text) (fun x => [] ++ [x.2.value])
      (fun x => wideSpaceNotes x.1 ++ x.2.notes) = tabD (fun x : Str × ProductPart => IsRws x.1 ∧ x.2.Ok)
      (fun x => x.1 ++ x.2.text) (fun x => [x.2.value]) (fun x => wideSpaceNotes x.1 ++ x.2.notes) := rfl
  rw [hd, tab_times (fun a _ => ⟨_, rfl⟩) 0 none nofun, tab_then, tab_app, tab_one]
  refine tab_iff ?_ ?_
  · rintro ⟨p, l⟩ ⟨h1, h2, _⟩
    exact ⟨⟨p, l⟩, ⟨h1, h2⟩, rfl, rfl, List.append_nil _⟩
  · rintro ⟨p, l⟩ ⟨h1, h2⟩
    exact ⟨(p, l), ⟨h1, h2, Nat.zero_le _, nofun⟩, rfl, rfl, (List.append_nil _).symm⟩

theorem warnCode_den : oneD ((GExpr.app warnCodeF true (.stringTimes 3 (some 3) .digit) : GExpr CommentName).den cmtD) =
    cmtD .warnCode := by
  show oneD (appD warnCodeF (appD joinF (timesD (octetD digitBits) (octetD digitBits) 3 (some 3)))) = _
  rw [tab_stringTimes _ 3 (some 3) (by simp), tab_app, tab_one]
  refine tab_iff ?_ ?_
  · rintro w ⟨h1, h2, h3⟩
    refine ⟨w, ⟨⟨List.ne_nil_of_length_pos (by omega), fun c hc => (digit_iff c).mp (h1 c hc)⟩,
      Nat.le_antisymm (h3 3 rfl) h2⟩, rfl, ?_, rfl⟩
    show [GVal.obj (str "WarnCode") [.int (decimal w : Nat)]] = _
    rw [decimal_numeral]
  · rintro w ⟨⟨h1, h2⟩, h3⟩
    refine ⟨w, ⟨fun c hc => (digit_iff c).mpr (h2 c hc), Nat.le_of_eq h3.symm, fun k hk => by cases hk; exact Nat.le_of_eq h3⟩,
      rfl, ?_, rfl⟩
    show _ = [GVal.obj (str "WarnCode") [.int (decimal w : Nat)]]
    rw [decimal_numeral]

theorem cmt_date : cmtD (.cache (.date .httpDate)) = tabD (fun x : DateFormat × Stamp => x.2.Fits x.1) (fun x => x.2.text x.1)
    (fun x => [x.2.value]) (fun x => x.2.notes x.1) :=
  tab_iff (fun x h => ⟨x, h.2, rfl, rfl, rfl⟩) (fun x h => ⟨x, ⟨trivial, h⟩, rfl, rfl, rfl⟩)

theorem warnDate_den : oneD ((GExpr.seq (.seq (.skip (.chars dquoteBits true)) (.ref (.cache (.date .httpDate))))
    (.skip (.chars dquoteBits true)) : GExpr CommentName).den cmtD) = warnDateD := by
  show oneD (thenD (thenD (appD skipF (octetD dquoteBits)) (cmtD (.cache (.date .httpDate)))) (appD skipF (octetD dquoteBits))) = _
  rw [cmt_date, skip_dquote, silent_then, then_silent, tab_one_single]
  rfl

theorem warning_den : oneD ((GExpr.app (classF (str "WarningValue")) true (.seq (.seq (.seq (.seq (.seq
    (.ref .warnCode) (.skip (.chars spBits true))) (.ref .warnAgent)) (.skip (.chars spBits true))) (.ref .warnText))
    (.maybe (.seq (.skip (.chars spBits true)) (.ref .warnDate)))) : GExpr CommentName).den cmtD) = cmtD .warningValue := by
  show oneD (appD (classF (str "WarningValue")) (thenD (thenD (thenD (thenD (thenD (cmtD .warnCode) (appD skipF (octetD spBits)))
    (verbD IsAgent)) (appD skipF (octetD spBits))) quotedD) (oneD (orD (thenD (appD skipF (octetD spBits)) warnDateD)
      (appD (substF .none) nothingD))))) = _
  simp only [cmtD, warnDateD]
  rw [skip_sp, then_silent, tab_then, then_silent, tab_then, silent_then, tab_maybe, tab_one, tab_then, tab_class, tab_one_single]
  refine tab_iff ?_ ?_
  · rintro ⟨⟨⟨k, a⟩, q⟩, o⟩ ⟨⟨⟨h1, h2⟩, h3⟩, h4⟩
    rcases o with _ | ⟨f, d⟩
    · exact ⟨⟨k, a, q, none⟩, ⟨h1, h2, h3, nofun⟩, rfl, rfl, rfl⟩
    · refine ⟨⟨k, a, q, some (f, d)⟩, ⟨h1, h2, h3, fun _ _ e => by cases e; exact h4⟩, ?_, rfl, rfl⟩
      simp [optT, WarningSyn.text]
      rfl
  · rintro ⟨k, a, q, o⟩ ⟨h1, h2, h3, h4⟩
    rcases o with _ | ⟨f, d⟩
    · exact ⟨(((k, a), q), none), ⟨⟨⟨h1, h2⟩, h3⟩, trivial⟩, rfl, rfl, rfl⟩
    · refine ⟨(((k, a), q), some (f, d)), ⟨⟨⟨h1, h2⟩, h3⟩, h4 f d rfl⟩, ?_, rfl, rfl⟩
      simp [optT, WarningSyn.text]
      rfl

local macro "fine" : tactic => `(tactic| simp_all [Defn.Fine, GExpr.Fine, GExpr.quotedPair, agentE, productsE])

local macro "one" : tactic => `(tactic| exact named_alike (.of_eq tab_one_single))

theorem comments_solve {order : List Nat → List Nat} (ho : ∀ l c, c ∈ order l ↔ c ∈ l) : Solves [] cmtD (commentDefs order) := by
  refine solves_import (known := []) (δ' := cacheD) nofun (fun _ => rfl) (caches_solve ho) ?_
  refine solves_import (known := []) (δ' := uriD) nofun (fun _ => rfl) uris_solve ?_
  have hk : ∀ n ∈ [CommentName.cache (.hop (.str .token)), .cache (.hop (.str .quoted)), .cache (.hop (.str .ows)),
      .cache (.hop (.str .rws)), .cache (.hop .protocolName), .cache (.hop .protocolVersion), .cache (.date .httpDate),
      .uri .host, .uri .port],
      n ∈ (uriDefs.map fun x => CommentName.uri x.1).reverse ++
        (((cacheDefs order).map fun x => CommentName.cache x.1).reverse ++ []) := of_decide_eq_true (Eq.refl true)
  generalize (uriDefs.map fun x => CommentName.uri x.1).reverse ++
        (((cacheDefs order).map fun x => CommentName.cache x.1).reverse ++ []) = known at hk
  refine ⟨by fine, named_alike (.of_eq commentPair_den), ?_⟩
  refine ⟨by fine, solve_nested (.of_eq (inner_den rfl).symm), ?_⟩
  refine ⟨by fine, named_alike (.of_eq (comment_den rfl)), ?_⟩
  refine ⟨by fine, named_alike (.of_eq received_den), ?_⟩
  refine ⟨by fine, by one, ?_⟩
  refine ⟨by fine, named_alike (.of_eq agent_den), ?_⟩
  refine ⟨⟨by simp_all, rfl, by fine, fun w cs => ?_⟩, viaItems_den, ?_⟩
  · rw [via_den]
    rintro ⟨_, _, _, h, _⟩
    cases h
  refine ⟨by fine, by one, ?_⟩
  refine ⟨by fine, by one, ?_⟩
  refine ⟨by fine, named_alike (.of_eq product_den), ?_⟩
  refine ⟨by fine, named_alike (.of_eq commentPair_den), ?_⟩
  refine ⟨by fine, solve_nested (.of_eq (inner_den rfl).symm), ?_⟩
  refine ⟨by fine, named_alike (.of_eq (comment_den rfl)), ?_⟩
  refine ⟨by fine, named_alike (.of_eq (products_den .userAgent)), ?_⟩
  refine ⟨by fine, named_alike (.of_eq commentPair_den), ?_⟩
  refine ⟨by fine, solve_nested (.of_eq (inner_den rfl).symm), ?_⟩
  refine ⟨by fine, named_alike (.of_eq (comment_den rfl)), ?_⟩
  refine ⟨by fine, named_alike (.of_eq (products_den .server)), ?_⟩
  refine ⟨by fine, named_alike (.of_eq warnCode_den), ?_⟩
  refine ⟨by fine, named_alike (.of_eq agent_den), ?_⟩
  refine ⟨by fine, by one, ?_⟩
  refine ⟨by fine, named_alike (.of_eq warnDate_den), ?_⟩
  refine ⟨by fine, named_alike (.of_eq warning_den), ?_⟩
  refine ⟨⟨by simp_all, rfl, by fine, fun w cs => tab_never w cs⟩, tab_list1 (fun _ _ => nofun), ?_⟩
  refine ⟨by fine, by one, ?_⟩
  trivial

end Httpolice.Lemmas
