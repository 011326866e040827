import Verif.Lemmas.Languages
import Verif.Lemmas.Preferences
import Verif.Lemmas.Fetch
import Verif.Lemmas.Utf8

/-!
# What the names for encoded values, Content-Disposition and parameters of links come to
-/

namespace Httpolice.Lemmas

open Httpolice.Model Httpolice.Spec

/-! ## Characters -/

theorem attr_iff (c : Nat) : attrBits c = true ↔ IsAttrChar c := by
  unfold attrBits IsAttrChar
  simp only [Bool.or_eq_true, charBits_sign (k := 33) (by decide), charBits_sign (k := 35) (by decide),
    charBits_sign (k := 36) (by decide), charBits_sign (k := 38) (by decide), charBits_sign (k := 43) (by decide),
    charBits_sign (k := 45) (by decide), charBits_sign (k := 46) (by decide), charBits_sign (k := 94) (by decide),
    charBits_sign (k := 95) (by decide), charBits_sign (k := 96) (by decide), charBits_sign (k := 124) (by decide),
    charBits_sign (k := 126) (by decide), alpha_iff, digitBits_iff, attr_signs, List.mem_cons, List.not_mem_nil, or_false, or_assoc]

theorem charset_signs : str "!#$%&+-^_`{}~" = [33, 35, 36, 37, 38, 43, 45, 94, 95, 96, 123, 125, 126] := by decide +kernel

theorem charset_iff (c : Nat) : charsetBits c = true ↔ IsLetter c ∨ IsDigit c ∨ c ∈ str "!#$%&+-^_`{}~" := by
  unfold charsetBits
  simp only [Bool.or_eq_true, charBits_sign (k := 33) (by decide), charBits_sign (k := 35) (by decide),
    charBits_sign (k := 36) (by decide), charBits_sign (k := 37) (by decide), charBits_sign (k := 38) (by decide),
    charBits_sign (k := 43) (by decide), charBits_sign (k := 45) (by decide), charBits_sign (k := 94) (by decide),
    charBits_sign (k := 95) (by decide), charBits_sign (k := 96) (by decide), charBits_sign (k := 123) (by decide),
    charBits_sign (k := 125) (by decide), charBits_sign (k := 126) (by decide), alpha_iff, digitBits_iff, charset_signs,
    List.mem_cons, List.not_mem_nil, or_false, or_assoc]

theorem restricted_signs : str "!#$&-^_.+" = [33, 35, 36, 38, 45, 94, 95, 46, 43] := by decide +kernel

theorem restricted_iff (c : Nat) : restrictedBits c = true ↔ IsLetter c ∨ IsDigit c ∨ c ∈ str "!#$&-^_.+" := by
  unfold restrictedBits
  simp only [Bool.or_eq_true, charBits_sign (k := 33) (by decide), charBits_sign (k := 35) (by decide),
    charBits_sign (k := 36) (by decide), charBits_sign (k := 38) (by decide), charBits_sign (k := 43) (by decide),
    charBits_sign (k := 45) (by decide), charBits_sign (k := 46) (by decide), charBits_sign (k := 94) (by decide),
    charBits_sign (k := 95) (by decide), alpha_iff, digitBits_iff, restricted_signs, List.mem_cons, List.not_mem_nil, or_false,
    or_assoc]

theorem loalpha_iff (c : Nat) : loalphaBits c = true ↔ 97 ≤ c ∧ c ≤ 122 := by
  unfold loalphaBits
  rw [decide_eq_true_eq]

theorem rel_iff (c : Nat) : relBits c = true ↔ (97 ≤ c ∧ c ≤ 122) ∨ IsDigit c ∨ c = 46 ∨ c = 45 := by
  unfold relBits
  simp only [Bool.or_eq_true, charBits_sign (k := 45) (by decide), charBits_sign (k := 46) (by decide), loalpha_iff, digitBits_iff,
    or_assoc]

/-! ## Names -/

/-- A registered relation. -/
def IsRelName (w : Str) : Prop :=
  ∃ c v, (97 ≤ c ∧ c ≤ 122) ∧ (∀ d ∈ v, (97 ≤ d ∧ d ≤ 122) ∨ IsDigit d ∨ d = 46 ∨ d = 45) ∧ w = c :: v

/-- Names of files. -/
def IsFilename (w : Str) : Prop := SameWord w (str "filename") ∨ SameWord w (str "filename*")

/-- Parameters. -/
noncomputable abbrev dispD (Name : Str → Prop) : Den :=
  tabD (fun x : DispParam => x.Ok ∧ Name x.name) DispParam.text (fun x => [x.entry]) (fun x => x.value.notes)

/-- What the names come to. -/
noncomputable def extD : ExtName → Den
  | .lang n => langsD n
  | .uri n => uriD n
  | .mimeCharset => verbD IsCharsetName
  | .charset => tabD IsCharsetName (fun w => w) (fun w => [nameValue (str "CaseInsensitive") w]) (fun _ => [])
  | .pctEncoded => verbD percentL
  | .valueChars => tabD (fun l : List XChar => ∀ c ∈ l, c.Ok) (fun l => l.flatMap XChar.text)
      (fun l => [bytesObj (l.map XChar.byte)]) (fun _ => [])
  | .extValue => tabD ExtSyn.Ok ExtSyn.text (fun x => [x.value]) ExtSyn.notes
  | .value => wordsD
  | .dispositionType => nameD (str "CaseInsensitive")
  | .filenameParm => dispD IsFilename
  | .dispExtParm => dispD (fun w => ¬ IsFilename w)
  | .dispositionParm => tabD DispParam.Ok DispParam.text (fun x => [x.entry]) (fun x => x.value.notes)
  | .contentDisposition => tabD DispSyn.Ok DispSyn.text (fun x => [x.value]) DispSyn.notes
  | .restrictedName | .typeName | .subtypeName => verbD IsRestricted
  | .anchor => verbD IsUriReference
  | .regRelType => tabD IsRelName (fun w => w) (fun w => [nameValue (str "CaseInsensitive") w]) (fun _ => [])
  | .extRelType => uriD .uri
  | .relationType => tabD RelSyn.Ok RelSyn.text (fun x => [x.value]) (fun _ => [])
  | .rel => tabD RelsSyn.Ok RelsSyn.text (fun x => [x.value]) (fun _ => [])
  | .hreflang => tabD IsLanguageTag (fun w => w) (fun w => [nameValue (str "LanguageTag") w]) (fun _ => [])
  | .linkType => tabD IsLinkType (fun w => w) (fun w => [nameValue (str "MediaType") w]) meantNotes

theorem mimeCharset_den : oneD ((GExpr.string1 (.chars charsetBits true) : GExpr ExtName).den extD) = extD .mimeCharset := by
  show oneD (appD joinF (timesD (octetD charsetBits) (octetD charsetBits) 1 none)) = _
  rw [verb_chars, verb_many1, verb_one]
  exact verb_congr (chars1_iff charset_iff)

theorem charset_den : oneD ((GExpr.app (classF (str "CaseInsensitive")) true (.ref .mimeCharset) : GExpr ExtName).den extD) =
    extD .charset := by
  show oneD (appD (classF (str "CaseInsensitive")) (verbD IsCharsetName)) = _
  rw [tab_class, tab_one_single]
  rfl

theorem pctEncoded_den : oneD ((GExpr.add (.add (.lit (str "%") false) (.chars hexBits true)) (.chars hexBits true) :
    GExpr ExtName).den extD) = extD .pctEncoded := by
  show oneD (appD addF (thenD (appD addF (thenD (litD (str "%") false) (octetD hexBits))) (octetD hexBits))) = _
  rw [lit_percent, verb_chars, verb_add, verb_add, verb_one]
  exact verb_congr percent_iff

theorem valueChars_den : oneD ((GExpr.app unquoteF false (.app forceBytesF false (.string (.alt (.ref .pctEncoded)
    (.chars attrBits true)))) : GExpr ExtName).den extD) = extD .valueChars := by
  show oneD (appD unquoteF (appD forceBytesF (appD joinF (timesD (orD (verbD percentL) (octetD attrBits))
    (oneD (orD (verbD percentL) (octetD attrBits))) 0 none)))) = _
  have hu : orL percentL (oneL attrBits) = unitL IsAttrChar := by
    rw [← unit_bits attr_iff]
    funext w
    exact propext or_comm
  rw [verb_chars, verb_or, verb_one, hu, verb_many, verb_congr (encoded_iff IsAttrChar), tab_app, tab_app, tab_one]
  refine tab_iff ?_ ?_
  · intro w h
    obtain ⟨l, h1, rfl⟩ := (encoded_xchars w).mp h
    refine ⟨l, h1, rfl, ?_, rfl⟩
    show [bytesObj (unquote (l.flatMap XChar.text))] = _
    rw [unquote_text h1]
  · intro l h
    refine ⟨l.flatMap XChar.text, (encoded_xchars _).mpr ⟨l, h, rfl⟩, rfl, ?_, rfl⟩
    show _ = [bytesObj (unquote (l.flatMap XChar.text))]
    rw [unquote_text h]

theorem quote_char : appD skipF (litD (str "'") false) = silentD [39] := skip_char (k := 39) (by decide)

theorem checkExt_eq (x : ExtSyn) : checkExtValueF [x.value] = (.val x.value, x.notes) := by
  obtain ⟨charset, language, chars⟩ := x
  have hw : SameWord charset (str "UTF-8") ↔ charset.map litLower = str "utf-8" := by
    rw [sameWord_iff, show (str "UTF-8").map litLower = str "utf-8" by decide +kernel]
  unfold ExtSyn.value ExtSyn.notes checkExtValueF nameValue
  simp only [hw, ← utf8_decodes]
  congr 1
  by_cases h : charset.map litLower = str "utf-8"
  · simp [h]
  · simp [h]

theorem extValue_den : oneD ((GExpr.app checkExtValueF false (.app (classF (str "ExtValue")) true (.seq (.seq (.seq (.seq
    (.ref .charset) (.skip (.lit (str "'") false))) (.maybe (.ref (.lang .languageTag)))) (.skip (.lit (str "'") false)))
    (.ref .valueChars))) : GExpr ExtName).den extD) = extD .extValue := by
  show oneD (appD checkExtValueF (appD (classF (str "ExtValue")) (thenD (thenD (thenD (thenD (extD .charset)
    (appD skipF (litD (str "'") false))) (oneD (orD (langsD .languageTag) (appD (substF .none) nothingD))))
    (appD skipF (litD (str "'") false))) (extD .valueChars)))) = _
  simp only [extD, langsD]
  rw [quote_char, then_silent, tab_maybe, tab_one, tab_then, then_silent, tab_then, tab_class, tab_app, tab_one]
  have key : ∀ (c : Str) (o : Option Str) (l : List XChar),
      [GVal.obj (str "ExtValue") ([nameValue (str "CaseInsensitive") c] ++
        argsOf (nodeOf (optT [GVal.none] (fun w => [nameValue (str "LanguageTag") w]) o)) ++ [bytesObj (l.map XChar.byte)])] =
      [ExtSyn.value ⟨c, o, l⟩] := by
    intro c o l
    cases o <;> rfl
  refine tab_iff ?_ ?_
  · rintro ⟨⟨c, o⟩, l⟩ ⟨⟨h1, h2⟩, h3⟩
    refine ⟨⟨c, o, l⟩, ⟨h1, ?_, h3⟩, ?_, ?_, ?_⟩
    · rintro w rfl
      exact h2
    · cases o <;> simp [ExtSyn.text, optT]
    · show argsOf (nodeOf (argsOf (checkExtValueF _).1)) = _
      rw [key, checkExt_eq]
      rfl
    · show _ ++ (checkExtValueF _).2 = _
      rw [key, checkExt_eq]
      cases o <;> rfl
  · rintro ⟨c, o, l⟩ ⟨h1, h2, h3⟩
    refine ⟨((c, o), l), ⟨⟨h1, ?_⟩, h3⟩, ?_, ?_, ?_⟩
    · cases o with
      | none => trivial
      | some w => exact h2 w rfl
    · cases o <;> simp [ExtSyn.text, optT]
    · show _ = argsOf (nodeOf (argsOf (checkExtValueF _).1))
      rw [key, checkExt_eq]
      rfl
    · show _ = _ ++ (checkExtValueF _).2
      rw [key, checkExt_eq]
      cases o <;> rfl

/-! ## Content-Disposition -/

theorem owsEquals_den : appD skipF (thenD (thenD spacesD (litD (str "=") false)) spacesD) =
    tabD (fun x : Str × Str => IsOws x.1 ∧ IsOws x.2) (fun x => x.1 ++ 61 :: x.2) (fun _ => []) (fun _ => []) := by
  rw [spaces_tab, equals_char, tab_then, tab_then, tab_skip]
  refine tab_iff ?_ ?_
  · rintro ⟨⟨a, _⟩, b⟩ ⟨⟨ha, _⟩, hb⟩
    exact ⟨(a, b), ⟨ha, hb⟩, by simp, rfl, rfl⟩
  · rintro ⟨a, b⟩ ⟨ha, hb⟩
    exact ⟨((a, ()), b), ⟨⟨ha, trivial⟩, hb⟩, by simp, rfl, rfl⟩

/-- A parameter with a value in this form. -/
theorem parm_den {α : Type} {Name : Str → Prop} {name : GExpr ExtName} {result : ExtName} {P : α → Prop} {t : α → Str}
    {v : α → GVal} {c : α → List PyComplaint}
    (hn : name.den extD = tabD Name (fun w => w) (fun w => [.text w]) (fun _ => []))
    (hr : extD result = tabD P t (fun a => [v a]) c) :
    (parmE name result).den extD = tabD (fun x : (Str × Str × Str) × α => (Name x.1.1 ∧ IsOws x.1.2.1 ∧ IsOws x.1.2.2) ∧ P x.2)
      (fun x => x.1.1 ++ x.1.2.1 ++ 61 :: x.1.2.2 ++ t x.2) (fun x => [nameValue (str "CaseInsensitive") x.1.1, v x.2])
      (fun x => c x.2) := by
  show thenD (thenD (appD (classF (str "CaseInsensitive")) (name.den extD))
    (appD skipF (thenD (thenD spacesD (litD (str "=") false)) spacesD))) (extD result) = _
  rw [owsEquals_den, hn, hr, tab_class, tab_then, tab_then]
  refine tab_iff ?_ ?_
  · rintro ⟨⟨n, a, b⟩, x⟩ ⟨⟨h1, h2⟩, h3⟩
    exact ⟨((n, a, b), x), ⟨⟨h1, h2⟩, h3⟩, by simp, rfl, rfl⟩
  · rintro ⟨⟨n, a, b⟩, x⟩ ⟨⟨h1, h2⟩, h3⟩
    exact ⟨((n, a, b), x), ⟨⟨h1, h2⟩, h3⟩, by simp, rfl, rfl⟩

theorem filename_token {w : Str} (h : IsFilename w) : IsToken w := by
  rcases h with h | h
  · exact sameWord_token (by decide +kernel) h
  · exact sameWord_token (by decide +kernel) h

theorem filename_other {w : Str} (h : SameWord w (str "filename")) : ¬ SameWord w (str "filename*") :=
  sameWord_other (by decide +kernel) h

theorem filenameParm_den : oneD ((GExpr.alt (parmE (.lit (str "filename") false) .value)
    (parmE (.lit (str "filename*") false) .extValue)).den extD) = extD .filenameParm := by
  show oneD (orD ((parmE (.lit (str "filename") false) .value).den extD) ((parmE (.lit (str "filename*") false) .extValue).den extD)) = _
  rw [parm_den (name := .lit (str "filename") false) (result := .value) (tab_lit _) rfl,
    parm_den (name := .lit (str "filename*") false) (result := .extValue) (tab_lit _) rfl, tab_or, tab_one]
  refine tab_iff ?_ ?_
  · rintro (⟨⟨n, a, b⟩, w⟩ | ⟨⟨n, a, b⟩, x⟩) ⟨⟨h1, h2, h3⟩, h4⟩
    · exact ⟨⟨n, a, b, .word w⟩, ⟨⟨filename_token (.inl h1), h2, h3, h4, nofun, fun k => absurd k (filename_other h1)⟩, .inl h1⟩,
        rfl, rfl, rfl⟩
    · exact ⟨⟨n, a, b, .ext x⟩, ⟨⟨filename_token (.inr h1), h2, h3, h4, fun _ => h1, fun _ => trivial⟩, .inr h1⟩, rfl, rfl, rfl⟩
  · rintro ⟨n, a, b, w | x⟩ ⟨⟨h1, h2, h3, h4, h5⟩, h6⟩
    · exact ⟨.inl ((n, a, b), w), ⟨⟨h6.resolve_right fun k => h5.mpr k, h2, h3⟩, h4⟩, rfl, rfl, rfl⟩
    · exact ⟨.inr ((n, a, b), x), ⟨⟨h5.mp trivial, h2, h3⟩, h4⟩, rfl, rfl, rfl⟩

theorem dispExtParm_den (order : List Nat → List Nat) :
    oneD ((parmE (.tokenExcluding order [str "filename", str "filename*"]) .value).den extD) = extD .dispExtParm := by
  rw [parm_den (name := .tokenExcluding order [str "filename", str "filename*"]) (result := .value) (tokenExcl_den _) rfl, tab_one]
  refine tab_iff ?_ ?_
  · rintro ⟨⟨n, a, b⟩, w⟩ ⟨⟨⟨h0, h1⟩, h2, h3⟩, h4⟩
    have k1 := h1 _ (.head _)
    have k2 := h1 _ (.tail _ (.head _))
    exact ⟨⟨n, a, b, .word w⟩, ⟨⟨h0, h2, h3, h4, nofun, fun k => absurd k k2⟩, fun k => k.elim k1 k2⟩, rfl, rfl, rfl⟩
  · rintro ⟨n, a, b, w | x⟩ ⟨⟨h1, h2, h3, h4, h5⟩, h6⟩
    · refine ⟨((n, a, b), w), ⟨⟨⟨h1, ?_⟩, h2, h3⟩, h4⟩, rfl, rfl, rfl⟩
      intro y hy
      rcases List.mem_cons.mp hy with rfl | hy
      · exact fun k => h6 (.inl k)
      · obtain rfl := List.mem_singleton.mp hy
        exact fun k => h6 (.inr k)
    · exact absurd (.inr (h5.mp trivial)) h6

theorem dispositionParm_den : oneD ((GExpr.alt (.ref .filenameParm) (.ref .dispExtParm) : GExpr ExtName).den extD) =
    extD .dispositionParm := by
  show oneD (orD (extD .filenameParm) (extD .dispExtParm)) = _
  simp only [extD]
  rw [tab_or, tab_one]
  refine tab_iff ?_ ?_
  · rintro (x | x) h <;> exact ⟨x, h.1, rfl, rfl, rfl⟩
  · intro x h
    by_cases k : IsFilename x.name
    · exact ⟨.inl x, ⟨h, k⟩, rfl, rfl, rfl⟩
    · exact ⟨.inr x, ⟨h, k⟩, rfl, rfl, rfl⟩

theorem contentDisposition_den : oneD ((GExpr.app (classF (str "Parametrized")) true (.seq (.ref .dispositionType)
    (.app (classF (str "MultiDict")) true (.many (.seq (.semicolon (.lang (.sem (.hop (.str .ows))))) (.ref .dispositionParm))))) :
    GExpr ExtName).den extD) = extD .contentDisposition := by
  show oneD (appD (classF (str "Parametrized")) (thenD (nameD (str "CaseInsensitive")) (appD (classF (str "MultiDict"))
    (timesD (thenD (appD skipF (thenD (thenD spacesD (litD (str ";") false)) spacesD)) (extD .dispositionParm))
      (thenD (appD skipF (thenD (thenD spacesD (litD (str ";") false)) spacesD)) (extD .dispositionParm)) 0 none)))) = _
  simp only [extD]
  rw [semi_den, semis_den, tab_class, tab_then, tab_class, tab_one_single]
  refine tab_iff ?_ ?_
  · rintro ⟨n, l⟩ h
    exact ⟨⟨n, l⟩, h, rfl, rfl, rfl⟩
  · rintro ⟨n, l⟩ h
    exact ⟨(n, l), h, rfl, rfl, rfl⟩

/-! ## Parameters of links -/

theorem restrictedName_den : oneD ((GExpr.add (.chars alphanumBits true) (.stringTimes 0 (some 126) (.chars restrictedBits true)) :
    GExpr ExtName).den extD) = extD .restrictedName := by
  show oneD (appD addF (thenD (octetD alphanumBits) (appD joinF (timesD (octetD restrictedBits) (octetD restrictedBits) 0 (some 126))))) = _
  rw [verb_chars, verb_chars, verb_times _ 0 (some 126) (by rintro _ ⟨⟩; decide), verb_add, verb_one]
  refine verb_congr fun w => ⟨?_, ?_⟩
  · rintro ⟨_, v, ⟨c, h1, rfl⟩, h2, rfl⟩
    obtain ⟨k1, _, k3⟩ := (count_iff restricted_iff 0 126 v).mp h2
    exact ⟨c, v, (alphanum_iff c).mp h1, k1, k3, rfl⟩
  · rintro ⟨c, v, h1, h2, h3, rfl⟩
    exact ⟨[c], v, ⟨c, (alphanum_iff c).mpr h1, rfl⟩, (count_iff restricted_iff 0 126 v).mpr ⟨h2, Nat.zero_le _, h3⟩, rfl⟩

theorem regRelType_den : oneD ((GExpr.app (classF (str "CaseInsensitive")) true (.add (.chars loalphaBits true)
    (.string (.chars relBits false))) : GExpr ExtName).den extD) = extD .regRelType := by
  show oneD (appD (classF (str "CaseInsensitive")) (appD addF (thenD (octetD loalphaBits) (appD joinF (timesD (octetD relBits)
    (octetD relBits) 0 none))))) = _
  rw [verb_chars, verb_chars, verb_many, verb_add, tab_class, tab_one_single]
  refine tab_iff ?_ ?_
  · rintro _ ⟨_, v, ⟨c, h1, rfl⟩, h2, rfl⟩
    exact ⟨c :: v, ⟨c, v, (loalpha_iff c).mp h1, (chars_iff rel_iff v).mp h2, rfl⟩, rfl, rfl, rfl⟩
  · rintro _ ⟨c, v, h1, h2, rfl⟩
    exact ⟨c :: v, ⟨[c], v, ⟨c, (loalpha_iff c).mpr h1, rfl⟩, (chars_iff rel_iff v).mpr h2, rfl⟩, rfl, rfl, rfl⟩

theorem relationType_den : oneD ((GExpr.alt (.ref .regRelType) (.ref .extRelType) : GExpr ExtName).den extD) =
    extD .relationType := by
  show oneD (orD (extD .regRelType) (extD .extRelType)) = _
  simp only [extD, uriD]
  rw [tab_or, tab_one]
  refine tab_iff ?_ ?_
  · rintro (w | w) h
    · exact ⟨.name w, h, rfl, rfl, rfl⟩
    · exact ⟨.uri w, h, rfl, rfl, rfl⟩
  · rintro (w | w) h
    · exact ⟨.inl w, h, rfl, rfl, rfl⟩
    · exact ⟨.inr w, h, rfl, rfl, rfl⟩

theorem gap_den : appD skipF (appD joinF (timesD (octetD spBits) (octetD spBits) 1 none)) =
    tabD (fun w : Str => w ≠ [] ∧ ∀ c ∈ w, c = 32) (fun w => w) (fun _ => []) (fun _ => []) := by
  have hb : ∀ c, spBits c = true ↔ c = 32 := fun c => by unfold spBits; rw [decide_eq_true_eq]; omega
  rw [verb_chars, verb_many1, verb_congr (chars1_iff hb), tab_skip]

theorem rels_den : oneD ((GExpr.mod (.ref .relationType) (.many (.seq (.skip (.string1 (.chars spBits true)))
    (.ref .relationType))) : GExpr ExtName).den extD) = extD .rel := by
  show oneD (appD continueRightListF (thenD (extD .relationType) (timesD
    (thenD (appD skipF (appD joinF (timesD (octetD spBits) (octetD spBits) 1 none))) (extD .relationType))
    (thenD (appD skipF (appD joinF (timesD (octetD spBits) (octetD spBits) 1 none))) (extD .relationType)) 0 none))) = _
  simp only [extD]
  rw [gap_den, tab_then, tab_times (fun a _ => ⟨a.2.value, rfl⟩) 0 none nofun, tab_then, tab_app, tab_one]
  have hn : ∀ l : List (Str × RelSyn), ([] : List PyComplaint) ++ l.flatMap (fun _ => [] ++ []) ++ [] = [] := by
    intro l
    induction l with
    | nil => rfl
    | cons _ l ih => exact ih
  refine tab_iff ?_ ?_
  · rintro ⟨o, l⟩ h
    exact ⟨⟨o, l⟩, ⟨h.1, h.2.1⟩, rfl, rfl, hn l⟩
  · rintro ⟨o, l⟩ h
    exact ⟨(o, l), ⟨h.1, h.2, Nat.zero_le _, nofun⟩, rfl, rfl, (hn l).symm⟩

theorem linkType_den : oneD ((GExpr.app checkMediaTypeF false (.app (classF (str "MediaType")) true
    (.add (.add (.ref .typeName) (.lit (str "/") false)) (.ref .subtypeName))) : GExpr ExtName).den extD) = extD .linkType := by
  show oneD (appD checkMediaTypeF (appD (classF (str "MediaType")) (appD addF (thenD (appD addF (thenD (verbD IsRestricted)
    (litD (str "/") false))) (verbD IsRestricted))))) = _
  rw [lit_slash, verb_add, verb_add, tab_class, tab_app, tab_one]
  have hL : ∀ w, catL (catL IsRestricted (fun w => w = [47])) IsRestricted w ↔ IsLinkType w := by
    intro w
    constructor
    · rintro ⟨_, v, ⟨u, _, h1, rfl, rfl⟩, h2, rfl⟩
      exact ⟨u, v, h1, h2, by simp⟩
    · rintro ⟨u, v, h1, h2, rfl⟩
      exact ⟨u ++ [47], v, ⟨u, [47], h1, rfl, rfl⟩, h2, by simp⟩
  refine tab_iff ?_ ?_
  · intro w h
    refine ⟨w, (hL w).mp h, rfl, ?_, ?_⟩
    · rw [checkMedia_eq]
      rfl
    · rw [checkMedia_eq]
      rfl
  · intro w h
    refine ⟨w, (hL w).mpr h, rfl, ?_, ?_⟩
    · rw [checkMedia_eq]
      rfl
    · rw [checkMedia_eq]
      rfl

local macro "fine" : tactic => `(tactic| simp_all [Defn.Fine, GExpr.Fine, parmE, GExpr.semicolon])

local macro "one" : tactic => `(tactic| exact named_alike (.of_eq tab_one_single))

theorem exts_solve {order : List Nat → List Nat} (ho : ∀ l c, c ∈ order l ↔ c ∈ l) : Solves [] extD (extDefs order) := by
  refine solves_import (known := []) (δ' := langsD) nofun (fun _ => rfl) (langs_solve ho) ?_
  refine solves_import (known := []) (δ' := uriD) nofun (fun _ => rfl) uris_solve ?_
  have hk : ∀ n ∈ [ExtName.lang (.sem (.hop (.str .token))), .lang (.sem (.hop (.str .quoted))), .lang (.sem (.hop (.str .ows))),
      .lang .languageTag, .uri .uriReference, .uri .uri],
      n ∈ (uriDefs.map fun x => ExtName.uri x.1).reverse ++
        (((langDefs order).map fun x => ExtName.lang x.1).reverse ++ []) := of_decide_eq_true (Eq.refl true)
  generalize (uriDefs.map fun x => ExtName.uri x.1).reverse ++
    (((langDefs order).map fun x => ExtName.lang x.1).reverse ++ []) = known at hk
  have t1 : ∀ known, (GExpr.tokenExcluding order [str "filename", str "filename*"] : GExpr ExtName).Fine known :=
    fun known => tokenExcl_fine ho (by decide +kernel) known
  refine ⟨by fine, named_alike (.of_eq mimeCharset_den), ?_⟩
  refine ⟨by fine, named_alike (.of_eq charset_den), ?_⟩
  refine ⟨by fine, named_alike (.of_eq pctEncoded_den), ?_⟩
  refine ⟨by fine, named_alike (.of_eq valueChars_den), ?_⟩
  refine ⟨by fine, named_alike (.of_eq extValue_den), ?_⟩
  refine ⟨by fine, named_alike (.of_eq ((congrArg oneD words_den).trans tab_one_single)), ?_⟩
  refine ⟨by fine, named_alike (.of_eq (name_den _)), ?_⟩
  refine ⟨by fine, named_alike (.of_eq filenameParm_den), ?_⟩
  refine ⟨?_, named_alike (.of_eq (dispExtParm_den order)), ?_⟩
  · generalize [str "filename", str "filename*"] = xs at t1 ⊢
    fine
  refine ⟨by fine, named_alike (.of_eq dispositionParm_den), ?_⟩
  refine ⟨by fine, named_alike (.of_eq contentDisposition_den), ?_⟩
  refine ⟨by fine, named_alike (.of_eq restrictedName_den), ?_⟩
  refine ⟨by fine, by one, ?_⟩
  refine ⟨by fine, by one, ?_⟩
  refine ⟨by fine, by one, ?_⟩
  refine ⟨by fine, named_alike (.of_eq regRelType_den), ?_⟩
  refine ⟨by fine, by one, ?_⟩
  refine ⟨by fine, named_alike (.of_eq relationType_den), ?_⟩
  refine ⟨by fine, named_alike (.of_eq rels_den), ?_⟩
  refine ⟨by fine, by one, ?_⟩
  refine ⟨by fine, named_alike (.of_eq linkType_den), ?_⟩
  trivial

end Httpolice.Lemmas
