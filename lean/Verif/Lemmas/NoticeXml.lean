import Verif.Spec.NoticeXml
import Verif.Lemmas.Knowledge
import Verif.Lemmas.Headings

/-! # Lemmas on reading notices -/

namespace Httpolice.Lemmas

open Httpolice.Model Httpolice.Spec

theorem letters_append (a b : Str) : letters (a ++ b) = letters a ++ letters b := by
  simp only [letters, List.filter_append, List.map_append]

theorem letters_spaces {a : Str} (h : ∀ c ∈ a, isSpaceChar c = true) : letters a = [] := by
  rw [letters, List.filter_eq_nil_iff.2, List.map_nil]
  intro c hc
  simp [h c hc]

theorem takeWhile_all {p : Nat → Bool} : ∀ {s : Str}, ∀ c ∈ s.takeWhile p, p c = true
  | [], c, h => by simp at h
  | x :: s, c, h => by
    rw [List.takeWhile_cons] at h
    split at h
    · rename_i hx
      rcases List.mem_cons.1 h with rfl | h
      · exact hx
      · exact takeWhile_all c h
    · cases h

theorem letters_lstrip (s : Str) : letters (lstripText s) = letters s := by
  have h := List.takeWhile_append_dropWhile (p := isSpaceChar) (l := s)
  rw [lstripText]
  conv => rhs; rw [← h]
  rw [letters_append, letters_spaces takeWhile_all, List.nil_append]

theorem letters_rstrip (s : Str) : letters (rstripText s) = letters s := by
  have h := List.takeWhile_append_dropWhile (p := isSpaceChar) (l := s.reverse)
  have h2 : s = (s.reverse.dropWhile isSpaceChar).reverse ++ (s.reverse.takeWhile isSpaceChar).reverse := by
    rw [← List.reverse_append, h, List.reverse_reverse]
  rw [rstripText]
  conv => rhs; rw [h2]
  rw [letters_append, letters_spaces (a := (s.reverse.takeWhile isSpaceChar).reverse), List.append_nil]
  intro c hc
  exact takeWhile_all c (List.mem_reverse.1 hc)

theorem allSaid_append (a b : List NPiece) : inPieces (a ++ b) = inPieces a ++ inPieces b := by
  induction a with
  | nil => rfl
  | cons p a ih => rw [List.cons_append, inPieces, inPieces, ih, List.append_assoc]

theorem allSaid_single (p : NPiece) : inPieces [p] = inPiece p := by
  rw [inPieces, inPieces, List.append_nil]

theorem allSaid_text {s : Str} {f : Str → Str} (h : letters (f s) = letters s) :
    inPieces (textPiece s f) = letters s := by
  rw [textPiece]
  split
  · rename_i h0; subst h0; rfl
  · rw [allSaid_single, inPiece, h]

theorem allSaid_kids : ∀ (kids : List (List NPiece × Str)),
    inPieces (kidPieces kids) = kids.flatMap fun k => inPieces k.1 ++ letters k.2
  | [] => rfl
  | [(ps, tail)] => by
    rw [kidPieces, allSaid_append, allSaid_text (letters_rstrip _)]
    simp
  | (ps, tail) :: kid :: kids => by
    rw [kidPieces, allSaid_append, allSaid_append, allSaid_text rfl, allSaid_kids (kid :: kids)]
    simp

theorem allSaid_assemble (text : Str) (kids : List (List NPiece × Str)) :
    inPieces (assemble text kids) =
      letters text ++ kids.flatMap fun k => inPieces k.1 ++ letters k.2 := by
  cases kids with
  | nil =>
    have h : letters (rstripText (lstripText text)) = letters text :=
      (letters_rstrip _).trans (letters_lstrip _)
    rw [assemble, allSaid_text h]
    simp
  | cons kid kids => rw [assemble, allSaid_append, allSaid_text (letters_lstrip _), allSaid_kids]

theorem assemble_nil {text : Str} {kids : List (List NPiece × Str)} (h : ∀ k ∈ kids, k.1 ≠ []) :
    assemble text kids = [] ↔ text = [] ∧ kids = [] := by
  cases kids with
  | nil =>
    rw [assemble, textPiece]
    split <;> simp_all
  | cons kid kids =>
    have hk := h kid List.mem_cons_self
    constructor
    · intro h0
      rw [assemble, List.append_eq_nil_iff] at h0
      obtain ⟨ps, tail⟩ := kid
      cases kids with
      | nil => rw [kidPieces, List.append_eq_nil_iff] at h0; exact absurd h0.2.1 hk
      | cons k ks =>
        rw [kidPieces, List.append_eq_nil_iff, List.append_eq_nil_iff] at h0
        exact absurd h0.2.1.1 hk
    · rintro ⟨_, h⟩; cases h

theorem join_split (s : Str) : List.intercalate [46] (splitOn 46 s) = s := by
  have hne : ∀ s, splitOn 46 s ≠ [] := by
    intro s
    cases s with
    | nil => simp [splitOn]
    | cons x s => 
      rw [splitOn]
      split
      · simp
      · split <;> simp
  induction s with
  | nil => rfl
  | cons x s ih =>
    rw [splitOn]
    cases hs : splitOn 46 s with
    | nil => exact absurd hs (hne s)
    | cons a ps =>
      rw [hs] at ih
      split
      · rename_i hx
        subst hx
        simp only [List.intercalate, List.intersperse, List.flatten_cons] at ih ⊢
        rw [ih]
        rfl
      · cases ps with
        | nil =>
          simp only [List.intercalate, List.intersperse, List.flatten_cons, List.flatten_nil,
            List.append_nil] at ih ⊢
          rw [ih]
        | cons b ps =>
          simp only [List.intercalate, List.intersperse, List.flatten_cons, List.cons_append] at ih ⊢
          rw [ih]

theorem rfc_read {attrs : Dict Str} (h : ProperRfc attrs) :
    rfcInfo attrs = .ok (sourceOf .rfc attrs) := by
  obtain ⟨s, n, hs, hn⟩ := h.num
  have hnum : (Scalar.text s).toInt = .ok (n : Int) := by
    rw [Scalar.toInt, pyInt_numeral hn]
  have hone := h.one
  obtain ⟨hp1, hp2⟩ := h.place
  have he := h.errata
  rw [rfcInfo, hs, sourceOf, if_pos rfl, hs]
  simp only [mkRfc, hnum, Option.getD_some]
  have hnn : (numberOf s : Int) = n := by rw [hn.2.2]
  rw [hnn]
  cases h1 : attrs.get (str "sect") with
  | some a =>
    rw [h1] at hone hp1
    have ha : a ≠ [] := fun h => hp1 (by rw [h])
    have h2 : attrs.get (str "appendix") = none ∧ attrs.get (str "errata") = none := by
      rcases hone with h | h | h
      · cases h.1
      · cases h.1
      · exact h
    rw [h2.1, h2.2]
    simp [optTrue, shownIf, Scalar.truthy, Scalar.show, ha]
  | none =>
    cases h2 : attrs.get (str "appendix") with
    | some a =>
      rw [h2] at hone hp2
      have ha : a ≠ [] := fun h => hp2 (by rw [h])
      have h3 : attrs.get (str "errata") = none := by
        rcases hone with h | h | h
        · cases h.2
        · exact h.2
        · cases h.1
      rw [h3]
      simp [optTrue, shownIf, Scalar.truthy, Scalar.show, ha]
    | none =>
      cases h3 : attrs.get (str "errata") with
      | none => simp [optTrue, shownIf]
      | some a =>
        obtain ⟨m, hm⟩ := he a h3
        have ha : a ≠ [] := hm.1
        have hmi : (Scalar.text a).toInt = .ok (m : Int) := by rw [Scalar.toInt, pyInt_numeral hm]
        have hmm : (numberOf a : Int) = m := by rw [hm.2.2]
        simp [optTrue, shownIf, Scalar.truthy, ha, hmi, hmm]

theorem known_read {E : XmlEnv} {t : KnownTag} {text : Str} (h0 : text ≠ [])
    (h : (t = .st ∨ t = .warn) → ∃ n, Numeral (trim text) n) :
    knownContent E t text [] = .ok (itemOf E t text) := by
  have hn : t.numeric = true ↔ (t = .st ∨ t = .warn) := by cases t <;> simp [KnownTag.numeric]
  have ht : rstripText (lstripText text) = trim text := rfl
  rw [knownContent, if_neg h0, itemOf]
  simp only [ht]
  by_cases hx : t = .st ∨ t = .warn
  · obtain ⟨n, hnum⟩ := h hx
    rw [if_pos (hn.2 hx), if_pos hx, pyInt_numeral hnum, ← hnum.2.2]
  · rw [if_neg (fun h => hx (hn.1 h)), if_neg hx]

theorem quote_said {E : XmlEnv} {cls : XmlClass} {attrs : Dict Str} {text tail : Str}
    {children : List Xml} {kids : List (List NPiece × Str)} (hc : cls = .cite ∨ cls = .rfc)
    (hs : (kids.flatMap fun k => inPieces k.1 ++ letters k.2) = inXmls E children)
    (hne : ∀ k ∈ kids, k.1 ≠ []) (hnil : kids = [] ↔ children = []) :
    inPiece (.cite (sourceOf cls attrs) (assemble text kids)) =
      inXml E (.elem cls attrs text children tail) := by
  have hw : inXml E (.elem cls attrs text children tail) = .source (sourceOf cls attrs) ::
      (if text = [] ∧ children.isEmpty then []
        else .beginQuote :: (letters text ++ inXmls E children) ++ [.endQuote]) := by
    rcases hc with rfl | rfl <;> rw [inXml]
  rw [hw, ← hs]
  have hiff := assemble_nil (text := text) hne
  by_cases h : text = [] ∧ kids = []
  · rw [hiff.2 h, if_pos ⟨h.1, List.isEmpty_iff.2 (hnil.1 h.2)⟩, inPiece]
  · rw [if_neg fun h' => h ⟨h'.1, hnil.2 (List.isEmpty_iff.1 h'.2)⟩, ← allSaid_assemble]
    cases h0 : assemble text kids with
    | nil => exact absurd (hiff.1 h0) h
    | cons q qs => rw [inPiece, inPieces]

/-- Names without dots. -/
def Names (path : List Str) : Prop := path ≠ [] ∧ ∀ p ∈ path, 46 ∉ p

mutual

/-- References in the piece are sequences of names. -/
def Pathed : NPiece → Prop
  | .text _ => True
  | .para content => AllPathed content
  | .known _ _ _ => True
  | .var path => Names path
  | .exc => True
  | .cite _ quote => AllPathed quote
  | .ref path => Names path

/-- References in all pieces are sequences of names. -/
def AllPathed : List NPiece → Prop
  | [] => True
  | p :: ps => Pathed p ∧ AllPathed ps

end

theorem allPathed_append {a b : List NPiece} (ha : AllPathed a) (hb : AllPathed b) : AllPathed (a ++ b) := by
  induction a with
  | nil => exact hb
  | cons p a ih =>
    rw [AllPathed] at ha
    rw [List.cons_append, AllPathed]
    exact ⟨ha.1, ih ha.2⟩

theorem pathed_text (s : Str) (f : Str → Str) : AllPathed (textPiece s f) := by
  rw [textPiece]
  split
  · trivial
  · rw [AllPathed, Pathed, AllPathed]; exact ⟨trivial, trivial⟩

theorem pathed_kids : ∀ {kids : List (List NPiece × Str)}, (∀ k ∈ kids, AllPathed k.1) →
    AllPathed (kidPieces kids)
  | [], _ => by rw [kidPieces]; trivial
  | [(ps, tail)], h => by
    rw [kidPieces]
    exact allPathed_append (h _ List.mem_cons_self) (pathed_text _ _)
  | (ps, tail) :: kid :: kids, h => by
    rw [kidPieces]
    exact allPathed_append (allPathed_append (h _ List.mem_cons_self) (pathed_text _ _))
      (pathed_kids fun k hk => h k (List.mem_cons_of_mem _ hk))

theorem pathed_assemble {text : Str} {kids : List (List NPiece × Str)} (h : ∀ k ∈ kids, AllPathed k.1) :
    AllPathed (assemble text kids) := by
  cases kids with
  | nil => rw [assemble]; exact pathed_text _ _
  | cons kid kids => exact allPathed_append (pathed_text _ _) (pathed_kids h)

theorem names_split (s : Str) : Names (splitOn 46 s) := by
  constructor
  · cases s with
    | nil => simp [splitOn]
    | cons x s =>
      rw [splitOn]
      split
      · simp
      · split <;> simp
  · induction s with
    | nil => simp [splitOn]
    | cons x s ih =>
      rw [splitOn]
      split
      · intro p hp
        rcases List.mem_cons.1 hp with rfl | hp
        · simp
        · exact ih p hp
      · rename_i hx
        split
        · intro p hp
          rw [List.mem_singleton] at hp
          subst hp
          simpa using fun h => hx h.symm
        · rename_i q ps hq
          rw [hq] at ih
          intro p hp
          rcases List.mem_cons.1 hp with rfl | hp
          · have := ih q List.mem_cons_self
            intro hm
            rcases List.mem_cons.1 hm with h | h
            · exact hx h.symm
            · exact this h
          · exact ih p (List.mem_cons_of_mem _ hp)

mutual

theorem proper_read (E : XmlEnv) : ∀ (x : Xml), Proper x →
    ∃ p, readNode E x = .ok [p] ∧ inPiece p = inXml E x ∧ Pathed p
  | .comment _ _, h => by rw [Proper] at h; exact h.elim
  | .elem cls attrs text children tail, h => by
    cases cls with
    | explain =>
      rw [Proper] at h
      obtain ⟨kids, hk, hs, _, _, hf⟩ := proper_reads E children h
      refine ⟨.para (assemble text kids), by rw [readNode]; simp only [hk], ?_, ?_⟩
      · rw [inPiece, allSaid_assemble, hs, inXml]
      · rw [Pathed]; exact pathed_assemble hf
    | cite =>
      rw [Proper] at h
      obtain ⟨⟨⟨t, ht, _⟩, u, hu, _⟩, h⟩ := h
      obtain ⟨kids, hk, hs, hne, hnil, hf⟩ := proper_reads E children h
      have hi : citeInfo attrs = .ok (sourceOf .cite attrs) := by
        rw [citeInfo, hu, sourceOf, if_neg (by decide), hu, ht]; rfl
      exact ⟨_, by rw [readNode]; simp only [hk, hi], quote_said (.inl rfl) hs hne hnil,
        by rw [Pathed]; exact pathed_assemble hf⟩
    | rfc =>
      rw [Proper] at h
      obtain ⟨hr, h⟩ := h
      obtain ⟨kids, hk, hs, hne, hnil, hf⟩ := proper_reads E children h
      exact ⟨_, by rw [readNode]; simp only [hk, rfc_read hr], quote_said (.inr rfl) hs hne hnil,
        by rw [Pathed]; exact pathed_assemble hf⟩
    | var =>
      rw [Proper] at h
      obtain ⟨s, hs⟩ := Option.ne_none_iff_exists'.1 h
      refine ⟨.var (splitOn 46 s), by rw [readNode]; simp only [referenceOf, hs], ?_, ?_⟩
      · rw [inPiece, inXml, hs, join_split, Option.getD_some]
      · rw [Pathed]; exact names_split s
    | ref =>
      rw [Proper] at h
      obtain ⟨s, hs⟩ := Option.ne_none_iff_exists'.1 h
      refine ⟨.ref (splitOn 46 s), by rw [readNode]; simp only [referenceOf, hs], ?_, ?_⟩
      · rw [inPiece, inXml, hs, join_split, Option.getD_some]
      · rw [Pathed]; exact names_split s
    | exception => exact ⟨.exc, by rw [readNode], by rw [inPiece, inXml], by rw [Pathed]; trivial⟩
    | known t =>
      rw [Proper] at h
      obtain ⟨rfl, h0, h1⟩ := h
      refine ⟨.known (attrs.get (str "ref") = some (str "no")) t.magic (itemOf E t text),
        by rw [readNode]; simp only [known_read h0 h1], ?_, ?_⟩
      · rw [inPiece, inXml]
      · rw [Pathed]; trivial
    | title => rw [Proper] at h; exact h.elim
    | notice => rw [Proper] at h; exact h.elim
    | other => rw [Proper] at h; exact h.elim

theorem proper_reads (E : XmlEnv) : ∀ (xs : List Xml), AllProper xs →
    ∃ kids, readNodes E xs = .ok kids ∧
      (kids.flatMap fun k => inPieces k.1 ++ letters k.2) = inXmls E xs ∧
      (∀ k ∈ kids, k.1 ≠ []) ∧ (kids = [] ↔ xs = []) ∧ ∀ k ∈ kids, AllPathed k.1
  | [], _ => ⟨[], by rw [readNodes], by rw [inXmls]; rfl, by simp, by simp, by simp⟩
  | x :: xs, h => by
    rw [AllProper] at h
    obtain ⟨p, hp, hs, hf⟩ := proper_read E x h.1
    obtain ⟨kids, hk, hks, hne, _, hfs⟩ := proper_reads E xs h.2
    refine ⟨([p], x.tail) :: kids, by rw [readNodes, hp]; simp only [hk], ?_, ?_, by simp, ?_⟩
    · rw [List.flatMap_cons, hks, inXmls, allSaid_single, hs]
    · intro k hk
      rcases List.mem_cons.1 hk with rfl | hk
      · simp
      · exact hne k hk
    · intro k hk
      rcases List.mem_cons.1 hk with rfl | hk
      · rw [AllPathed, AllPathed]; exact ⟨hf, trivial⟩
      · exact hfs k hk

end

theorem allProper_of {xs : List Xml} (h : ∀ x ∈ xs, Proper x) : AllProper xs := by
  induction xs with
  | nil => trivial
  | cons x xs ih =>
    rw [AllProper]
    exact ⟨h x List.mem_cons_self, ih fun y hy => h y (List.mem_cons_of_mem _ hy)⟩

/-! ## The list of notices -/

theorem seen_printable (s : Str) : (printable s).filter toBeSeen = (letters s).flatMap inList := by
  induction s with
  | nil => rfl
  | cons c s ih =>
    have e1 : printable (c :: s) = printable [c] ++ printable s := by
      simp only [printable, List.map_cons, List.map_nil, List.cons_append, List.nil_append]
    have e2 : letters (c :: s) = letters [c] ++ letters s := letters_append [c] s
    rw [e1, e2, List.filter_append, ih, List.flatMap_append]
    congr 1
    by_cases hc : isSpaceChar c = true
    · rw [letters_spaces (by simpa using hc)]
      simp only [printable, List.map_cons, List.map_nil, List.flatMap_nil]
      split
      · decide
      · rw [List.filter_eq_nil_iff]
        intro x hx
        rw [List.mem_singleton] at hx
        subst hx
        simp [toBeSeen, hc]
    · have hc : isSpaceChar c = false := by simpa using hc
      simp only [letters, List.filter_cons, hc, List.filter_nil, Bool.not_false, if_true, List.map_cons,
        List.map_nil, List.flatMap_cons, List.flatMap_nil, List.append_nil, inList]

theorem allSeen_append (a b : List Html) : allSeen (a ++ b) = allSeen a ++ allSeen b := by
  induction a with
  | nil => rfl
  | cons h a ih => rw [List.cons_append, allSeen, allSeen, ih, List.append_assoc]

theorem seen_tag (name : String) (attrs : List (Str × HAttr)) (hs : List Html) :
    seen (tag name attrs hs) = allSeen hs := by
  rw [tag, seen]

theorem seen_known (k : HKnown) : allSeen (renderKnown k) = (printable k.text).filter toBeSeen := by
  rw [renderKnown]
  split
  · simp only [allSeen, seen_tag, seen, List.append_nil]
  · simp only [allSeen, seen, List.append_nil]

theorem seen_cite (c : Citation) : seen (citeHtml c) = inList (.source c) := by
  simp only [citeHtml, seen_tag, allSeen, seen, List.append_nil, inList]
  cases c.title <;> rfl

theorem lastName_dot (a : Str) (x : Str) : lastName (a ++ 46 :: x) = lastName x := by
  rw [lastName, lastName, List.reverse_append, List.reverse_cons, List.append_assoc]
  congr 1
  generalize x.reverse = y
  induction y with
  | nil => simp
  | cons c y ih =>
    rw [List.cons_append, List.takeWhile_cons, List.takeWhile_cons, ih]

theorem takeWhile_self {p : Nat → Bool} : ∀ {s : Str}, (∀ c ∈ s, p c = true) → s.takeWhile p = s
  | [], _ => rfl
  | x :: s, h => by
    rw [List.takeWhile_cons, if_pos (h x List.mem_cons_self),
      takeWhile_self fun c hc => h c (List.mem_cons_of_mem _ hc)]

theorem lastName_join : ∀ (path : List Str), path ≠ [] → (∀ p ∈ path, 46 ∉ p) →
    lastName (List.intercalate [46] path) = path.getLast?.getD []
  | [], h, _ => absurd rfl h
  | [p], _, h => by
    have hp := h p List.mem_cons_self
    have : ∀ c ∈ p.reverse, (decide (c ≠ 46)) = true := by
      intro c hc
      rw [decide_eq_true_eq]
      rintro rfl
      exact hp (List.mem_reverse.1 hc)
    simp only [List.intercalate, List.intersperse, List.flatten_cons, List.flatten_nil, List.append_nil,
      lastName, List.getLast?_singleton, Option.getD_some]
    rw [takeWhile_self this, List.reverse_reverse]
  | p :: q :: path, _, h => by
    have ih := lastName_join (q :: path) (by simp) fun r hr => h r (List.mem_cons_of_mem _ hr)
    have e : List.intercalate [46] (p :: q :: path) = p ++ 46 :: List.intercalate [46] (q :: path) := by
      simp [List.intercalate, List.intersperse]
    rw [e, lastName_dot, ih, List.getLast?_cons_cons]

mutual

theorem listed_said : ∀ (p : NPiece), Pathed p → allSeen p.listed = (inPiece p).flatMap inList
  | .text s, _ => by
    rw [NPiece.listed, inPiece]
    simp only [allSeen, seen, List.append_nil, seen_printable]
  | .para content, h => by
    rw [Pathed] at h
    rw [NPiece.listed, inPiece]
    simp only [allSeen, seen_tag, List.append_nil, allListed_said content h, List.cons_append,
      List.flatMap_cons, List.flatMap_append, List.flatMap_nil, inList, List.nil_append]
  | .known noRef kind k, _ => by
    rw [NPiece.listed, inPiece]
    simp only [allSeen, seen_tag, seen_known, List.append_nil, List.flatMap_cons, List.flatMap_nil, inList]
  | .var path, h => by
    rw [Pathed] at h
    rw [NPiece.listed, inPiece]
    simp only [allSeen, seen_tag, seen, List.append_nil, List.flatMap_cons, List.flatMap_nil, inList,
      lastName_join path h.1 h.2]
  | .exc, _ => by
    rw [NPiece.listed, inPiece]
    simp only [allSeen, seen_tag, seen, List.append_nil, List.flatMap_cons, List.flatMap_nil, inList]
    decide +kernel
  | .cite info quote, h => by
    rw [Pathed] at h
    cases quote with
    | nil =>
      rw [NPiece.listed, inPiece]
      simp only [allSeen, seen_cite, List.append_nil, List.flatMap_cons, List.flatMap_nil]
    | cons q qs =>
      have e := allListed_said (q :: qs) h
      rw [NPiece.allListed, inPieces] at e
      rw [NPiece.listed, inPiece]
      simp only [allSeen, seen_cite, seen_tag, List.append_nil, List.flatMap_cons, List.flatMap_nil,
        List.cons_append, e, seen, List.flatMap_append]
      have : List.filter toBeSeen (str ": ") = inList .beginQuote := by decide +kernel
      rw [this]
      simp only [inList, List.append_nil]
  | .ref path, _ => by
    rw [NPiece.listed, inPiece]
    simp only [allSeen, seen_tag, seen, List.append_nil, List.flatMap_cons, List.flatMap_nil, inList,
      List.filter_nil]

theorem allListed_said : ∀ (ps : List NPiece), AllPathed ps →
    allSeen (NPiece.allListed ps) = (inPieces ps).flatMap inList
  | [], _ => by rw [NPiece.allListed, inPieces]; rfl
  | p :: ps, h => by
    rw [AllPathed] at h
    rw [NPiece.allListed, inPieces, allSeen_append, List.flatMap_append, listed_said p h.1,
      allListed_said ps h.2]

end

end Httpolice.Lemmas
