import Verif.Spec.NoticeFile
import Verif.Lemmas.NoticeXml

/-! # Checks of the file of notices -/

namespace Httpolice.Lemmas

open Httpolice.Model Httpolice.Spec

/-- Decides `Numeral`. -/
def numeralB (s : Str) : Bool := !s.isEmpty && s.all isDigit

theorem numeralB_numeral {s : Str} (h : numeralB s = true) : Numeral s (numberOf s) := by
  rw [numeralB, Bool.and_eq_true] at h
  refine ⟨?_, digits_all.1 h.2, rfl⟩
  rintro rfl
  exact absurd h.1 (by decide)

/-- Decides `ProperRfc`. -/
def rfcB (attrs : Dict Str) : Bool :=
  (match attrs.get (str "num") with | some s => numeralB s | none => false) &&
  (match attrs.get (str "sect"), attrs.get (str "appendix"), attrs.get (str "errata") with
    | none, none, none => true
    | some s, none, none => !s.isEmpty
    | none, some s, none => !s.isEmpty
    | none, none, some s => numeralB s
    | _, _, _ => false)

theorem rfcB_proper {attrs : Dict Str} (h : rfcB attrs = true) : ProperRfc attrs := by
  rw [rfcB, Bool.and_eq_true] at h
  obtain ⟨h1, h2⟩ := h
  split at h1
  · rename_i s hs
    have hnum : ∃ s n, attrs.get (str "num") = some s ∧ Numeral s n := ⟨s, _, hs, numeralB_numeral h1⟩
    split at h2
    · rename_i e1 e2 e3
      exact ⟨hnum, by rw [e1, e2]; simp, by rw [e3]; simp, by rw [e1, e2]; simp⟩
    · rename_i s e1 e2 e3
      have : s ≠ [] := by simpa using h2
      exact ⟨hnum, by rw [e1, e2]; simpa using this, by rw [e3]; simp, by rw [e2, e3]; simp⟩
    · rename_i s e1 e2 e3
      have : s ≠ [] := by simpa using h2
      exact ⟨hnum, by rw [e1, e2]; simpa using this, by rw [e3]; simp, by rw [e1, e3]; simp⟩
    · rename_i s e1 e2 e3
      refine ⟨hnum, by rw [e1, e2]; simp, ?_, by rw [e1, e2]; simp⟩
      intro s' hs'
      rw [e3] at hs'
      cases hs'
      exact ⟨_, numeralB_numeral h2⟩
    · cases h2
  · cases h1

/-- Decides `ProperCite`. -/
def citeB (attrs : Dict Str) : Bool :=
  match attrs.get (str "title"), attrs.get (str "url") with
  | some t, some u => !t.isEmpty && !u.isEmpty
  | _, _ => false

theorem citeB_proper {attrs : Dict Str} (h : citeB attrs = true) : ProperCite attrs := by
  rw [citeB] at h
  split at h
  · rename_i t u ht hu
    rw [Bool.and_eq_true] at h
    exact ⟨⟨t, ht, by simpa using h.1⟩, u, hu, by simpa using h.2⟩
  · cases h

mutual

/-- Decides `Proper`. -/
def properB : Xml → Bool
  | .comment _ _ => false
  | .elem cls attrs text children _ =>
    match cls with
    | .explain => allProperB children
    | .cite => citeB attrs && allProperB children
    | .rfc => rfcB attrs && allProperB children
    | .var => (attrs.get (str "ref")).isSome
    | .ref => (attrs.get (str "to")).isSome
    | .exception => true
    | .known t => children.isEmpty && !text.isEmpty && (!t.numeric || numeralB (trim text))
    | .title | .notice _ | .other => false

/-- Decides `AllProper`. -/
def allProperB : List Xml → Bool
  | [] => true
  | x :: xs => properB x && allProperB xs

end

mutual

theorem properB_proper : ∀ (x : Xml), properB x = true → Proper x
  | .comment _ _, h => by rw [properB] at h; cases h
  | .elem cls attrs text children tail, h => by
    cases cls with
    | explain => rw [properB] at h; rw [Proper]; exact allProperB_proper children h
    | cite =>
      rw [properB, Bool.and_eq_true] at h
      rw [Proper]
      exact ⟨citeB_proper h.1, allProperB_proper children h.2⟩
    | rfc =>
      rw [properB, Bool.and_eq_true] at h
      rw [Proper]
      exact ⟨rfcB_proper h.1, allProperB_proper children h.2⟩
    | var => rw [properB] at h; rw [Proper]; intro h0; rw [h0] at h; cases h
    | ref => rw [properB] at h; rw [Proper]; intro h0; rw [h0] at h; cases h
    | exception => rw [Proper]; trivial
    | known t =>
      rw [properB, Bool.and_eq_true, Bool.and_eq_true] at h
      rw [Proper]
      refine ⟨List.isEmpty_iff.1 h.1.1, by simpa using h.1.2, ?_⟩
      intro ht
      have hn : t.numeric = true := by rcases ht with rfl | rfl <;> rfl
      have := h.2
      rw [hn] at this
      exact ⟨_, numeralB_numeral (by simpa using this)⟩
    | title => rw [properB] at h; cases h
    | notice => rw [properB] at h; cases h
    | other => rw [properB] at h; cases h

theorem allProperB_proper : ∀ (xs : List Xml), allProperB xs = true → AllProper xs
  | [], _ => by rw [AllProper]; trivial
  | x :: xs, h => by
    rw [allProperB, Bool.and_eq_true] at h
    rw [AllProper]
    exact ⟨properB_proper x h.1, allProperB_proper xs h.2⟩

end

/-- The children before the title, the title, and the children after it. -/
def atTitle : List Xml → Option (List Xml × Xml × List Xml)
  | [] => none
  | x :: xs =>
    if x.cls = some .title then some ([], x, xs)
    else (atTitle xs).map fun r => (x :: r.1, r.2)

theorem atTitle_spec : ∀ {xs : List Xml} {r}, atTitle xs = some r →
    xs = r.1 ++ r.2.1 :: r.2.2 ∧ (∀ y ∈ r.1, ¬ IsTitleElem y) ∧ r.2.1.cls = some .title
  | [], r, h => by cases h
  | x :: xs, r, h => by
    rw [atTitle] at h
    split at h
    · rename_i hx
      cases h
      exact ⟨rfl, by simp, hx⟩
    · rename_i hx
      obtain ⟨r', hr', rfl⟩ := Option.map_eq_some_iff.1 h
      obtain ⟨h1, h2, h3⟩ := atTitle_spec hr'
      refine ⟨by rw [h1]; rfl, ?_, h3⟩
      intro y hy
      rcases List.mem_cons.1 hy with rfl | hy
      · exact hx
      · exact h2 y hy

/-- What is in a notice, if it is written properly. -/
def entryOf (x : Xml) : Option NoticeEntry :=
  match x with
  | .elem (.notice severity) attrs _ children _ =>
    match attrs.get (str "id"), atTitle children with
    | some s, some (before, title, after) =>
      let rest := (before ++ after).filter fun y => y.cls ≠ none ∧ y.cls ≠ some .title
      if numeralB s && allProperB (childrenOf title) && rest.all properB then
        some ⟨x, severity, numberOf s, title, rest⟩
      else none
    | _, _ => none
  | _ => none

theorem entryOf_proper {x : Xml} {e : NoticeEntry} (h : entryOf x = some e) :
    e.xml = x ∧ ProperNotice e.xml e.severity e.id e.title e.rest := by
  unfold entryOf at h
  split at h
  · rename_i severity attrs text children tail
    split at h
    · rename_i s before title after hs hat
      simp only at h
      split at h
      · rename_i hb
        cases h
        obtain ⟨h1, h2, h3⟩ := atTitle_spec hat
        simp only [Bool.and_eq_true] at hb
        refine ⟨rfl, ⟨attrs, text, children, tail, s, rfl, hs, numeralB_numeral hb.1.1, before, after, h1,
          h2, rfl⟩, ?_, ?_⟩
        · cases title with
          | comment => cases h3
          | elem cls a t k tl =>
            have : cls = .title := Option.some.inj h3
            subst this
            exact ⟨a, t, k, tl, rfl, allProperB_proper k hb.1.2⟩
        · intro y hy
          exact properB_proper y (List.all_eq_true.1 hb.2 y hy)
      · cases h
    · cases h
  · cases h

theorem notices_entries : (noticesXml.map entryOf).all Option.isSome = true := by decide +kernel

/-- The entries of the file. -/
def entries : List NoticeEntry := noticesXml.filterMap entryOf

theorem notices_all : noticesXml.all isNotice = true := by decide +kernel

theorem notices_ids : entries.map (fun e => (e.id, e.severity)) =
    noticeRows.map fun r => (r.id, r.severity) := by decide +kernel

theorem notices_references : entries.map (fun e => (referencesIn e.xml).eraseDups) =
    noticeRows.map fun r => r.references.map fun path => List.intercalate [46] (path.map str) := by
  decide +kernel

theorem notices_details : entries.map (fun e => hasDetails e.xml) = noticeRows.map NoticeRow.details := by
  decide +kernel

theorem notices_titles : entries.all (fun e => (childrenOf e.title).all fun x =>
    match x.cls with | some (.known _) => true | some .var => true | _ => false) = true := by
  decide +kernel

instance : DecidableEq (Nat × List (XmlClass × Dict Str)) :=
  have : DecidableEq (Dict Str) := inferInstanceAs (DecidableEq (List (Str × Str)))
  inferInstance

theorem notices_lost : (entries.filter fun e => lostAttrs e.xml ≠ []).map (fun e => (e.id, lostAttrs e.xml)) =
    [(1302, [(.rfc, [(str "num", str "8246"), (str "section", str "3")])]),
     (1303, [(.rfc, [(str "num", str "8246"), (str "section", str "3")])])] := by decide +kernel

end Httpolice.Lemmas
