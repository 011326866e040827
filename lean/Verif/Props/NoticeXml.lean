import Verif.Lemmas.NoticeXml

/-!
# C97: notices are shown as they are written
-/

namespace Httpolice.Props

open Httpolice.Model Httpolice.Spec Httpolice.Lemmas

/-- An element as it is taken for the explanation. -/
def inPara (y : Xml) : Xml :=
  if y.cls = some .explain ∨ y.cls = some .exception ∨ y.cls = some .ref ∨ y.cls = some .var then y
  else .elem .explain [] [] [y] []

theorem explanation_eq (xs : List Xml) :
    explanationOf xs = (xs.filter fun y => y.cls ≠ none ∧ y.cls ≠ some .title).map inPara := by
  induction xs with
  | nil => rfl
  | cons x xs ih =>
    cases hx : x.cls with
    | none =>
      rw [explanationOf]
      simp only [hx, ih, List.filter_cons]
      simp
    | some cls =>
      rw [explanationOf]
      cases cls <;> simp [hx, ih, inPara]

theorem inPara_proper {y : Xml} (h : Proper y) : Proper (inPara y) := by
  rw [inPara]
  split
  · exact h
  · rw [Proper, AllProper, AllProper]; exact ⟨h, trivial⟩

theorem inPara_in (E : XmlEnv) (y : Xml) : inXml E (inPara y) = explained E y := by
  rw [inPara, explained]
  split
  · rfl
  · rw [inXml, inXmls, inXmls]
    simp [letters]

theorem read_all {E : XmlEnv} : ∀ {xs : List Xml}, (∀ x ∈ xs, Proper x) →
    ∃ kids, readNodes E xs = .ok kids ∧
      inPieces (kids.flatMap Prod.fst) = xs.flatMap (inXml E) ∧ AllPathed (kids.flatMap Prod.fst)
  | [], _ => ⟨[], by rw [readNodes], rfl, trivial⟩
  | x :: xs, h => by
    obtain ⟨p, hp, hs, hf⟩ := proper_read E x (h x List.mem_cons_self)
    obtain ⟨kids, hk, hks, hfs⟩ := read_all (E := E) fun y hy => h y (List.mem_cons_of_mem _ hy)
    refine ⟨([p], x.tail) :: kids, by rw [readNodes, hp]; simp only [hk], ?_, ?_⟩
    · rw [List.flatMap_cons, List.flatMap_cons, allSaid_append, allSaid_single, hs, hks]
    · rw [List.flatMap_cons]
      exact allPathed_append (by rw [AllPathed, AllPathed]; exact ⟨hf, trivial⟩) hfs

theorem find_first {p : Xml → Bool} {before after : List Xml} {t : Xml} (ht : p t = true)
    (hb : ∀ y ∈ before, p y = false) : (before ++ t :: after).find? p = some t := by
  induction before with
  | nil => rw [List.nil_append, List.find?_cons, ht]
  | cons x xs ih =>
    rw [List.cons_append, List.find?_cons, hb x List.mem_cons_self]
    exact ih fun y hy => hb y (List.mem_cons_of_mem _ hy)

theorem noticeId_numeral {attrs : Dict Str} {s : Str} {id : Nat} (hs : attrs.get (str "id") = some s)
    (hn : Numeral s id) : noticeId attrs = .ok (id : Int) := by
  rw [noticeId, hs]
  simp only [pyInt_numeral hn]

theorem notice_read (E : XmlEnv) {x title : Xml} {severity : Severity} {id : Nat} {rest : List Xml}
    (h : ProperNotice x severity id title rest) :
    ∃ n, readNotice E x = .ok n ∧ n.id = id ∧ n.severity = severity ∧
      inPieces n.title = inXml E title ∧
      inPieces n.explanation = rest.flatMap (explained E) ∧ AllPathed n.title ∧ AllPathed n.explanation := by
  obtain ⟨attrs, text, children, tail, s, rfl, hs, hn, before, after, rfl, hb, hrest⟩ := h.shape
  obtain ⟨tattrs, ttext, tkids, ttail, rfl, htk⟩ := h.title
  obtain ⟨kids, hk, hks, _, _, hf⟩ := proper_reads E tkids htk
  have hread : readNode E (.elem .title tattrs ttext tkids ttail) = .ok (assemble ttext kids) := by
    rw [readNode]; simp only [hk]
  have hexp : explanationOf (before ++ .elem .title tattrs ttext tkids ttail :: after) =
      rest.map inPara := by
    rw [explanation_eq, hrest, List.filter_append, List.filter_append, List.filter_cons]
    simp [Xml.cls]
  obtain ⟨ekids, hek, heks, hef⟩ := read_all (E := E) (xs := rest.map inPara) (by
    intro y hy
    obtain ⟨z, hz, rfl⟩ := List.mem_map.1 hy
    exact inPara_proper (h.rest z hz))
  refine ⟨⟨id, severity, assemble ttext kids, ekids.flatMap Prod.fst⟩, ?_, rfl, rfl, ?_, ?_, ?_, hef⟩
  · rw [readNotice, noticeId_numeral hs hn]
    simp only
    rw [find_first (by simp [Xml.cls]) (fun y hy => by
      have := hb y hy
      rw [IsTitleElem] at this
      simpa using this)]
    simp only [hread, hexp, hek]
  · rw [allSaid_assemble, hks, inXml]
  · rw [heks, List.flatMap_map]
    congr 1
    funext y
    exact inPara_in E y
  · exact pathed_assemble hf

/-- A notice that is written properly can be read; it has the ID, severity, title and explanation that
are written, with nothing lost or added but white space. -/
theorem C97_notice (E : XmlEnv) (x title : Xml) (severity : Severity) (id : Nat) (rest : List Xml)
    (h : ProperNotice x severity id title rest) :
    ∃ n, readNotice E x = .ok n ∧ n.id = id ∧ n.severity = severity ∧
      inPieces n.title = inXml E title ∧ inPieces n.explanation = rest.flatMap (explained E) := by
  obtain ⟨n, h1, h2, h3, h4, h5, _⟩ := notice_read E h
  exact ⟨n, h1, h2, h3, h4, h5⟩

/-! ## The list -/

theorem place_perm (e : Int × Xml) (es : List (Int × Xml)) :
    (sortNotices.place e es).Perm (e :: es) := by
  induction es with
  | nil => exact List.Perm.refl _
  | cons x xs ih =>
    rw [sortNotices.place]
    split
    · exact List.Perm.refl _
    · exact (ih.cons x).trans (List.Perm.swap e x xs)

theorem sort_perm (es : List (Int × Xml)) : (sortNotices es).Perm es := by
  induction es with
  | nil => exact List.Perm.refl _
  | cons e es ih => exact (place_perm e _).trans (ih.cons e)

theorem place_sorted {e : Int × Xml} {es : List (Int × Xml)} (h : es.Pairwise fun a b => a.1 ≤ b.1) :
    (sortNotices.place e es).Pairwise fun a b => a.1 ≤ b.1 := by
  induction es with
  | nil => rw [sortNotices.place]; simp
  | cons x xs ih =>
    rw [List.pairwise_cons] at h
    rw [sortNotices.place]
    split
    · rename_i hle
      refine List.pairwise_cons.2 ⟨?_, List.pairwise_cons.2 h⟩
      intro y hy
      rcases List.mem_cons.1 hy with rfl | hy
      · exact hle
      · exact Int.le_trans hle (h.1 y hy)
    · rename_i hle
      refine List.pairwise_cons.2 ⟨?_, ih h.2⟩
      intro y hy
      rcases List.mem_cons.1 ((place_perm e xs).mem_iff.1 hy) with rfl | hy
      · omega
      · exact h.1 y hy

theorem sort_sorted (es : List (Int × Xml)) : (sortNotices es).Pairwise fun a b => a.1 ≤ b.1 := by
  induction es with
  | nil => exact List.Pairwise.nil
  | cons e es ih => exact place_sorted ih

theorem load_all {r : List (Int × Xml)} : ∀ {root : List Xml} {es : List NoticeEntry},
    root.filter isNotice = es.map NoticeEntry.xml →
    (∀ e ∈ es, ProperNotice e.xml e.severity e.id e.title e.rest) →
    (es.map fun e => (e.id : Int)).Nodup → (∀ e ∈ es, ∀ p ∈ r, p.1 ≠ (e.id : Int)) →
    loadNotices r root = .ok (r ++ es.map fun e => ((e.id : Int), e.xml))
  | [], es, hroot, _, _, _ => by
    cases es with
    | nil => rw [loadNotices]; simp
    | cons e es => cases hroot
  | x :: root, es, hroot, hes, hn, hr => by
    by_cases hx : isNotice x = true
    · rw [List.filter_cons, if_pos hx] at hroot
      cases es with
      | nil => cases hroot
      | cons e es =>
        simp only [List.map_cons, List.cons.injEq] at hroot
        obtain ⟨rfl, hroot⟩ := hroot
        obtain ⟨attrs, text, children, tail, s, hxe, hs, hid, _⟩ := (hes e List.mem_cons_self).shape
        rw [List.map_cons, List.nodup_cons] at hn
        rw [hxe, loadNotices, noticeId_numeral hs hid]
        simp only
        rw [if_neg]
        · have hl := load_all (r := r ++ [((e.id : Int), Xml.elem (.notice e.severity) attrs text children tail)])
            hroot (fun e' he' => hes e' (List.mem_cons_of_mem _ he')) hn.2 ?_
          · rw [hl]; simp [hxe]
          · intro e' he' p hp
            rcases List.mem_append.1 hp with hp | hp
            · exact hr e' (List.mem_cons_of_mem _ he') p hp
            · rw [List.mem_singleton] at hp
              subst hp
              intro heq
              exact hn.1 (List.mem_map.2 ⟨e', he', heq.symm⟩)
        · intro hany
          obtain ⟨p, hp, he⟩ := List.any_eq_true.1 hany
          exact hr e List.mem_cons_self p hp (by simpa using he)
    · rw [List.filter_cons, if_neg hx] at hroot
      have : loadNotices r (x :: root) = loadNotices r root := by
        cases x with
        | comment => rw [loadNotices]; simp
        | elem cls attrs text children tail =>
          cases cls <;> first | (rw [loadNotices]; simp; done) | exact absurd rfl hx
      rw [this]
      exact load_all hroot hes hn hr

theorem load_step (r : List (Int × Xml)) (x : Xml) (xs : List Xml)
    (h : isNotice x = true → ∃ severity id title rest, ProperNotice x severity id title rest) :
    loadNotices r (x :: xs) = .error .assertion ∨ loadNotices r (x :: xs) = loadNotices r xs ∨
      ∃ p, loadNotices r (x :: xs) = loadNotices (r ++ [p]) xs := by
  by_cases hx : isNotice x = true
  · obtain ⟨severity, id, title, rest, hp⟩ := h hx
    obtain ⟨attrs, text, children, tail, s, rfl, hs, hid, _⟩ := hp.shape
    rw [loadNotices, noticeId_numeral hs hid]
    simp only
    split
    · exact .inl rfl
    · exact .inr (.inr ⟨_, rfl⟩)
  · right; left
    cases x with
    | comment => rw [loadNotices]; simp
    | elem cls attrs text children tail =>
      cases cls <;> first | (rw [loadNotices]; simp; done) | exact absurd rfl hx

theorem perm_map_inv {α β : Type} {f : α → β} : ∀ {l' : List β} {l : List α}, l'.Perm (l.map f) →
    ∃ l2 : List α, l' = l2.map f ∧ l2.Perm l
  | [], l, h => by
    have := h.symm.eq_nil
    rw [List.map_eq_nil_iff] at this
    subst this
    exact ⟨[], rfl, List.Perm.refl _⟩
  | b :: l', l, h => by
    have hm : b ∈ l.map f := h.mem_iff.1 List.mem_cons_self
    obtain ⟨a, ha, rfl⟩ := List.mem_map.1 hm
    obtain ⟨s, t, rfl⟩ := List.append_of_mem ha
    rw [List.map_append, List.map_cons] at h
    have h2 : l'.Perm ((s ++ t).map f) := by
      rw [List.map_append]
      exact List.Perm.cons_inv (h.trans List.perm_middle)
    obtain ⟨l2, rfl, hp⟩ := perm_map_inv h2
    exact ⟨a :: l2, rfl, (hp.cons a).trans List.perm_middle.symm⟩

theorem list_all {E : XmlEnv} : ∀ {es : List NoticeEntry},
    (∀ e ∈ es, ProperNotice e.xml e.severity e.id e.title e.rest) →
    ∃ hs, listNotices E (es.map fun e => ((e.id : Int), e.xml)) = .ok hs ∧
      Pairwise2 (ListedAs E) es hs
  | [], _ => ⟨[], by rw [List.map_nil, listNotices], .nil⟩
  | e :: es, h => by
    obtain ⟨hs, hl, hp⟩ := list_all (E := E) fun e' he' => h e' (List.mem_cons_of_mem _ he')
    obtain ⟨n, hn, hid, hsev, ht, hx, ft, fx⟩ := notice_read E (h e List.mem_cons_self)
    refine ⟨listedNotice n :: hs, ?_, .cons ?_ hp⟩
    · rw [List.map_cons, listNotices]
      simp only [hn, hl]
    · have hidt : intText n.id = str (toString e.id) := by rw [hid]; rfl
      refine ⟨?_, ?_, ?_⟩
      · have hne : (str "id" == str "class") = false := by decide
        rw [listedNotice, tag, htmlAttr, hidt]
        simp [List.lookup, hne]
      · rw [listedNotice, tag, htmlAttr, hsev]
        cases e.severity <;> simp (decide := true) [List.lookup, Severity.name]
      · have hshort : (n.severity.short).filter toBeSeen = severityLetter e.severity := by
          rw [hsev]; cases e.severity <;> decide
        have hdig : (str (toString e.id)).filter toBeSeen = str (toString e.id) := by
          rw [List.filter_eq_self]
          intro c hc
          have hd : IsDec c := (toDigits_numeral e.id).2.1 c hc
          have h1 : 48 ≤ c ∧ c ≤ 57 := hd
          have : c = 48 ∨ c = 49 ∨ c = 50 ∨ c = 51 ∨ c = 52 ∨ c = 53 ∨ c = 54 ∨ c = 55 ∨ c = 56 ∨ c = 57 := by
            omega
          rcases this with rfl | rfl | rfl | rfl | rfl | rfl | rfl | rfl | rfl | rfl <;> decide
        rw [listedNotice]
        simp only [seen_tag, allSeen, seen, hshort, hidt, hdig, List.append_nil, List.append_assoc,
          allListed_said _ ft, allListed_said _ fx, ht, hx, List.flatMap_append]

/-- If all notices of a file are written properly and have different IDs, then all of them are in the
list, in the order of their IDs, each with what is written in it. -/
theorem C97_list (E : XmlEnv) (root : List Xml) (es : List NoticeEntry)
    (hroot : root.filter isNotice = es.map NoticeEntry.xml)
    (hes : ∀ e ∈ es, ProperNotice e.xml e.severity e.id e.title e.rest)
    (hids : (es.map NoticeEntry.id).Nodup) :
    ∃ sorted hs, noticesList E root = .ok hs ∧ sorted.Perm es ∧
      sorted.Pairwise (fun a b => a.id < b.id) ∧ Pairwise2 (ListedAs E) sorted hs := by
  have hnodup : (es.map fun e => (e.id : Int)).Nodup := by
    have : (es.map fun e => (e.id : Int)) = (es.map NoticeEntry.id).map Int.ofNat := by
      rw [List.map_map]; rfl
    rw [this]
    exact hids.map Int.ofNat fun a b hab h => hab (Int.ofNat.inj h)
  have hload := load_all (r := []) hroot hes hnodup (by simp)
  rw [List.nil_append] at hload
  obtain ⟨sorted, hsorted, hperm⟩ := perm_map_inv (f := fun e : NoticeEntry => ((e.id : Int), e.xml))
    (sort_perm (es.map fun e => ((e.id : Int), e.xml)))
  obtain ⟨hs, hl, hp⟩ := list_all (E := E) (es := sorted) fun e he => hes e (hperm.mem_iff.1 he)
  refine ⟨sorted, hs, ?_, hperm, ?_, hp⟩
  · rw [noticesList, hload]
    simp only
    rw [hsorted, hl]
  · have hle := sort_sorted (es.map fun e => ((e.id : Int), e.xml))
    rw [hsorted, List.pairwise_map] at hle
    have hne : sorted.Pairwise fun a b => a.id ≠ b.id := by
      have := (hperm.map NoticeEntry.id).nodup_iff.2 hids
      rw [List.Nodup, List.pairwise_map] at this
      exact this
    refine (hle.and hne).imp ?_
    intro a b ⟨h1, h2⟩
    simp only at h1
    omega

/-- Two notices with the same ID are an error when the file is loaded. -/
theorem C97_duplicate (E : XmlEnv) (root : List Xml)
    (hes : ∀ x ∈ root, isNotice x = true → ∃ severity id title rest, ProperNotice x severity id title rest)
    (before middle after : List Xml) (x y : Xml) (hroot : root = before ++ x :: middle ++ y :: after)
    (s1 s2 : Severity) (id : Nat) (t1 t2 : Xml) (r1 r2 : List Xml) (hx : ProperNotice x s1 id t1 r1)
    (hy : ProperNotice y s2 id t2 r2) : noticesList E root = .error .assertion := by
  -- an ID that is there already
  have there : ∀ (r : List (Int × Xml)) (xs : List Xml), (∃ p ∈ r, p.1 = (id : Int)) →
      (∀ x ∈ xs, isNotice x = true → ∃ severity id title rest, ProperNotice x severity id title rest) →
      y ∈ xs → loadNotices r xs = .error .assertion := by
    intro r xs
    induction xs generalizing r with
    | nil => intro _ _ h; cases h
    | cons z zs ih =>
      intro hr hz hm
      have hz' := fun x hx => hz x (List.mem_cons_of_mem _ hx)
      by_cases hzy : y = z
      · subst hzy
        obtain ⟨attrs, text, children, tail, s, rfl, hs, hid, _⟩ := hy.shape
        rw [loadNotices, noticeId_numeral hs hid]
        simp only
        rw [if_pos]
        obtain ⟨p, hp, he⟩ := hr
        exact List.any_eq_true.2 ⟨p, hp, by simpa using he⟩
      · have hm : y ∈ zs := by
          rcases List.mem_cons.1 hm with h | h
          · exact absurd h hzy
          · exact h
        rcases load_step r z zs (hz z List.mem_cons_self) with h | h | ⟨p, h⟩
        · exact h
        · rw [h]; exact ih r hr hz' hm
        · rw [h]
          obtain ⟨q, hq, he⟩ := hr
          exact ih _ ⟨q, List.mem_append_left _ hq, he⟩ hz' hm
  have main : ∀ (before : List Xml) (r : List (Int × Xml)),
      (∀ z ∈ before ++ x :: middle ++ y :: after, isNotice z = true →
        ∃ severity id title rest, ProperNotice z severity id title rest) →
      loadNotices r (before ++ x :: middle ++ y :: after) = .error .assertion := by
    intro before
    induction before with
    | nil =>
      intro r hz
      rw [List.nil_append, List.cons_append]
      obtain ⟨attrs, text, children, tail, s, rfl, hs, hid, _⟩ := hx.shape
      rw [loadNotices, noticeId_numeral hs hid]
      simp only
      split
      · rfl
      · refine there _ _ ⟨_, List.mem_append_right _ (List.mem_singleton.2 rfl), rfl⟩ ?_ ?_
        · intro z hm
          exact hz z (by rw [List.nil_append, List.cons_append]; exact List.mem_cons_of_mem _ hm)
        · exact List.mem_append_right _ List.mem_cons_self
    | cons z zs ih =>
      intro r hz
      have hz' : ∀ w ∈ zs ++ x :: middle ++ y :: after, isNotice w = true →
          ∃ severity id title rest, ProperNotice w severity id title rest := by
        intro w hw
        apply hz w
        rw [List.cons_append, List.cons_append]
        exact List.mem_cons_of_mem _ hw
      rw [List.cons_append, List.cons_append]
      rcases load_step r z (zs ++ x :: middle ++ y :: after)
        (hz z (by rw [List.cons_append, List.cons_append]; exact List.mem_cons_self)) with h | h | ⟨p, h⟩
      · exact h
      · rw [h]; exact ih r hz'
      · rw [h]; exact ih _ hz'
  rw [noticesList, hroot, main before [] (by rw [← hroot]; exact hes)]

end Httpolice.Props
