import Verif.Props.NoticeXml
import Verif.Lemmas.NoticeFile

/-!
# C97, for the file of notices
-/

namespace Httpolice.Props

open Httpolice.Model Httpolice.Spec Httpolice.Lemmas

theorem entries_xml : noticesXml.filter isNotice = entries.map NoticeEntry.xml := by
  rw [List.filter_eq_self.2 (List.all_eq_true.1 notices_all), entries]
  have h := notices_entries
  generalize noticesXml = xs at h
  induction xs with
  | nil => rfl
  | cons x xs ih =>
    rw [List.map_cons, List.all_cons, Bool.and_eq_true] at h
    obtain ⟨e, he⟩ := Option.isSome_iff_exists.1 h.1
    rw [List.filterMap_cons, he]
    simp only [List.map_cons]
    rw [(entryOf_proper he).1, ← ih h.2]

theorem entries_proper : ∀ e ∈ entries, ProperNotice e.xml e.severity e.id e.title e.rest := by
  intro e he
  obtain ⟨x, _, hx⟩ := List.mem_filterMap.1 he
  exact (entryOf_proper hx).2

theorem entries_rows : Pairwise2 RowFor entries noticeRows := by
  have h1 := notices_ids
  have h2 := notices_references
  have h3 := notices_details
  generalize entries = es at h1 h2 h3
  generalize noticeRows = rs at h1 h2 h3
  induction es generalizing rs with
  | nil =>
    cases rs with
    | nil => exact .nil
    | cons r rs => cases h1
  | cons e es ih =>
    cases rs with
    | nil => cases h1
    | cons r rs =>
      simp only [List.map_cons, List.cons.injEq, Prod.mk.injEq] at h1 h2 h3
      exact .cons ⟨h1.1.1, h1.1.2, h2.1, h3.1⟩ (ih rs h1.2 h2.2 h3.2)

/-- Every notice of the file is written properly; so it can be read, and what is in its title and its
explanation is what is written. IDs, severities, references and places for details are those of
the table that C92 and other properties speak of. -/
theorem C97_catalogue : ∃ es : List NoticeEntry, noticesXml.filter isNotice = es.map NoticeEntry.xml ∧
    (∀ e ∈ es, ProperNotice e.xml e.severity e.id e.title e.rest) ∧ Pairwise2 RowFor es noticeRows ∧
    ∀ e ∈ es, ∀ x ∈ childrenOf e.title, (∃ t, x.cls = some (.known t)) ∨ x.cls = some .var := by
  refine ⟨entries, entries_xml, entries_proper, entries_rows, ?_⟩
  intro e he x hx
  have := List.all_eq_true.1 (List.all_eq_true.1 notices_titles e he) x hx
  split at this
  · rename_i t ht; exact .inl ⟨t, ht⟩
  · rename_i ht; exact .inr ht
  · cases this

/-- The list of all notices can be made, and has all of them in the order of IDs. -/
theorem C97_listed (E : XmlEnv) : ∃ (sorted : List NoticeEntry) (hs : List Html),
    noticesList E noticesXml = .ok hs ∧ (sorted.map NoticeEntry.xml).Perm (noticesXml.filter isNotice) ∧
    sorted.Pairwise (fun a b => a.id < b.id) ∧ Pairwise2 (ListedAs E) sorted hs := by
  have hids : (entries.map NoticeEntry.id).Nodup := by
    have h : entries.map NoticeEntry.id = noticeRows.map NoticeRow.id := by
      have := congrArg (List.map Prod.fst) notices_ids
      rw [List.map_map, List.map_map] at this
      exact this
    rw [h]
    decide +kernel
  obtain ⟨sorted, hs, h1, h2, h3, h4⟩ := C97_list E noticesXml entries entries_xml entries_proper hids
  refine ⟨sorted, hs, h1, ?_, h3, h4⟩
  rw [entries_xml]
  exact h2.map _

theorem same_id : ∀ {es : List NoticeEntry} {a b : NoticeEntry}, (es.map NoticeEntry.id).Nodup →
    a ∈ es → b ∈ es → a.id = b.id → a = b
  | [], _, _, _, h, _, _ => by cases h
  | e :: es, a, b, hn, ha, hb, hab => by
    rw [List.map_cons, List.nodup_cons] at hn
    rcases List.mem_cons.1 ha with h1 | h1 <;> rcases List.mem_cons.1 hb with h2 | h2
    · rw [h1, h2]
    · exact absurd (List.mem_map.2 ⟨b, h2, by rw [← hab, h1]⟩) hn.1
    · exact absurd (List.mem_map.2 ⟨a, h1, by rw [hab, h2]⟩) hn.1
    · exact same_id hn.2 h1 h2 hab

/-- Every attribute in the file means something, but for two: notices 1302 and 1303 write `section`
for `sect`, so their citations are of the whole of RFC 8246. -/
theorem C97_section : ∃ es : List NoticeEntry, noticesXml.filter isNotice = es.map NoticeEntry.xml ∧
    (∀ e ∈ es, ProperNotice e.xml e.severity e.id e.title e.rest) ∧
    (∀ e ∈ es, lostAttrs e.xml ≠ [] ↔ e.id = 1302 ∨ e.id = 1303) ∧
    (∀ e ∈ es, ∀ cls attrs, (cls, attrs) ∈ lostAttrs e.xml →
      cls = .rfc ∧ attrs = [(str "num", str "8246"), (str "section", str "3")] ∧
      rfcInfo attrs = .ok (.rfc 8246 none none none)) := by
  refine ⟨entries, entries_xml, entries_proper, ?_, ?_⟩
  · have h := notices_lost
    intro e he
    have hids : (entries.map NoticeEntry.id).Nodup := by
      have h : entries.map NoticeEntry.id = noticeRows.map NoticeRow.id := by
        have := congrArg (List.map Prod.fst) notices_ids
        rw [List.map_map, List.map_map] at this
        exact this
      rw [h]
      decide +kernel
    have hinj : ∀ e' ∈ entries, e'.id = e.id → e' = e := fun e' he' heq =>
      same_id hids he' he heq
    constructor
    · intro hl
      have hm : (e.id, lostAttrs e.xml) ∈
          (entries.filter fun e => lostAttrs e.xml ≠ []).map fun e => (e.id, lostAttrs e.xml) :=
        List.mem_map.2 ⟨e, List.mem_filter.2 ⟨he, by simpa using hl⟩, rfl⟩
      rw [h] at hm
      simp only [List.mem_cons, List.not_mem_nil, or_false, Prod.mk.injEq] at hm
      rcases hm with hm | hm
      · exact .inl hm.1
      · exact .inr hm.1
    · intro hid
      have hm : ∃ l, l ≠ [] ∧ (e.id, l) ∈
          (entries.filter fun e => lostAttrs e.xml ≠ []).map fun e => (e.id, lostAttrs e.xml) := by
        rw [h]
        rcases hid with hid | hid <;> rw [hid]
        · exact ⟨_, by simp, List.mem_cons_self⟩
        · exact ⟨_, by simp, List.mem_cons_of_mem _ List.mem_cons_self⟩
      obtain ⟨l, hl, hm⟩ := hm
      obtain ⟨e', he', heq⟩ := List.mem_map.1 hm
      rw [Prod.mk.injEq] at heq
      rw [← hinj e' (List.mem_filter.1 he').1 heq.1, heq.2]
      exact hl
  · intro e he cls attrs hm
    have hl : (e.id, lostAttrs e.xml) ∈
        (entries.filter fun e => lostAttrs e.xml ≠ []).map fun e => (e.id, lostAttrs e.xml) :=
      List.mem_map.2 ⟨e, List.mem_filter.2 ⟨he, by
        simpa using fun h0 => by rw [h0] at hm; cases hm⟩, rfl⟩
    rw [notices_lost] at hl
    simp only [List.mem_cons, List.not_mem_nil, or_false, Prod.mk.injEq] at hl
    have : (cls, attrs) = (XmlClass.rfc, [(str "num", str "8246"), (str "section", str "3")]) := by
      rcases hl with hl | hl <;> rw [hl.2] at hm <;> exact List.mem_singleton.1 hm
    cases this
    exact ⟨rfl, rfl, by rfl⟩

/-! ## Examples -/

/-- A lookup of items for the examples. -/
def plainItems : XmlEnv :=
  ⟨fun _ => str "<Element>", fun _ k => ⟨0, (Scalar.key k).show, []⟩⟩

-- A notice with a comment and an element outside of paragraphs.
example : ((readNotice plainItems (.elem (.notice .comment) [(str "id", str "7")] []
      [.comment (str "why") [],
       .elem .title [] (str " A ") [.elem (.known .st) [] (str "404") [] (str " b ")] (str "\n"),
       .elem .cite [(str "title", str "T"), (str "url", str "u")] (str " q ") [] (str " x ")] [])).toOption.map
      fun n => seen (listedNotice n)) = some (str "C7A404bT:qx") := by decide +kernel

-- The same ID twice.
example : noticesList plainItems [notice1011, notice1025, notice1011] = .error .assertion := by rfl

end Httpolice.Props
