import Verif.Spec.HeaderForms
import Verif.Lemmas.Views

/-!
# Which notices there may be on a header
-/

namespace Httpolice.Lemmas

open Httpolice.Model Httpolice.Spec

/-- All complaints are among these. -/
def Amongst (ids : List Nat) (cs : List PyComplaint) : Prop := ∀ c ∈ cs, c.1 ∈ ids

/-- Whatever is parsed, all complaints are among these. -/
def Mild (ids : List Nat) (p : SymParser) : Prop := ∀ s node cs as, p s = .ok (node, cs, as) → Amongst ids cs

section
variable {ids : List Nat}

theorem amongst_nil : Amongst ids [] := fun _ h => nomatch h

theorem amongst_append {cs ds : List PyComplaint} (h : Amongst ids cs) (k : Amongst ids ds) : Amongst ids (cs ++ ds) :=
  fun c hc => (List.mem_append.mp hc).elim (h c) (k c)

theorem amongst_flatMap {α : Type} {l : List α} {f : α → List PyComplaint} (h : ∀ x ∈ l, Amongst ids (f x)) : Amongst ids (l.flatMap f) :=
  fun c hc => let ⟨x, hx, hcx⟩ := List.mem_flatMap.mp hc; h x hx c hcx

theorem amongst_one {n : Nat} {c} (h : n ∈ ids) : Amongst ids [(n, c)] := fun x hx => by
  rw [List.mem_singleton] at hx
  subst hx
  exact h

theorem amongst_ite {P : Prop} [Decidable P] {cs ds : List PyComplaint} (h : Amongst ids cs) (k : Amongst ids ds) :
    Amongst ids (if P then cs else ds) := by
  split
  · exact h
  · exact k

theorem amongst_perm {cs ds : List PyComplaint} (h : cs.Perm ds) (k : Amongst ids ds) : Amongst ids cs :=
  fun c hc => k c (h.mem_iff.mp hc)

/-! ## Parts of texts -/

theorem amongst_gap (h : 1151 ∈ ids) (P : Prop) [Decidable P] : Amongst ids (gapNotes P) := amongst_ite (amongst_one h) amongst_nil

theorem amongst_wide (h : 1014 ∈ ids) (w : Str) : Amongst ids (wideSpaceNotes w) := amongst_ite (amongst_one h) amongst_nil

theorem amongst_bad (h : 1015 ∈ ids) (w : Str) : Amongst ids (badSpaceNotes w) := amongst_ite (amongst_one h) amongst_nil

theorem amongst_list1 {α : Type} {notes : α → List PyComplaint} (h : 1151 ∈ ids) (k : ∀ x, Amongst ids (notes x)) (l : List1Syn α) :
    Amongst ids (l.notes notes) := amongst_append (amongst_flatMap fun x _ => k x) (amongst_gap h _)

theorem amongst_list {α : Type} {notes : α → List PyComplaint} (h : 1151 ∈ ids) (k : ∀ x, Amongst ids (notes x)) (l : ListSyn α) :
    Amongst ids (l.notes notes) := amongst_append (amongst_flatMap fun x _ => k x) (amongst_gap h _)

theorem amongst_quoted (h : 1017 ∈ ids) (q : Quoted) : Amongst ids q.notes := amongst_flatMap fun c _ => by
  cases c with
  | plain => exact amongst_nil
  | escaped c => exact amongst_ite amongst_nil (amongst_one h)

theorem amongst_word (h : 1017 ∈ ids) (w : Word) : Amongst ids w.notes := by
  cases w with
  | token => exact amongst_nil
  | quoted q => exact amongst_quoted h q

theorem amongst_param (h : 1015 ∈ ids) (k : 1017 ∈ ids) (x : Param) : Amongst ids x.notes :=
  amongst_append (amongst_append (amongst_bad h _) (amongst_bad h _)) (amongst_word k _)

theorem amongst_auth (h : 1015 ∈ ids) (k : 1017 ∈ ids) (g : 1151 ∈ ids) (r : 1196 ∈ ids) (x : AuthSyn) : Amongst ids x.notes := by
  obtain ⟨s, d⟩ := x
  cases d with
  | nothing => exact amongst_nil
  | token => exact amongst_nil
  | params _ l =>
    refine amongst_list g (fun p => amongst_append (amongst_param h k p) ?_) l
    obtain ⟨_, _, _, v⟩ := p
    cases v with
    | token => exact amongst_ite (amongst_one r) amongst_nil
    | quoted => exact amongst_nil

theorem amongst_setting (h : 1017 ∈ ids) (x : Setting) : Amongst ids x.notes := by
  unfold Setting.notes
  split
  · exact amongst_nil
  · exact amongst_word h _

theorem amongst_media (h : 1017 ∈ ids) (k : 1282 ∈ ids) (x : MediaSyn) : Amongst ids x.notes := by
  refine amongst_append ?_ (amongst_flatMap fun a _ => amongst_word h _)
  unfold meantNotes
  split
  · exact amongst_nil
  · exact amongst_one k

theorem amongst_accept (h : 1017 ∈ ids) (k : 1282 ∈ ids) (x : AcceptSyn) : Amongst ids x.notes := by
  refine amongst_append (amongst_media h k _) ?_
  split
  · exact amongst_nil
  · exact amongst_flatMap fun a _ => amongst_setting h a

theorem amongst_coding (h : 1015 ∈ ids) (k : 1017 ∈ ids) (x : CodingSyn) : Amongst ids x.notes :=
  amongst_flatMap fun a _ => amongst_param h k a

theorem amongst_te (h : 1015 ∈ ids) (k : 1017 ∈ ids) (x : TeSyn) : Amongst ids x.notes := by
  cases x with
  | trailers => exact amongst_nil
  | coding c _ => exact amongst_coding h k c

theorem amongst_date (h : 1107 ∈ ids ∧ 1108 ∈ ids ∧ 1222 ∈ ids ∧ 1223 ∈ ids) (x : Stamp) (f : DateFormat) : Amongst ids (x.notes f) := by
  obtain ⟨h1, h2, h3, h4⟩ := h
  exact amongst_append (amongst_append (amongst_append (amongst_ite amongst_nil (amongst_one h3)) (amongst_ite amongst_nil (amongst_one h4)))
    (amongst_ite amongst_nil (amongst_one h1))) (amongst_ite (amongst_one h2) amongst_nil)

theorem amongst_tag (h : 1119 ∈ ids) (x : Spec.EntityTag) : Amongst ids x.notes := amongst_ite (amongst_one h) amongst_nil

theorem amongst_remarks (h : 1017 ∈ ids) : ∀ r : Remarks, Amongst ids r.notes
  | .done => amongst_nil
  | .plain _ r => amongst_remarks h r
  | .escaped _ r => amongst_append (amongst_ite amongst_nil (amongst_one h)) (amongst_remarks h r)
  | .comment i r => amongst_append (amongst_remarks h i) (amongst_remarks h r)

theorem amongst_products (h : 1014 ∈ ids) (k : 1017 ∈ ids) (x : Products) : Amongst ids x.notes :=
  amongst_flatMap fun y _ => amongst_append (amongst_wide h _) (by
    obtain ⟨_, y⟩ := y
    cases y with
    | product => exact amongst_nil
    | comment r => exact amongst_remarks k r)

theorem amongst_hop (h : 1014 ∈ ids) (k : 1017 ∈ ids) (x : Hop) : Amongst ids x.notes := by
  refine amongst_append (amongst_wide h _) ?_
  split
  · exact amongst_nil
  · exact amongst_append (amongst_wide h _) (amongst_remarks k _)

theorem amongst_warning (h : 1017 ∈ ids) (k : 1107 ∈ ids ∧ 1108 ∈ ids ∧ 1222 ∈ ids ∧ 1223 ∈ ids) (x : WarningSyn) :
    Amongst ids x.notes := by
  refine amongst_append (amongst_quoted h _) ?_
  split
  · exact amongst_nil
  · exact amongst_date k _ _

theorem amongst_ext (h : 1253 ∈ ids) (k : 1254 ∈ ids) (x : ExtSyn) : Amongst ids x.notes := by
  unfold ExtSyn.notes
  split
  · exact amongst_one h
  · split
    · exact amongst_nil
    · exact amongst_one k

theorem amongst_disp (g : 1017 ∈ ids) (h : 1253 ∈ ids) (k : 1254 ∈ ids) (x : DispSyn) : Amongst ids x.notes :=
  amongst_flatMap fun p _ => by
    obtain ⟨_, _, _, v⟩ := p
    cases v with
    | word w => exact amongst_word g w
    | ext x => exact amongst_ext h k x

theorem amongst_pref (h : 1017 ∈ ids) (x : PrefSyn) : Amongst ids x.notes :=
  amongst_append (amongst_setting h _) (amongst_flatMap fun p _ => by
    split
    · exact amongst_nil
    · exact amongst_setting h _)

theorem amongst_dir (h : 1017 ∈ ids) (x : DirSyn) : Amongst ids x.notes := by
  unfold DirSyn.notes
  split
  · exact amongst_nil
  · exact amongst_word h _

theorem amongst_silence (h : 1014 ∈ ids) (x : SilenceSyn) : Amongst ids x.notes := by
  unfold SilenceSyn.notes
  split
  · exact amongst_nil
  · exact amongst_wide h _

theorem amongst_pragma (h : 1017 ∈ ids) (x : PragmaSyn) : Amongst ids x.notes := by
  cases x with
  | noCache => exact amongst_nil
  | other x => exact amongst_setting h x

theorem amongst_alt (P : AltParser) (h : 1017 ∈ ids) (g : 1151 ∈ ids) (k : 1256 ∈ ids) (m : 1257 ∈ ids) (x : AltSvcSyn) :
    Amongst ids (x.notes P) := by
  cases x with
  | clear => exact amongst_nil
  | values l =>
    refine amongst_list1 g (fun a => amongst_append (amongst_append (amongst_append ?_ (amongst_quoted h _)) ?_) ?_) l
    · unfold ProtocolSyn.notes
      split
      · exact amongst_nil
      · exact amongst_one k
    · show Amongst ids (authorityNotes P _)
      unfold authorityNotes
      split
      · exact amongst_nil
      · exact amongst_one m
    · exact amongst_flatMap fun a _ => amongst_word h _

/-! ## Parsers -/

variable {α : Type} {p : SymParser} {Ok : α → Prop} {print : α → Str} {value : α → GVal} {IsValue : α → GVal → Prop}
  {notes : α → List PyComplaint}

theorem mild_readsAs (h : ReadsAs p Ok print IsValue notes) (k : ∀ x, Amongst ids (notes x)) : Mild ids p := by
  intro s node cs as e
  obtain ⟨x, hx, rfl⟩ := (h.1 s).1.mp ⟨_, e⟩
  obtain ⟨v, ds, bs, h1, _, h2⟩ := h.2 x hx
  cases e.symm.trans h1
  exact amongst_perm h2 (k x)

theorem mild_reads (h : Reads p Ok print value notes) (k : ∀ x, Amongst ids (notes x)) : Mild ids p := by
  intro s node cs as e
  obtain ⟨x, hx, rfl⟩ := (h.1 s).1.mp ⟨_, e⟩
  obtain ⟨ds, bs, h1, h2⟩ := h.2 x hx
  cases e.symm.trans h1
  exact amongst_perm h2 (k x)

theorem mild_readsSome (h : ReadsSome p Ok print value notes) (k : ∀ x, Amongst ids (notes x)) : Mild ids p := by
  intro s node cs as e
  obtain ⟨x, hx, _, _, h2⟩ := h.2 _ _ _ _ e
  exact amongst_perm h2 (k x)

theorem mild_butGaps (h : ReadsButGaps p Ok print value notes) (g : 1151 ∈ ids) (k : ∀ x, Amongst ids (notes x)) : Mild ids p := by
  intro s node cs as e
  obtain ⟨x, hx, rfl⟩ := (h.1 s).1.mp ⟨_, e⟩
  obtain ⟨ds, bs, h1, h2, _⟩ := h.2 x hx
  cases e.symm.trans h1
  intro c hc
  by_cases h5 : c.1 = 1151
  · rw [h5]
    exact g
  · have : c ∈ (notes x).filter fun x => x.1 ≠ 1151 := h2.mem_iff.mp (List.mem_filter.mpr ⟨hc, by simpa using h5⟩)
    exact k x c (List.mem_filter.mp this).1

theorem mild_hops (h : ReadsHops p) (g : 1151 ∈ ids) (k : 1017 ∈ ids) : Mild ids p := by
  intro s node cs as e
  obtain ⟨x, hx, rfl⟩ := (h.1 s).1.mp ⟨_, e⟩
  obtain ⟨y, _, _, _, ds, bs, h1, h2⟩ := h.2 x hx
  cases e.symm.trans h1
  exact amongst_perm h2 (amongst_list1 g (fun z => amongst_flatMap fun a _ => amongst_word k _) y)

open Classical in
theorem amongst_links {P : LinkParser} (hP : ∀ s, Mild ids (P s)) (h15 : 1015 ∈ ids) (h17 : 1017 ∈ ids) (h8 : 1158 ∈ ids)
    (hf : ∀ n ∈ [1225, 1226, 1307, 1308, 1309], n ∈ ids) {x : LinkSyn} {r : GVal × List PyComplaint} (h : x.Gives P r) :
    Amongst ids r.2 := by
  obtain ⟨m, cs, rfl, h⟩ := h
  refine amongst_append (amongst_flatMap fun p _ => ?_) ?_
  · refine amongst_append (amongst_bad h15 _) ?_
    split
    · exact amongst_nil
    · exact amongst_append (amongst_bad h15 _) (amongst_word h17 _)
  · rcases h with ⟨_, rs, h1, hm, rfl⟩ | ⟨_, _, rfl⟩
    · clear hm
      refine amongst_append ?_ (amongst_ite amongst_nil (amongst_one (hf _ (by decide))))
      generalize placed x.entries = l at h1
      induction h1 with
      | nil => exact amongst_nil
      | cons h _ ih =>
        rw [List.flatMap_cons]
        refine amongst_append ?_ ih
        rcases h with ⟨_, _, h⟩ | ⟨_, v, ds, hv, _, h⟩
        · rw [h]
          exact amongst_one (hf _ (by decide))
        · rw [h]
          refine amongst_append (amongst_append (amongst_append (amongst_ite (amongst_one (hf _ (by decide))) amongst_nil)
            (amongst_ite (amongst_one (hf _ (by decide))) amongst_nil)) ?_) (amongst_ite (amongst_one (hf _ (by decide))) amongst_nil)
          rcases hv with ⟨s, w, _, _, ⟨node, es, as, he, _, rfl⟩ | ⟨e, _, _, rfl⟩⟩ | ⟨_, rfl, _⟩
          · intro c hc
            obtain ⟨d, hd, rfl⟩ := List.mem_map.mp hc
            exact hP s _ _ _ _ he d hd
          · exact amongst_one h8
          · exact amongst_nil
    · exact amongst_nil

/-! ## Arguments -/

/-- Whatever is given to it, all that it reports is among these. -/
def Tame (ids : List Nat) (f : GVal → GVal × List Note) : Prop := ∀ v, ∀ n ∈ (f v).2, n.id ∈ ids

/-- What is known about names does not lead to other notices. -/
def Known (ids : List Nat) (know : Str → ArgRule) : Prop :=
  1156 ∈ ids ∧ 1158 ∈ ids ∧ ∀ name, ((know name).kind = .no → 1157 ∈ ids) ∧ ∀ p, (know name).syn = some p → Mild ids p

theorem tame_runParser {fail : Nat} (h : Mild ids p) (k : fail ∈ ids) (e : Entry) (s : Str) : ∀ n ∈ (runParser p fail e s).2, n.id ∈ ids := by
  unfold runParser
  split
  · intro n hn
    rw [List.mem_singleton.mp hn]
    exact k
  · next heq =>
    intro n hn
    obtain ⟨c, hc, rfl⟩ := List.mem_map.mp hn
    exact h _ _ _ _ heq c hc

theorem tame_argument {r : ArgRule} (h6 : 1156 ∈ ids) (h8 : 1158 ∈ ids) (h7 : r.kind = .no → 1157 ∈ ids)
    (hp : ∀ p, r.syn = some p → Mild ids p) (e : Entry) : Tame ids (processArgument r e) := by
  intro v n hn
  unfold processArgument at hn
  split at hn
  · split at hn
    · rw [List.mem_singleton.mp hn]
      exact h6
    · cases hn
  · split at hn
    · next hk =>
      rw [List.mem_singleton.mp hn]
      exact h7 hk
    · split at hn
      · cases hn
      · next hs => exact tame_runParser (hp _ hs) h8 e _ n hn

variable {know : Str → ArgRule} (hk : Known ids know)
include hk

theorem tame_pair (e : Entry) : Tame ids (processPairG know e) := by
  intro v n hn
  unfold processPairG at hn
  split at hn
  · cases hn
  · exact tame_argument hk.1 hk.2.1 (hk.2.2 _).1 (hk.2.2 _).2 e _ n hn

omit hk in
theorem tame_each {f : GVal → GVal × List Note} (h : Tame ids f) : Tame ids (processEach f) := by
  intro v n hn
  unfold processEach at hn
  split at hn
  · obtain ⟨x, _, hx⟩ := List.mem_flatMap.mp hn
    exact h x n hx
  · cases hn

theorem tame_arguments (e : Entry) : Tame ids (argumentsProcess know e) := tame_each (tame_pair hk e)

theorem tame_cache (form : Str → Option ArgForm) (h4 : 1154 ∈ ids) (h5 : 1155 ∈ ids) (e : Entry) : Tame ids (cacheProcess know form e) := by
  refine tame_each fun v n hn => ?_
  unfold cachePair at hn
  split at hn
  · cases hn
  · dsimp only at hn
    rw [List.mem_append, List.mem_append] at hn
    rcases hn with (hn | hn) | hn
    · split at hn
      · rw [List.mem_singleton.mp hn]
        exact h4
      · cases hn
    · split at hn
      · rw [List.mem_singleton.mp hn]
        exact h5
      · cases hn
    · exact tame_pair hk e _ n hn
  · exact tame_pair hk e _ n hn

theorem tame_alt (e : Entry) : Tame ids (altProcess know e) := by
  refine tame_each fun v n hn => ?_
  unfold altProcessOne at hn
  split at hn
  · exact tame_arguments hk e _ n hn
  · cases hn

theorem tame_prefer (e : Entry) : Tame ids (preferProcess know e) := by
  refine tame_each fun v n hn => ?_
  unfold preferPair at hn
  split at hn
  · cases hn
  · exact tame_pair hk e _ n hn

theorem tame_forwarded (h6 : 1296 ∈ ids) (h7 : 1297 ∈ ids) (e : Entry) : Tame ids (forwardedProcess know e) := by
  intro v n hn
  unfold forwardedProcess at hn
  dsimp only at hn
  rw [List.mem_append, List.mem_append] at hn
  rcases hn with (hn | hn) | hn
  · exact tame_each (tame_arguments hk e) v n hn
  · obtain ⟨x, _, hx⟩ := List.mem_flatMap.mp hn
    obtain ⟨_, _, rfl⟩ := List.mem_map.mp hx
    exact h6
  · have : ∀ {P : Prop} [Decidable P], n ∈ (if P then [(⟨1297, [e]⟩ : Note)] else []) → n.id ∈ ids := by
      intro P _ hn
      split at hn
      · rw [List.mem_singleton.mp hn]
        exact h7
      · cases hn
    exact this hn

omit hk in
/-- Rows of a table. -/
theorem known_rows {fold : Str → Str} {rows : List (String × ArgKind × Option SymParser)} (h6 : 1156 ∈ ids) (h8 : 1158 ∈ ids)
    (h7 : 1157 ∈ ids ∨ ∀ r ∈ rows, r.2.1 ≠ .no) (hp : ∀ r ∈ rows, ∀ p, r.2.2 = some p → Mild ids p) : Known ids (argRule fold rows) := by
  refine ⟨h6, h8, fun name => ?_⟩
  unfold argRule
  split
  · exact ⟨nofun, nofun⟩
  · next r hf =>
    have hr := List.mem_of_find?_eq_some hf
    exact ⟨fun h => h7.resolve_right fun h' => h' r hr h, hp r hr⟩

/-! ## Entries -/

omit hk in
mutual
theorem delim_ids (hc : comma = true → 1299 ∈ ids) (hs : semi = true → 1300 ∈ ids) (e : Entry) :
    ∀ v : GVal, ∀ n ∈ delimNotes comma semi e v, n.id ∈ ids
  | .text s, n, hn => by
    rw [delimNotes, delimNote, List.mem_append] at hn
    rcases hn with hn | hn
    · split at hn
      · next h =>
        rw [List.mem_singleton.mp hn]
        exact hc (Bool.and_eq_true_iff.mp h).1
      · cases hn
    · split at hn
      · next h =>
        rw [List.mem_singleton.mp hn]
        exact hs (Bool.and_eq_true_iff.mp h).1
      · cases hn
  | .tuple l, n, hn => by
    rw [delimNotes] at hn
    exact delim_all hc hs e l n hn
  | .list l, n, hn => by
    rw [delimNotes] at hn
    exact delim_all hc hs e l n hn
  | .obj cls args, n, hn => by
    rw [delimNotes] at hn
    split at hn
    · exact delim_all hc hs e args n hn
    · cases hn
  | .none, n, hn => by rw [delimNotes] at hn; cases hn
  | .skip, n, hn => by rw [delimNotes] at hn; cases hn
  | .int _, n, hn => by rw [delimNotes] at hn; cases hn

theorem delim_all (hc : comma = true → 1299 ∈ ids) (hs : semi = true → 1300 ∈ ids) (e : Entry) :
    ∀ l : List GVal, ∀ n ∈ delimNotesAll comma semi e l, n.id ∈ ids
  | [], n, hn => by rw [delimNotesAll] at hn; cases hn
  | v :: l, n, hn => by
    rw [delimNotesAll, List.mem_append] at hn
    exact hn.elim (delim_ids hc hs e v n) (delim_all hc hs e l n)
end

omit hk in
theorem formed {key : String} {process : Entry → GVal → GVal × List Note} (ht : Takes p Ok print) (hm : Mild ids p)
    (hp : ∀ e, Tame ids (process e)) (hc : (badQuotedDelims (str key)).1 = true → 1299 ∈ ids)
    (hs : (badQuotedDelims (str key)).2 = true → 1300 ∈ ids) : Formed ids (knownKind key p process) (WrittenAs Ok print) := by
  intro e
  refine ⟨fun hx => ?_, fun hx => ?_⟩
  · obtain ⟨⟨node, cs, as⟩, he⟩ := (ht e.value).1.mpr hx
    have h1 : ∀ n ∈ cs.map fun c => (⟨c.1, [e]⟩ : Note), n.id ∈ ids := by
      intro n hn
      obtain ⟨c, hc, rfl⟩ := List.mem_map.mp hn
      exact hm _ _ _ _ he c hc
    have h2 : ∀ w, ∀ n ∈ cs.map (fun c => (⟨c.1, [e]⟩ : Note)) ++ (process e w).2 ++
        delimNotes (badQuotedDelims (str key)).1 (badQuotedDelims (str key)).2 e (process e w).1, n.id ∈ ids := by
      intro w n hn
      rw [List.mem_append, List.mem_append] at hn
      rcases hn with (hn | hn) | hn
      · exact h1 n hn
      · exact hp e w n hn
      · exact delim_ids hc hs e _ n hn
    have hr : runParser p 1000 e e.value = (.ofNode node, cs.map fun c => (⟨c.1, [e]⟩ : Note)) := by
      unfold runParser
      rw [he]
    show ∀ n ∈ (readEntry p process (badQuotedDelims (str key)) e).2, _
    unfold readEntry
    rw [hr]
    generalize GVal.ofNode node = v
    cases v with
    | obj cls args =>
      dsimp only
      split
      · exact h1
      · exact h2 _
    | _ => exact h2 _
  · obtain ⟨err, he⟩ := (ht e.value).2.mpr hx
    exact readEntry_error he

omit hk in
/-- Without arguments. -/
theorem formed_plain {key : String} (ht : Takes p Ok print) (hm : Mild ids p)
    (hc : (badQuotedDelims (str key)).1 = true → 1299 ∈ ids)
    (hs : (badQuotedDelims (str key)).2 = true → 1300 ∈ ids) : Formed ids (knownKind key p plainProcess) (WrittenAs Ok print) :=
  formed ht hm (fun _ _ _ h => nomatch h) hc hs

omit hk in
/-- Texts that are in order as they are. -/
theorem formed_texts {k : HeaderKind GVal} {L : Str → Prop} (h : Formed ids k (WrittenAs L fun w => w)) : Formed ids k L := by
  have : WrittenAs L (fun w => w) = L := by
    funext s
    exact propext ⟨fun ⟨_, h, e⟩ => e ▸ h, fun h => ⟨s, h, rfl⟩⟩
  rwa [this] at h

end

end Httpolice.Lemmas
