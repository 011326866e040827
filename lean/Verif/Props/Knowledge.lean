import Verif.Lemmas.KnowledgeLoad

/-!
# C87: what is known about protocol elements is what the tables say
-/

namespace Httpolice.Props

open Httpolice.Model Httpolice.Spec Httpolice.Lemmas

/-- Rows of a table that are as they should be. -/
structure GoodTable (find : Str → Str → Except KnowErr Nat) (c : KnowClass)
    (rows : List (Dict Str)) : Prop where
  kind : Orderly c
  columns : ∀ raw ∈ rows, Columns raw
  key : ∀ raw ∈ rows, ∃ key, HasKey c raw key
  rows : ∀ raw ∈ rows, Understood find c raw

/-- A table is loaded, rather than stopped by an assertion, if and only if no two rows have the same
key (up to case if the class is so) or the same name, and every row has a name. -/
theorem C87_loads (lower : Str → Str) (find : Str → Str → Except KnowErr Nat) (c : KnowClass)
    (rows : List (Dict Str)) (h : GoodTable find c rows) :
    (∃ k, loadKnowledge lower c rows = .ok k) ↔
      ∃ kn, TableOf c rows kn ∧ NoneAlike (Alike lower c) (kn.map Prod.fst) ∧ (kn.map Prod.snd).Nodup := by
  have hcol : ∀ raw ∈ rows, (raw.map Prod.fst).Nodup := fun raw hr => (h.columns raw hr).once
  constructor
  · rintro ⟨k, hk⟩
    obtain ⟨kn, hl, ha, hn⟩ := loadRows_listed hcol h.key (by simp [NoneAlike]) (by simp) hk
    exact ⟨kn, hl, by simpa using ha, by simpa using hn⟩
  · rintro ⟨kn, hl, ha, hn⟩
    exact ⟨_, loadRows_ok hcol hl (by simpa using ha) (by simpa using hn)⟩

/-- Whatever has been looked up before, what is returned for a key is what its row says, field by
field; and nothing if there is no such row. -/
theorem C87_get (lower : Str → Str) (find : Str → Str → Except KnowErr Nat) (c : KnowClass)
    (rows : List (Dict Str)) (h : GoodTable find c rows) (k : Knowledge)
    (hk : loadKnowledge lower c rows = .ok k) (before : List KeyVal) (key : KeyVal) :
    ∃ d, ((k.gets lower find c before).2.get lower find c key).1 = .ok d ∧
      ((∃ raw ∈ rows, ∃ key', HasKey c raw key' ∧ Alike lower c key' key ∧
          (∀ raw' ∈ rows, ∀ key'', HasKey c raw' key'' → Alike lower c key'' key → raw' = raw) ∧
          Describes find c raw d) ∨
        (∀ raw ∈ rows, ∀ key', HasKey c raw key' → ¬ Alike lower c key' key) ∧ d = []) := by
  have hcol : ∀ raw ∈ rows, (raw.map Prod.fst).Nodup := fun raw hr => (h.columns raw hr).once
  obtain ⟨kn, hl, ha, hn⟩ := loadRows_listed hcol h.key (by simp [NoneAlike]) (by simp) hk
  have hk' := loadRows_ok (lower := lower) hcol hl ha hn
  rw [loadKnowledge] at hk
  rw [hk] at hk'
  cases hk'
  have hs : CacheSound lower find c (tableOf ⟨[], [], []⟩ rows kn) := by
    intro key p hm
    cases hm
  have hr : ((tableOf ⟨[], [], []⟩ rows kn).gets lower find c (before ++ [key])).1 =
      ((tableOf ⟨[], [], []⟩ rows kn).gets lower find c before).1 ++
        [(((tableOf ⟨[], [], []⟩ rows kn).gets lower find c before).2.get lower find c key).1] := by
    generalize tableOf ⟨[], [], []⟩ rows kn = k
    induction before generalizing k with
    | nil => rfl
    | cons b bs ih => simp only [List.cons_append, Knowledge.gets, ih]
  rw [(gets_pure hs _).1, (gets_pure hs _).1, List.map_append] at hr
  have hr := List.append_cancel_left hr
  simp only [List.map_cons, List.map_nil, List.cons.injEq, and_true] at hr
  rw [← hr]
  have hraw : (tableOf ⟨[], [], []⟩ rows kn).rawByKey = (kn.map Prod.fst).zip rows := by
    simp [tableOf]
  rw [pureGet, hraw]
  cases hlk : keyLookup lower c key ((kn.map Prod.fst).zip rows) with
  | none =>
    refine ⟨[], rfl, .inr ⟨?_, rfl⟩⟩
    intro raw hm key' hkey' hal
    obtain ⟨key'', name, h1, _, _, h4⟩ := mem_listed hl hm
    have := hasKey_unique (hcol raw hm) hkey' h1
    subst this
    exact keyLookup_none.1 hlk _ _ h4 hal
  | some raw =>
    obtain ⟨key', hm, hal⟩ := keyLookup_some hlk
    obtain ⟨hr1, hr2⟩ := listed_mem hl hm
    obtain ⟨d, hd, hdesc⟩ := process_describes h.kind (h.columns raw hr1) (h.rows raw hr1)
    refine ⟨d, hd, .inl ⟨raw, hr1, key', hr2, hal, ?_, hdesc⟩⟩
    intro raw' hm' key'' hkey'' hal''
    obtain ⟨k2, name, h1, _, _, h4⟩ := mem_listed hl hm'
    have := hasKey_unique (hcol raw' hm') hkey'' h1
    subst this
    have hal2 : Alike lower c key'' key' := alike_trans hal'' (alike_symm hal)
    have hap : NoneAlike (Alike lower c) (kn.map Prod.fst) := by simpa using ha
    exact zip_apart hap h4 hm hal2

/-- The attributes of an accessor, such as `h.accept` or `st.not_found`, are the keys with these
names; there are no others; and looking things up does not change them. -/
theorem C87_accessor (lower : Str → Str) (find : Str → Str → Except KnowErr Nat) (c : KnowClass)
    (rows : List (Dict Str)) (h : GoodTable find c rows) (k : Knowledge)
    (hk : loadKnowledge lower c rows = .ok k) (before : List KeyVal) (name : Str) :
    (∀ key, (k.gets lower find c before).2.attr name = .ok key ↔
        ∃ raw ∈ rows, HasKey c raw key ∧ NamedAs c raw key name) ∧
      ((¬ ∃ raw ∈ rows, ∃ key, HasKey c raw key ∧ NamedAs c raw key name) →
        (k.gets lower find c before).2.attr name = .error .attributeError) := by
  have hcol : ∀ raw ∈ rows, (raw.map Prod.fst).Nodup := fun raw hr => (h.columns raw hr).once
  obtain ⟨kn, hl, ha, hn⟩ := loadRows_listed hcol h.key (by simp [NoneAlike]) (by simp) hk
  have hk' := loadRows_ok (lower := lower) hcol hl ha hn
  rw [loadKnowledge] at hk
  rw [hk] at hk'
  cases hk'
  have hs : CacheSound lower find c (tableOf ⟨[], [], []⟩ rows kn) := by
    intro key p hm
    cases hm
  rw [Knowledge.attr, (gets_pure hs before).2]
  have hnames : (tableOf ⟨[], [], []⟩ rows kn).keysByName = kn.map fun e => (e.2, e.1) := by
    simp [tableOf]
  rw [hnames]
  have hnd : ((kn.map fun e => (e.2, e.1)).map Prod.fst).Nodup := by
    rw [List.map_map]
    simpa [Function.comp_def] using hn
  have main : ∀ key, Dict.get (kn.map fun e => (e.2, e.1)) name = some key ↔
      ∃ raw ∈ rows, HasKey c raw key ∧ NamedAs c raw key name := by
    intro key
    constructor
    · intro hg
      have := dict_get_mem hg
      rw [List.mem_map] at this
      obtain ⟨⟨key', name'⟩, hm, he⟩ := this
      cases he
      exact listed_name hl hm
    · rintro ⟨raw, hr, h1, h2⟩
      obtain ⟨key', name', h3, h4, h5, _⟩ := mem_listed hl hr
      have := hasKey_unique (hcol raw hr) h1 h3
      subst this
      have e := (hasName_iff (hcol raw hr)).1 h2
      rw [(hasName_iff (hcol raw hr)).1 h4] at e
      cases e
      exact dict_mem_get hnd (List.mem_map.2 ⟨_, h5, rfl⟩)
  constructor
  · intro key
    rw [← main key]
    cases Dict.get (kn.map fun e => (e.2, e.1)) name with
    | none => simp
    | some key' => simp
  · intro hno
    cases hg : Dict.get (kn.map fun e => (e.2, e.1)) name with
    | none => rfl
    | some key =>
      obtain ⟨raw, hr, hx⟩ := (main key).1 hg
      exact absurd ⟨raw, hr, key, hx⟩ hno

/-- A name made from letters, digits and the usual punctuation consists of letters, digits and
underscores, and is none of the words that are set apart. -/
theorem C87_name (s : Str)
    (hs : ∀ ch ∈ s, 97 ≤ ch ∧ ch ≤ 122 ∨ 65 ≤ ch ∧ ch ≤ 90 ∨ IsDec ch ∨
      ch ∈ [45, 32, 47, 43, 46, 95]) :
    (∀ ch ∈ plainName s, 97 ≤ ch ∧ ch ≤ 122 ∨ IsDec ch ∨ ch = 95) ∧
      plainName s ∉ [str "continue", str "for", str "from", str "return"] := by
  have hm : ∀ ch ∈ s.map nameChar, 97 ≤ ch ∧ ch ≤ 122 ∨ IsDec ch ∨ ch = 95 := by
    intro ch hch
    obtain ⟨d, hd, rfl⟩ := List.mem_map.1 hch
    have := hs d hd
    simp only [List.mem_cons, List.not_mem_nil, or_false, IsDec] at this
    simp only [nameChar, IsDec]
    split
    · exact .inr (.inr rfl)
    · split <;> omega
  rw [plainName_eq, attrName]
  constructor
  · intro ch hch
    rcases List.mem_append.1 hch with h | h
    · exact hm ch h
    · split at h
      · have : ch = 95 := by simpa [str] using h
        exact .inr (.inr this)
      · cases h
  · split
    · rename_i h
      simp only [List.mem_cons, List.not_mem_nil, or_false] at h
      rcases h with h | h | h | h <;> rw [h] <;> decide
    · rename_i h
      rw [List.append_nil]
      exact h

/-- How a citation of an RFC is shown and where it leads. -/
theorem C87_rfc (n : Nat) (sect appendix : Option Str) (shown link : Str)
    (h : RfcPlace sect appendix shown link) :
    (Citation.rfc n sect appendix none).title =
        some (.text (str "RFC" ++ [0xA0] ++ str (toString n) ++ shown)) ∧
      (Citation.rfc n sect appendix none).url =
        .text (str "https://tools.ietf.org/html/rfc" ++ str (toString n) ++ link) := by
  cases h <;> simp [Citation.title, Citation.url, hasErrata, intText, decimalText]

/-- Flags are on just if the table says `True`, or a number other than zero, or some text. -/
theorem C87_flag (find : Str → Str → Except KnowErr Nat) (c : KnowClass) (raw : Dict Str)
    (d : Dict KCell) (hc : Orderly c) (hcol : Columns raw) (hd : Describes find c raw d)
    (field : Str) (hf : field ≠ str "citation") (hf' : field ≠ str "syntax")
    (hnu : ¬ Used c raw field) :
    (RowSays c raw field (.flag true) → flagOf d field = true) ∧
      (RowSays c raw field (.flag false) ∨ Silent raw field → flagOf d field = false) := by
  obtain ⟨r, hr, hg⟩ := (hd.2.2.2.2 field hf hf').2 hnu
  have hn := hcol.once
  constructor
  · intro h
    cases r with
    | none =>
      obtain ⟨s, h1, h2, _⟩ := h
      exact absurd (hr s h1) h2
    | some v =>
      rw [rowSays_unique hc hn hr h] at hg
      rw [flagOf, hg]
      rfl
  · intro h
    cases r with
    | none => rw [flagOf, hg]; rfl
    | some v =>
      rcases h with h | h
      · rw [rowSays_unique hc hn hr h] at hg
        rw [flagOf, hg]
        rfl
      · obtain ⟨s, h1, h2, _⟩ := hr
        exact absurd (h s h1) h2

/-- Questions about columns with a fixed set of answers, such as `rule` and `argument`, and about the
status of headers are answered by the table. -/
theorem C87_member (find : Str → Str → Except KnowErr Nat) (c : KnowClass) (raw : Dict Str)
    (d : Dict KCell) (hc : Orderly c) (hcol : Columns raw) (hd : Describes find c raw d)
    (field : Str) (hf : field ≠ str "citation") (hf' : field ≠ str "syntax")
    (hnu : ¬ Used c raw field) (name : Str) :
    (isMember d field name = true ↔ RowSays c raw field (.member name)) ∧
      (field = str "iana_status" → (headerDeprecated d = true ↔
        RowSays c raw field (.text (str "deprecated")) ∨
          RowSays c raw field (.text (str "obsoleted")))) := by
  obtain ⟨r, hr, hg⟩ := (hd.2.2.2.2 field hf hf').2 hnu
  have hn := hcol.once
  have key : ∀ v, d.get field = some (.plain v) ↔ RowSays c raw field v := by
    intro v
    rw [hg]
    cases r with
    | none =>
      simp only [Option.map_none, reduceCtorEq, false_iff]
      rintro ⟨s, h1, h2, _⟩
      exact h2 (hr s h1)
    | some w =>
      simp only [Option.map_some, Option.some.injEq, KCell.plain.injEq]
      exact ⟨fun h => h ▸ hr, fun h => rowSays_unique hc hn hr h⟩
  constructor
  · rw [isMember, beq_iff_eq, key]
  · rintro rfl
    rw [headerDeprecated, Bool.or_eq_true, beq_iff_eq, beq_iff_eq, key, key]

/-- A media type is JSON just if its row says so or it ends with `+json`, in any case; XML likewise;
and multipart just if it starts with `multipart/`. -/
theorem C87_media (lower : Str → Str) (d : Dict KCell) (key : Str) :
    (mediaIsJson lower d key = true ↔
        flagOf d (str "is_json") = true ∨ ∃ t, lower key = t ++ lower (str "+json")) ∧
      (mediaIsXml lower d key = true ↔
        flagOf d (str "is_xml") = true ∨ ∃ t, lower key = t ++ lower (str "+xml")) ∧
      (mediaIsMultipart lower key = true ↔ ∃ t, lower key = lower (str "multipart/") ++ t) := by
  refine ⟨?_, ?_, ?_⟩
  · rw [mediaIsJson, Bool.or_eq_true, endsWithCi, List.isSuffixOf_iff_suffix]
    exact or_congr Iff.rfl ⟨fun ⟨t, ht⟩ => ⟨t, ht.symm⟩, fun ⟨t, ht⟩ => ⟨t, ht.symm⟩⟩
  · rw [mediaIsXml, Bool.or_eq_true, endsWithCi, List.isSuffixOf_iff_suffix]
    exact or_congr Iff.rfl ⟨fun ⟨t, ht⟩ => ⟨t, ht.symm⟩, fun ⟨t, ht⟩ => ⟨t, ht.symm⟩⟩
  · rw [mediaIsMultipart, List.isPrefixOf_iff_prefix]
    exact ⟨fun ⟨t, ht⟩ => ⟨t, ht.symm⟩, fun ⟨t, ht⟩ => ⟨t, ht.symm⟩⟩

/-- The title that is shown with a thing: that of the table, with the citation in parentheses if there
is one that has a title; or the title of the citation alone. -/
theorem C87_title (d : Dict KCell) (t : Option Str) (cite : Option Citation)
    (ht : d.get (str "title") = t.map fun s => .plain (.text s)) (hne : t ≠ some [])
    (hc : d.get (str "citation") = cite.map .cite) :
    knownTitle d false = t.map .text ∧
      (∀ s ct, t = some s → ct ≠ [] → cite.bind Citation.title = some (.text ct) →
        knownTitle d true = some (.text (s ++ str " (" ++ ct ++ str ")"))) ∧
      (∀ ct, t = none → ct ≠ [] → cite.bind Citation.title = some (.text ct) →
        knownTitle d true = some (.text ct)) ∧
      (cite.bind Citation.title = none → knownTitle d true = t.map .text) := by
  have h1 : scalarOf (d.get (str "title")) = t.map .text := by
    rw [ht]; cases t <;> rfl
  have h2 : knownCitation d = cite := by
    rw [knownCitation, hc]; cases cite <;> rfl
  refine ⟨by simp [knownTitle, h1], ?_, ?_, ?_⟩
  · rintro s ct rfl hct hcite
    cases cite with
    | none => cases hcite
    | some cite =>
      have hcite : cite.title = some (.text ct) := hcite
      have hs : s ≠ [] := fun h => hne (by rw [h])
      simp [knownTitle, h1, h2, hcite, optTrue, Scalar.truthy, hct, hs, Scalar.show]
  · rintro ct rfl hct hcite
    cases cite with
    | none => cases hcite
    | some cite =>
      have hcite : cite.title = some (.text ct) := hcite
      simp [knownTitle, h1, h2, hcite, optTrue, Scalar.truthy, hct]
  · intro hcite
    cases cite with
    | none => simp [knownTitle, h1, h2]
    | some cite =>
      have hcite : cite.title = none := hcite
      simp [knownTitle, h1, h2, hcite, optTrue]

/-! ## Examples -/

/-- Tables of headers, with two of their enumerations' members. -/
def someKind : KnowClass :=
  ⟨false, true, [(str "rule", [str "single", str "multi", str "special"])], true, .plain⟩

/-- Two rows in the manner of `header.csv`. -/
def someRows : List (Dict Str) :=
  [[(str "key", str "Accept"), (str "title", []), (str "rfc", str "7231"),
    (str "rfc_section", str "5.3.2"), (str "rfc_appendix", []), (str "cite_url", []),
    (str "cite_title", []), (str "syntax_module", str "rfc7231"), (str "syntax_symbol", str "Accept"),
    (str "for_request", str "True"), (str "rule", str "multi")],
   [(str "key", str "From"), (str "title", []), (str "rfc", []),
    (str "rfc_section", []), (str "rfc_appendix", []), (str "cite_url", str "http://a.example/"),
    (str "cite_title", str "A"), (str "syntax_module", []), (str "syntax_symbol", []),
    (str "for_request", str "FALSE"), (str "rule", str "single")]]

/-- A lookup of symbols that finds one. -/
def someFind (m s : Str) : Except KnowErr Nat :=
  if m = str "rfc7231" ∧ s = str "Accept" then .ok 7 else .error .attributeError

theorem someKind_orderly : Orderly someKind := by
  constructor
  · decide
  · intro field hf
    have : field = str "rule" := by simpa [someKind] using hf
    subst this
    decide

/-- Every cell of the rows can be read. -/
theorem someRows_cells : ∀ raw ∈ someRows, ∀ field s, (field, s) ∈ raw → s ≠ [] →
    ∃ v, CellSays someKind field s v := by
  have h : ∀ raw ∈ someRows, ∀ e ∈ raw, e.2 ≠ [] →
      (match processField someKind e.1 e.2 with | .ok _ => true | .error _ => false) = true := by
    decide +kernel
  intro raw hr field s hm hs
  have := h raw hr _ hm hs
  simp only at this
  split at this
  · rename_i v hv
    exact ⟨v, field_cellSays hs (fun _ => .inl rfl) hv⟩
  · cases this

theorem someRow_says {raw : Dict Str} {field s : Str} {v : Scalar} (hm : (field, s) ∈ raw)
    (hs : s ≠ []) (h : processField someKind field s = .ok v) : RowSays someKind raw field v :=
  ⟨s, hm, hs, field_cellSays hs (fun _ => .inl rfl) h⟩

theorem someRows_good : GoodTable someFind someKind someRows := by
  refine ⟨someKind_orderly, ?_, ?_, ?_⟩
  · intro raw hr
    have h : ∀ raw ∈ someRows, (raw.map Prod.fst).Nodup ∧ str "citation" ∉ raw.map Prod.fst ∧
        str "syntax" ∉ raw.map Prod.fst := by decide +kernel
    obtain ⟨h1, h2, h3⟩ := h raw hr
    exact ⟨h1, fun s hs => h2 (List.mem_map.2 ⟨_, hs, rfl⟩),
      fun s hs => h3 (List.mem_map.2 ⟨_, hs, rfl⟩)⟩
  · intro raw hr
    simp only [someRows, List.mem_cons, List.not_mem_nil, or_false] at hr
    rcases hr with rfl | rfl
    · exact ⟨.word (str "Accept"), str "Accept", List.mem_cons_self, .name _ rfl⟩
    · exact ⟨.word (str "From"), str "From", List.mem_cons_self, .name _ rfl⟩
  · intro raw hr
    have hcells := someRows_cells raw hr
    simp only [someRows, List.mem_cons, List.not_mem_nil, or_false] at hr
    rcases hr with rfl | rfl
    · refine ⟨hcells, fun _ => ⟨7231, ?_⟩, fun _ => .inr (.none ?_), fun _ _ => ?_⟩
      · exact someRow_says (s := str "7231") (by decide +kernel) (by decide) rfl
      · intro s hs
        have := (by decide +kernel : ∀ e ∈ someRows.head!, e.1 = str "rfc_appendix" → e.2 = [])
        exact this _ hs rfl
      · exact ⟨str "rfc7231", str "Accept", 7,
          someRow_says (s := str "rfc7231") (by decide +kernel) (by decide) rfl,
          someRow_says (s := str "Accept") (by decide +kernel) (by decide) rfl, rfl⟩
    · have hsil : ∀ field, field = str "rfc" ∨ field = str "syntax_module" → Silent someRows.tail.head! field := by
        intro field hf s hs
        have := (by decide +kernel : ∀ e ∈ someRows.tail.head!,
          e.1 = str "rfc" ∨ e.1 = str "syntax_module" → e.2 = [])
        exact this _ hs hf
      exact ⟨hcells, fun h => absurd (hsil _ (.inl rfl)) h, fun h => absurd (hsil _ (.inl rfl)) h,
        fun _ h => absurd (hsil _ (.inr rfl)) h⟩

example : (loadKnowledge asciiLower someKind someRows).isOk = true := by decide +kernel

example : (match loadKnowledge asciiLower someKind someRows with
    | .ok k => (k.get asciiLower someFind someKind (.word (str "ACCEPT"))).1
    | .error e => .error e).toOption =
      some [(str "key", .plain (.key (.word (str "Accept")))), (str "for_request", .plain (.flag true)),
        (str "rule", .plain (.member (str "multi"))),
        (str "citation", .cite (.rfc 7231 (some (str "5.3.2")) none none)),
        (str "syntax", .symbol 7)] := by decide +kernel

example : (match loadKnowledge asciiLower someKind someRows with
    | .ok k => k.attr (str "from_")
    | .error e => .error e).toOption = some (.word (str "From")) := by decide +kernel

end Httpolice.Props
