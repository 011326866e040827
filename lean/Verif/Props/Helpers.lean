import Verif.Model.Helpers

/-!
# Properties C33 (pseudo-headers) and C34 (CGI variables)
-/

namespace Httpolice.Props

open Httpolice.Model

/-! ## C33 -/

/-- The name starts with a colon. -/
def IsPseudo {V : Type} (e : Str × V) : Prop := ∃ rest, e.1 = 58 :: rest

instance {V : Type} (e : Str × V) : Decidable (IsPseudo e) :=
  decidable_of_iff (e.1.head? = some 58) (by
    unfold IsPseudo
    rcases e with ⟨n, v⟩
    cases n <;> simp)

theorem isPseudo_iff {V : Type} (e : Str × V) : IsPseudo e ↔ e.1.head? = some 58 := by
  unfold IsPseudo
  rcases e with ⟨n, v⟩
  cases n <;> simp

/-- What dict construction by successive assignments gives. -/
def dictOf {V : Type} (l : List (Str × V)) : List (Str × V) :=
  l.foldl (fun r p => dictSet r p.1 p.2) []

theorem popLoop_eq {V : Type} (entries : List (Str × V)) (i : Nat) (r : List (Str × V)) :
    popLoop entries i r =
      (entries.take i ++ (entries.drop i).filter (fun e => ¬ IsPseudo e),
       ((entries.drop i).filter (fun e => IsPseudo e)).foldl (fun r p => dictSet r p.1 p.2) r) := by
  fun_induction popLoop entries i r with
  | case1 entries i r h name value he hc ih =>
    rw [ih]
    have hd : entries.drop i = entries[i] :: entries.drop (i + 1) := List.drop_eq_getElem_cons h
    have hp : IsPseudo entries[i] := (isPseudo_iff _).2 (by rw [he]; exact hc)
    have h1 : (entries.eraseIdx i).take i = entries.take i := by
      rw [List.eraseIdx_eq_take_drop_succ, List.take_append_of_le_length (by simp; omega),
        List.take_take, Nat.min_self]
    have h2 : (entries.eraseIdx i).drop i = entries.drop (i + 1) := by
      rw [List.eraseIdx_eq_take_drop_succ, List.drop_append]
      simp; omega
    rw [h1, h2, hd, List.filter_cons_of_neg (by simpa using hp),
      List.filter_cons_of_pos (by simpa using hp), List.foldl_cons, he]
  | case2 entries i r h name value he hc ih =>
    rw [ih]
    have hd : entries.drop i = entries[i] :: entries.drop (i + 1) := List.drop_eq_getElem_cons h
    have hp : ¬ IsPseudo entries[i] := by
      rw [isPseudo_iff, he]; exact hc
    have ht : entries.take (i + 1) = entries.take i ++ [entries[i]] := by
      rw [List.take_succ_eq_append_getElem h]
    rw [hd, ht, List.filter_cons_of_pos (by simpa using hp),
      List.filter_cons_of_neg (by simpa using hp)]
    simp only [List.append_assoc, List.singleton_append]
  | case3 entries i r h =>
    have : entries.drop i = [] := by rw [List.drop_eq_nil_iff]; omega
    have h2 : entries.take i = entries := List.take_of_length_le (by omega)
    simp [this, h2]

theorem dictSet_lookup {V : Type} (d : List (Str × V)) (k k' : Str) (v : V) :
    (dictSet d k v).lookup k' = if k' = k then some v else d.lookup k' := by
  induction d with
  | nil =>
    by_cases h : k' = k
    · simp [dictSet, h]
    · have hb : (k' == k) = false := by simpa using h
      simp [dictSet, h, List.lookup, hb]
  | cons p d ih =>
    rcases p with ⟨k0, v0⟩
    by_cases h0 : k0 = k
    · subst h0
      by_cases h : k' = k0
      · simp [dictSet, h]
      · have hb : (k' == k0) = false := by simpa using h
        simp [dictSet, h, List.lookup, hb]
    · simp only [dictSet, if_neg h0, List.lookup, ih]
      by_cases h : k' = k0
      · have : ¬ k' = k := by rw [h]; exact h0
        simp [h, h0]
      · have hb : (k' == k0) = false := by simpa using h
        simp [hb]

/-- **C33**: what is left are exactly the entries without a leading colon, in order; the returned
mapping sends each removed name to its last value and has no other names. -/
theorem C33_pop_pseudo_headers {V : Type} (entries : List (Str × V)) :
    (popPseudoHeaders entries).1 = entries.filter (fun e => ¬ IsPseudo e) ∧
    ∀ name, (popPseudoHeaders entries).2.lookup name =
      ((entries.filter fun e => IsPseudo e ∧ e.1 = name).getLast?).map Prod.snd := by
  unfold popPseudoHeaders
  rw [popLoop_eq]
  refine ⟨by simp, ?_⟩
  intro name
  simp only [List.drop_zero]
  have key : ∀ (l : List (Str × V)) (r : List (Str × V)),
      (l.foldl (fun r p => dictSet r p.1 p.2) r).lookup name =
        match (l.filter fun e => e.1 = name).getLast? with
        | some e => some e.2
        | none => r.lookup name := by
    intro l
    induction l with
    | nil => intro r; simp
    | cons p l ih =>
      intro r
      rw [List.foldl_cons, ih, dictSet_lookup, List.filter_cons]
      by_cases hp : p.1 = name
      · subst hp
        simp only [decide_true, if_true, List.getLast?_cons]
        cases hl : (l.filter fun e => e.1 = p.1).getLast? <;> simp
      · have : ¬ name = p.1 := fun h => hp h.symm
        simp [hp, this]
  rw [key, List.filter_filter]
  have hcomm : (entries.filter fun e => decide (e.1 = name) && decide (IsPseudo e)) =
      entries.filter fun e => IsPseudo e ∧ e.1 = name := by
    apply List.filter_congr
    intro e _
    rw [Bool.eq_iff_iff]
    simp [and_comm]
  rw [hcomm]
  cases (entries.filter fun e => IsPseudo e ∧ e.1 = name).getLast? <;> simp

example : popPseudoHeaders
    [(str ":path", 1), (str "accept", 2), (str ":path", 3), (str "", 4), (str ":method", 5)] =
    ([(str "accept", 2), (str "", 4)], [(str ":path", 3), (str ":method", 5)]) := by
  simp [popPseudoHeaders, popLoop_eq]; decide

/-! ## C34 -/

/-- Starts with `HTTP_`. -/
def HttpVar (n : Str) : Prop := ∃ rest, n = str "HTTP_" ++ rest

instance (n : Str) : Decidable (HttpVar n) :=
  decidable_of_iff ((str "HTTP_").isPrefixOf n = true) (by
    rw [List.isPrefixOf_iff_prefix]
    unfold HttpVar List.IsPrefix
    simp [eq_comm])

theorem httpVar_iff (n : Str) : (str "HTTP_").isPrefixOf n = true ↔ HttpVar n := by
  rw [List.isPrefixOf_iff_prefix]
  unfold HttpVar List.IsPrefix
  simp [eq_comm]

/-- The value is usable: a non-empty string, or a true object. -/
def NonEmpty : CgiValue → Prop
  | .text s => s ≠ []
  | .bytes b => b ≠ []
  | .other _ t => t = true

theorem truthy_iff (v : CgiValue) : v.truthy = true ↔ NonEmpty v := by
  cases v <;> simp [CgiValue.truthy, NonEmpty]

/-- The header value made from a variable: bytes are kept, text is encoded in ISO-8859-1 with `?`
for what has no encoding, anything else is shown as text first. -/
def cgiBytes : CgiValue → Str
  | .bytes b => b
  | .text s => s.map fun c => if c ≤ 0xFF then c else 0x3F
  | .other s _ => s.map fun c => if c ≤ 0xFF then c else 0x3F

theorem headerValue_eq (v : CgiValue) : headerValueFromCgi v = cgiBytes v := by
  cases v <;> simp [headerValueFromCgi, cgiBytes, encodeLatin1, Nat.lt_succ_iff]

theorem cgi_fold (ks acc : List Str) (hnd : ks.Nodup) :
    ks.foldl (fun names n => if (str "HTTP_").isPrefixOf n ∧ n ∉ names then names ++ [n]
      else names) acc = acc ++ ks.filter (fun n => HttpVar n ∧ n ∉ acc) := by
  induction ks generalizing acc with
  | nil => simp
  | cons k ks ih =>
    have hnd' := List.nodup_cons.1 hnd
    rw [List.foldl_cons, List.filter_cons]
    by_cases h : HttpVar k ∧ k ∉ acc
    · have h' : (str "HTTP_").isPrefixOf k = true ∧ k ∉ acc := ⟨(httpVar_iff k).2 h.1, h.2⟩
      rw [if_pos h', ih _ hnd'.2]
      rw [if_pos (by simpa using h), List.append_assoc]
      congr 1
      simp only [List.singleton_append]
      congr 1
      apply List.filter_congr
      intro n hn
      have : n ≠ k := by rintro rfl; exact hnd'.1 hn
      simp [this]
    · have h' : ¬ ((str "HTTP_").isPrefixOf k = true ∧ k ∉ acc) := by
        rw [httpVar_iff]; exact h
      rw [if_neg h', ih _ hnd'.2]
      simp [h]

theorem mapM_some {α β : Type} (f : α → Option β) (g : α → β) (l : List α)
    (h : ∀ a ∈ l, f a = some (g a)) : l.mapM f = some (l.map g) := by
  induction l with
  | nil => rfl
  | cons a l ih =>
    rw [List.mapM_cons, h a (by simp), ih (fun a ha => h a (by simp [ha]))]
    rfl

theorem find_of_mem {V : Type} {d : List (Str × V)} (hnd : (d.map Prod.fst).Nodup) {p : Str × V}
    (hp : p ∈ d) : d.find? (fun q => q.1 = p.1) = some p := by
  induction d with
  | nil => simp at hp
  | cons q d ih =>
    simp only [List.map_cons, List.nodup_cons] at hnd
    rcases List.mem_cons.1 hp with rfl | hp'
    · simp
    · have hne : ¬ q.1 = p.1 := by
        intro he
        exact hnd.1 (he ▸ List.mem_map_of_mem hp')
      simpa [hne] using ih hnd.2 hp'

/-- **C34**: for every environment (with distinct names, as in any mapping), the entries come from
exactly the `HTTP_*` variables and the non-empty `CONTENT_LENGTH` and `CONTENT_TYPE`, one entry
each; `HTTP_HOST` comes first if it is non-empty; apart from these three, the order is that of
the environment. -/
theorem C34_headers_from_cgi (cgi : List (Str × CgiValue)) (hnd : (cgi.map Prod.fst).Nodup) :
    ∃ vars : List (Str × CgiValue),
      headersFromCgi cgi = some (vars.map fun p => (headerNameFromCgi p.1, cgiBytes p.2)) ∧
      vars.Nodup ∧
      (∀ p, p ∈ vars ↔ p ∈ cgi ∧ (HttpVar p.1 ∨
        (p.1 = str "CONTENT_LENGTH" ∨ p.1 = str "CONTENT_TYPE") ∧ NonEmpty p.2)) ∧
      (∀ v, (str "HTTP_HOST", v) ∈ cgi → NonEmpty v → vars.head? = some (str "HTTP_HOST", v)) ∧
      vars.filter (fun p => HttpVar p.1 ∧ p.1 ≠ str "HTTP_HOST") =
        cgi.filter (fun p => HttpVar p.1 ∧ p.1 ≠ str "HTTP_HOST") := by
  let get (k : Str) : Option CgiValue := (cgi.find? fun p => p.1 = k).map Prod.snd
  let ok (k : Str) : Bool := match get k with | some v => v.truthy | none => false
  have hget : ∀ k v, get k = some v ↔ (k, v) ∈ cgi := by
    intro k v
    constructor
    · intro h
      obtain ⟨p, hp, rfl⟩ := Option.map_eq_some_iff.1 h
      have h1 := List.find?_some hp
      simp only [decide_eq_true_eq] at h1
      subst h1
      exact List.mem_of_find?_eq_some hp
    · intro h
      simp only [get]
      rw [find_of_mem hnd h]
      rfl
  have hok : ∀ k, ok k = true ↔ ∃ v, (k, v) ∈ cgi ∧ NonEmpty v := by
    intro k
    simp only [ok]
    cases hg : get k with
    | none =>
      simp only [Bool.false_eq_true, false_iff]
      rintro ⟨v, hv, _⟩
      rw [(hget k v).2 hv] at hg
      simp at hg
    | some v =>
      simp only [truthy_iff]
      constructor
      · intro h; exact ⟨v, (hget k v).1 hg, h⟩
      · rintro ⟨v', hv', h⟩
        rw [(hget k v').2 hv'] at hg
        simp only [Option.some.injEq] at hg
        rw [← hg]; exact h
  let defs := [str "HTTP_HOST", str "CONTENT_LENGTH", str "CONTENT_TYPE"].filter ok
  have hdefs : [str "HTTP_HOST", str "CONTENT_LENGTH", str "CONTENT_TYPE"].foldl
      (fun names k => if (match get k with | some v => v.truthy | none => false) then names ++ [k]
        else names) [] = defs := by
    have : ∀ (ks acc : List Str), ks.foldl
      (fun names k => if (match get k with | some v => v.truthy | none => false) then names ++ [k]
        else names) acc = acc ++ ks.filter ok := by
      intro ks
      induction ks with
      | nil => simp
      | cons k ks ih =>
        intro acc
        rw [List.foldl_cons, ih, List.filter_cons]
        by_cases h : ok k = true
        · have h' : (match get k with | some v => v.truthy | none => false) = true := h
          simp [h, h']
        · have h' : ¬ (match get k with | some v => v.truthy | none => false) = true := h
          simp [h, h']
    exact this _ []
  let rest := (cgi.map Prod.fst).filter (fun n => HttpVar n ∧ n ∉ defs)
  have hnames : cgiNames cgi = defs ++ rest := by
    exact (congrArg (fun acc => (cgi.map Prod.fst).foldl (fun names n =>
      if (str "HTTP_").isPrefixOf n ∧ n ∉ names then names ++ [n] else names) acc) hdefs).trans
      (cgi_fold _ _ hnd)
  have hmemdefs : ∀ n, n ∈ defs ↔
      (n = str "HTTP_HOST" ∨ n = str "CONTENT_LENGTH" ∨ n = str "CONTENT_TYPE") ∧ ok n = true := by
    intro n; simp [defs]
  have hmem : ∀ n, n ∈ cgiNames cgi ↔ ∃ v, (n, v) ∈ cgi ∧ (HttpVar n ∨
        (n = str "CONTENT_LENGTH" ∨ n = str "CONTENT_TYPE") ∧ NonEmpty v) := by
    intro n
    rw [hnames, List.mem_append, hmemdefs, hok]
    simp only [rest, List.mem_filter, decide_eq_true_eq, List.mem_map]
    constructor
    · rintro (⟨hn, v, hv, hne⟩ | ⟨⟨p, hp, rfl⟩, hh, _⟩)
      · refine ⟨v, hv, ?_⟩
        rcases hn with rfl | hn
        · exact Or.inl ⟨str "HOST", by decide⟩
        · exact Or.inr ⟨hn, hne⟩
      · exact ⟨p.2, hp, Or.inl hh⟩
    · rintro ⟨v, hv, hh | ⟨hn, hne⟩⟩
      · by_cases hd : n ∈ defs
        · left
          have := (hmemdefs n).1 hd
          exact ⟨this.1, (hok n).1 this.2⟩
        · exact Or.inr ⟨⟨(n, v), hv, rfl⟩, hh, hd⟩
      · exact Or.inl ⟨Or.inr hn, v, hv, hne⟩
  have hndn : (cgiNames cgi).Nodup := by
    rw [hnames, List.nodup_append]
    refine ⟨List.Nodup.sublist List.filter_sublist (by decide),
      List.Nodup.sublist List.filter_sublist hnd, ?_⟩
    intro a ha b hb hab
    subst hab
    simp only [rest, List.mem_filter, decide_eq_true_eq] at hb
    exact hb.2.2 ha
  let val (n : Str) : CgiValue := (get n).getD (.bytes [])
  have hval : ∀ n v, (n, v) ∈ cgi → val n = v := by
    intro n v h
    simp only [val, (hget n v).2 h, Option.getD_some]
  have hvalmem : ∀ n ∈ cgiNames cgi, (n, val n) ∈ cgi := by
    intro n hn
    obtain ⟨v, hv, _⟩ := (hmem n).1 hn
    rw [hval n v hv]; exact hv
  refine ⟨(cgiNames cgi).map fun n => (n, val n), ?_, ?_, ?_, ?_, ?_⟩
  · unfold headersFromCgi
    rw [mapM_some _ (fun n => (headerNameFromCgi n, cgiBytes (val n)))]
    · simp [Function.comp_def]
    · intro n hn
      have := hvalmem n hn
      have hg := (hget _ _).2 this
      simp only [get] at hg
      rw [hg]
      simp [headerValue_eq]
  · unfold List.Nodup
    rw [List.pairwise_map]
    exact hndn.imp (fun hne h => hne (by simpa using congrArg Prod.fst h))
  · intro p
    rw [List.mem_map]
    constructor
    · rintro ⟨n, hn, rfl⟩
      refine ⟨hvalmem n hn, ?_⟩
      obtain ⟨v, hv, h⟩ := (hmem n).1 hn
      rw [← hval n v hv] at h
      exact h
    · rintro ⟨hp, h⟩
      refine ⟨p.1, (hmem p.1).2 ⟨p.2, hp, h⟩, ?_⟩
      rw [hval p.1 p.2 hp]
  · intro v hv hne
    have hd : defs = str "HTTP_HOST" ::
        [str "CONTENT_LENGTH", str "CONTENT_TYPE"].filter ok := by
      have : ok (str "HTTP_HOST") = true := (hok _).2 ⟨v, hv, hne⟩
      simp only [defs]
      rw [List.filter_cons, if_pos this]
    rw [hnames, hd]
    simp [hval _ v hv]
  · rw [hnames, List.map_append, List.filter_append]
    have h1 : (defs.map fun n => (n, val n)).filter
        (fun p => HttpVar p.1 ∧ p.1 ≠ str "HTTP_HOST") = [] := by
      rw [List.filter_eq_nil_iff]
      intro p hp
      obtain ⟨n, hn, rfl⟩ := List.mem_map.1 hp
      simp only [decide_eq_true_eq, not_and]
      rintro hh hne
      rcases ((hmemdefs n).1 hn).1 with rfl | rfl | rfl
      · exact hne rfl
      · revert hh; decide
      · revert hh; decide
    have h2 : (rest.map fun n => (n, val n)) =
        cgi.filter fun p => HttpVar p.1 ∧ p.1 ∉ defs := by
      simp only [rest, List.filter_map, List.map_map]
      conv => rhs; rw [← List.map_id (cgi.filter fun p => HttpVar p.1 ∧ p.1 ∉ defs)]
      apply List.map_congr_left
      intro p hp
      have hp' := (List.mem_filter.1 hp).1
      simp only [Function.comp_apply, id]
      rw [hval p.1 p.2 hp']
    rw [h1, h2, List.nil_append, List.filter_filter]
    apply List.filter_congr
    intro p hp
    rw [Bool.eq_iff_iff]
    simp only [Bool.and_eq_true, decide_eq_true_eq]
    constructor
    · exact fun h => h.1
    · rintro ⟨hh, hne⟩
      refine ⟨⟨hh, hne⟩, hh, ?_⟩
      intro hd
      rcases ((hmemdefs p.1).1 hd).1 with e | e | e
      · exact hne e
      · rw [e] at hh; revert hh; decide
      · rw [e] at hh; revert hh; decide

/-- A letter of the English alphabet. -/
def Letter (c : Nat) : Prop := (0x41 ≤ c ∧ c ≤ 0x5A) ∨ (0x61 ≤ c ∧ c ≤ 0x7A)

instance (c : Nat) : Decidable (Letter c) := by unfold Letter; infer_instance

/-- `body[i]` as it appears in the header name: an underscore becomes a dash, a letter after a
letter is lower case, a letter elsewhere upper case. -/
def cgiChar (body : Str) (i : Nat) (c : Nat) : Nat :=
  if c = 0x5F then 0x2D
  else if 0 < i ∧ (body[i - 1]?.any fun p => Letter p) then
    (if 0x41 ≤ c ∧ c ≤ 0x5A then c + 0x20 else c)
  else (if 0x61 ≤ c ∧ c ≤ 0x7A then c - 0x20 else c)

theorem isCased_iff (c : Nat) : isCased c = true ↔ Letter c := by
  simp [isCased, Letter]

/-- Capitalization and dashes in one pass. -/
def nameFrom (prev : Bool) : Str → Str
  | [] => []
  | c :: s => (if c = 95 then 45 else if prev then lowerChar c else upperChar c) ::
      nameFrom (isCased c) s

theorem splitOn_ne_nil (c : Nat) (s : Str) : splitOn c s ≠ [] := by
  cases s with
  | nil => simp [splitOn]
  | cons x s =>
    unfold splitOn
    split
    · simp
    · split <;> simp

theorem join_split (s : Str) (prev : Bool) :
    ∀ p ps, splitOn 95 s = p :: ps →
      joinWith (str "-") (titleFrom prev p :: ps.map title) = nameFrom prev s := by
  induction s generalizing prev with
  | nil =>
    intro p ps h
    simp [splitOn] at h
    obtain ⟨rfl, rfl⟩ := h
    rfl
  | cons x s ih =>
    intro p ps h
    rcases hs : splitOn 95 s with _ | ⟨q, qs⟩
    · exact absurd hs (splitOn_ne_nil _ _)
    · by_cases hx : x = 95
      · subst hx
        simp only [splitOn, if_true, hs, List.cons.injEq] at h
        obtain ⟨rfl, rfl⟩ := h
        have := ih false q qs hs
        have hc : isCased 95 = false := by decide
        simp only [titleFrom, List.map_cons, joinWith, nameFrom, if_true, hc]
        rw [← this]
        have : str "-" = [45] := by decide
        rw [this]
        rfl
      · simp only [splitOn, if_neg hx, hs, List.cons.injEq] at h
        obtain ⟨rfl, rfl⟩ := h
        have := ih (isCased x) q qs hs
        simp only [titleFrom, nameFrom, if_neg hx]
        rw [← this]
        cases hqs : qs.map title with
        | nil => rfl
        | cons a as => rfl

theorem nameFrom_get (s : Str) (prev : Bool) (i : Nat) :
    (nameFrom prev s)[i]? = s[i]?.map fun c =>
      if c = 95 then 45
      else if (if i = 0 then prev else (match s[i - 1]? with
        | some p => isCased p | none => false)) then lowerChar c else upperChar c := by
  induction s generalizing prev i with
  | nil => simp [nameFrom]
  | cons x s ih =>
    cases i with
    | zero => simp [nameFrom]
    | succ i =>
      simp only [nameFrom, List.getElem?_cons_succ, ih]
      cases i with
      | zero => simp
      | succ i => simp

/-- **C34**: the header name is the variable name (without `HTTP_`), character by character:
underscores become dashes, and each word is capitalized. -/
theorem C34_header_name (n : Str) (body : Str)
    (h : n = str "HTTP_" ++ body ∨ ¬ HttpVar n ∧ n = body) (i : Nat) :
    (headerNameFromCgi n)[i]? = body[i]?.map (cgiChar body i) := by
  have hb : (if (str "HTTP_").isPrefixOf n then n.drop 5 else n) = body := by
    rcases h with rfl | ⟨h1, rfl⟩
    · have : (str "HTTP_").isPrefixOf (str "HTTP_" ++ body) = true := (httpVar_iff _).2 ⟨body, rfl⟩
      rw [if_pos this]
      rfl
    · rw [if_neg]
      rwa [httpVar_iff]
  unfold headerNameFromCgi
  simp only [hb]
  rcases hs : splitOn 95 body with _ | ⟨p, ps⟩
  · exact absurd hs (splitOn_ne_nil _ _)
  · have := join_split body false p ps hs
    rw [show (p :: ps).map title = titleFrom false p :: ps.map title from rfl, this, nameFrom_get]
    congr 1
    funext c
    unfold cgiChar lowerChar upperChar
    cases i with
    | zero => simp
    | succ i =>
      simp only [Nat.add_eq_zero_iff, Nat.succ_ne_self, and_false, if_false,
        Nat.add_sub_cancel]
      cases body[i]? with
      | none => simp
      | some q =>
        by_cases hq : Letter q
        · simp [hq, (isCased_iff q).2 hq]
        · have : isCased q = false := by
            rw [← Bool.not_eq_true, isCased_iff]; exact hq
          simp [hq, this]

example : headersFromCgi
    [(str "HTTP_ACCEPT_ENCODING", .text (str "gzip")), (str "PATH", .text (str "/bin")),
     (str "CONTENT_LENGTH", .text []), (str "HTTP_HOST", .text (str "h"))] =
    some [(str "Host", str "h"), (str "Accept-Encoding", str "gzip")] := by decide

end Httpolice.Props
