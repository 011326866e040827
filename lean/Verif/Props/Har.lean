import Verif.Lemmas.HarErrors

/-!
# Property C85: HAR files are read faithfully
-/

namespace Httpolice.Props

open Httpolice.Model Httpolice.Spec Httpolice.Lemmas

theorem entries_all {L : HarLib} {creator : Str} {good : List Json} (rest : List Json)
    (h : ∀ e ∈ good, ValidEntry L e) :
    ∃ ys, Pairwise2 (ExchangeOf L creator) good ys ∧
      L.processEntries (.text creator) (good ++ rest) =
        (ys ++ (L.processEntries (.text creator) rest).1, (L.processEntries (.text creator) rest).2) := by
  induction good with
  | nil => exact ⟨[], .nil, rfl⟩
  | cons e good ih =>
    obtain ⟨ys, hp, he⟩ := ih fun e h' => h e (by simp [h'])
    obtain ⟨x, hx, hxo⟩ := entry_read (creator := creator) (h e (by simp))
    refine ⟨x :: ys, .cons hxo hp, ?_⟩
    rw [List.cons_append, HarLib.processEntries, hx]
    simp only [he, List.cons_append]

theorem file_read {L : HarLib} {f : Json} {creator : Str} {es : List Json} (h : FileOf f creator es) :
    L.harFile (some f) = L.processEntries (.text creator) es := by
  obtain ⟨log, c, h1, h2, h3, h4⟩ := h
  simp only [HarLib.harFile, item_ok.mpr h1, item_ok.mpr h2, item_ok.mpr h3, item_ok.mpr h4, Json.iter,
    bind, Except.bind, pure, Except.pure]

/-- **C85**: valid entries give the exchanges that they stand for, one by one and in order, whatever
comes after them; and a file with no others is read to the end. -/
theorem C85_exchanges (L : HarLib) (f : Json) (creator : Str) (good rest : List Json)
    (hf : FileOf f creator (good ++ rest)) (h : ∀ e ∈ good, ValidEntry L e) :
    ∃ ys zs, Pairwise2 (ExchangeOf L creator) good ys ∧ (L.harFile (some f)).1 = ys ++ zs ∧
      (rest = [] → L.harFile (some f) = (ys, .done)) := by
  obtain ⟨ys, hp, he⟩ := entries_all (creator := creator) rest h
  refine ⟨ys, (L.processEntries (.text creator) rest).1, hp, ?_, ?_⟩
  · rw [file_read hf, he]
  · rintro rfl
    rw [file_read hf, he]
    simp [HarLib.processEntries]

/-- **C85**: several files are read one after another. -/
theorem C85_files (L : HarLib) (fs : List Json)
    (h : ∀ f ∈ fs, ∃ creator es, FileOf f creator es ∧ ∀ e ∈ es, ValidEntry L e) :
    ∃ xss, L.harInput (fs.map some) = (xss.flatten, .done) ∧
      Pairwise2 (fun f xs => ∃ creator es, FileOf f creator es ∧ Pairwise2 (ExchangeOf L creator) es xs) fs xss := by
  induction fs with
  | nil => exact ⟨[], rfl, .nil⟩
  | cons f fs ih =>
    obtain ⟨xss, he, hp⟩ := ih fun f h' => h f (by simp [h'])
    obtain ⟨creator, es, hf, hv⟩ := h f (by simp)
    obtain ⟨ys, zs, hpy, _, hd⟩ := C85_exchanges L f creator es [] (by simpa using hf) hv
    refine ⟨ys :: xss, ?_, .cons ⟨creator, es, hf, hpy⟩ hp⟩
    rw [List.map_cons, HarLib.harInput, hd rfl]
    simp [he]

theorem entries_length {L : HarLib} {creator : Json} {es : List Json} {xs : List (HarLib.HarRequest × List HarLib.HarResponse)}
    (h : L.processEntries creator es = (xs, .done)) :
    xs.length = es.length ∧ ∀ e ∈ es, Complete e := by
  induction es generalizing xs with
  | nil => simp [HarLib.processEntries] at h; simp [h]
  | cons e es ih =>
    rw [HarLib.processEntries] at h
    cases hx : L.processEntry e creator with
    | error err =>
      rw [hx] at h
      cases err <;> simp [HarLib.harEnd] at h
    | ok x =>
      rw [hx] at h
      simp only [Prod.mk.injEq] at h
      rw [← h.1]
      have := ih (xs := (L.processEntries creator es).1) (by rw [← h.2])
      refine ⟨by simp [this.1], fun d hd => ?_⟩
      rcases List.mem_cons.mp hd with rfl | hd
      · exact entry_ok hx
      · exact this.2 d hd

/-- **C85**: if a file, valid or not, is read to the end, then it gave one exchange per entry, and
nothing is missing from any entry: nothing is skipped or made up silently. -/
theorem C85_no_loss (L : HarLib) (f log : Json) (es : List Json)
    (xs : List (HarLib.HarRequest × List HarLib.HarResponse)) (hl : Member f "log" log)
    (he : Member log "entries" (.arr es)) (h : L.harFile (some f) = (xs, .done)) :
    xs.length = es.length ∧ ∀ e ∈ es, Complete e := by
  unfold HarLib.harFile at h
  simp only [item_ok.mpr hl, bind, Except.bind] at h
  cases hc : log.item "creator" with
  | error e => cases e <;> simp [hc, HarLib.harEnd] at h
  | ok c =>
    rw [hc] at h
    simp only at h
    cases hn : c.item "name" with
    | error e => cases e <;> simp [hn, HarLib.harEnd] at h
    | ok n =>
      rw [hn] at h
      simp only [item_ok.mpr he, Json.iter, pure, Except.pure] at h
      exact entries_length h

theorem entries_crash {L : HarLib} {creator : Json} {es : List Json} {e : HarErr}
    (h : (L.processEntries creator es).2 = .crash e) : ∃ d ∈ es, EntryDefect L d := by
  induction es with
  | nil => simp [HarLib.processEntries] at h
  | cons d es ih =>
    rw [HarLib.processEntries] at h
    cases hx : L.processEntry d creator with
    | error err =>
      rcases entry_err hx with hs | hd
      · rw [hx] at h; simp [soft_end hs] at h
      · exact ⟨d, by simp, hd⟩
    | ok x =>
      rw [hx] at h
      obtain ⟨d', hd', hde⟩ := ih h
      exact ⟨d', by simp [hd'], hde⟩

theorem file_crash {L : HarLib} {f : Option Json} {e : HarErr} (h : (L.harFile f).2 = .crash e) :
    ∃ data log es d, f = some data ∧ Member data "log" log ∧ Member log "entries" (.arr es) ∧ d ∈ es ∧
      EntryDefect L d := by
  cases f with
  | none => simp [HarLib.harFile] at h
  | some data =>
    unfold HarLib.harFile at h
    simp only at h
    split at h
    · rename_i e' he
      have : Soft e' := by
        rcases bind_err he with he | ⟨log, _, he⟩
        · exact item_err he
        rcases bind_err he with he | ⟨c, _, he⟩
        · exact item_err he
        rcases bind_err he with he | ⟨n, _, he⟩
        · exact item_err he
        rcases bind_err he with he | ⟨v, _, he⟩
        · exact item_err he
        rcases bind_err he with he | ⟨ds, _, he⟩
        · exact iter_err he
        · simp [pure, Except.pure] at he
      simp [soft_end this] at h
    · rename_i creator ds he
      obtain ⟨d, hd, hde⟩ := entries_crash h
      cases h1 : data.item "log" with
      | error e => simp [h1, bind, Except.bind] at he
      | ok log =>
        cases h2 : log.item "creator" with
        | error e => simp [h1, h2, bind, Except.bind] at he
        | ok c =>
          cases h3 : c.item "name" with
          | error e => simp [h1, h2, h3, bind, Except.bind] at he
          | ok n =>
            cases h4 : log.item "entries" with
            | error e => simp [h1, h2, h3, h4, bind, Except.bind] at he
            | ok v =>
              cases h5 : v.iter with
              | error e => simp [h1, h2, h3, h4, h5, bind, Except.bind] at he
              | ok ds' =>
                have : ds' = ds := by
                  simp [h1, h2, h3, h4, h5, bind, Except.bind, pure, Except.pure] at he
                  exact he.2
                subst this
                have hobj : ∃ kvs, d = .obj kvs := by
                  rcases hde with ⟨_, h, _⟩ | ⟨_, h, _⟩ <;> exact has_obj h
                obtain ⟨kvs, rfl⟩ := hobj
                cases v with
                | arr xs =>
                  simp only [Json.iter, Except.ok.injEq] at h5
                  subst h5
                  exact ⟨data, log, xs, _, rfl, item_ok.mp h1, item_ok.mp h4, hd, hde⟩
                | obj kvs =>
                  simp only [Json.iter, Except.ok.injEq] at h5
                  subst h5
                  obtain ⟨kv, _, hbad⟩ := List.mem_map.mp hd
                  simp at hbad
                | text s =>
                  simp only [Json.iter, Except.ok.injEq] at h5
                  subst h5
                  obtain ⟨kv, _, hbad⟩ := List.mem_map.mp hd
                  simp at hbad
                | _ => simp [Json.iter] at h5

/-- **C85**: if reading does end with something else than an input error, then in one of the files
there is an entry with one of a few defects. In particular, files that are not JSON, or where
members are missing, are always reported as input errors. -/
theorem C85_crash (L : HarLib) (fs : List (Option Json)) (e : HarErr)
    (h : (L.harInput fs).2 = .crash e) :
    ∃ data log es d, some data ∈ fs ∧ Member data "log" log ∧ Member log "entries" (.arr es) ∧ d ∈ es ∧
      EntryDefect L d := by
  induction fs with
  | nil => simp [HarLib.harInput] at h
  | cons f fs ih =>
    rw [HarLib.harInput] at h
    rcases hr : L.harFile f with ⟨xs, en⟩
    rw [hr] at h
    cases en with
    | done =>
      obtain ⟨data, log, es, d, h1, h2⟩ := ih h
      exact ⟨data, log, es, d, by simp [h1], h2⟩
    | inputError => simp at h
    | crash e' =>
      obtain ⟨data, log, es, d, h1, h2⟩ := file_crash (L := L) (f := f) (e := e') (by rw [hr])
      exact ⟨data, log, es, d, by simp [h1], h2⟩

/-! ## Examples -/

/-- A standard library for the examples. -/
def harLib : HarLib where
  lower := asciiLower
  shown _ := []
  intOf _ := none
  urlparse s := if s = str "http://a/b?c" then some ⟨str "http", str "a", str "/b", str "c"⟩ else none
  b64decode _ := none

/-- A request with the given version. -/
def harRequest (version : Json) : Json := .obj
  [(str "method", .text (str "POST")), (str "url", .text (str "http://a/b?c")),
   (str "httpVersion", version), (str "bodySize", .int 3),
   (str "headers", .arr
     [.obj [(str "name", .text (str ":method")), (str "value", .text (str "POST"))],
      .obj [(str "name", .text (str "host")), (str "value", .text (str "a"))]]),
   (str "postData", .obj [(str "text", .text (str "x=y"))])]

/-- A response. -/
def harResponse : Json := .obj
  [(str "status", .int 200), (str "statusText", .text (str "OK")),
   (str "httpVersion", .text (str "HTTP/1.1")), (str "bodySize", .int (-1)), (str "headers", .arr []),
   (str "content", .obj [(str "size", .int 2), (str "text", .text (str "hi"))])]

/-- An entry of which they are part. -/
def harEntry (version : Json) : Json :=
  .obj [(str "request", harRequest version), (str "response", harResponse)]

/-- A file with some entries. -/
def harFile (es : List Json) : Json := .obj [(str "log", .obj
  [(str "creator", .obj [(str "name", .text (str "Fiddler"))]), (str "entries", .arr es)])]

theorem harFile_of (es : List Json) : FileOf (harFile es) (str "Fiddler") es :=
  ⟨_, _, item_ok.mp rfl, item_ok.mp rfl, item_ok.mp rfl, item_ok.mp rfl⟩

theorem harEntry_valid : ValidEntry harLib (harEntry (.text (str "HTTP/1.1"))) := by
  refine ⟨⟨_, item_ok.mp rfl, ⟨⟨[(str ":method", str "POST"), (str "host", str "a")], _, item_ok.mp rfl,
      .cons ⟨item_ok.mp rfl, item_ok.mp rfl⟩ (.cons ⟨item_ok.mp rfl, item_ok.mp rfl⟩ .nil)⟩, _,
      item_ok.mp rfl⟩, ⟨_, item_ok.mp rfl⟩,
      ⟨str "http://a/b?c", ⟨str "http", str "a", str "/b", str "c"⟩, item_ok.mp rfl, rfl⟩, ⟨_, _, item_ok.mp rfl, .positive _ (by decide)⟩,
      ⟨some (str "x=y"), .inl ⟨_, item_ok.mp rfl, by decide, item_ok.mp rfl⟩⟩⟩,
    _, item_ok.mp rfl, ⟨⟨_, _, item_ok.mp rfl, .nil⟩, _, item_ok.mp rfl⟩, ⟨_, item_ok.mp rfl⟩,
      ⟨_, item_ok.mp rfl⟩, ⟨_, _, item_ok.mp rfl, .negative _ (by decide)⟩, _, item_ok.mp rfl,
      ⟨_, _, item_ok.mp rfl, .positive _ (by decide)⟩,
      ⟨some (str "hi"), by decide, item_ok.mp rfl⟩, .inl (get_none.mp rfl)⟩

/-- The hypotheses of `C85_exchanges` can be met, with a defective entry after a valid one. -/
example : FileOf (harFile ([harEntry (.text (str "HTTP/1.1"))] ++ [.null])) (str "Fiddler")
      ([harEntry (.text (str "HTTP/1.1"))] ++ [.null]) ∧
    ∀ e ∈ [harEntry (.text (str "HTTP/1.1"))], ValidEntry harLib e :=
  ⟨harFile_of _, by simpa using harEntry_valid⟩

/-- The exchange before the defect, and then an input error. -/
example :
    (harLib.harFile (some (harFile [harEntry (.text (str "HTTP/1.1")), .null]))).1.map
        (fun x => [x.1.method, x.1.target, x.1.version.getD []] ++ x.1.headers.map Entry.name) =
      [[str "POST", str "/b?c", str "HTTP/1.1", str "host"]] ∧
    (harLib.harFile (some (harFile [harEntry (.text (str "HTTP/1.1")), .null]))).1.map
        (fun x => x.2.map HarLib.HarResponse.status) = [[200]] ∧
    (harLib.harFile (some (harFile [harEntry (.text (str "HTTP/1.1")), .null]))).2 = .inputError := by
  decide +kernel

/-- For `C85_files`. -/
example : ∀ f ∈ [harFile [harEntry (.text (str "HTTP/1.1"))], harFile []],
    ∃ creator es, FileOf f creator es ∧ ∀ e ∈ es, ValidEntry harLib e := by
  intro f hf
  simp only [List.mem_cons, List.not_mem_nil, or_false] at hf
  rcases hf with rfl | rfl
  · exact ⟨_, _, harFile_of _, by simpa using harEntry_valid⟩
  · exact ⟨_, _, harFile_of _, by simp⟩

/-- For `C85_no_loss`: a file that is not quite valid, but is read to the end. -/
example : ∃ f log es xs, Member f "log" log ∧ Member log "entries" (.arr es) ∧ es.length = 1 ∧
    harLib.harFile (some f) = (xs, .done) :=
  ⟨harFile [harEntry (.text (str "h2"))], _, _, _, item_ok.mp rfl, item_ok.mp rfl, rfl,
    Prod.ext rfl (by decide +kernel)⟩

/-- For `C85_crash`: a version of `null` is not reported as an input error, but escapes as an
`AttributeError`. -/
example : (harLib.harInput [some (harFile [harEntry .null])]).2 = .crash .attribute := by decide +kernel

end Httpolice.Props
