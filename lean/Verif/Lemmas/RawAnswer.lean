import Verif.Spec.Answers
import Verif.Lemmas.RawMore
import Verif.Props.Checks

/-!
# Derived properties of answers in terms of raw entries
-/

namespace Httpolice.Lemmas.Check

open Httpolice.Model Httpolice.Spec Httpolice.Props

variable {E : Env}

theorem targetForms_iff {method : Str} {forms : List TargetForm} :
    GoesWith method forms ↔ forms = targetForms method := by
  unfold targetForms
  constructor
  · rintro (h | h | ⟨h1, h2⟩)
    · rw [if_pos h]
    · rw [if_neg (by rw [h]; decide), if_pos h]
    · rw [if_neg h1, if_neg h2]
  · rintro rfl
    split
    · next h => exact .connect h
    · split
      · next h => exact .options h
      · next h1 h2 => exact .other h1 h2

theorem targetIs_iff (req : Request) (form : TargetForm) :
    req.targetForm E = some form ↔ TargetIs E req form := by
  unfold Request.targetForm TargetIs
  simp only [targetForms_iff, Option.map_eq_some_iff]
  constructor
  · rintro ⟨⟨f, n⟩, h, rfl⟩
    exact ⟨_, n, rfl, h⟩
  · rintro ⟨_, n, rfl, h⟩
    exact ⟨_, h, rfl⟩

theorem effectiveUri_iff (h : Sensible E) (req : Request) (uri : Str) :
    req.effectiveUri E = some uri ↔ EffectiveUri E req uri := by
  unfold Request.effectiveUri
  have uniq : ∀ {a b}, TargetIs E req a → TargetIs E req b → a = b := by
    intro a b ha hb
    rw [← targetIs_iff] at ha hb
    rw [ha] at hb
    exact Option.some.inj hb
  constructor
  · intro he
    split at he
    · next hf => cases he; exact .absolute ((targetIs_iff _ _).1 hf)
    · split at he
      · cases he
      · next s hs =>
        split at he
        · cases he
        · next hne =>
          have hne' : s ≠ [] := by simpa using hne
          split at he
          · next hf => cases he; exact .authority s ((targetIs_iff _ _).1 hf) hs hne'
          · split at he
            · next hst hh =>
              have hh' := (single_last h.lower (by decide) _ _ _).1 hh
              split at he
              · next hf => cases he; exact .asterisk s _ ((targetIs_iff _ _).1 hf) hs hne' hh'
              · next hf => cases he; exact .origin s _ ((targetIs_iff _ _).1 hf) hs hne' hh'
              · cases he
            · cases he
  · rintro (hf | ⟨s, hf, hs, hne⟩ | ⟨s, hst, hf, hs, hne, hh⟩ | ⟨s, hst, hf, hs, hne, hh⟩)
    · rw [if_pos ((targetIs_iff _ _).2 hf)]
    · rw [← targetIs_iff] at hf
      simp [hf, hs, hne]
    · rw [← targetIs_iff] at hf
      rw [← single_last h.lower (by decide)] at hh
      simp [hf, hs, hne, hh]
    · rw [← targetIs_iff] at hf
      rw [← single_last h.lower (by decide)] at hh
      simp [hf, hs, hne, hh]

theorem ends_iff (h : Sensible E) (p : Placed) : (delimitedByClose E p).1 = some true ↔
    ∃ req, p.req = some req ∧ EndsWithConnection E p.resp req := by
  have h1 : E.present p.fields "Content-Length" = true ↔ Has E p.resp.fields "Content-Length" :=
    present_has h.lower (by decide) _
  have h2 : E.chunked p.fields = true ↔ Chunked E p.resp.fields := chunked_iff h _
  have h3 : isInformational p.status = true ↔ StatusClass p.resp 1 := informational_iff _
  have h4 : isSuccessful p.status = true ↔ StatusClass p.resp 2 := successful_iff _
  have h5 : isHttp1 p.resp.version = true ↔ Http1 p.resp.toMessage := http1_iff _
  have hv : Http1 p.resp.toMessage → p.resp.version ≠ some (str "HTTP/2") := by
    rw [← h5]
    intro h1 h2
    rw [h2] at h1
    revert h1
    decide
  unfold delimitedByClose EndsWithConnection
  dsimp only
  rw [show p.resp.status = p.status from rfl, ← h1, ← h2, ← h3, ← h4, ← h5]
  rw [← h5] at hv
  cases p.req with
  | none => split <;> simp
  | some req =>
    simp only [Option.some.injEq, exists_eq_left']
    split
    · rename_i hc
      simp only [Bool.or_eq_true, beq_iff_eq] at hc
      simp only [Option.some.injEq, Bool.false_eq_true, false_iff]
      grind
    · rename_i hc
      simp only [Bool.or_eq_true, beq_iff_eq, not_or] at hc
      split
      · simp_all
      · split
        · simp_all
        · split <;> simp_all

theorem says_ends (p : Placed) :
    Says p.here 1025 (delimitedByClose E p).2 ↔ (delimitedByClose E p).1 = some true := by
  unfold delimitedByClose
  dsimp only
  split
  · simp [says_nil]
  · split
    · split
      · simp [says_nil]
      · split
        · simp [says_nil]
        · split
          · simp [says_say]
          · simp [says_nil]
    · simp [says_nil]

theorem transformed_iff (h : Sensible E) (p : Placed) : (responseTransformed E p).1 = some true ↔
    p.resp.status ≠ 103 ∧ (p.resp.status = 203 ∨ Warns E p.resp.fields 214) := by
  have h1 : E.hasWarning p.fields 214 = true ↔ Warns E p.resp.fields 214 := warning_iff h _ _
  unfold responseTransformed messageTransformed
  rw [← h1, show p.resp.status = p.status from rfl]
  split
  · simp_all
  · split
    · simp_all
    · split <;> simp_all

theorem proxy_true (req : Request) : (req.isToProxy E).1 = some true ↔ ToProxy E req := by
  unfold Request.isToProxy ToProxy Http1 Version
  rw [← targetIs_iff, ← http1_iff]
  cases req.proxyUnknown
  · simp only [Bool.false_eq_true, if_false, true_and]
    split
    · split <;> simp_all
    · simp_all
  · simp

theorem proxy_false (req : Request) : (req.isToProxy E).1 = some false ↔ NotToProxy E req := by
  unfold Request.isToProxy NotToProxy Http1 Version
  rw [← targetIs_iff, ← http1_iff]
  cases req.proxyUnknown
  · simp only [Bool.false_eq_true, if_false, true_and]
    split
    · split <;> simp_all
    · simp_all
  · simp

theorem says_proxy (req : Request) (t : Target) (N : Nat) :
    Says t N (req.isToProxy E).2 ↔ t = .req ∧ N = 1236 ∧ ToProxy E req := by
  rw [← proxy_true]
  unfold Request.isToProxy
  split
  · simp [says_nil]
  · split
    · split
      · unfold Says say
        simp only [List.mem_singleton, Act.op.injEq, BoardOp.complain.injEq, and_true]
        constructor
        · rintro ⟨c, ⟨rfl, rfl⟩, rfl⟩
          exact ⟨rfl, rfl⟩
        · rintro ⟨rfl, rfl⟩
          exact ⟨_, ⟨rfl, rfl⟩, rfl⟩
      · simp [says_nil]
    · simp [says_nil]

theorem reason_iff (s : Str) : isReason s = true ↔ ∀ c ∈ s, ReasonChar c := by
  unfold isReason ReasonChar
  simp only [List.all_eq_true, Bool.or_eq_true, Bool.and_eq_true, beq_iff_eq, decide_eq_true_eq, or_assoc]

theorem blocked_iff (h : Sensible E) (ls : List LinkRel) (b : Bool) (hb : anyBlockedBy E ls = some b) :
    b = true ↔ ∃ x ∈ ls, IsBlockedBy E x := by
  induction ls with
  | nil => cases hb; simp
  | cons x ls ih =>
    have hx : ∀ l, (l.any fun r => E.same r (str "blocked-by")) = true ↔ IsBlockedBy E (.rels l) := by
      intro l
      unfold IsBlockedBy
      simp only [List.any_eq_true, same_word' h (w := "blocked-by") (by decide), IsWord,
        LinkRel.rels.injEq, exists_eq_left']
    cases x with
    | absent =>
      rw [ih hb]
      simp [IsBlockedBy]
    | malformed => cases hb
    | rels l =>
      unfold anyBlockedBy at hb
      split at hb
      · next hl =>
        cases hb
        simp [(hx l).1 hl]
      · next hl =>
        rw [ih hb]
        rw [hx] at hl
        simp [hl]

/-- There is no exception because of a link. -/
theorem links_okay (h : Sensible E) {ex : Exchange} (hok : exchangeRaises E ex = false) {i : Nat}
    {r : Response} (hr : ex.responses[i]? = some r) (hs : r.status = 451) :
    ∃ b, anyBlockedBy E (E.items r.fields "Link" E.grammars.link) = some b := by
  cases hb : anyBlockedBy E (E.items r.fields "Link" E.grammars.link) with
  | some b => exact ⟨b, rfl⟩
  | none =>
    have := (malformedRel_iff h.lower h.link ⟨i, r, none⟩).1 ⟨hs, hb⟩
    rw [(C58_raises E h.lower h.link ex).2 ⟨r, List.mem_of_getElem? hr, .inr this⟩] at hok
    cases hok

/-- The sum of date and age of a response is before the year 10000. -/
theorem age_okay (h : Sensible E) {ex : Exchange} (hok : exchangeRaises E ex = false) {i : Nat}
    {r : Response} (hr : ex.responses[i]? = some r) : ¬TooOld E r := fun hc => by
  rw [(C58_raises E h.lower h.link ex).2 ⟨r, List.mem_of_getElem? hr, .inl hc⟩] at hok
  cases hok

theorem leadsBack_iff (h : Sensible E) (req : Request) (ref : Str) : LeadsBack E req ref ↔
    ∃ uri, req.effectiveUri E = some uri ∧ (!uri.isEmpty && uri == E.urlJoin uri ref) = true := by
  unfold LeadsBack
  simp only [effectiveUri_iff h, Bool.and_eq_true, Bool.not_eq_eq_eq_not, Bool.not_true,
    List.isEmpty_eq_false_iff, beq_iff_eq]
  constructor
  · rintro ⟨u, h1, h2, h3⟩
    exact ⟨u, h1, h2, h3.symm⟩
  · rintro ⟨u, h1, h2, h3⟩
    exact ⟨u, h1, h2, h3.symm⟩

end Httpolice.Lemmas.Check
