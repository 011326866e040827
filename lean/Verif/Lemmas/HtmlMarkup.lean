import Verif.Lemmas.HtmlShow

/-!
# Lemmas about the markup of the HTML report
-/

namespace Httpolice.Lemmas
open Httpolice.Model Httpolice.Spec Httpolice.Props

/-- Text without forbidden characters. -/
def Shown (s : Str) : Prop := ∀ c ∈ s, ¬ Forbidden c

instance (s : Str) : Decidable (Shown s) := by unfold Shown; infer_instance

theorem shown_append {s t : Str} (hs : Shown s) (ht : Shown t) : Shown (s ++ t) := by
  intro c hc
  rcases List.mem_append.1 hc with h | h
  · exact hs c h
  · exact ht c h

/-! ## Text about bodies -/

theorem nicelyJoin_clean {ss : List Str} (h : ∀ s ∈ ss, Shown s) : Shown (nicelyJoin ss) := by
  unfold nicelyJoin
  have key : ∀ (n : Nat) (l : List (Str × Nat)) (acc : Str), (∀ x ∈ l, Shown x.1) → Shown acc →
      Shown (l.foldl (nicelyJoinStep n) acc) := by
    intro n l
    induction l with
    | nil => exact fun _ _ h => h
    | cons x l ih =>
      intro acc hx ha
      rw [List.foldl_cons]
      refine ih _ (fun y hy => hx y (List.mem_cons_of_mem _ hy)) ?_
      have h1 : Shown (str "and ") := by decide
      have h2 : Shown (str " and ") := by decide
      have h3 : Shown (str ", ") := by decide
      have hs := hx x List.mem_cons_self
      unfold nicelyJoinStep
      simp only
      have hj : Shown (if (x.2 : Int) = (n : Int) - 1 then
          if n > 2 then acc ++ str "and " else if n > 1 then acc ++ str " and " else acc else acc) := by
        repeat' split
        · exact shown_append ha h1
        · exact shown_append ha h2
        · exact ha
        · exact ha
      split
      · exact shown_append (shown_append hj hs) h3
      · exact shown_append hj hs
  refine key _ _ _ (fun x hx => h _ ?_) (fun _ hc => by cases hc)
  exact (List.mem_zipIdx' hx).2 ▸ List.getElem_mem _

/-- What is shown of a body, and how it was transformed, can be displayed. -/
def BodyClean : HBody → Prop
  | .shown t ts => Shown t ∧ ∀ x ∈ ts, Shown x
  | _ => True

theorem form_clean {b : BodySource} (h : ∀ cs, b.charset = some cs → Shown cs) {r : Str} {ts : List Str}
    (hb : bodyForm b = some (r, ts)) : ∀ x ∈ ts, Shown x := by
  have h1 : Shown (str "removing Transfer-Encoding") := by decide
  have h2 : Shown (str "removing Content-Encoding") := by decide
  have h3 : Shown (str "pretty-printing") := by decide
  have h4 : Shown (str "decoding from ") := by decide
  have te : ∀ x ∈ (if b.hasTransferEncoding then [str "removing Transfer-Encoding"] else []), Shown x := by
    intro x hx
    split at hx
    · rw [List.mem_singleton.1 hx]; exact h1
    · cases hx
  have ce : ∀ x ∈ (if b.hasContentEncoding then [str "removing Content-Encoding"] else []), Shown x := by
    intro x hx
    split at hx
    · rw [List.mem_singleton.1 hx]; exact h2
    · cases hx
  have cs : ∀ x ∈ (match b.charset with
      | some c => if !c.isEmpty && c ≠ str "utf-8" then [str "decoding from " ++ c] else []
      | none => []), Shown x := by
    intro x hx
    cases hc : b.charset with
    | none => rw [hc] at hx; cases hx
    | some c =>
      rw [hc] at hx
      simp only at hx
      split at hx
      · rw [List.mem_singleton.1 hx]; exact shown_append h4 (h c hc)
      · cases hx
  unfold bodyForm at hb
  simp only at hb
  intro x hx
  split at hb
  · simp only [Option.some.injEq, Prod.mk.injEq] at hb
    rw [← hb.2] at hx
    simp only [List.mem_append, List.mem_singleton] at hx
    rcases hx with ((hx | hx) | hx) | rfl
    · exact te x hx
    · exact ce x hx
    · exact cs x hx
    · exact h3
  · simp only [Option.some.injEq, Prod.mk.injEq] at hb
    rw [← hb.2] at hx
    simp only [List.mem_append] at hx
    rcases hx with (hx | hx) | hx
    · exact te x hx
    · exact ce x hx
    · exact cs x hx
  · simp only [Option.some.injEq, Prod.mk.injEq] at hb
    rw [← hb.2] at hx
    rcases List.mem_append.1 hx with hx | hx
    · exact te x hx
    · exact ce x hx
  · simp only [Option.some.injEq, Prod.mk.injEq] at hb
    rw [← hb.2] at hx
    exact te x hx
  · cases hb

theorem body_clean {b : BodySource} (h : ∀ cs, b.charset = some cs → Shown cs) :
    BodyClean (displayableBody b) := by
  have h1 : Shown (str "taking the first 1000 characters") := by decide
  have h2 : Shown (str "replacing non-printable characters with the � sign") := by decide
  unfold displayableBody
  split
  · split <;> trivial
  next r ts hf =>
    have ht := form_clean h hf
    have ht' : ∀ x ∈ (if r.length > 1000 then ts ++ [str "taking the first 1000 characters"] else ts),
        Shown x := by
      split
      · intro x hx
        rcases List.mem_append.1 hx with hx | hx
        · exact ht x hx
        · rw [List.mem_singleton.1 hx]; exact h1
      · exact ht
    simp only
    split
    next hne =>
      refine ⟨(C42_printable_clean _).2.1, fun x hx => ?_⟩
      rcases List.mem_append.1 hx with hx | hx
      · exact ht' x hx
      · rw [List.mem_singleton.1 hx]; exact h2
    next heq =>
      refine ⟨?_, ht'⟩
      have : r.take 1000 = printable (r.take 1000) := Classical.not_not.1 heq
      rw [this]
      exact (C42_printable_clean _).2.1

/-! ## Nodes -/

/-- All nodes are as they should be. -/
def FineNodes (C : List (Citation × Option Str)) (ds : List Doc) : Prop := ∀ d ∈ nodesIn ds, NodeFine C d

section
variable {C : List (Citation × Option Str)} {f : Nat → Nat}

theorem fine_append {a b : List Doc} (ha : FineNodes C a) (hb : FineNodes C b) : FineNodes C (a ++ b) := by
  intro d hd
  rw [nodesIn_append, List.mem_append] at hd
  exact hd.elim (ha d) (hb d)

theorem fine_nil : FineNodes C [] := fun _ h => by cases h

theorem fine_cons {d : Doc} {ds : List Doc} (ha : FineNodes C [d]) (hb : FineNodes C ds) :
    FineNodes C (d :: ds) := fine_append ha hb

theorem fine_flatMap {α : Type} {xs : List α} {g : α → List Doc} (h : ∀ x ∈ xs, FineNodes C (g x)) :
    FineNodes C (xs.flatMap g) := by
  induction xs with
  | nil => exact fine_nil
  | cons x xs ih =>
    rw [List.flatMap_cons]
    exact fine_append (h x List.mem_cons_self) (ih fun y hy => h y (List.mem_cons_of_mem _ hy))

theorem fine_text {s : Str} (h : Shown s) : FineNodes C [.text s] := by
  intro d hd
  simp only [nodesIn, nodesOf, List.append_nil, List.mem_singleton] at hd
  subst hd
  exact h

theorem fine_elem {t : Str} {as : List (Str × Str)} {cs : List Doc} (h1 : t ∈ elementNames)
    (h2 : ∀ a ∈ as, AttrFine C a) (hc : FineNodes C cs) : FineNodes C [.elem t as cs] := by
  intro d hd
  simp only [nodesIn, nodesOf, List.append_nil, List.mem_cons] at hd
  rcases hd with rfl | hd
  · exact ⟨h1, h2⟩
  · exact hc d hd

/-- An element with attributes that are as they should be. -/
theorem fine_tag {t : String} {as : List (Str × HAttr)} {cs : List Html} (h1 : str t ∈ elementNames)
    (h2 : ∀ a ∈ as, AttrFine C (a.1, attrWith f a.2)) (hc : FineNodes C (docsWith f cs)) :
    FineNodes C (docsWith f [tag t as cs]) := by
  rw [docsWith, docsWith, tag, docWith]
  refine fine_elem h1 (fun a ha => ?_) hc
  obtain ⟨x, hx, rfl⟩ := List.mem_map.1 ha
  exact h2 x hx

theorem fine_plain {t : String} {cs : List Html} (h1 : str t ∈ elementNames)
    (hc : FineNodes C (docsWith f cs)) : FineNodes C (docsWith f [tag t [] cs]) :=
  fine_tag h1 (fun _ h => by cases h) hc

theorem decimal_digits {n c : Nat} (hc : c ∈ decimalText n) : 48 ≤ c ∧ c ≤ 57 := by
  rw [decimalText, str, List.mem_map] at hc
  obtain ⟨x, hx, rfl⟩ := hc
  have e : (toString n).toList = Nat.toDigits 10 n := by
    rw [show toString n = n.repr from rfl, Nat.repr]
    exact String.toList_ofList
  rw [e] at hx
  have := Nat.isDigit_of_mem_toDigits (by omega) (by omega) hx
  simp only [Char.isDigit, Bool.and_eq_true, decide_eq_true_eq] at this
  have h1 : (48 : Nat) ≤ x.val.toNat := this.1
  have h2 : x.val.toNat ≤ 57 := this.2
  exact ⟨h1, h2⟩

theorem fine_place (o : Nat) : AttrFine C ((placeAttr o).1, attrWith f (placeAttr o).2) :=
  .inr (.inr (.inr ⟨.inl rfl, fun _ hc => .inr (decimal_digits hc)⟩))

theorem fine_link (os : List Nat) : AttrFine C ((linkAttr os).1, attrWith f (linkAttr os).2) := by
  refine .inr (.inr (.inr ⟨.inr rfl, ?_⟩))
  simp only [linkAttr, attrWith]
  induction os with
  | nil => intro c hc; cases hc
  | cons o os ih =>
    cases os with
    | nil => intro c hc; exact .inr (decimal_digits hc)
    | cons p os =>
      intro c hc
      simp only [List.map_cons, joinWith] at hc
      rcases List.mem_append.1 hc with hc | hc
      · rcases List.mem_append.1 hc with hc | hc
        · exact .inr (decimal_digits hc)
        · have : str " " = [32] := by decide
          rw [this] at hc
          exact .inl (by simpa using hc)
      · exact ih c hc

theorem fine_class {c : String} (h : str c ∈ classNames) :
    AttrFine C ((classAttr c).1, attrWith f (classAttr c).2) := .inl ⟨rfl, h⟩

theorem fine_one {as : List (Str × HAttr)} {a : Str × HAttr} (h : AttrFine C (a.1, attrWith f a.2))
    (hs : ∀ a ∈ as, AttrFine C (a.1, attrWith f a.2)) : ∀ x ∈ a :: as, AttrFine C (x.1, attrWith f x.2) := by
  intro x hx
  rcases List.mem_cons.1 hx with rfl | hx
  · exact h
  · exact hs x hx

theorem fine_none : ∀ a ∈ ([] : List (Str × HAttr)), AttrFine C (a.1, attrWith f a.2) :=
  fun _ h => by cases h

theorem clean_legible (s : Str) : Shown (legible s) := legible_clean s

theorem clean_printable (s : Str) : Shown (printable s) := (C42_printable_clean s).2.1

theorem fine_known {k : HKnown} (h : ∀ c ∈ knownCites k, c ∈ C) : FineNodes C (docsWith f (renderKnown k)) := by
  unfold renderKnown
  split
  next cite hk =>
    have hmem : (cite, shownIf (knownTitle k.info true)) ∈ C := by
      refine h _ ?_
      unfold knownCites
      unfold knownCitation at hk
      split at hk
      next c hc => rw [hc]; cases hk; exact List.mem_singleton.2 rfl
      next => cases hk
    refine fine_tag (by decide) (fine_one (.inr (.inl ⟨rfl, _, hmem, rfl⟩)) ?_) (fine_text (clean_printable _))
    cases ht : knownTitle k.info true with
    | none => exact fine_none
    | some t =>
      simp only
      split
      next htr =>
        refine fine_one (.inr (.inr (.inl ⟨rfl, .inr ⟨_, hmem, ?_⟩⟩))) fine_none
        simp [ht, shownIf, htr, attrWith]
      next => exact fine_none
  next => exact fine_text (clean_printable _)

variable (hC : ∀ c ∈ C, Shown (citeTitle c.1))
include hC

theorem fine_cite {c : Citation} {t : Option Str} (h : (c, t) ∈ C) :
    FineNodes C (docsWith f [citeHtml c]) := by
  unfold citeHtml
  refine fine_plain (by decide) (fine_tag (by decide) (fine_one (.inr (.inl ⟨rfl, _, h, rfl⟩)) fine_none) ?_)
  refine fine_text ?_
  have := hC _ h
  unfold citeTitle at this
  cases hc : c.title with
  | none => rw [hc] at this; exact this
  | some t => rw [hc] at this; exact this

mutual

theorem fine_value : (v : PVal) → (∀ c ∈ valueCites v, c ∈ C) → FineNodes C (docsWith f v.html)
  | .plain _ s, _ => by rw [PVal.html]; exact fine_text (clean_printable _)
  | .known k, h => by rw [PVal.html]; exact fine_known fun c hc => h c (by rw [valueCites]; exact hc)
  | .header _ k, h => by rw [PVal.html]; exact fine_known fun c hc => h c (by rw [valueCites]; exact hc)
  | .symbol _ name none, _ => by rw [PVal.html]; exact fine_text (clean_printable _)
  | .symbol _ name (some c), h => by
    rw [PVal.html]
    refine fine_cons (fine_text (clean_printable _)) (fine_cons (fine_text (by decide)) ?_)
    exact fine_append (a := [_]) (fine_cite hC (c := c) (t := none) (h _ (by simp [valueCites])))
      (fine_text (by decide))
  | .param _ v, h => by
    rw [PVal.html]
    exact fine_value v fun c hc => h c (by rw [valueCites]; exact hc)
  | .list vs, h => by
    rw [PVal.html]
    exact fine_values vs fun c hc => h c (by rw [valueCites]; exact hc)
  | .citation _ c, h => by
    rw [PVal.html]
    exact fine_cite hC (t := none) (h _ (by simp [valueCites]))

theorem fine_values : (vs : List PVal) → (∀ c ∈ valuesCites vs, c ∈ C) →
    FineNodes C (docsWith f (PVal.htmls vs))
  | [], _ => by rw [PVal.htmls]; exact fine_nil
  | v :: vs, h => by
    rw [PVal.htmls, docsWith_append]
    rw [valuesCites] at h
    exact fine_append (fine_value v fun c hc => h c (List.mem_append_left _ hc))
      (fine_values vs fun c hc => h c (List.mem_append_right _ hc))

end

theorem fine_errPiece {p : ErrPiece} (h : ∀ v, p = .val v → ∀ c ∈ valueCites v, c ∈ C) :
    FineNodes C (docsWith f p.html) := by
  cases p with
  | text s => exact fine_text (clean_printable _)
  | val v => exact fine_value hC v (h v rfl)

theorem fine_exc {ev : ErrorVal} (h : ∀ c ∈ errorCites ev, c ∈ C) :
    FineNodes C (docsWith f ((expandError ev).map fun para => tag "p" [] (para.flatMap ErrPiece.html))) := by
  have hv : ∀ para ∈ expandError ev, ∀ v, ErrPiece.val v ∈ para → ∀ c ∈ valueCites v, c ∈ C := by
    cases ev with
    | other v =>
      intro para hp w hw
      simp only [expandError, List.mem_singleton] at hp
      subst hp
      simp only [List.mem_singleton, ErrPiece.val.injEq] at hw
      subst hw
      exact h
    | parse e =>
      have hexp : ∀ (first : Bool) (x : Str × List PVal), x ∈ e.expected → ∀ v,
          ErrPiece.val v ∈ expectedPara first x → ∀ c ∈ valueCites v, c ∈ C := by
        intro first x hx v hv c hc
        have hmem : v ∈ x.2 := by
          unfold expectedPara at hv
          rcases List.mem_append.1 hv with hv | hv
          · exfalso
            split at hv
            · cases hv
            · rcases List.mem_append.1 hv with hv | hv
              · split at hv <;> simp at hv
              · split at hv <;> simp at hv
          · cases hx2 : x.2 with
            | nil => rw [hx2] at hv; cases hv
            | cons s ss =>
              rw [hx2] at hv
              simp only [List.mem_cons, ErrPiece.val.injEq, List.mem_flatMap] at hv
              rcases hv with rfl | ⟨w, hw, hv⟩
              · exact List.mem_cons_self
              · simp at hv
                subst hv
                exact List.mem_cons_of_mem _ hw
        refine h c (List.mem_append_right _ ?_)
        exact List.mem_flatMap.2 ⟨x, hx, List.mem_flatMap.2 ⟨v, hmem, hc⟩⟩
      intro para hp v hv
      simp only [expandError] at hp
      rcases List.mem_append.1 hp with hp | hp
      · rcases List.mem_append.1 hp with hp | hp
        · rcases List.mem_append.1 hp with hp | hp
          · rcases List.mem_append.1 hp with hp | hp
            · cases hn : e.name with
              | none => rw [hn] at hp; cases hp
              | some n =>
                rw [hn] at hp
                simp only [List.mem_singleton] at hp
                subst hp
                simp only [List.mem_singleton, ErrPiece.val.injEq] at hv
                subst hv
                intro c hc
                refine h c (List.mem_append_left _ ?_)
                rw [hn]
                exact List.mem_flatMap.2 ⟨v, by simp, hc⟩
            · rw [List.mem_singleton.1 hp] at hv; simp at hv
          · rcases hf : e.found with _ | (_ | c)
            · rw [hf] at hp; cases hp
            · rw [hf] at hp; rw [List.mem_singleton.1 hp] at hv; simp at hv
            · rw [hf] at hp; rw [List.mem_singleton.1 hp] at hv; simp at hv
        · rw [List.mem_singleton.1 hp] at hv; simp at hv
      · cases he : e.expected with
        | nil => rw [he] at hp; cases hp
        | cons x xs =>
          rw [he] at hp
          rcases List.mem_cons.1 hp with rfl | hp
          · exact hexp true x (by rw [he]; exact List.mem_cons_self) v hv
          · obtain ⟨y, hy, rfl⟩ := List.mem_map.1 hp
            exact hexp false y (by rw [he]; exact List.mem_cons_of_mem _ hy) v hv
  clear h
  generalize expandError ev = ps at hv
  induction ps with
  | nil => exact fine_nil
  | cons p ps ih =>
    rw [List.map_cons, docsWith]
    refine fine_cons (fine_plain (f := f) (by decide) ?_) (ih fun q hq => hv q (List.mem_cons_of_mem _ hq))
    rw [docsWith_flatMap]
    refine fine_flatMap fun x hx => fine_errPiece hC ?_
    rintro v rfl
    exact hv p List.mem_cons_self v hx

mutual

theorem fine_piece (ctx : NoticeCtx) : (p : NPiece) → (∀ c ∈ pieceCites ctx p, c ∈ C) →
    FineNodes C (docsWith f (p.html ctx))
  | .text s, _ => by rw [NPiece.html]; exact fine_text (clean_printable _)
  | .para ps, h => by
    rw [NPiece.html]
    exact fine_plain (by decide) (fine_pieces ctx ps fun c hc => h c (by rw [pieceCites]; exact hc))
  | .known n kind k, h => by
    rw [NPiece.html]
    exact fine_tag (by decide) (fine_one (fine_link _) fine_none)
      (fine_known fun c hc => h c (by rw [pieceCites]; exact hc))
  | .var path, h => by
    rw [NPiece.html]
    exact fine_tag (by decide) (fine_one (fine_link _) fine_none)
      (fine_value hC _ fun c hc => h c (by rw [pieceCites]; exact hc))
  | .exc, h => by
    rw [NPiece.html]
    exact fine_exc hC fun c hc => h c (by rw [pieceCites]; exact hc)
  | .cite c [], h => by
    rw [NPiece.html]
    exact fine_cite hC (t := none) (h _ (by rw [pieceCites]; exact List.mem_cons_self))
  | .cite c (q :: qs), h => by
    rw [NPiece.html, docsWith]
    refine fine_append (a := [_])
      (fine_cite hC (t := none) (h _ (by rw [pieceCites]; exact List.mem_cons_self))) ?_
    rw [docsWith]
    refine fine_append (a := [_]) (fine_text (by decide)) (fine_plain (by decide) ?_)
    rw [docsWith_append]
    refine fine_append (fine_piece ctx q fun c hc => h c ?_) (fine_pieces ctx qs fun c hc => h c ?_)
    · rw [pieceCites, piecesCites]
      exact List.mem_cons_of_mem _ (List.mem_append_left _ hc)
    · rw [pieceCites, piecesCites]
      exact List.mem_cons_of_mem _ (List.mem_append_right _ hc)
  | .ref path, _ => by
    rw [NPiece.html]
    exact fine_tag (by decide) (fine_one (fine_link _) fine_none) (fine_text (by decide))

theorem fine_pieces (ctx : NoticeCtx) : (ps : List NPiece) → (∀ c ∈ piecesCites ctx ps, c ∈ C) →
    FineNodes C (docsWith f (NPiece.htmls ctx ps))
  | [], _ => by rw [NPiece.htmls]; exact fine_nil
  | p :: ps, h => by
    rw [NPiece.htmls, docsWith_append]
    refine fine_append (fine_piece ctx p fun c hc => h c ?_) (fine_pieces ctx ps fun c hc => h c ?_)
    · rw [piecesCites]; exact List.mem_append_left _ hc
    · rw [piecesCites]; exact List.mem_append_right _ hc

end

omit hC in
theorem piecesCites_append (ctx : NoticeCtx) (a b : List NPiece) :
    piecesCites ctx (a ++ b) = piecesCites ctx a ++ piecesCites ctx b := by
  induction a with
  | nil => simp [piecesCites]
  | cons p a ih => rw [List.cons_append, piecesCites, ih, piecesCites, List.append_assoc]

theorem fine_notice {c : HComplaint} (h : ∀ x ∈ piecesCites c.ctx (c.title ++ c.explanation), x ∈ C) :
    FineNodes C (docsWith f [noticeHtml c]) := by
  rw [piecesCites_append] at h
  unfold noticeHtml
  refine fine_tag (by decide) (fine_one (.inl ⟨rfl, ?_⟩) fine_none) ?_
  · show str "notice " ++ c.severity.name ∈ classNames
    cases c.severity <;> decide
  · rw [docsWith]
    refine fine_append (a := [_]) (fine_plain (f := f) (by decide) ?_)
      (fine_pieces hC _ _ fun x hx => h x (List.mem_append_right _ hx))
    rw [docsWith, docsWith]
    refine fine_append (a := [_]) (fine_tag (f := f) (by decide) (fine_one (fine_class (by decide))
      (fine_one (.inr (.inr (.inl ⟨rfl, .inl ?_⟩))) fine_none)) (fine_text ?_)) ?_
    · show c.severity.name ∈ ["error", "comment", "debug"].map str
      cases c.severity <;> decide
    · cases c.severity <;> decide
    refine fine_append (a := [_]) (fine_tag (f := f) (by decide) (fine_one (fine_class (by decide)) fine_none)
      (fine_text fun x hx => ?_)) (fine_plain (by decide) ?_)
    · have := decimal_digits hx
      unfold Forbidden
      omega
    · exact fine_pieces hC _ _ fun x hx => h x (List.mem_append_left _ hx)

theorem fine_complaints {cs : List HComplaint} (h : ∀ x ∈ complaintCites cs, x ∈ C) :
    FineNodes C (docsWith f (renderComplaints cs)) := by
  unfold renderComplaints
  split
  · exact fine_nil
  · refine fine_tag (by decide) (fine_one (fine_class (by decide)) fine_none) ?_
    induction cs with
    | nil => exact fine_nil
    | cons c cs ih =>
      rw [List.map_cons, docsWith]
      refine fine_append (a := [_]) (fine_notice hC fun x hx => h x ?_) ?_
      · exact List.mem_append_left _ hx
      · cases cs with
        | nil => exact fine_nil
        | cons d cs => exact ih (fun x hx => h x (List.mem_append_right _ hx)) (by simp)

omit hC in
theorem fine_entries {es : List HEntry} (h : ∀ x ∈ entryCites es, x ∈ C) :
    FineNodes C (docsWith f (renderEntries es)) := by
  induction es with
  | nil => exact fine_nil
  | cons e es ih =>
    rw [renderEntries, List.map_cons, docsWith]
    have h1 : ∀ x ∈ knownCites e.name ++ e.value.flatMap (fun
        | .bytes _ => []
        | .known k => knownCites k), x ∈ C := fun x hx => h x (List.mem_append_left _ hx)
    refine fine_append (a := [_]) (fine_tag (f := f) (by decide) (fine_one (fine_place _)
      (fine_one (fine_class (by decide)) fine_none)) (fine_plain (by decide) ?_))
      (ih fun x hx => h x (List.mem_append_right _ hx))
    rw [docsWith_append, docsWith_append]
    refine fine_append (fine_append (fine_known fun x hx => h1 x (List.mem_append_left _ hx))
      (fine_text (by decide))) ?_
    rw [renderAnnotated, docsWith_flatMap]
    refine fine_flatMap fun p hp => ?_
    cases p with
    | bytes s => exact fine_text (clean_printable _)
    | known k =>
      exact fine_known fun x hx => h1 x (List.mem_append_right _ (List.mem_flatMap.2 ⟨_, hp, hx⟩))

omit hC in
theorem fine_body {o : Nat} {b : HBody} (h : BodyClean b) : FineNodes C (docsWith f (renderBody o b)) := by
  have hat : ∀ a ∈ [placeAttr o, classAttr "body-display"], AttrFine C (a.1, attrWith f a.2) :=
    fine_one (fine_place _) (fine_one (fine_class (by decide)) fine_none)
  cases b with
  | unknown => exact fine_tag (by decide) hat (fine_plain (by decide) (fine_text (by decide)))
  | unavailable => exact fine_tag (by decide) hat (fine_plain (by decide) (fine_text (by decide)))
  | shown t ts =>
    unfold renderBody
    simp only
    split
    · exact fine_nil
    · refine fine_tag (by decide) hat ?_
      rw [docsWith_append]
      refine fine_append ?_ (fine_plain (by decide) (fine_text h.1))
      split
      · exact fine_nil
      · exact fine_plain (by decide) (fine_text (shown_append (by decide) (nicelyJoin_clean h.2)))

theorem fine_section {line : List Html} {m : HMessage} (hl : FineNodes C (docsWith f line))
    (hm : ∀ x ∈ messageCites m, x ∈ C) (hb : ∀ cs, m.body.charset = some cs → Shown cs) :
    FineNodes C (docsWith f [tag "section" [] (tag "div" [classAttr "message-display"]
      (renderRemark m.remark ++ [tag "h2" [] [tag "code" [] line]] ++ renderMessage m) ::
        renderComplaints m.complaints)]) := by
  refine fine_plain (by decide) ?_
  rw [docsWith]
  refine fine_append (a := [_]) (fine_tag (f := f) (by decide) (fine_one (fine_class (by decide)) fine_none) ?_)
    (fine_complaints hC fun x hx => hm x (List.mem_append_right _ hx))
  rw [docsWith_append, docsWith_append, renderMessage, docsWith_append, docsWith_append]
  refine fine_append (fine_append ?_ (fine_plain (by decide) (fine_plain (by decide) hl)))
    (fine_append (fine_append (fine_entries fun x hx => hm x (List.mem_append_left _ (List.mem_append_left _ hx)))
      (fine_body (body_clean hb))) ?_)
  · unfold renderRemark
    split
    · split
      · exact fine_nil
      · exact fine_tag (by decide) (fine_one (fine_class (by decide)) fine_none) (fine_text (clean_printable _))
    · exact fine_nil
  · split
    · exact fine_nil
    · refine fine_tag (by decide) (fine_one (fine_class (by decide)) fine_none) ?_
      rw [docsWith]
      exact fine_append (a := [_]) (fine_plain (f := f) (by decide) (fine_text (by decide)))
        (fine_entries fun x hx => hm x (List.mem_append_left _ (List.mem_append_right _ hx)))

omit hC in
theorem fine_version (v : Option HText) : FineNodes C (docsWith f (renderVersion v)) := by
  unfold renderVersion
  split
  · split
    · exact fine_nil
    · exact fine_tag (by decide) (fine_one (fine_place _) fine_none) (fine_text (clean_printable _))
  · exact fine_nil

theorem fine_block {e : HExch} (h : ∀ x ∈ citesOf e, x ∈ C)
    (hb : ∀ m ∈ e.request.toList.map (·.msg) ++ e.responses.map (·.msg), ∀ cs, m.body.charset = some cs →
      Shown cs) : FineNodes C (docsWith f [blockOf e]) := by
  have hhr : FineNodes C (docsWith f [hr]) := fine_plain (by decide) fine_nil
  refine fine_tag (by decide) (fine_one (fine_class (by decide)) fine_none) ?_
  unfold exchangeNodes
  rw [docsWith_append, docsWith_append]
  refine fine_append (fine_append ?_ ?_) ?_
  · cases hr : e.request with
    | none => exact fine_nil
    | some r =>
      have h' : ∀ x ∈ knownCites r.method ++ messageCites r.msg, x ∈ C := by
        intro x hx
        refine h x (List.mem_append_left _ (List.mem_append_left _ ?_))
        rw [hr]
        exact List.mem_flatMap.2 ⟨r, by simp, hx⟩
      simp only
      rw [docsWith]
      refine fine_append (a := [_]) (fine_section hC ?_ (fun x hx => h' x (List.mem_append_right _ hx))
        (hb r.msg (by rw [hr]; simp))) hhr
      rw [docsWith, docsWith]
      refine fine_append (a := [_]) (fine_tag (f := f) (by decide) (fine_one (fine_place _) fine_none)
        (fine_known fun x hx => h' x (List.mem_append_left _ hx))) ?_
      exact fine_append (a := [_]) (fine_tag (f := f) (by decide) (fine_one (fine_place _) fine_none)
        (fine_text (clean_printable _))) (fine_version _)
  · rw [docsWith_flatMap]
    refine fine_flatMap fun r hr => ?_
    have h' : ∀ x ∈ knownCites r.status ++ messageCites r.msg, x ∈ C := fun x hx =>
      h x (List.mem_append_left _ (List.mem_append_right _ (List.mem_flatMap.2 ⟨r, hr, hx⟩)))
    rw [docsWith]
    refine fine_append (a := [_]) (fine_section hC ?_ (fun x hx => h' x (List.mem_append_right _ hx))
      (hb r.msg (List.mem_append_right _ (List.mem_map_of_mem hr)))) hhr
    rw [docsWith_append]
    refine fine_append (fine_version _) (fine_tag (by decide) (fine_one (fine_place _)
      (fine_one (fine_class (by decide)) fine_none)) ?_)
    rw [docsWith_append]
    exact fine_append (fine_known fun x hx => h' x (List.mem_append_left _ hx))
      (fine_text (shown_append (by decide) (clean_printable _)))
  · split
    · exact fine_nil
    · rw [docsWith_append]
      exact fine_append (fine_complaints hC fun x hx => h x (List.mem_append_right _ hx)) hhr

end

/-! ## Titles in the text report -/

theorem pieceText_append (a b : List Str) : pieceText (a ++ b) = pieceText a ++ pieceText b := by
  simp [pieceText]

theorem pieceText_flatMap {α : Type} (xs : List α) (g : α → List Str) :
    pieceText (xs.flatMap g) = xs.flatMap fun x => pieceText (g x) := by
  induction xs with
  | nil => rfl
  | cons x xs ih => rw [List.flatMap_cons, pieceText_append, ih, List.flatMap_cons]

theorem title_cite {c : Citation} (h : optTrue c.title = true) (hc : ∀ x ∈ citeTitle c, ¬ Forbidden x) :
    printable c.text = citeTitle c := by
  have e : c.text = citeTitle c := by
    unfold Citation.text citeTitle
    cases ht : c.title with
    | none => rw [ht] at h; cases h
    | some t =>
      rw [ht] at h
      exact if_pos h
  rw [e, printable_legible, legible_id hc]

mutual

theorem title_value : (v : PVal) → (∀ c ∈ valueCites v, c.2 = none →
    optTrue c.1.title = true ∧ ∀ x ∈ citeTitle c.1, ¬ Forbidden x) → pieceText v.texts = valueText v
  | .plain _ s, _ => by simp [PVal.texts, valueText, pieceText, printable_legible]
  | .known k, _ => by simp [PVal.texts, valueText, pieceText, printable_legible]
  | .header _ k, _ => by simp [PVal.texts, valueText, pieceText, printable_legible]
  | .symbol _ name none, _ => by simp [PVal.texts, valueText, pieceText, printable_legible]
  | .symbol _ name (some c), h => by
    have hc := h (c, none) (by simp [valueCites]) rfl
    have e1 : printable (str " (") = str " (" := by decide
    have e2 : printable (str ")") = str ")" := by decide
    rw [PVal.texts, valueText]
    simp only [pieceText, List.map_cons, List.map_nil, List.flatten_cons, List.flatten_nil, e1, e2,
      title_cite hc.1 hc.2, printable_legible name, List.append_nil, List.append_assoc]
  | .param _ v, h => by
    rw [PVal.texts, valueText]
    exact title_value v fun c hc => h c (by rw [valueCites]; exact hc)
  | .list vs, h => by
    rw [PVal.texts, valueText]
    exact title_values vs fun c hc => h c (by rw [valueCites]; exact hc)
  | .citation _ c, h => by
    have hc := h (c, none) (by simp [valueCites]) rfl
    rw [PVal.texts, valueText]
    simp [pieceText, title_cite hc.1 hc.2]

theorem title_values : (vs : List PVal) → (∀ c ∈ valuesCites vs, c.2 = none →
    optTrue c.1.title = true ∧ ∀ x ∈ citeTitle c.1, ¬ Forbidden x) →
    pieceText (PVal.allTexts vs) = valueTexts vs
  | [], _ => by rw [PVal.allTexts, valueTexts]; rfl
  | v :: vs, h => by
    rw [valuesCites] at h
    rw [PVal.allTexts, valueTexts, pieceText_append,
      title_value v fun c hc => h c (List.mem_append_left _ hc),
      title_values vs fun c hc => h c (List.mem_append_right _ hc)]

end

end Httpolice.Lemmas
