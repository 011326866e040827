import Verif.Lemmas.Html

/-!
# Lemmas about what the HTML report shows
-/

namespace Httpolice.Lemmas
open Httpolice.Model Httpolice.Spec Httpolice.Props

theorem class_not_place : (str "class" == str "data-ref-id") = false := by decide

/-! ## Values -/

theorem known_text (f : Nat → Nat) (k : HKnown) :
    textsIn (docsWith f (renderKnown k)) = legible k.text := by
  unfold renderKnown
  split <;> simp [tag, docsWith, docWith, textsIn, textIn, printable_legible]

theorem known_quiet (f : Nat → Nat) (k : HKnown) : Unmarked (docsWith f (renderKnown k)) := by
  unfold renderKnown
  split
  next cite _ =>
    have b1 : (str "class" == str "href") = false := by decide
    have b2 : (str "class" == str "title") = false := by decide
    have b3 : (str "data-ref-to" == str "href") = false := by decide
    have b4 : (str "data-ref-to" == str "title") = false := by decide
    refine quiet_elem ?_ ?_ (by simp (decide := true)) (quiet_text _)
    · cases knownTitle k.info true with
      | none => simp [attrWith, List.lookup, b1, b3]
      | some t => by_cases ht : t.truthy <;> simp [ht, attrWith, List.lookup, b1, b2, b3, b4]
    · cases knownTitle k.info true with
      | none => simp [attrWith, List.lookup, b1, b3]
      | some t => by_cases ht : t.truthy <;> simp [ht, attrWith, List.lookup, b1, b2, b3, b4]
  next => exact quiet_text _

theorem cite_text (f : Nat → Nat) (c : Citation) : textIn (docWith f (citeHtml c)) = citeTitle c := by
  simp only [citeHtml, tag, docWith, docsWith, textIn, textsIn, citeTitle, List.append_nil]
  cases c.title <;> rfl

theorem cite_quiet (f : Nat → Nat) (c : Citation) : Unmarked [docWith f (citeHtml c)] := by
  refine quiet_elem rfl rfl (by simp (decide := true)) (quiet_elem ?_ ?_ (by simp (decide := true)) (quiet_text _))
  · simp (decide := true) [List.lookup]
  · simp (decide := true) [List.lookup]

mutual

theorem value_text (f : Nat → Nat) : (v : PVal) → textsIn (docsWith f v.html) = valueText v
  | .plain _ s => by simp [PVal.html, valueText, docsWith, docWith, textsIn, textIn, printable_legible]
  | .known k => by rw [PVal.html, valueText, known_text]
  | .header _ k => by rw [PVal.html, valueText, known_text]
  | .symbol _ name none => by
    simp [PVal.html, valueText, docsWith, docWith, textsIn, textIn, printable_legible]
  | .symbol _ name (some c) => by
    simp [PVal.html, valueText, docsWith, docWith, textsIn, textIn, printable_legible, cite_text]
  | .param _ v => by rw [PVal.html, valueText, value_text f v]
  | .list vs => by
    rw [PVal.html, valueText, values_text f vs]
  | .citation _ c => by simp [PVal.html, valueText, docsWith, textsIn, cite_text]

theorem values_text (f : Nat → Nat) : (vs : List PVal) →
    textsIn (docsWith f (PVal.htmls vs)) = valueTexts vs
  | [] => by simp [PVal.htmls, valueTexts, docsWith, textsIn]
  | v :: vs => by
    rw [PVal.htmls, docsWith_append, textsIn_append, value_text f v, values_text f vs, valueTexts]

end

mutual

theorem value_quiet (f : Nat → Nat) : (v : PVal) → Unmarked (docsWith f v.html)
  | .plain _ s => by rw [PVal.html]; exact quiet_text _
  | .known k => by rw [PVal.html]; exact known_quiet f k
  | .header _ k => by rw [PVal.html]; exact known_quiet f k
  | .symbol _ name none => by rw [PVal.html]; exact quiet_text _
  | .symbol _ name (some c) => by
    rw [PVal.html]
    exact quiet_append (quiet_text _) (quiet_append (quiet_text _)
      (quiet_append (cite_quiet f c) (quiet_text _)))
  | .param _ v => by rw [PVal.html]; exact value_quiet f v
  | .list vs => by
    rw [PVal.html]
    exact values_quiet f vs
  | .citation _ c => by rw [PVal.html]; exact cite_quiet f c

theorem values_quiet (f : Nat → Nat) : (vs : List PVal) → Unmarked (docsWith f (PVal.htmls vs))
  | [] => by rw [PVal.htmls]; exact quiet_nil
  | v :: vs => by
    rw [PVal.htmls, docsWith_append]
    exact quiet_append (value_quiet f v) (values_quiet f vs)

end

mutual

theorem value_spots : (v : PVal) → v.objects = spots v
  | .plain _ _ => by rw [PVal.objects, spots]
  | .known _ => by rw [PVal.objects, spots]
  | .header _ _ => by rw [PVal.objects, spots]
  | .symbol _ _ _ => by rw [PVal.objects, spots]
  | .param _ _ => by rw [PVal.objects, spots]
  | .list vs => by
    rw [PVal.objects, spots, values_spots vs]
  | .citation _ _ => by rw [PVal.objects, spots]

theorem values_spots : (vs : List PVal) → PVal.allObjects vs = allSpots vs
  | [] => by rw [PVal.allObjects, allSpots]
  | v :: vs => by rw [PVal.allObjects, allSpots, value_spots v, values_spots vs]

end

/-! ## Errors -/

theorem errPiece_quiet (f : Nat → Nat) (p : ErrPiece) : Unmarked (docsWith f p.html) := by
  cases p with
  | text s => exact quiet_text _
  | val v => exact value_quiet f v

/-- The text of a paragraph of an error. -/
def paraText (ps : List ErrPiece) : Str :=
  ps.flatMap fun | .text s => legible s | .val v => valueText v

theorem para_text (f : Nat → Nat) (ps : List ErrPiece) :
    textsIn (docsWith f (ps.flatMap ErrPiece.html)) = paraText ps := by
  rw [docsWith_flatMap, textsIn_flatMap, paraText]
  congr 1
  funext p
  cases p with
  | text s => simp [ErrPiece.html, docsWith, docWith, textsIn, textIn, printable_legible]
  | val v => exact value_text f v

theorem ors_text (s : PVal) (ss : List PVal) :
    paraText (.val s :: ss.flatMap fun s => [.text (str " or "), .val s]) =
      joinWith (str " or ") ((s :: ss).map valueText) := by
  induction ss generalizing s with
  | nil => simp [paraText, joinWith]
  | cons t ss ih =>
    have e : legible (str " or ") = str " or " := by decide
    have := ih t
    simp only [paraText, List.flatMap_cons, List.map_cons, List.flatMap_append, List.append_nil] at this
    simp only [paraText, List.flatMap_cons, List.map_cons, joinWith, List.flatMap_append,
      List.flatMap_nil, List.append_nil, e, ← this, List.append_assoc]

theorem paraText_append (a b : List ErrPiece) : paraText (a ++ b) = paraText a ++ paraText b := by
  simp [paraText]

theorem expected_text (first : Bool) (x : Str × List PVal) :
    paraText (expectedPara first x) = expectation first x := by
  obtain ⟨o, vs⟩ := x
  have e1 : legible (str "or ") = str "or " := by decide
  have e2 : legible (str " as part of ") = str " as part of " := by decide
  unfold expectedPara expectation
  simp only
  rw [paraText_append]
  cases vs with
  | nil => cases o <;> cases first <;> simp [paraText, e1, joinWith]
  | cons s ss =>
    simp only
    rw [ors_text s ss]
    cases o with
    | nil => simp [paraText]
    | cons c o => cases first <;> simp [paraText, e1, e2]

theorem error_texts (e : HError) :
    (expandError (.parse e)).map paraText = errorTexts e := by
  have e1 : legible (str "Found end of data.") = str "Found end of data." := by decide
  have e3 : legible (str "Parse error at offset " ++ decimalText e.position ++ str ".") =
      str "Parse error at offset " ++ decimalText e.position ++ str "." := by
    rw [legible_append, legible_append, legible_id (decimal_clean _)]
    congr 1
  unfold expandError errorTexts
  rw [List.map_append, List.map_append, List.map_append, List.map_append,
    List.append_assoc (_ ++ [str "Expected:"])]
  congr 1
  · congr 1
    · congr 1
      · congr 1
        · cases e.name <;> simp [paraText]
        · simp only [List.map_cons, List.map_nil, paraText, List.flatMap_cons, List.flatMap_nil,
            List.append_nil, e3]
      · rcases e.found with _ | (_ | c) <;> simp [paraText, e1]
  · cases e.expected with
    | nil => rfl
    | cons x xs =>
      simp only [List.map_cons, List.map_map, List.take_succ_cons, List.take_zero, List.drop_succ_cons,
        List.drop_zero, List.map_nil, expected_text, List.singleton_append, List.cons.injEq, true_and]
      congr 1
      funext x
      exact expected_text false x

/-! ## Notices -/

theorem magic_eq (kind : MagicKind) (k : HKnown) (m : MagicMsg) :
    magicReferences false kind k (some m) = mentioned kind k.text m := by
  unfold magicReferences mentioned
  simp only [Bool.false_eq_true, if_false]
  cases kind with
  | field => rfl
  | other => rfl
  | status =>
    cases m.status with
    | none => rfl
    | some s => by_cases h : s.text = k.text <;> simp [h]
  | method =>
    cases m.method with
    | none =>
      cases m.requestMethod with
      | none => rfl
      | some r => by_cases h : r.text = k.text <;> simp [h]
    | some t =>
      cases m.requestMethod with
      | none => by_cases h : t.text = k.text <;> simp [h]
      | some r => by_cases h : t.text = k.text <;> by_cases h' : r.text = k.text <;> simp [h, h']

theorem exc_text (f : Nat → Nat) (ev : ErrorVal) :
    textsIn (docsWith f ((expandError ev).map fun para => tag "p" [] (para.flatMap ErrPiece.html))) =
      match ev with
      | .parse e => (errorTexts e).flatten
      | .other v => valueText v := by
  have key : ∀ ps : List (List ErrPiece),
      textsIn (docsWith f (ps.map fun para => tag "p" [] (para.flatMap ErrPiece.html))) =
        (ps.map paraText).flatten := by
    intro ps
    induction ps with
    | nil => rfl
    | cons p ps ih =>
      rw [List.map_cons, docsWith, textsIn, ih, List.map_cons, List.flatten_cons]
      congr 1
      rw [tag, docWith, textIn, para_text]
  rw [key]
  cases ev with
  | parse e => rw [error_texts]
  | other v => simp [expandError, paraText]

theorem exc_quiet (f : Nat → Nat) (ev : ErrorVal) :
    Unmarked (docsWith f ((expandError ev).map fun para => tag "p" [] (para.flatMap ErrPiece.html))) := by
  generalize expandError ev = ps
  induction ps with
  | nil => exact quiet_nil
  | cons p ps ih =>
    rw [List.map_cons, docsWith]
    refine quiet_append (a := [_]) (quiet_elem rfl rfl (by simp (decide := true)) ?_) ih
    rw [docsWith_flatMap]
    exact unmarked_flatMap fun x _ => errPiece_quiet f x

mutual

theorem piece_text (f : Nat → Nat) (ctx : NoticeCtx) : (p : NPiece) →
    textsIn (docsWith f (p.html ctx)) = said ctx p
  | .text s => by simp [NPiece.html, said, docsWith, docWith, textsIn, textIn, printable_legible]
  | .para ps => by
    simp [NPiece.html, said, docsWith, docWith, textsIn, textIn, tag, npieces_text f ctx ps]
  | .known n kind k => by
    simp [NPiece.html, said, docsWith, docWith, textsIn, textIn, tag, known_text]
  | .var path => by
    simp [NPiece.html, said, docsWith, docWith, textsIn, textIn, tag, value_text]
  | .exc => by
    rw [NPiece.html, exc_text, said]
    cases ctx.error <;> rfl
  | .cite c [] => by simp [NPiece.html, said, docsWith, textsIn, cite_text]
  | .cite c (q :: qs) => by
    simp [NPiece.html, said, docsWith, docWith, textsIn, textIn, tag, cite_text, docsWith_append,
      textsIn_append, piece_text f ctx q, npieces_text f ctx qs]
  | .ref path => by simp [NPiece.html, said, docsWith, docWith, textsIn, textIn, tag]

theorem npieces_text (f : Nat → Nat) (ctx : NoticeCtx) : (ps : List NPiece) →
    textsIn (docsWith f (NPiece.htmls ctx ps)) = saidAll ctx ps
  | [] => by simp [NPiece.htmls, saidAll, docsWith, textsIn]
  | p :: ps => by
    rw [NPiece.htmls, docsWith_append, textsIn_append, piece_text f ctx p, npieces_text f ctx ps,
      saidAll]

end

theorem span_pointers (f : Nat → Nat) (os : List Nat) (hs : List Html)
    (hq : Unmarked (docsWith f hs)) :
    pointers (docsWith f [tag "span" [linkAttr os] hs]) =
      [written f (os, textsIn (docsWith f hs))] := by
  rw [docsWith, docsWith, tag, docWith, pointers_elem, quiet_pointers hq]
  simp [linkAttr, attrWith, List.lookup, written]

mutual

theorem piece_pointers (f : Nat → Nat) (ctx : NoticeCtx) : (p : NPiece) →
    pointers (docsWith f (p.html ctx)) = (references ctx p).map (written f)
  | .text s => by simp [NPiece.html, references, docsWith, docWith, pointers_text]
  | .para ps => by
    simp [NPiece.html, references, docsWith, docWith, tag, pointers_elem, pieces_pointers f ctx ps]
  | .known true kind k => by
    rw [NPiece.html, span_pointers f _ _ (known_quiet f k), references, known_text]
    rfl
  | .known false kind k => by
    rw [NPiece.html, span_pointers f _ _ (known_quiet f k), references, known_text]
    cases ctx.msg with
    | none => rfl
    | some m => rw [magic_eq]; rfl
  | .var path => by
    rw [NPiece.html, span_pointers f _ _ (value_quiet f _), references, value_text, value_spots]
    rfl
  | .exc => by rw [NPiece.html, quiet_pointers (exc_quiet f _), references]; rfl
  | .cite c [] => by
    simp only [NPiece.html, docsWith, references, referencesAll]
    rw [quiet_pointers (cite_quiet f c)]
    rfl
  | .cite c (q :: qs) => by
    simp only [NPiece.html, docsWith, references, referencesAll, docWith, tag]
    rw [pointers_cons, quiet_pointers (cite_quiet f c), pointers_cons, pointers_text, pointers_elem,
      docsWith_append, pointers_append, piece_pointers f ctx q, pieces_pointers f ctx qs,
      List.map_append]
    rfl
  | .ref path => by
    rw [NPiece.html, span_pointers f _ [.text []] (quiet_text []), references, value_spots]
    rfl

theorem pieces_pointers (f : Nat → Nat) (ctx : NoticeCtx) : (ps : List NPiece) →
    pointers (docsWith f (NPiece.htmls ctx ps)) = (referencesAll ctx ps).map (written f)
  | [] => by simp [NPiece.htmls, referencesAll, docsWith, pointers_nil]
  | p :: ps => by
    rw [NPiece.htmls, docsWith_append, pointers_append, piece_pointers f ctx p,
      pieces_pointers f ctx ps, referencesAll, List.map_append]

end

theorem referencesAll_append (ctx : NoticeCtx) (a b : List NPiece) :
    referencesAll ctx (a ++ b) = referencesAll ctx a ++ referencesAll ctx b := by
  induction a with
  | nil => simp [referencesAll]
  | cons p a ih => rw [List.cons_append, referencesAll, ih, referencesAll, List.append_assoc]

theorem notice_shown (f : Nat → Nat) (c : HComplaint) :
    ShowsNotice f c (docWith f (noticeHtml c)) := by
  unfold noticeHtml
  constructor
  · cases hs : c.severity <;> rfl
  · refine ⟨_, _, rfl, rfl, ?_, ?_⟩
    · simp only [docsWith, docWith, tag, inside, List.map_cons, List.map_nil, textIn, textsIn,
        List.append_nil, npieces_text]
      cases hs : c.severity <;> rfl
    · exact npieces_text f c.ctx c.explanation
  · simp only [tag, docWith, docsWith, List.map_cons, List.map_nil]
    rw [pointers_elem, pointers_cons (.elem (str "h3") _ _), pointers_elem,
      pointers_cons (.elem (str "abbr") _ _), pointers_elem, pointers_cons (.elem (str "span") _ _),
      pointers_elem, pointers_elem, pointers_text, pointers_text, pieces_pointers, pieces_pointers,
      referencesAll_append, List.map_append]
    rfl

theorem map_pairwise2 {α β : Type} {R : α → β → Prop} {g : α → β} (xs : List α)
    (h : ∀ x ∈ xs, R x (g x)) : Pairwise2 R xs (xs.map g) := by
  induction xs with
  | nil => exact .nil
  | cons x xs ih =>
    exact .cons (h x List.mem_cons_self) (ih fun y hy => h y (List.mem_cons_of_mem _ hy))

theorem notices_shown (f : Nat → Nat) (cs : List HComplaint) :
    ShowsNotices f cs (docsWith f (renderComplaints cs)) := by
  unfold ShowsNotices renderComplaints
  cases cs with
  | nil => rfl
  | cons c cs =>
    rw [if_neg (by simp)]
    refine ⟨_, rfl, rfl, ?_⟩
    simp only [tag, docWith, inside]
    rw [docsWith_map, List.map_map]
    exact map_pairwise2 _ fun x _ => notice_shown f x

/-! ## Messages -/

theorem annotated_text (f : Nat → Nat) (ps : List HPiece) :
    textsIn (docsWith f (renderAnnotated ps)) =
      legible (ps.flatMap fun | .bytes s => s | .known k => k.text) := by
  rw [renderAnnotated, docsWith_flatMap, textsIn_flatMap, legible_flatMap]
  congr 1
  funext p
  cases p with
  | bytes s => simp [docsWith, docWith, textsIn, textIn, printable_legible]
  | known k => exact known_text f k

theorem annotated_quiet (f : Nat → Nat) (ps : List HPiece) :
    Unmarked (docsWith f (renderAnnotated ps)) := by
  rw [renderAnnotated, docsWith_flatMap]
  refine unmarked_flatMap fun p _ => ?_
  cases p with
  | bytes s => exact quiet_text _
  | known k => exact known_quiet f k

/-- The element of a header. -/
def entryHtml (e : HEntry) : Html :=
  tag "pre" [placeAttr e.oid, classAttr "header-entry"]
    [tag "code" [] (renderKnown e.name ++ [.text (str ": ")] ++ renderAnnotated e.value)]

theorem entry_text (f : Nat → Nat) (e : HEntry) : textIn (docWith f (entryHtml e)) = entryText e := by
  have e1 : legible (str ": ") = str ": " := by decide
  simp only [entryHtml, tag, docWith, docsWith, textIn, textsIn, docsWith_append, textsIn_append,
    List.append_nil, known_text, annotated_text, entryText, legible_append, e1]
  rfl

theorem entry_code_quiet (f : Nat → Nat) (e : HEntry) :
    Unmarked (docsWith f [tag "code" [] (renderKnown e.name ++ [.text (str ": ")] ++ renderAnnotated e.value)]) := by
  refine quiet_elem rfl rfl (by simp (decide := true)) ?_
  rw [docsWith_append, docsWith_append]
  exact quiet_append (quiet_append (known_quiet f _) (quiet_text _)) (annotated_quiet f _)

theorem entries_classed (f : Nat → Nat) (es : List HEntry) :
    (classed "header-entry" (docsWith f (renderEntries es))).map
      (fun e => (attrOf "data-ref-id" e, textIn e)) = entryLines f es := by
  induction es with
  | nil => rfl
  | cons e es ih =>
    rw [show renderEntries (e :: es) = entryHtml e :: renderEntries es from rfl, docsWith,
      classed_cons, List.map_append, ih]
    have e1 : classed "header-entry" [docWith f (entryHtml e)] = [docWith f (entryHtml e)] := by
      rw [entryHtml, tag, docWith, classed_elem, quiet_classed (entry_code_quiet f e)]
      simp (decide := true) [class_not_place, placeAttr, classAttr, attrWith, List.lookup]
    rw [e1, List.map_singleton, entry_text]
    simp [entryHtml, tag, docWith, attrOf, placeAttr, attrWith, List.lookup, entryLines]

theorem entries_no_class (f : Nat → Nat) (es : List HEntry) {c : String} (hc : str c ≠ str "header-entry") :
    classed c (docsWith f (renderEntries es)) = [] := by
  induction es with
  | nil => rfl
  | cons e es ih =>
    rw [show renderEntries (e :: es) = entryHtml e :: renderEntries es from rfl, docsWith,
      classed_cons, ih, entryHtml, tag, docWith, classed_elem, quiet_classed (entry_code_quiet f e)]
    have : ¬ str "header-entry" = str c := fun h => hc h.symm
    simp (decide := true) [class_not_place, placeAttr, classAttr, attrWith, List.lookup, this]

theorem entries_no_h2 (f : Nat → Nat) (es : List HEntry) :
    elements "h2" (docsWith f (renderEntries es)) = [] := by
  induction es with
  | nil => rfl
  | cons e es ih =>
    rw [show renderEntries (e :: es) = entryHtml e :: renderEntries es from rfl, docsWith,
      elements_cons, ih, entryHtml, tag, docWith, elements_elem, quiet_elements (entry_code_quiet f e)]
    simp (decide := true)

/-- The same for the body: an element of its class around quiet ones. -/
theorem body_classed (f : Nat → Nat) (o : Nat) (b : HBody) :
    (classed "body-display" (docsWith f (renderBody o b))).map (fun b => (attrOf "data-ref-id" b,
      (inside b).map fun c => (nameOf c, textIn c))) =
      (bodyLines b).map fun ls => (some (decimalText (f o)), ls) := by
  have ht : ∀ (t : Str) (s : Str), t ≠ str "h2" → Unmarked [Doc.elem t [] [.text s]] := fun t s h =>
    quiet_elem rfl rfl h (quiet_text s)
  cases b with
  | unknown =>
    simp only [renderBody, docsWith, docWith, tag, List.map_cons, List.map_nil, classed_elem]
    rw [classed_text]
    simp (decide := true) [class_not_place, placeAttr, classAttr, attrWith, List.lookup, attrOf, inside, nameOf, textIn,
      textsIn, bodyLines]
  | unavailable =>
    simp only [renderBody, docsWith, docWith, tag, List.map_cons, List.map_nil, classed_elem]
    rw [classed_text]
    simp (decide := true) [class_not_place, placeAttr, classAttr, attrWith, List.lookup, attrOf, inside, nameOf, textIn,
      textsIn, bodyLines]
  | shown t ts =>
    cases t with
    | nil => rfl
    | cons c t =>
      cases ts with
      | nil =>
        simp only [renderBody, List.isEmpty_cons, List.isEmpty_nil, Bool.false_eq_true, if_false, if_true,
          List.nil_append, docsWith, docWith, tag, List.map_cons, List.map_nil, classed_elem]
        rw [classed_text]
        simp (decide := true) [class_not_place, placeAttr, classAttr, attrWith, List.lookup, attrOf, inside, nameOf, textIn,
          textsIn, bodyLines]
      | cons x ts =>
        simp only [renderBody, List.isEmpty_cons, Bool.false_eq_true, if_false,
          List.cons_append, List.nil_append, docsWith, docWith, tag, List.map_cons, List.map_nil,
          classed_elem]
        rw [classed_cons, classed_elem, classed_elem, classed_text, classed_text]
        simp (decide := true) [class_not_place, placeAttr, classAttr, attrWith, List.lookup, attrOf, inside, nameOf, textIn,
          textsIn, bodyLines]

theorem body_no_class (f : Nat → Nat) (o : Nat) (b : HBody) {c : String}
    (hc : str c ≠ str "body-display") : classed c (docsWith f (renderBody o b)) = [] := by
  have hc' : ¬ str "body-display" = str c := fun h => hc h.symm
  cases b with
  | unknown =>
    simp only [renderBody, docsWith, docWith, tag, List.map_cons, List.map_nil, classed_elem]
    rw [classed_text]
    simp (decide := true) [class_not_place, placeAttr, classAttr, attrWith, List.lookup, hc']
  | unavailable =>
    simp only [renderBody, docsWith, docWith, tag, List.map_cons, List.map_nil, classed_elem]
    rw [classed_text]
    simp (decide := true) [class_not_place, placeAttr, classAttr, attrWith, List.lookup, hc']
  | shown t ts =>
    cases t with
    | nil => rfl
    | cons c t =>
      cases ts with
      | nil =>
        simp only [renderBody, List.isEmpty_cons, List.isEmpty_nil, Bool.false_eq_true, if_false, if_true,
          List.nil_append, docsWith, docWith, tag, List.map_cons, List.map_nil, classed_elem]
        rw [classed_text]
        simp (decide := true) [class_not_place, placeAttr, classAttr, attrWith, List.lookup, hc']
      | cons x ts =>
        simp only [renderBody, List.isEmpty_cons, Bool.false_eq_true, if_false,
          List.cons_append, List.nil_append, docsWith, docWith, tag, List.map_cons, List.map_nil,
          classed_elem]
        rw [classed_cons, classed_elem, classed_elem, classed_text, classed_text]
        simp (decide := true) [class_not_place, placeAttr, classAttr, attrWith, List.lookup, hc']

theorem body_no_h2 (f : Nat → Nat) (o : Nat) (b : HBody) :
    elements "h2" (docsWith f (renderBody o b)) = [] := by
  cases b with
  | unknown =>
    simp only [renderBody, docsWith, docWith, tag, List.map_cons, List.map_nil, elements_elem]
    rw [elements_text]
    simp (decide := true)
  | unavailable =>
    simp only [renderBody, docsWith, docWith, tag, List.map_cons, List.map_nil, elements_elem]
    rw [elements_text]
    simp (decide := true)
  | shown t ts =>
    cases t with
    | nil => rfl
    | cons c t =>
      cases ts with
      | nil =>
        simp only [renderBody, List.isEmpty_cons, List.isEmpty_nil, Bool.false_eq_true, if_false, if_true,
          List.nil_append, docsWith, docWith, tag, List.map_cons, List.map_nil, elements_elem]
        rw [elements_text]
        simp (decide := true)
      | cons x ts =>
        simp only [renderBody, List.isEmpty_cons, Bool.false_eq_true, if_false,
          List.cons_append, List.nil_append, docsWith, docWith, tag, List.map_cons, List.map_nil,
          elements_elem]
        rw [elements_cons, elements_elem, elements_elem, elements_text, elements_text]
        simp (decide := true)

/-- What the display of a message has in it: remark, first line, headers and so on. -/
theorem display_shown (f : Nat → Nat) (line : List Html) (parts : List (Option Str × Str))
    (m : HMessage)
    (hq : ∀ c, str c ≠ str "StatusCode" → classed c (docsWith f line) = [])
    (hh : elements "h2" (docsWith f line) = [])
    (hl : (docsWith f line).map (fun s => (attrOf "data-ref-id" s, textIn s)) = parts) (rest : List Doc)
    (hn : ShowsNotices f m.complaints rest) :
    ShowsMessage f parts m (.elem (str "section") []
      (docWith f (tag "div" [classAttr "message-display"]
        (renderRemark m.remark ++ [tag "h2" [] [tag "code" [] line]] ++ renderMessage m)) :: rest)) := by
  refine ⟨rfl, _, rest, rfl, hn, rfl, ?_⟩
  have hdisp : docWith f (tag "div" [classAttr "message-display"]
      (renderRemark m.remark ++ [tag "h2" [] [tag "code" [] line]] ++ renderMessage m)) =
      .elem (str "div") [(str "class", str "message-display")]
        (docsWith f (renderRemark m.remark) ++
          ([.elem (str "h2") [] [.elem (str "code") [] (docsWith f line)]] ++
            (docsWith f (renderEntries m.entries) ++
              (docsWith f (renderBody m.bodyOid (displayableBody m.body)) ++
                if m.trailers.isEmpty then []
                else [.elem (str "div") [(str "class", str "trailer")]
                  (.elem (str "h3") [] [.text (str "Headers from the trailer part")] ::
                    docsWith f (renderEntries m.trailers))])))) := by
    rw [tag, docWith, docsWith_append, docsWith_append, renderMessage, docsWith_append, docsWith_append]
    congr 1
    rw [List.append_assoc, List.append_assoc]
    congr 3
    cases m.trailers <;> rfl
  rw [hdisp]
  have hcl : ∀ c : String, str c ≠ str "StatusCode" → str c ≠ str "message-display" →
      classed c [.elem (str "div") [(str "class", str "message-display")]
        (docsWith f (renderRemark m.remark) ++
          ([.elem (str "h2") [] [.elem (str "code") [] (docsWith f line)]] ++
            (docsWith f (renderEntries m.entries) ++
              (docsWith f (renderBody m.bodyOid (displayableBody m.body)) ++
                if m.trailers.isEmpty then []
                else [.elem (str "div") [(str "class", str "trailer")]
                  (.elem (str "h3") [] [.text (str "Headers from the trailer part")] ::
                    docsWith f (renderEntries m.trailers))]))))] =
      classed c (docsWith f (renderRemark m.remark)) ++
        (classed c (docsWith f (renderEntries m.entries)) ++
          (classed c (docsWith f (renderBody m.bodyOid (displayableBody m.body))) ++
            if m.trailers.isEmpty then []
            else (if str "trailer" = str c then [.elem (str "div") [(str "class", str "trailer")]
                  (.elem (str "h3") [] [.text (str "Headers from the trailer part")] ::
                    docsWith f (renderEntries m.trailers))] else []) ++
              classed c (docsWith f (renderEntries m.trailers)))) := by
    intro c h1 h2
    have h2' : ¬ str "message-display" = str c := fun h => h2 h.symm
    rw [classed_elem, classed_append, classed_append, classed_append, classed_append, classed_elem,
      classed_elem, hq c h1]
    have b : (str "class" == str "class") = true := by decide
    simp only [List.lookup, b, Option.some.injEq, h2', if_false, List.nil_append, reduceCtorEq]
    congr 3
    cases ht : m.trailers.isEmpty with
    | true => rfl
    | false =>
      simp only [Bool.false_eq_true, if_false]
      rw [classed_elem, classed_cons, classed_elem, classed_text]
      simp [List.lookup, b]
  have hremark : ∀ c : String, str c ≠ str "message-remark" →
      classed c (docsWith f (renderRemark m.remark)) = [] := by
    intro c hc
    have hc' : ¬ str "message-remark" = str c := fun h => hc h.symm
    rcases m.remark with _ | r
    · rfl
    · cases r with
      | nil => rfl
      | cons x r =>
        simp only [renderRemark, List.isEmpty_cons, Bool.false_eq_true, if_false, tag, docsWith, docWith]
        rw [classed_elem, classed_text]
        simp [classAttr, attrWith, List.lookup, hc']
  refine ⟨?_, ?_, ?_, ?_, ?_⟩
  · rw [hcl _ (by decide) (by decide), entries_no_class f _ (by decide), body_no_class f _ _ (by decide),
      entries_no_class f _ (by decide)]
    simp only [List.nil_append, List.append_nil, show ¬ str "trailer" = str "message-remark" by decide,
      if_false, ite_self]
    rcases m.remark with _ | r
    · rfl
    · cases r with
      | nil => rfl
      | cons x r =>
        simp only [renderRemark, List.isEmpty_cons, Bool.false_eq_true, if_false, tag, docsWith, docWith]
        rw [classed_elem, classed_text]
        simp [classAttr, attrWith, List.lookup, textIn, textsIn, printable_legible, remarkLines]
  · rw [elements_elem, elements_append, elements_append, elements_append, elements_append, elements_elem,
      elements_elem, hh, entries_no_h2, body_no_h2]
    have hr : elements "h2" (docsWith f (renderRemark m.remark)) = [] := by
      rcases m.remark with _ | r
      · rfl
      · cases r with
        | nil => rfl
        | cons x r =>
          simp only [renderRemark, List.isEmpty_cons, Bool.false_eq_true, if_false, tag, docsWith, docWith]
          rw [elements_elem, elements_text]
          simp (decide := true)
    have htr : elements "h2" (if m.trailers.isEmpty then []
                else [.elem (str "div") [(str "class", str "trailer")]
                  (.elem (str "h3") [] [.text (str "Headers from the trailer part")] ::
                    docsWith f (renderEntries m.trailers))]) = [] := by
      split
      · rfl
      · rw [elements_elem, elements_cons, elements_elem, elements_text, entries_no_h2]
        simp (decide := true)
    rw [hr, htr, ← hl]
    simp (decide := true) [inside]
  · rw [hcl _ (by decide) (by decide), hremark _ (by decide), body_no_class f _ _ (by decide),
      List.nil_append, List.nil_append, List.map_append, entries_classed]
    congr 1
    cases ht : m.trailers with
    | nil => rfl
    | cons x xs =>
      rw [← ht]
      have : m.trailers.isEmpty = false := by rw [ht]; rfl
      rw [this]
      simp only [Bool.false_eq_true, if_false, show ¬ str "trailer" = str "header-entry" by decide,
        List.nil_append]
      exact entries_classed f _
  · rw [hcl _ (by decide) (by decide), hremark _ (by decide), body_no_class f _ _ (by decide),
      entries_no_class f _ (by decide), entries_no_class f _ (by decide)]
    cases ht : m.trailers with
    | nil => rfl
    | cons x xs =>
      have h1 : m.trailers.isEmpty = false := by rw [ht]; rfl
      have h2 : ¬ m.trailers = [] := by rw [ht]; simp
      rw [← ht, h1, if_neg h2]
      simp only [Bool.false_eq_true, if_false, if_true, List.nil_append, List.append_nil, List.map_cons,
        List.map_nil]
      rw [classed_elem, classed_cons, classed_elem, classed_text]
      have b : (str "class" == str "class") = true := by decide
      simp only [List.lookup, b, Option.some.injEq, show ¬ str "trailer" = str "header-entry" by decide,
        if_false, List.nil_append, reduceCtorEq, entries_classed]
  · rw [hcl _ (by decide) (by decide), hremark _ (by decide), entries_no_class f _ (by decide),
      entries_no_class f _ (by decide)]
    simp only [List.nil_append, List.append_nil, show ¬ str "trailer" = str "body-display" by decide,
      if_false, ite_self]
    exact body_classed f _ _

theorem version_shown (f : Nat → Nat) (v : Option HText) :
    (docsWith f (renderVersion v)).map (fun s => (attrOf "data-ref-id" s, textIn s)) = versionPart f v := by
  rcases v with _ | ⟨o, t⟩
  · rfl
  · unfold renderVersion versionPart
    cases t with
    | nil => rfl
    | cons c t =>
      simp [tag, docsWith, docWith, placeAttr, attrWith, attrOf, List.lookup, textIn, textsIn,
        printable_legible]

theorem version_quiet (f : Nat → Nat) (v : Option HText) : Unmarked (docsWith f (renderVersion v)) := by
  rcases v with _ | ⟨o, t⟩
  · exact quiet_nil
  · unfold renderVersion
    cases t with
    | nil => exact quiet_nil
    | cons c t => exact quiet_elem (by rfl) (by rfl) (by simp (decide := true)) (quiet_text _)

theorem request_shown (f : Nat → Nat) (r : HReq) :
    ShowsMessage f (requestLine f r) r.msg (docWith f (renderRequest r)) := by
  have hq : Unmarked (docsWith f (tag "span" [placeAttr r.method.oid] (renderKnown r.method) ::
      tag "span" [placeAttr r.target.oid] [.text (printable r.target.text)] ::
      renderVersion r.version)) := by
    rw [docsWith, docsWith]
    refine quiet_append (a := [_]) (quiet_elem (by rfl) (by rfl) (by simp (decide := true)) (known_quiet f _)) ?_
    refine quiet_append (a := [_]) (quiet_elem (by rfl) (by rfl) (by simp (decide := true)) (quiet_text _)) ?_
    exact version_quiet f _
  refine display_shown f _ _ r.msg (fun c _ => quiet_classed hq c) (quiet_elements hq) ?_ _
    (notices_shown f _)
  rw [docsWith, docsWith, List.map_cons, List.map_cons, version_shown, requestLine]
  simp [tag, docWith, docsWith, placeAttr, attrWith, attrOf, List.lookup, textIn, textsIn,
    printable_legible, known_text]

theorem response_shown (f : Nat → Nat) (r : HResp) :
    ShowsMessage f (statusLine f r) r.msg (docWith f (renderResponse r)) := by
  have hk : Unmarked (docsWith f (renderKnown r.status ++ [.text (str " " ++
      printable (findReasonPhrase r.reason (shownIf (knownTitle r.status.info false))))])) := by
    rw [docsWith_append]
    exact quiet_append (known_quiet f _) (quiet_text _)
  refine display_shown f _ _ r.msg ?_ ?_ ?_ _ (notices_shown f _)
  · intro c hc
    rw [docsWith_append, classed_append, quiet_classed (version_quiet f _)]
    simp only [docsWith, tag, docWith]
    rw [classed_elem, quiet_classed hk]
    have : ¬ str "StatusCode" = str c := fun h => hc h.symm
    simp [class_not_place, placeAttr, classAttr, attrWith, List.lookup, this]
  · rw [docsWith_append, elements_append, quiet_elements (version_quiet f _)]
    simp only [docsWith, tag, docWith]
    rw [elements_elem, quiet_elements hk]
    simp (decide := true)
  · have e : legible (str " ") = str " " := by decide
    rw [docsWith_append, List.map_append, version_shown, statusLine]
    congr 1
    simp only [docsWith, tag, docWith, List.map_cons, List.map_nil, textIn, docsWith_append,
      textsIn_append, known_text, textsIn, List.append_nil, printable_legible, legible_append, e,
      List.append_assoc]
    rfl

/-! ## Exchanges -/

/-- The block of an exchange. -/
def blockOf (e : HExch) : Html := tag "div" [classAttr "exchange"] (exchangeNodes e)

theorem complaints_nonempty (cs : List HComplaint) (h : cs ≠ []) : renderComplaints cs ≠ [] := by
  cases cs with
  | nil => exact absurd rfl h
  | cons c cs => simp [renderComplaints]

theorem nodes_empty (e : HExch) : exchangeNodes e = [] ↔ HasParts e = false := by
  obtain ⟨req, resps, cs⟩ := e
  unfold exchangeNodes HasParts
  cases req <;> cases resps <;> cases cs <;> simp

theorem divs_eq (es : List HExch) : exchangeDivs es = (es.filter HasParts).map blockOf := by
  induction es with
  | nil => rfl
  | cons e es ih =>
    have hcons : exchangeDivs (e :: es) =
        (match exchangeNodes e with
          | [] => []
          | n :: ns => [tag "div" [classAttr "exchange"] (n :: ns)]) ++ exchangeDivs es := by
      rw [exchangeDivs, List.filterMap_cons]
      cases exchangeNodes e <;> rfl
    rw [hcons, ih, List.filter_cons]
    have h := nodes_empty e
    cases hp : HasParts e with
    | false => rw [h.2 hp]; rfl
    | true =>
      cases hn : exchangeNodes e with
      | nil => rw [h.1 hn] at hp; cases hp
      | cons n ns => simp [blockOf, hn]

theorem pairwise2_join {α β : Type} {R : α → β → Prop} {a b : List α} {c d : List β}
    (h1 : Pairwise2 R a c) (h2 : Pairwise2 R b d) : Pairwise2 R (a ++ b) (c ++ d) := by
  induction h1 with
  | nil => exact h2
  | cons h _ ih => exact .cons h ih

theorem exchange_shown (f : Nat → Nat) (e : HExch) : ShowsExchange f e (docWith f (blockOf e)) := by
  refine ⟨rfl, rfl, ?_⟩
  have hhr : ∀ hs : List Html, docsWith f (hs.flatMap fun h => [h, hr]) =
      (hs.map (docWith f)).flatMap fun s => [s, .elem (str "hr") [] []] := by
    intro hs
    induction hs with
    | nil => rfl
    | cons h hs ih =>
      rw [List.flatMap_cons, docsWith_append, ih]
      rfl
  have hn : exchangeNodes e = (e.request.toList.map renderRequest ++ e.responses.map renderResponse).flatMap
      (fun h => [h, hr]) ++ (if e.complaints.isEmpty then [] else renderComplaints e.complaints ++ [hr]) := by
    unfold exchangeNodes
    rw [List.flatMap_append, List.flatMap_map, List.flatMap_map]
    cases e.request <;> rfl
  refine ⟨(e.request.toList.map renderRequest ++ e.responses.map renderResponse).map (docWith f),
    docsWith f (if e.complaints.isEmpty then [] else renderComplaints e.complaints ++ [hr]), ?_, ?_, ?_⟩
  · rw [blockOf, tag, docWith, inside, hn, docsWith_append, hhr]
  · unfold messagesOf
    have key : ∀ {α : Type} (xs : List α) (g : α → List (Option Str × Str) × HMessage) (r : α → Html),
        (∀ x, ShowsMessage f (g x).1 (g x).2 (docWith f (r x))) →
        Pairwise2 (fun (m : List (Option Str × Str) × HMessage) s => ShowsMessage f m.1 m.2 s) (xs.map g)
          ((xs.map r).map (docWith f)) := by
      intro α xs g r h
      induction xs with
      | nil => exact .nil
      | cons x xs ih => exact .cons (h x) ih
    rw [List.map_append]
    exact pairwise2_join (key _ _ _ fun r => request_shown f r) (key _ _ _ fun r => response_shown f r)
  · cases hc : e.complaints with
    | nil => exact .inl ⟨rfl, rfl⟩
    | cons c cs =>
      refine .inr ⟨docsWith f (renderComplaints (c :: cs)), ?_, by simp, notices_shown f _⟩
      simp only [List.isEmpty_cons, Bool.false_eq_true, if_false]
      rw [docsWith_append]
      rfl

end Httpolice.Lemmas
