import Verif.Spec.HtmlRun
import Verif.Lemmas.HtmlShow

/-!
# The elements for notices in the HTML report
-/

namespace Httpolice.Lemmas

open Httpolice.Model Httpolice.Spec

/-- All nodes with a class for notices are these. -/
def OnlyNotices (P : Doc → Prop) (ds : List Doc) : Prop :=
  ∀ n ∈ nodesIn ds, ∀ s, attrOf "class" n = some (noticeClass s) → P n

section
variable {P : Doc → Prop} {f : Nat → Nat}

theorem only_nil : OnlyNotices P [] := fun _ h => by cases h

theorem only_append {a b : List Doc} (ha : OnlyNotices P a) (hb : OnlyNotices P b) : OnlyNotices P (a ++ b) := by
  intro n hn
  rw [nodesIn_append, List.mem_append] at hn
  exact hn.elim (ha n) (hb n)

theorem only_flatMap {α : Type} {xs : List α} {g : α → List Doc} (h : ∀ x ∈ xs, OnlyNotices P (g x)) :
    OnlyNotices P (xs.flatMap g) := by
  induction xs with
  | nil => exact only_nil
  | cons x xs ih =>
    rw [List.flatMap_cons]
    exact only_append (h x List.mem_cons_self) (ih fun y hy => h y (List.mem_cons_of_mem _ hy))

theorem only_quiet {ds : List Doc} (h : Unmarked ds) : OnlyNotices P ds := by
  intro n hn s hs
  rw [(h n hn).1] at hs
  cases hs

theorem only_text (s : Str) : OnlyNotices P [.text s] := only_quiet (quiet_text s)

theorem only_elem {t : Str} {as : List (Str × Str)} {cs : List Doc}
    (h : ∀ s, as.lookup (str "class") = some (noticeClass s) → P (.elem t as cs)) (hc : OnlyNotices P cs) :
    OnlyNotices P [.elem t as cs] := by
  intro n hn s hs
  simp only [nodesIn, nodesOf, List.append_nil, List.mem_cons] at hn
  rcases hn with rfl | hn
  · exact h s hs
  · exact hc n hn s hs

/-- An element with no class for notices. -/
theorem only_tag {t : String} {as : List (Str × HAttr)} {cs : List Html}
    (h : ∀ s, (as.map fun a => (a.1, attrWith f a.2)).lookup (str "class") ≠ some (noticeClass s))
    (hc : OnlyNotices P (docsWith f cs)) : OnlyNotices P (docsWith f [tag t as cs]) :=
  only_elem (fun s hs => absurd hs (h s)) hc

theorem only_plain {t : String} {cs : List Html} (hc : OnlyNotices P (docsWith f cs)) :
    OnlyNotices P (docsWith f [tag t [] cs]) := only_tag (fun _ => nofun) hc

/-- Classes that are not for notices. -/
def Other (c : String) : Prop := ∀ s, str c ≠ noticeClass s

theorem only_class {t c : String} {cs : List Html} (h : Other c) (hc : OnlyNotices P (docsWith f cs)) :
    OnlyNotices P (docsWith f [tag t [classAttr c] cs]) := by
  refine only_tag (fun s hs => ?_) hc
  have : some (str c) = some (noticeClass s) := hs
  exact h s (Option.some.inj this)

theorem only_link {t : String} {os : List Nat} {cs : List Html} (hc : OnlyNotices P (docsWith f cs)) :
    OnlyNotices P (docsWith f [tag t [linkAttr os] cs]) := by
  refine only_tag (fun s hs => ?_) hc
  have e : (str "class" == str "data-ref-to") = false := by decide
  simp [linkAttr, List.lookup, e] at hs

theorem only_place {t : String} {o : Nat} {cs : List Html} (hc : OnlyNotices P (docsWith f cs)) :
    OnlyNotices P (docsWith f [tag t [placeAttr o] cs]) := by
  refine only_tag (fun s hs => ?_) hc
  simp [placeAttr, List.lookup, class_not_place] at hs

theorem only_placed {t c : String} {o : Nat} {cs : List Html} (h : Other c) (hc : OnlyNotices P (docsWith f cs)) :
    OnlyNotices P (docsWith f [tag t [placeAttr o, classAttr c] cs]) := by
  refine only_tag (fun s hs => ?_) hc
  have : some (str c) = some (noticeClass s) := by
    rw [← hs]
    simp [placeAttr, classAttr, List.lookup, class_not_place, attrWith]
  exact h s (Option.some.inj this)

theorem other_of {c : String} (h : str c ≠ noticeClass .error) (h2 : str c ≠ noticeClass .comment)
    (h3 : str c ≠ noticeClass .debug) : Other c := by
  intro s
  cases s with
  | error => exact h
  | comment => exact h2
  | debug => exact h3

mutual

theorem only_piece (ctx : NoticeCtx) : (p : NPiece) → OnlyNotices P (docsWith f (p.html ctx))
  | .text s => by rw [NPiece.html]; exact only_text _
  | .para ps => by rw [NPiece.html]; exact only_plain (only_pieces ctx ps)
  | .known n kind k => by rw [NPiece.html]; exact only_link (only_quiet (known_quiet f k))
  | .var path => by rw [NPiece.html]; exact only_link (only_quiet (value_quiet f _))
  | .exc => by rw [NPiece.html]; exact only_quiet (exc_quiet f _)
  | .cite c [] => by rw [NPiece.html]; exact only_quiet (cite_quiet f c)
  | .cite c (q :: qs) => by
    rw [NPiece.html, docsWith]
    refine only_append (a := [_]) (only_quiet (cite_quiet f c)) ?_
    rw [docsWith]
    refine only_append (a := [_]) (only_text _) (only_plain ?_)
    rw [docsWith_append]
    exact only_append (only_piece ctx q) (only_pieces ctx qs)
  | .ref path => by rw [NPiece.html]; exact only_link (only_text _)

theorem only_pieces (ctx : NoticeCtx) : (ps : List NPiece) → OnlyNotices P (docsWith f (NPiece.htmls ctx ps))
  | [] => by rw [NPiece.htmls]; exact only_nil
  | p :: ps => by
    rw [NPiece.htmls, docsWith_append]
    exact only_append (only_piece ctx p) (only_pieces ctx ps)

end

theorem only_notice {c : HComplaint} (h : P (docWith f (noticeHtml c))) : OnlyNotices P (docsWith f [noticeHtml c]) := by
  refine only_elem (fun _ _ => h) ?_
  rw [docsWith]
  refine only_append (a := [_]) (only_plain (f := f) ?_) (only_pieces _ _)
  rw [docsWith, docsWith]
  refine only_append (a := [_]) (only_tag (f := f) (fun s hs => ?_) (only_text _))
    (only_append (a := [_]) (only_class (f := f) (other_of (by decide) (by decide) (by decide)) (only_text _))
      (only_plain (only_pieces _ _)))
  have : some (str "severity") = some (noticeClass s) := hs
  exact other_of (c := "severity") (by decide) (by decide) (by decide) s (Option.some.inj this)

theorem only_complaints {cs : List HComplaint} (h : ∀ c ∈ cs, P (docWith f (noticeHtml c))) :
    OnlyNotices P (docsWith f (renderComplaints cs)) := by
  unfold renderComplaints
  split
  · exact only_nil
  · refine only_class (other_of (by decide) (by decide) (by decide)) ?_
    suffices key : ∀ l : List HComplaint, (∀ c ∈ l, P (docWith f (noticeHtml c))) →
        OnlyNotices P (docsWith f (l.map noticeHtml)) from key cs h
    intro cs h
    induction cs with
    | nil => exact only_nil
    | cons c cs ih =>
      rw [List.map_cons, docsWith]
      exact only_append (a := [_]) (only_notice (h c List.mem_cons_self)) (ih fun d hd => h d (List.mem_cons_of_mem _ hd))

theorem only_entries (es : List HEntry) : OnlyNotices P (docsWith f (renderEntries es)) := by
  induction es with
  | nil => exact only_nil
  | cons e es ih =>
    rw [show renderEntries (e :: es) = entryHtml e :: renderEntries es from rfl, docsWith]
    exact only_append (a := [_]) (only_placed (f := f) (other_of (by decide) (by decide) (by decide))
      (only_quiet (entry_code_quiet f e))) ih

theorem only_body (o : Nat) (b : HBody) : OnlyNotices P (docsWith f (renderBody o b)) := by
  have ho : Other "body-display" := other_of (by decide) (by decide) (by decide)
  cases b with
  | unknown => exact only_placed ho (only_plain (only_text _))
  | unavailable => exact only_placed ho (only_plain (only_text _))
  | shown t ts =>
    unfold renderBody
    simp only
    split
    · exact only_nil
    · refine only_placed ho ?_
      rw [docsWith_append]
      refine only_append ?_ (only_plain (only_text _))
      split
      · exact only_nil
      · exact only_plain (only_text _)

theorem only_section {line : List Html} {m : HMessage} (hl : OnlyNotices P (docsWith f line))
    (hm : ∀ c ∈ m.complaints, P (docWith f (noticeHtml c))) :
    OnlyNotices P (docsWith f [tag "section" [] (tag "div" [classAttr "message-display"]
      (renderRemark m.remark ++ [tag "h2" [] [tag "code" [] line]] ++ renderMessage m) ::
        renderComplaints m.complaints)]) := by
  refine only_plain ?_
  rw [docsWith]
  refine only_append (a := [_]) (only_class (f := f) (other_of (by decide) (by decide) (by decide)) ?_) (only_complaints hm)
  rw [docsWith_append, docsWith_append, renderMessage, docsWith_append, docsWith_append]
  refine only_append (only_append ?_ (only_plain (only_plain hl)))
    (only_append (only_append (only_entries _) (only_body _ _)) ?_)
  · unfold renderRemark
    split
    · split
      · exact only_nil
      · exact only_class (other_of (by decide) (by decide) (by decide)) (only_text _)
    · exact only_nil
  · split
    · exact only_nil
    · refine only_class (other_of (by decide) (by decide) (by decide)) ?_
      rw [docsWith]
      exact only_append (a := [_]) (only_plain (f := f) (only_text _)) (only_entries _)

/-- All complaints of an exchange and its messages. -/
def complaintsIn (e : HExch) : List HComplaint :=
  e.request.toList.flatMap (·.msg.complaints) ++ e.responses.flatMap (·.msg.complaints) ++ e.complaints

theorem only_block {e : HExch} (h : ∀ c ∈ complaintsIn e, P (docWith f (noticeHtml c))) :
    OnlyNotices P (docsWith f [blockOf e]) := by
  have hhr : OnlyNotices P (docsWith f [hr]) := only_plain only_nil
  unfold complaintsIn at h
  refine only_class (other_of (by decide) (by decide) (by decide)) ?_
  unfold exchangeNodes
  rw [docsWith_append, docsWith_append]
  refine only_append (only_append ?_ ?_) ?_
  · cases hr : e.request with
    | none => exact only_nil
    | some r =>
      simp only
      rw [docsWith]
      refine only_append (a := [_]) (only_section ?_ fun c hc => h c ?_) hhr
      · rw [docsWith, docsWith]
        exact only_append (a := [_]) (only_place (f := f) (only_quiet (known_quiet f _)))
          (only_append (a := [_]) (only_place (f := f) (only_text _)) (only_quiet (version_quiet f _)))
      · refine List.mem_append_left _ (List.mem_append_left _ ?_)
        rw [hr]
        simpa using hc
  · rw [docsWith_flatMap]
    refine only_flatMap fun r hr => ?_
    rw [docsWith]
    refine only_append (a := [_]) (only_section ?_ fun c hc => h c ?_) hhr
    · rw [docsWith_append]
      refine only_append (only_quiet (version_quiet f _)) (only_placed (other_of (by decide) (by decide) (by decide)) ?_)
      rw [docsWith_append]
      exact only_append (only_quiet (known_quiet f _)) (only_text _)
    · exact List.mem_append_left _ (List.mem_append_right _ (List.mem_flatMap.2 ⟨r, hr, hc⟩))
  · split
    · exact only_nil
    · rw [docsWith_append]
      exact only_append (only_complaints fun c hc => h c (List.mem_append_right _ hc)) hhr

end

end Httpolice.Lemmas
