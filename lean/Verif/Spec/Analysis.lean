import Verif.Model.Analysis
import Verif.Spec.Hops
import Verif.Spec.Wire
import Verif.Spec.Written

/-!
# What is said about captured streams
-/

namespace Httpolice.Spec

open Httpolice.Model

/-! ## Transfer codings -/

/-- What a transfer coding is, by its name (RFC 7230, section 4). -/
def CodingIs (name : Str) : Coding → Prop
  | .chunked => SameWord name (str "chunked")
  | .gzip => SameWord name (str "gzip") ∨ SameWord name (str "x-gzip")
  | .deflate => SameWord name (str "deflate")
  | .other => ¬(SameWord name (str "chunked") ∨ SameWord name (str "gzip") ∨ SameWord name (str "x-gzip") ∨
      SameWord name (str "deflate"))
  | .unavailable => False

/-- The text is a list of transfer codings. -/
def CodingList (text : Str) (x : List1Syn CodingSyn) : Prop := x.Ok CodingSyn.Ok ∧ text = x.text CodingSyn.text

/-- What one Transfer-Encoding header says: the codings that are listed in it, or nothing is known. -/
def HeaderCodings (e : Entry) (cs : List Coding) : Prop :=
  (∃ x, CodingList e.value x ∧ Pairwise2 (fun c k => CodingIs (CodingSyn.name c) k) x.elems cs) ∨
  ((¬∃ x, CodingList e.value x) ∧ cs = [.unavailable])

/-- The codings applied to a message, in the order in which they were applied. -/
def CodedWith (es : List Entry) (cs : List Coding) : Prop :=
  ∃ parts, Pairwise2 HeaderCodings (withName "Transfer-Encoding" es) parts ∧ cs = parts.flatten

/-- Taking off codings, the first one first. -/
inductive Peeled (L : Codecs) : List Coding → Str → Str → Prop
  | nothing (b : Str) : Peeled L [] b b
  | gzip {b b' d : Str} {cs : List Coding} : L.gunzip b = some b' → Peeled L cs b' d → Peeled L (.gzip :: cs) b d
  | deflate {b b' d : Str} {cs : List Coding} : L.inflate b = some b' → Peeled L cs b' d → Peeled L (.deflate :: cs) b d

/-- Why a coding cannot be taken off the data, and what is to be reported. -/
def Obstacle (L : Codecs) (b : Str) : Coding → List Nat → Prop
  | .chunked, ids => ids = [1002]
  | .other, ids => ids = [1003]
  | .gzip, ids => L.gunzip b = none ∧ ids = [1027]
  | .deflate, ids => L.inflate b = none ∧ ids = [1027]
  | .unavailable, ids => ids = []

/-- The reports about codings among these. -/
def codingReports (ns : List FNote) : List Nat :=
  (ns.filter fun n => [(⟨1002, none⟩ : FNote), ⟨1003, none⟩, ⟨1027, none⟩].contains n).map FNote.id

/-- The body after taking off the codings, the first one first: either all are taken off, with no reports, or the first one that
cannot be is reported, and the body is not available. -/
def Taken (L : Codecs) (cs : List Coding) (data : Str) (body : Body) (reports : List Nat) : Prop :=
  (∃ d, Peeled L cs data d ∧ body = .bytes d ∧ reports = []) ∨
  ∃ pre c post d, cs = pre ++ c :: post ∧ Peeled L pre data d ∧ Obstacle L d c reports ∧ body = .unavailable (some d)

/-- A body in chunks, on which there were these codings before: either chunks are not as they should be, or the body is what they
hold with the other codings taken off. `sent` is what is on the stream after the heading. -/
def InChunks (L : Codecs) (before : List Coding) (sent : Str) (m : FMsg) : Prop :=
  (m.body = .unavailable none ∧ (⟨1005, none⟩ ∈ m.notes ∨ ⟨1298, none⟩ ∈ m.notes) ∧ codingReports m.notes = []) ∨
  ∃ (g : WChunked) (data rest : Str), sent = g.bytes ++ rest ∧ g.Holds data m.trailers ∧
    Taken L before.reverse data m.body (codingReports m.notes)

/-! ## References -/

/-- The notice is in the catalogue, and whatever arguments framing gives, every reference in its text leads to something. -/
def FramingShown (hasRequest : Bool) (self : String × Thing) (id : Nat) : Prop :=
  ∃ row ∈ noticeRows, row.id = id ∧ ∃ args ∈ framingArguments, args.1 = id ∧ args.2 ≠ [] ∧ ∀ ctx ∈ args.2,
    (∀ path ∈ row.references, ∃ x, resolveThing hasRequest self ctx path = some x) ∧
    (row.details = true → ∃ d, ("error", d) ∈ ctx)

end Httpolice.Spec
