import Verif.Model.Run
import Verif.Spec.Framing
import Verif.Spec.Texts
import Verif.Spec.LinkText
import Verif.Spec.Inputs

/-!
# Specification of a whole run on combined files
-/

namespace Httpolice.Spec

open Httpolice.Model

/-- The file can be read, and its parts are these: what is between the markers, what follows them, and
the scheme that its name stands for. -/
def CombinedParts (decodeUtf8 : Str → Option Str) (file : Str × Option Str) (inbound outbound : Str)
    (scheme : Option Str) : Prop :=
  ∃ data preamble rest text, file.2 = some data ∧
    CutAt (str "======== BEGIN INBOUND STREAM ========\r\n") data preamble rest ∧
    CutAt (str "======== BEGIN OUTBOUND STREAM ========\r\n") rest inbound outbound ∧
    decodeUtf8 preamble = some text ∧ scheme = combinedScheme file.1

/-- The exchange as it was captured. -/
def captured (scheme : Option Str) : Yield → Exchange
  | .exch req resps => streamExchange scheme req resps
  | .box _ => ⟨none, []⟩

/-- An exchange on which the checks raise an exception: some link lacks a value (C79); or the year 9999
ends before the age of a response is added to its date; or a 451 response has a link with a bad
relation. -/
def Raising (lower : Str → Str) (ex : Exchange) : Prop :=
  (∃ req, ex.request = some req ∧ LacksValue lower req.fields) ∨
  ∃ r ∈ ex.responses, LacksValue lower r.fields ∨
    (r.status ≠ 103 ∧ ∃ d n, TimeText lower r.fields "Date" d ∧
      NumberText lower r.fields "Age" n ∧ d + n > 315537897599) ∨
    BadLinkText lower r

/-- The same for what was captured. -/
def Breaks (S : Setup) (scheme : Option Str) (y : Yield) : Prop := Raising S.base.lower (captured scheme y)

/-- Framing says this about an object of what it yields. -/
def FramingSays : Yield → Target → FNote → Prop
  | .exch (some req) _, .req, n => n ∈ req.msg.notes
  | .exch _ resps, .resp i, n => ∃ r, resps[i]? = some r ∧ n ∈ r.msg.notes
  | .box id, .exch, n => n = ⟨id, none⟩
  | _, _, _ => False

/-- The notice is to be shown on the object of an exchange: framing or a check reports it, and it is
silenced neither by an option nor by a header. -/
def ToShow (S : Setup) (scheme : Option Str) (y : Yield) (t : Target) (c : Complaint Ctx) : Prop :=
  ((∃ n, FramingSays y t n ∧ c = ⟨n.id, S.said t n⟩) ∨
    Reported (S.world.all S.base) (S.exchange scheme y) t c) ∧
  c.id ∉ S.silence ∧ ¬SilencedText S.base.lower (captured scheme y) c.id t

/-- Everything that is captured in a file: its scheme, and what comes of its streams. -/
def Captured (S : Setup) (file : Str × Option Str) (scheme : Option Str) (ys : List Yield) : Prop :=
  ∃ inbound outbound final, CombinedParts S.decodeUtf8 file inbound outbound scheme ∧
    parseStreams (S.world.frame S.base.lower S.libs) (some (SS.new inbound)) (some (SS.new outbound)) =
      (ys, .ok final)

/-- The file can be worked through. -/
def Workable (S : Setup) (file : Str × Option Str) : Prop :=
  ∃ scheme ys, Captured S file scheme ys ∧ ∀ y ∈ ys, ¬Breaks S scheme y

/-- A file ends the run with an exception that is not handled. -/
def Crashes (S : Setup) (file : Str × Option Str) : Prop :=
  ∃ inbound outbound scheme, CombinedParts S.decodeUtf8 file inbound outbound scheme ∧
    ((∃ y ∈ (parseStreams (S.world.frame S.base.lower S.libs) (some (SS.new inbound))
        (some (SS.new outbound))).1, Breaks S scheme y) ∨
      ∃ e, (parseStreams (S.world.frame S.base.lower S.libs) (some (SS.new inbound))
        (some (SS.new outbound))).2 = .error e)

/-- The files can all be worked through, and have these schemes and streams. -/
def Worked (S : Setup) : List (Str × Option Str) → List (Option Str × List Yield) → Prop :=
  Pairwise2 fun file x => Captured S file x.1 x.2 ∧ ∀ y ∈ x.2, ¬Breaks S x.1 y

/-- The exchanges, in order. -/
def inTurn (xs : List (Option Str × List Yield)) : List (Option Str × Yield) :=
  xs.flatMap fun x => x.2.map (x.1, ·)

/-- The exchange is shown with just the notices that are to be shown. -/
def ShownAs (S : Setup) (x : Option Str × Yield) (b : ExchBoards Ctx) : Prop :=
  (b.request.isSome = (captured x.1 x.2).request.isSome ∧
    b.responses.length = (captured x.1 x.2).responses.length) ∧
  ∀ t c, (∃ obj, b.get t = some obj ∧ c ∈ obj.complaints) ↔ ToShow S x.1 x.2 t c

/-- The notice with an ID has a severity that is the given one or higher. -/
def Grave (threshold : Severity) (id : Nat) : Prop :=
  ∃ row ∈ noticeRows, row.id = id ∧
    (row.severity = .error ∨ (row.severity = .comment ∧ threshold ≠ .error) ∨ threshold = .debug)

end Httpolice.Spec
