import Verif.Model.Header
import Verif.Model.CaseInsens

/-!
# Model of `decoded_body` (httpolice/message.py 71-93)

The codecs (httpolice/codings.py, i.e. zlib and brotli) are parameters; failing with any exception is `none`.
-/

namespace Httpolice.Model

/-- The value of `body` or `decoded_body`: `None`, `Unavailable(inner)`, or bytes (httpolice/message.py 71-93,
structure.py 12-53). -/
inductive Payload
  | none
  | unavailable (inner : Option Str)
  | bytes (b : Str)
deriving DecidableEq, Repr

/-- The codecs of httpolice/codings.py. -/
structure Codecs where
  gunzip : Str → Option Str
  inflate : Str → Option Str
  unbrotli : Str → Option Str

/-- The dictionary of decoders (message.py 78-81), with keys in the order written. -/
def decoders (codecs : Codecs) : List (Str × (Str → Option Str)) :=
  [(str "gzip", codecs.gunzip), (str "x-gzip", codecs.gunzip), (str "deflate", codecs.inflate),
    (str "br", codecs.unbrotli)]

/-- Looking up a coding in it (message.py 78-81). The keys and `coding` are `CaseInsensitive`; an
`Unavailable` is equal to none of them. -/
def decoderFor (lower : Str → Str) (codecs : Codecs) : Elem Str → Option (Str → Option Str)
  | .unavailable _ => none
  | .ok coding => ((decoders codecs).find? fun p => lower p.1 = lower coding).map Prod.snd

/-- A notice about a content coding (httpolice/message.py 71-93). -/
structure CodingNote where
  id : Nat
  coding : Str
deriving DecidableEq, Repr

/-- 1036 for a coding without a decoder if it is okay (message.py 88-92). -/
def unknownCoding : Elem Str → List CodingNote
  | .unavailable _ => []
  | .ok coding => [⟨1036, coding⟩]

/-- 1037 (message.py 86); a coding with a decoder is okay. -/
def failedCoding : Elem Str → List CodingNote
  | .unavailable _ => []
  | .ok coding => [⟨1037, coding⟩]

/-- The loop of `decoded_body` (message.py 76-93) for bytes; `codings` is reversed, as they are popped
from the end. Once `r` is unavailable the loop ends. -/
def decodeLoop (lower : Str → Str) (codecs : Codecs) : List (Elem Str) → Str → Payload × List CodingNote
  | [], r => (.bytes r, [])
  | _ :: _, [] => (.bytes [], [])
  | coding :: codings, c :: r =>
    match decoderFor lower codecs coding with
    | none => (.unavailable (some (c :: r)), unknownCoding coding)
    | some decoder =>
      match decoder (c :: r) with
      | none => (.unavailable (some (c :: r)), failedCoding coding)
      | some r' => decodeLoop lower codecs codings r'

/-- `decoded_body` (message.py 71-93), where `codings` is the value of `Content-Encoding`. -/
def decodedBody (lower : Str → Str) (codecs : Codecs) (codings : List (Elem Str)) :
    Payload → Payload × List CodingNote
  | .bytes b => decodeLoop lower codecs codings.reverse b
  | r => (r, [])

end Httpolice.Model
