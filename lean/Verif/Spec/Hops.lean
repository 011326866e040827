import Verif.Spec.Parameters
import Verif.Spec.Reads

/-!
# Headers for one connection, after RFC 7230
-/

namespace Httpolice.Spec

open Httpolice.Model

/-- The case of letters. -/
def sameWordDec : (a b : Str) → Decidable (SameWord a b)
  | [], [] => .isTrue .nil
  | [], _ :: _ => .isFalse nofun
  | _ :: _, [] => .isFalse nofun
  | a :: u, b :: v =>
    match (inferInstanceAs (Decidable (_ ∨ _)) : Decidable (SameLetter a b)), sameWordDec u v with
    | .isTrue h, .isTrue k => .isTrue (.cons h k)
    | .isFalse h, _ => .isFalse fun | .cons h' _ => h h'
    | _, .isFalse k => .isFalse fun | .cons _ k' => k k'

instance (a b : Str) : Decidable (SameWord a b) := sameWordDec a b

/-- A name of some kind: a token, with the class of the kind. -/
def nameValue (cls : Str) (w : Str) : GVal := .obj cls [.text w]

/-- The codings without parameters. -/
def BuiltInCoding (w : Str) : Prop :=
  SameWord w (str "chunked") ∨ SameWord w (str "compress") ∨ SameWord w (str "deflate") ∨ SameWord w (str "gzip")

/-- A coding. -/
structure CodingSyn where
  name : Str
  params : SemiSyn Param

def CodingSyn.Ok (x : CodingSyn) : Prop :=
  IsToken x.name ∧ x.params.Ok (Param.Ok IsToken) ∧ (BuiltInCoding x.name → x.params = [])

def CodingSyn.text (x : CodingSyn) : Str := x.name ++ x.params.text Param.text

/-- The name with a dictionary that may have several values for a name. -/
def CodingSyn.value (x : CodingSyn) : GVal := .obj (str "Parametrized") [nameValue (str "TransferCoding") x.name,
  .obj (str "MultiDict") [.list (x.params.elems.map fun p => .tuple [.text p.name, .text p.value.content])]]

def CodingSyn.notes (x : CodingSyn) : List PyComplaint := x.params.elems.flatMap Param.notes

/-- An element of TE. -/
inductive TeSyn
  | trailers (w : Str)
  | coding (c : CodingSyn) (rank : Option Ranking)

/-- `trailers` in whatever case, without a weight; or another coding without a parameter `q`, which would be the weight. -/
def TeSyn.Ok : TeSyn → Prop
  | .trailers w => SameWord w (str "trailers")
  | .coding c r => c.Ok ∧ ¬ SameWord c.name (str "trailers") ∧ (∀ p ∈ c.params.elems, ¬ SameWord p.name (str "q")) ∧
      ∀ x, r = some x → x.Ok

def TeSyn.text : TeSyn → Str
  | .trailers w => w
  | .coding c r => c.text ++ (match r with | none => [] | some x => x.text)

def TeSyn.value : TeSyn → GVal
  | .trailers w => nameValue (str "CaseInsensitive") w
  | .coding c r => .obj (str "Parametrized") [c.value, match r with | none => .none | some x => x.value]

def TeSyn.notes : TeSyn → List PyComplaint
  | .trailers _ => []
  | .coding c _ => c.notes

/-- A protocol, perhaps with a version. -/
structure Protocol where
  name : Str
  version : Option Str
deriving DecidableEq, Repr

def Protocol.Ok (x : Protocol) : Prop := IsToken x.name ∧ ∀ v, x.version = some v → IsToken v

def Protocol.text (x : Protocol) : Str := x.name ++ (match x.version with | none => [] | some v => str "/" ++ v)

def Protocol.value (x : Protocol) : GVal := .obj (str "Versioned") [nameValue (str "UpgradeToken") x.name,
  match x.version with | none => .none | some v => .text v]

end Httpolice.Spec
