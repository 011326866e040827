import Verif.Model.CaseInsens

/-!
# Model of `httpolice/helpers.py`
-/

namespace Httpolice.Model

/-- `d[k] = v` on an insertion-ordered dict (httpolice/helpers.py 9-31). -/
def dictSet {K V : Type} [DecidableEq K] : List (K × V) → K → V → List (K × V)
  | [], k, v => [(k, v)]
  | (k', v') :: d, k, v => if k' = k then (k', v) :: d else (k', v') :: dictSet d k v

/-- The loop of `pop_pseudo_headers` (helpers.py 24-31): `entries` is mutated in place, `i` is the
index, `r` the dict under construction. Returns the final `entries` and `r`. -/
def popLoop {V : Type} (entries : List (Str × V)) (i : Nat) (r : List (Str × V)) :
    List (Str × V) × List (Str × V) :=
  if h : i < entries.length then
    let (name, value) := entries[i]
    if name.head? = some 58 then popLoop (entries.eraseIdx i) i (dictSet r name value)
    else popLoop entries (i + 1) r
  else (entries, r)
termination_by entries.length - i
decreasing_by
  · rw [List.length_eraseIdx_of_lt h]; omega
  · omega

/-- `pop_pseudo_headers` (helpers.py 9-31). -/
def popPseudoHeaders {V : Type} (entries : List (Str × V)) : List (Str × V) × List (Str × V) :=
  popLoop entries 0 []

/-- A value in a CGI environment: text, bytes or another object, of which only its `str()` and
its truth value matter (httpolice/helpers.py 34-68). -/
inductive CgiValue
  | text (s : Str)
  | bytes (b : Str)
  | other (shown : Str) (truthy : Bool)
deriving DecidableEq, Repr

/-- `bool(value)` (httpolice/helpers.py 47-49). -/
def CgiValue.truthy : CgiValue → Bool
  | .text s => !s.isEmpty
  | .bytes b => !b.isEmpty
  | .other _ t => t

/-- `force_bytes` on text (util/text.py 110-113): ISO-8859-1 with `?` for other characters. -/
def encodeLatin1 (s : Str) : Str := s.map fun c => if c < 256 then c else 63

/-- `_header_value_from_cgi` (helpers.py 65-68). -/
def headerValueFromCgi : CgiValue → Str
  | .text s => encodeLatin1 s
  | .bytes b => b
  | .other shown _ => encodeLatin1 shown

/-- ASCII letters; Python's `str.title` looks at cased characters (httpolice/helpers.py 58-62). -/
def isCased (c : Nat) : Bool := (65 ≤ c && c ≤ 90) || (97 ≤ c && c ≤ 122)

/-- `str.title` (simplified to ASCII: other characters are uncased) (httpolice/helpers.py 58-62). -/
def titleFrom (prevCased : Bool) : Str → Str
  | [] => []
  | c :: s => (if prevCased then lowerChar c else upperChar c) :: titleFrom (isCased c) s

/-- `s.title()` (httpolice/helpers.py 58-62). -/
def title (s : Str) : Str := titleFrom false s

/-- `s.split(c)` for a one-character separator (httpolice/helpers.py 58-62). -/
def splitOn (c : Nat) : Str → List Str
  | [] => [[]]
  | x :: s =>
    if x = c then [] :: splitOn c s
    else match splitOn c s with
      | [] => [[x]]
      | p :: ps => (x :: p) :: ps

/-- `_header_name_from_cgi` (helpers.py 58-62). -/
def headerNameFromCgi (cgiName : Str) : Str :=
  let cgiName := if (str "HTTP_").isPrefixOf cgiName then cgiName.drop 5 else cgiName
  joinWith (str "-") ((splitOn 95 cgiName).map title)

/-- `names` in `headers_from_cgi` (helpers.py 45-52). -/
def cgiNames (cgi : List (Str × CgiValue)) : List Str :=
  let get (k : Str) : Option CgiValue := (cgi.find? fun p => p.1 = k).map Prod.snd
  let names := [str "HTTP_HOST", str "CONTENT_LENGTH", str "CONTENT_TYPE"].foldl
    (fun names k => if (match get k with | some v => v.truthy | none => false) then names ++ [k]
      else names) []
  (cgi.map Prod.fst).foldl
    (fun names n => if (str "HTTP_").isPrefixOf n ∧ n ∉ names then names ++ [n] else names) names

/-- `headers_from_cgi` (helpers.py 34-55); `none` models a `KeyError`. -/
def headersFromCgi (cgi : List (Str × CgiValue)) : Option (List (Str × Str)) :=
  (cgiNames cgi).mapM fun n =>
    ((cgi.find? fun p => p.1 = n).map Prod.snd).map fun v =>
      (headerNameFromCgi n, headerValueFromCgi v)

end Httpolice.Model
