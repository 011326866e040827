import Verif.Model.Rfc7230Headers
import Verif.Model.Rfc7231

/-!
# httpolice/syntax/rfc7234.py

Without Warning, which needs the grammar of hosts.
-/

namespace Httpolice.Model

/-- `mark_action` in `mark(symbol)` (parse.py 547-548). The symbol is an object of no class; here the name of the symbol stands
for it. Other arguments cannot occur. -/
def markF (symbol : Str) : Func GVal PyComplaint := pureFunc fun
  | [x] => .tuple [.obj symbol [], x]
  | _ => .none

/-- `mark(symbol)` (parse.py 541-549). -/
def GExpr.mark {N : Type} (symbol : Str) (n : N) : GExpr N := .app (markF symbol) false (.ref n)

/-- Names in the module. `...s` are the calls of `comma_list` and `comma_list1`
(httpolice/syntax/rfc7234.py 13-47). -/
inductive CacheName
  | hop (n : HopName)
  | date (n : DateName)
  | deltaSeconds | age | cacheDirective | cacheDirectives | cacheControl | noCacheNames | noCache | privateNames | private_
  | expires | extensionPragma | pragmaDirective | pragmaDirectives | pragma
deriving DecidableEq, Repr

/-- A name for strings (httpolice/parse.py 528-533). -/
abbrev GExpr.cs (n : StrName) : GExpr CacheName := .ref (.hop (.str n))

/-- syntax/rfc7234.py 13-35, after what is imported from syntax/rfc7230.py and syntax/rfc7231.py. `order` is the order in
which Python iterates over a set. -/
def cacheDefs (order : List Nat → List Nat) : List (CacheName × Defn CacheName) :=
  importDefs .hop (hopDefs order) ++ (importDefs .date dateDefs ++ [
  -- delta_seconds, Age (13-14)
  (.deltaSeconds, .named true .number),
  (.age, .named true (.ref .deltaSeconds)),
  -- cache_directive (16-18)
  (.cacheDirective, .named true (.app (classF (str "Parametrized")) true (.seq
    (.app (classF (str "CacheDirective")) true (.cs .token))
    (.maybe (.seq (.skip (.lit (str "=") false))
      (.alt (.mark (str "token") (.hop (.str .token))) (.mark (str "quoted_string") (.hop (.str .quoted))))))))),
  -- Cache_Control (19)
  (.cacheDirectives, .list1 (.hop (.str .ows)) (.ref .cacheDirective)),
  (.cacheControl, .named true (.ref .cacheDirectives)),
  -- no_cache, private (22-23)
  (.noCacheNames, .list (.hop (.str .ows)) (.ref (.hop .fieldName))),
  (.noCache, .named true (.ref .noCacheNames)),
  (.privateNames, .list (.hop (.str .ows)) (.ref (.hop .fieldName))),
  (.private_, .named true (.ref .privateNames)),
  -- Expires (25)
  (.expires, .named true (.ref (.date .httpDate))),
  -- extension_pragma(exclude_no_cache=True) (27-31)
  (.extensionPragma, .named true (.app (classF (str "Parametrized")) true (.seq
    (.tokenExcluding order [str "no-cache"])
    (.maybe (.seq (.skip (.lit (str "=") false)) (.alt (.cs .token) (.cs .quoted))))))),
  -- pragma_directive (33-34)
  (.pragmaDirective, .named true (.alt (.app (classF (str "CaseInsensitive")) true (.lit (str "no-cache") false))
    (.ref .extensionPragma))),
  -- Pragma (35)
  (.pragmaDirectives, .list1 (.hop (.str .ows)) (.ref .pragmaDirective)),
  (.pragma, .named true (.ref .pragmaDirectives))])

end Httpolice.Model
