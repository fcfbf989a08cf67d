import Verif.Cors.Model
import Verif.MultiDict.Spec

/-!
# What CORS should do
-/

namespace Verif.Cors.Spec

open Verif Verif.Cors

/-- An origin is allowed when all are, when the regular expression matches all of it, or when it
is listed. -/
def OriginAllowed (c : Config) (o : Str) : Prop :=
  "*".toList ∈ c.origins ∨ (∃ r, c.regex = some r ∧ r o = true) ∨ o ∈ c.origins

/-- A method is allowed when it is listed; `*` lists the usual methods; nothing listed means GET. -/
def MethodAllowed (c : Config) (m : Str) : Prop :=
  if c.methods = [] then m = "GET".toList
  else if "*".toList ∈ c.methods then
    m ∈ ["GET".toList, "HEAD".toList, "POST".toList, "PUT".toList, "PATCH".toList, "DELETE".toList,
      "OPTIONS".toList, "QUERY".toList]
  else m ∈ c.methods

/-- A header is allowed when all are, or when it is listed or one of the four that are always
allowed, whatever the letter case. -/
def HeaderAllowed (c : Config) (h : Str) : Prop :=
  "*".toList ∈ c.headers ∨
  lower h ∈ ["accept".toList, "accept-language".toList, "content-language".toList, "content-type".toList] ∨
  ∃ a ∈ c.headers, lower a = lower h

/-- The header names asked for by `Access-Control-Request-Headers`: a comma-separated list, with
space around its elements; empty elements name nothing (RFC 9110, 5.6.1). -/
def Requested (text : Option Str) (h : Str) : Prop :=
  ∃ t, text = some t ∧ h ≠ [] ∧ ∃ e ∈ splitOn ',' t, strip isSpace e = h

/-- A preflight request is permitted. -/
def Permitted (c : Config) (origin method : Str) (headers : Option Str) : Prop :=
  OriginAllowed c origin ∧ MethodAllowed c method ∧ ∀ h, Requested headers h → HeaderAllowed c h

/-- The response names an origin in `Access-Control-Allow-Origin`. -/
def Names (headers : List (Str × Str)) (o : Str) : Prop :=
  ∃ kv ∈ headers, lower kv.1 = "access-control-allow-origin".toList ∧ kv.2 = o

end Verif.Cors.Spec
