import Verif.CookieLife.Model
import Verif.SetCookie.Spec

/-!
# Specification for C165

A browser that stores cookies (RFC 6265, 5.3, as for C59) and sends them (5.4).
-/

namespace Verif.CookieLife.Spec

open Verif Verif.Responses Verif.Responses.Spec Verif.SetCookie Verif.SetCookie.Spec

/-- The jar after an answer: its fields one after the other. -/
def answered (c : Client) (jar : Jar) (hs : Headers) : Jar :=
  (fields hs "set-cookie".toList).foldl (receive c) jar

/-- A browser that gets the answers of a history; each with the client at that time. -/
inductive Lives (date : Int → Str) : Jar → List (Client × List Op) → Jar → Prop where
  | nil (jar : Jar) : Lives date jar [] jar
  | cons (jar jar' : Jar) (c : Client) (ops : List Op) (hs : Headers) (rest : List (Client × List Op)) :
      respond date ops [] = some hs → Lives date (answered c jar hs) rest jar' →
      Lives date jar ((c, ops) :: rest) jar'

/-- A cookie of this path goes with a request to that path. -/
def PathMatch (request cookie : Str) : Prop :=
  request = cookie ∨ ∃ rest, request = cookie ++ rest ∧ (cookie.getLast? = some '/' ∨ rest.head? = some '/')

/-- The cookies that go with a request: those of the jar that match, each once, those of longer paths first.
Simplification: cookies without a domain are sent to hosts below as well; here there is one host. -/
def Sends (host path : Str) (jar : Jar) (sent : List (Key × Str)) : Prop :=
  (∀ k v, (k, v) ∈ sent ↔ jar k = some v ∧ InDomain host k.2.1 ∧ PathMatch path k.2.2) ∧
  sent.Pairwise fun a b => a ≠ b ∧ b.1.2.2.length ≤ a.1.2.2.length

/-- The header of the request. -/
def header (sent : List (Key × Str)) : Option Str :=
  if sent = [] then none
  else some (joinWith "; ".toList (sent.map fun kv => kv.1.1 ++ '=' :: kv.2))

/-- The last word of a history on a name: the value set last, unless it was deleted or had ended at once. -/
def lastWord (date : Int → Str) (history : List (Client × Op)) (name : Str) : Option Str :=
  match (history.filter fun x => x.2.key = name).getLast? with
  | some (c, .set _ v o) => if Ended date c o then none else some v
  | _ => none

/-- All calls of a history in order. -/
def calls (history : List (Client × List Op)) : List (Client × Op) :=
  history.flatMap fun x => x.2.map fun op => (x.1, op)

/-- Options for the whole site: the path is `/` (the default) and there is no domain. -/
def Site (o : Opts) : Prop := o.path = some "/".toList ∧ o.domain = none

/-- A call with a proper name and options for the whole site. -/
def Good (date : Int → Str) : Op → Prop
  | .set k _ o => Name k ∧ CleanOpts date o ∧ SameSite o.samesite ∧ Site o
  | .delete k o => Name k ∧ CleanOpts date { o with expires := some (.seconds 0) } ∧ SameSite o.samesite ∧ Site o

/-- A call whose value has no percent sign. -/
def Plain : Op → Prop
  | .set _ v _ => '%' ∉ v
  | .delete _ _ => True

end Verif.CookieLife.Spec
