import Verif.Responses.Model

/-!
# Specification of the framing of a response
-/

namespace Verif.Responses.Spec

open Verif Verif.Responses

/-- The values of the fields with a name, whatever its case, in order. -/
def fields (hs : Headers) (name : Str) : List Str :=
  (hs.filter fun kv => lower kv.1 = name).map (·.2)

/-- Statuses whose responses have no content: informational ones, 204 and 304 (RFC 9110, 6.4.1). -/
def Bodiless (st : Nat) : Prop := (100 ≤ st ∧ st ≤ 199) ∨ st = 204 ∨ st = 304

/-- The number written in decimal digits. -/
def number (v : Str) : Option Nat :=
  if v ≠ [] ∧ ∀ c ∈ v, '0' ≤ c ∧ c ≤ '9' then
    some (v.foldl (fun n c => 10 * n + (c.toNat - 48)) 0)
  else none

/-- The start message says how long the body is, once. -/
def Framed (hs : Headers) (body : Str) : Prop :=
  ∃ v, fields hs "content-length".toList = [v] ∧ number v = some body.length

/-- The caller does not state a length. -/
def NoLength (hs : Headers) : Prop := ∀ kv ∈ hs, lower kv.1 ≠ "content-length".toList

/-- Headers that describe the content of a response and that are not for responses without (RFC 2616,
10.3.5, without `Content-Location` and `Expires`). -/
def describing : List Str :=
  ["allow".toList, "content-encoding".toList, "content-language".toList, "content-length".toList,
   "content-md5".toList, "content-range".toList, "content-type".toList, "last-modified".toList,
   "extension-header".toList]

/-- The bytes of a content. -/
def bytes : Content → Str
  | .ready b => b
  | .awaitable b => b

/-- The names of the fields that a response may add to those of the caller. -/
def added : List Str := ["content-length".toList, "content-type".toList]

/-- The type of a content: texts name their character set. -/
def TypeOf (media charset t : Str) : Prop :=
  ((∃ sub, media = "text/".toList ++ sub) ∧ t = media ++ ("; charset=".toList ++ charset)) ∨
    ((¬ ∃ sub, media = "text/".toList ++ sub) ∧ t = media)

end Verif.Responses.Spec
