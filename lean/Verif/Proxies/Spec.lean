import Verif.Proxies.Model
import Verif.RelayHeaders.ForwardedSpec
import Verif.ClientIp.Spec
import Verif.Hosts.Spec

/-!
# Specification for C144
-/

namespace Verif.Proxies.Spec

open Verif Verif.Proxies Verif.RelayHeaders Verif.RelayHeaders.Spec

/-- The values of all fields with a name, letter case aside. -/
def fields (headers : List (Str × Str)) (k : Str) : List Str :=
  (headers.filter fun kv => lower kv.1 = k).map (·.2)

/-- The two fields that name clients. -/
def naming : List Str := ["forwarded".toList, "x-forwarded-for".toList]

/-- The request names no client. -/
def Silent (headers : List (Str × Str)) : Prop := ∀ k ∈ naming, fields headers k = []

/-- The relay adds nothing under a name by itself. -/
def Plain (r : Hop) (k : Str) : Prop := ∀ kv ∈ r.cfg.extra, lower kv.1 ≠ k

/-- The relay removes the fields that name clients before it writes its own. -/
def Removes (r : Hop) : Prop := ∀ k ∈ naming, Listed k r.cfg.dropRequest

/-- The relay passes the list of addresses on. -/
def Keeps (r : Hop) : Prop := ¬ Listed "x-forwarded-for".toList r.cfg.dropRequest

/-- The address from which the request comes after some relays. -/
def peerAfter (client : Str) (rs : List Hop) : Str := (rs.getLast?.map (·.address)).getD client

/-- An address that can be written in a list: bare, and without separators. -/
def Writable (a : Str) : Prop := ClientIp.Spec.Bare a ∧ ∀ c ∈ a, c ∉ ClientIp.Spec.separators

end Verif.Proxies.Spec
