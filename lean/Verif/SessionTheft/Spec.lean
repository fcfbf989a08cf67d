import Verif.SessionTheft.Model
import Verif.SessionFlow.Spec
import Verif.Proxies.Spec

/-!
# Who knows which cookies
-/

namespace Verif.SessionTheft.Spec

open Verif

/-- What a signer makes is read as it was or not at all. -/
def Reads (g : Session.Signer) : Prop := ∀ t t' s x, g.unsign t' (g.sign t s) = some x → x = s

/-- Nobody can sign but the application: if a client presents a session cookie that is accepted, that cookie was sent
in an answer to a request before; to whom, and how the client came to know it, does not matter. -/
def Genuine (a : App) (past : List Hit) (h : Hit) : Prop :=
  ∀ d s, aget h.cookies a.site.name = some d → a.site.signer.unsign h.time d = some s →
    ∃ q ∈ past, ∃ s', d = a.site.signer.sign q.time s' ∧ a.site.field q.time s' ∈ q.answer a

/-- A history of requests by any clients, the newest first. -/
def Possible (a : App) : List Hit → Prop
  | [] => True
  | h :: past => Genuine a past h ∧ Possible a past

/-- The handler leaves the recorded address and the session cookie to the middlewares. -/
def Careful (a : App) (q : Hit) : Prop :=
  (∀ s, Session.Spec.recorded (q.handler s) = Session.Spec.recorded s) ∧ ∀ v, a.site.name ++ '=' :: v ∉ q.fields

/-- The handler of a request put something into the session. -/
def Put (a : App) (kv : Str × Option Str) (q : Hit) : Prop :=
  ∃ s s', q.seen a = some s ∧ q.left a = some s' ∧ kv ∈ s' ∧ kv ∉ s

/-- The relays tell the truth: the first one removes what the client says about addresses, the others pass the list on,
none adds anything to it by configuration, and the application trusts the last one. -/
def Relayed (a : App) (h : Hit) : Prop :=
  ∃ r post, h.relays = r :: post ∧ Proxies.Spec.Removes r ∧
    (∀ x ∈ r :: post, ∀ k ∈ Proxies.Spec.naming, Proxies.Spec.Plain x k) ∧ (∀ x ∈ post, Proxies.Spec.Keeps x) ∧
    (∀ x ∈ r :: post, x.address ≠ []) ∧ Proxies.Spec.Writable h.client ∧
    ClientIp.Spec.Believed a.trusted (Proxies.Spec.peerAfter h.client (r :: post))

/-- The client comes without relays and is not trusted. -/
def Direct (a : App) (h : Hit) : Prop :=
  h.relays = [] ∧ ClientIp.Spec.Bare h.client ∧ ¬ ClientIp.Spec.Believed a.trusted h.client

end Verif.SessionTheft.Spec
