import Verif.CorsPlaces.Model
import Verif.Cors.FetchSpec

/-!
# What pages of other origins should be able to do
-/

namespace Verif.CorsPlaces.Spec

open Verif Verif.MultiDict
open Verif.Cors (Config Request Resp)
open Verif.Cors.Spec

/-- An answer that says nothing about other origins. -/
def Bare (a : Resp) : Prop :=
  getall lower a.headers "Access-Control-Allow-Origin".toList = [] ∧
  getall lower a.headers "Access-Control-Allow-Credentials".toList = []

/-- The request that a page makes itself, after the preflight request if there was one. -/
def Made (r : Request) (origin : Str) : Prop :=
  get lower r.headers "origin".toList = some origin ∧
  get lower r.headers "access-control-request-method".toList = none ∧
  get lower r.headers "access-control-request-private-network".toList = none

/-- With credentials for every origin a browser needs a cookie to be convinced (see C54). -/
def Cookied (c : Config) (r : Request) (credentialed : Bool) : Prop :=
  credentialed = true → c.credentials = true → "*".toList ∈ c.origins →
    (get lower r.headers "cookie".toList).isSome = true

/-- How the headers of an answer arrive: in some order. -/
def Sent (a : Resp) (hs : List (Str × Str)) : Prop := ∃ ks, KeyOrder a.headers ks ∧ hs = multiItems lower ks a.headers

/-- A configuration whose methods and headers are tokens, and a wanted request whose headers are. -/
def Tokens (c : Config) (w : Wanted) : Prop :=
  (∀ m ∈ c.methods, Token m) ∧ (∀ h ∈ c.headers, Token h) ∧ ∀ n ∈ w.names, Token n

variable {E : Type}

/-- Something holds of every path. -/
def Every (P : Route E → Prop) : Tree E → Prop
  | .none => True
  | .route q rest => P q ∧ Every P rest
  | .incl _ _ sub rest => Every P sub ∧ Every P rest

/-- No CORS middleware on any include. -/
def NoCors : Tree E → Prop
  | .none => True
  | .route _ rest => NoCors rest
  | .incl c _ sub rest => c = none ∧ NoCors sub ∧ NoCors rest

/-- A path for this method, or an application, is among the routes. -/
def Takes (method : Str) : Tree E → Prop
  | .none => False
  | .route q rest => (q.methods = [] ∨ method ∈ q.methods) ∨ Takes method rest
  | .incl _ own sub rest => own = true ∨ Takes method sub ∨ Takes method rest

/-- No answer to an exception says anything about other origins, and there are answers to 404 and 405. -/
structure Calm (u : Rules E) : Prop where
  handled : ∀ e a, u.handlers e = some a → Bare a
  failed : ∀ e, Bare (u.failure e)
  missing : ∃ a, u.handlers u.notFound = some a
  method : ∀ ms, ∃ a, u.handlers (u.notAllowed ms) = some a

/-- The answers of the handler of a path say nothing about other origins. -/
def Quiet (r : Request) (q : Route E) : Prop := q.cors = none ∧ ∀ a, q.handler r = .ok a → Bare a

/-- There is an exception handler for whatever the handler of a path raises. -/
def Safe (u : Rules E) (r : Request) (q : Route E) : Prop := ∀ e, q.handler r = .error e → ∃ a, u.handlers e = some a

/-- There is an exception handler for whatever the permissions of a path raise. -/
def Answered (u : Rules E) (r : Request) (q : Route E) : Prop := ∀ e, q.denied r = some e → ∃ a, u.handlers e = some a

/-- The permissions of a path let the request pass. -/
def Admits (r : Request) (q : Route E) : Prop := q.denied r = none

end Verif.CorsPlaces.Spec
