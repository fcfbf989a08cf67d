import Verif.Basic

/-!
# Authentication

Model of /repo/lilya/middleware/authentication.py and of the decorator `requires`
(/repo/lilya/authentication.py 36-173), with the way handlers are called
(/repo/lilya/_internal/_responses.py 457-526, 1096-1195).
-/

namespace Verif.Auth

open Verif

/-- An `AuthResult` (authentication.py 18): the scopes of the credentials and the name of the user; `none` is the
`AnonymousUser` (authentication.py 233-251). -/
structure Identity where
  scopes : List Str
  user : Option Str
  deriving DecidableEq

/-- What a backend does with a connection (authentication.py 176-180): no answer, an identity, an
`AuthenticationError` with its text, or any other exception. -/
inductive Answer where
  | none
  | identity (i : Identity)
  | error (text : Str)
  | other (n : Nat)
  deriving DecidableEq

/-- What `authenticate` gives and how many backends were consulted (middleware/authentication.py 124-132). -/
def authenticate {C : Type} : List (C → Answer) → C → Answer × Nat
  | [], _ => (.none, 0)
  | b :: bs, c =>
    match b c with
    | .none => ((authenticate bs c).1, (authenticate bs c).2 + 1)
    | a => (a, 1)

/-- The scope types (/repo/lilya/enums.py `ScopeType`). -/
inductive Kind where
  | http
  | websocket
  | lifespan
  deriving DecidableEq

/-- What the middleware does: it calls the application with the identity put in the scope, or with the scope as it
was; it sends the response made by `on_error` from the error text; it closes the websocket; an exception goes on. -/
inductive Outcome where
  | app (i : Identity)
  | appUnchanged
  | response (text : Str)
  | close (code : Nat)
  | raised (n : Nat)
  deriving DecidableEq

/-- `_process_exception` (middleware/authentication.py 77-97). -/
def processException (k : Kind) (text : Str) : Outcome :=
  match k with
  | .websocket => .close 1000
  | _ => .response text

/-- Lines 67-71 and the exception cases of `__call__`. -/
def settle (k : Kind) : Answer → Outcome
  | .none => .app ⟨[], Option.none⟩
  | .identity i => .app i
  | .error t => processException k t
  | .other n => .raised n

/-- `BaseAuthMiddleware.__call__` (middleware/authentication.py 50-71). -/
def middleware {C : Type} (backends : List (C → Answer)) (k : Kind) (c : C) : Outcome :=
  match k with
  | .lifespan => .appUnchanged
  | k => settle k (authenticate backends c).1

/-- A connection object as `requires` sees it: a `Request`, a `WebSocket` or anything else (authentication.py
114-124), with the scopes in `scope["auth"]` if the middleware put them there. -/
structure Conn where
  kind : Option Bool
  auth : Option (List Str)
  deriving DecidableEq

/-- The connection is a `Request`. -/
def Conn.isRequest (c : Conn) : Bool := c.kind == some true

/-- The connection is a `WebSocket`. -/
def Conn.isWebsocket (c : Conn) : Bool := c.kind == some false

/-- The connection parameter found by the decorator (authentication.py 63-74): the first parameter named `request`,
`websocket` or as given, else the given name. -/
def connectionParam (params : List Str) (given : Option Str) : Option Str :=
  match params.find? fun n => n == "request".toList || n == "websocket".toList || some n == given with
  | some n => some n
  | none => given

/-- What calling the guarded function comes to. -/
inductive Guarded where
  /-- the wrapped function is called -/
  | runs
  /-- HTTPException or redirect, or the websocket is closed -/
  | denied
  /-- `conn.auth` raised because there is no authentication middleware (/repo/lilya/_internal/_connection.py
  150-155; `hasattr` at authentication.py 80 lets that exception through) -/
  | unconfigured
  deriving DecidableEq

/-- `has_required_scope` (authentication.py 21-33). -/
def hasRequired (have' : List Str) (required : List Str) : Bool := required.all fun s => have'.contains s

/-- The check for a connection of a known kind (authentication.py 76-83, 85-103). -/
def checked (c : Conn) (required : List Str) : Guarded :=
  match c.auth with
  | none => .unconfigured
  | some scopes => if hasRequired scopes required then .runs else .denied

/-- The wrapper (authentication.py 105-129, 131-171): the connection is looked up in the keyword arguments only.
Whether the function is async makes no difference to which functions run. -/
def guarded (params : List Str) (given : Option Str) (required : List Str) (kwargs : List (Str × Conn)) : Guarded :=
  match (connectionParam params given).bind fun n => aget kwargs n with
  | none => .runs
  | some c => if c.isRequest || c.isWebsocket then checked c required else .runs

/-- The decorator refuses at decoration time when it finds no connection parameter (authentication.py 72-74). -/
def decorates (params : List Str) (given : Option Str) : Bool := (connectionParam params given).isSome

/-- How an HTTP handler is called (_responses.py 457-526): everything by keyword, the request when there is a
parameter of that name. -/
def httpKwargs (params : List Str) (c : Conn) : List (Str × Conn) :=
  if params.contains "request".toList then [("request".toList, c)] else []

/-- How a websocket handler is called (_responses.py 1188): the session as a positional argument; the keyword
arguments are injected dependencies, none of which is a connection here. -/
def websocketKwargs (_params : List Str) (_c : Conn) : List (Str × Conn) := []

end Verif.Auth
