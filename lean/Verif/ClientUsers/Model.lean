import Verif.TestClient.Model

/-!
# The users of a test client in the course of a test

Model of /repo/lilya/testclient/base.py 131-188, /repo/lilya/testclient/async_client.py 128-185 (the same code) and
/repo/lilya/testclient/_internal/transport.py 66-86, 239-242, 286-288, for any history of calls, by one task or several.
-/

namespace Verif.ClientUsers

open Verif Verif.TestClient

/-- What is done with a client. A block of `authenticated` has a number; it is left at its end or by an exception, which
is the same (`finally`). -/
inductive Event (U : Type) where
  | authenticate (u : Option U)
  | logout
  | enter (block : Nat) (u : Option U)
  | leave (block : Nat)
  | request

/-- The client: the value under its key in `app_state`, the value under `"user"` that the lifespan may have put there
(base.py 616), and `previous` of each block that is open. -/
structure Client (U : Type) where
  stored : Stored U
  own : Option U
  saved : List (Nat × Stored U)

/-- What a request has in its scope: `scope["user"]` and `scope["state"]["user"]`. -/
structure Seen (U : Type) where
  user : Option U
  state : Option U

/-- One event. `previous` is the value of the key, where an absent key and `None` are the same (base.py 180). -/
def step {U : Type} (c : Client U) : Event U → Client U
  | .authenticate u => { c with stored := some u }
  | .logout => { c with stored := none }
  | .enter b u => { c with stored := some u, saved := (b, c.stored) :: c.saved }
  | .leave b =>
    match c.saved.find? fun p => p.1 = b with
    | none => c
    | some p => { c with stored := TestClient.leave p.2 c.stored, saved := c.saved.filter fun q => q.1 ≠ b }
  | .request => c

/-- What a request sees (transport.py 66-86): `setdefault` keeps what the state has under `"user"`. -/
def seen {U : Type} (c : Client U) : Seen U :=
  match current c.stored with
  | none => ⟨none, c.own⟩
  | some u => ⟨some u, some (c.own.getD u)⟩

/-- A history: what its requests see, and the client after it. -/
def run {U : Type} (c : Client U) : List (Event U) → List (Seen U) × Client U
  | [] => ([], c)
  | .request :: rest => let r := run c rest; (seen c :: r.1, r.2)
  | e :: rest => run (step c e) rest

end Verif.ClientUsers
