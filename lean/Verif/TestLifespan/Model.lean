import Verif.Lifespan.Model

/-!
# The lifespan in the test client

Model of `TestClient.__enter__`, `__exit__`, `__aenter__`, `__aexit__`, `lifespan`, `wait_startup` and `wait_shutdown`
(/repo/lilya/testclient/base.py 512-685) and of the same methods of `AsyncTestClient`
(/repo/lilya/testclient/async_client.py 453-560).  What the application puts into `stream_send` is a list: its messages
and then the `None` of `lifespan`, with what the application ended with.  Waiting beyond the end of the list is `waits`.
-/

namespace Verif.TestLifespan

variable {E : Type}

/-- What is in `stream_send`; `ended` is the `None` of `lifespan` (/repo/lilya/testclient/base.py 617-621) with the
exception that the task will have. -/
inductive Item (E : Type) where
  | startupComplete
  | startupFailed
  | shutdownComplete
  | shutdownFailed
  | other
  | ended (exc : Option E)

/-- How the client is used: with `with` there is a future for the task, with `async with` the task is what
`TaskGroup.start` returns, which is `None` (/repo/lilya/testclient/base.py 538, 568, 602-607). -/
inductive Mode where
  | sync
  | async

/-- What waiting ends with; `type` for `None["type"]` and `attribute` for `None.result()`. -/
inductive Res (E : Type) where
  | ok
  | raised (e : E)
  | assertion
  | type
  | attribute
  | waits

/-- `receive` inside `wait_startup` and `wait_shutdown` (/repo/lilya/testclient/base.py 634-638, 659-663): an error,
or a
message, which is none for `None`. -/
def receive (mode : Mode) : List (Item E) → (Res E ⊕ Option (Item E)) × List (Item E)
  | [] => (.inl .waits, [])
  | .ended (some e) :: r => (.inl (match mode with | .sync => .raised e | .async => .attribute), r)
  | .ended none :: r =>
    match mode with
    | .sync => (.inr none, r)
    | .async => (.inl .attribute, r)
  | i :: r => (.inr (some i), r)

/-- The second `receive`, after a failure, whose message is not looked at (/repo/lilya/testclient/base.py 645-646,
674-675, 684-685). -/
def second (mode : Mode) (l : List (Item E)) : Res E × List (Item E) :=
  match receive mode l with
  | (.inl e, r) => (e, r)
  | (.inr _, r) => (.ok, r)

/-- `wait_startup` (/repo/lilya/testclient/base.py 623-646, /repo/lilya/testclient/async_client.py 517-537). -/
def waitStartup (mode : Mode) (l : List (Item E)) : Res E × List (Item E) :=
  match receive mode l with
  | (.inl e, r) => (e, r)
  | (.inr none, r) => (.type, r)
  | (.inr (some .startupComplete), r) => (.ok, r)
  | (.inr (some .startupFailed), r) => second mode r
  | (.inr (some _), r) => (.assertion, r)

/-- `wait_shutdown` (/repo/lilya/testclient/base.py 648-685, /repo/lilya/testclient/async_client.py 539-560). -/
def waitShutdown (mode : Mode) (l : List (Item E)) : Res E × List (Item E) :=
  match receive mode l with
  | (.inl e, r) => (e, r)
  | (.inr none, r) => (.type, r)
  | (.inr (some .shutdownComplete), r) => (.ok, r)
  | (.inr (some .shutdownFailed), r) => second mode r
  | (.inr (some _), r) => (.assertion, r)

/-- A message of the router (/repo/lilya/routing/router.py 289-341) in the stream. -/
def message : Lifespan.Event → Option (Item E)
  | .startupComplete => some .startupComplete
  | .startupFailed => some .startupFailed
  | .shutdownComplete => some .shutdownComplete
  | .shutdownFailed => some .shutdownFailed
  | _ => none

/-- The stream of a router, for the server that the test client is: the scope has `state`, and `receive` does not raise.
The exception of whatever fails is `e`. -/
def stream (raises : Lifespan.Hook → Bool) (r : Lifespan.Router) (e : E) : List (Item E) :=
  (Lifespan.lifespan raises ⟨true, false⟩ r).filterMap message ++
    [.ended (if Lifespan.lifespanRaises raises ⟨true, false⟩ r then some e else none)]

end Verif.TestLifespan
