import Verif.Basic

/-!
# Model of the application life cycle

`lilya/lifecycle.py`, the constructors in `lilya/apps.py` (1221-1258) and
`lilya/routing/router.py` (86-143), `lilya/_internal/_events.py` (19-83) and
`BaseRouter.lifespan` (`router.py` 289-341).

A handler is a number; whether it raises is a parameter.  Synchronous and asynchronous handlers
are called the same way.  What the server sees is the list of events in order.
-/

namespace Verif.Lifespan

/-- A start-up or shutdown handler (`LifespanEvent` item). -/
abbrev Hook := Nat

/-- `lifecycle.py` 12-80: `LifecycleRegistry`, the global lists of hooks. -/
structure Registry where
  startup : List Hook
  shutdown : List Hook

/-- What a user's own `lifespan` context manager does when entered (`router.py` 320-327). -/
inductive Entered where
  | raises
  /-- It yields nothing. -/
  | plain
  /-- It yields a state mapping. -/
  | state
deriving DecidableEq

/-- A user's own `lifespan` context manager: entering, leaving (`true` when it raises). -/
structure Custom where
  enter : Entered
  exitRaises : Bool
deriving DecidableEq

/-- `self.lifespan_context` (`router.py` 138-143; `_events.py` 19-83).  `manager` is
`AsyncLifespanContextManager` with its own copies of the lists, `ofRouter` is `AsyncLifespan`, which
reads the lists of the router when it is entered and left. -/
inductive Context where
  | manager (startup shutdown : List Hook)
  | ofRouter
  | custom (c : Custom)

/-- The part of `BaseRouter` used here. -/
structure Router where
  onStartup : List Hook
  onShutdown : List Hook
  context : Context

/-- `handle_lifespan_events` (`_events.py` 70-82): an empty list counts as not given. -/
def handleEvents (onStartup onShutdown : List Hook) (lifespan : Option Custom) : Option Context :=
  if onStartup ≠ [] ∨ onShutdown ≠ [] then some (.manager onStartup onShutdown)
  else lifespan.map .custom

/-- `BaseRouter.__init__` (`router.py` 111-143).  `none` for the assertion that `lifespan` and the
handler lists are not both given. -/
def mkRouter (reg : Registry) (onStartup onShutdown : Option (List Hook))
    (lifespan : Option Custom) : Option Router :=
  if lifespan.isSome && (onStartup.isSome || onShutdown.isSome) then none
  else some {
    onStartup := reg.startup ++ onStartup.getD []
    onShutdown := onShutdown.getD [] ++ reg.shutdown
    context := (handleEvents (onStartup.getD []) (onShutdown.getD []) lifespan).getD .ofRouter }

/-- `Lilya.__init__` (`apps.py` 1221-1258) as far as it concerns the life cycle.  `lifespan`
and the two lists are the values after `load_settings_value` and `_normalize_hooks` (1301-1323), that
is, given as arguments or else found in the settings, with nothing for the empty list. -/
def mkApp (reg : Registry) (onStartup onShutdown : List Hook) (lifespan : Option Custom) :
    Option Router :=
  match lifespan with
  | some c => mkRouter reg none none (some c)
  | none => mkRouter reg (some (reg.startup ++ onStartup)) (some (onShutdown ++ reg.shutdown)) none

/-- One call of `add_event_handler` or `on_event` (`router.py` 621-634, `apps.py` 150-151, 411-412). -/
inductive Add where
  | startup (h : Hook)
  | shutdown (h : Hook)

/-- `add_event_handler` (`router.py` 621-634). -/
def addHandler (r : Router) : Add → Router
  | .startup h => { r with onStartup := r.onStartup ++ [h] }
  | .shutdown h => { r with onShutdown := r.onShutdown ++ [h] }

/-- Several calls. -/
def addAll (r : Router) (adds : List Add) : Router := adds.foldl addHandler r

/-- What happens during `lifespan`. -/
inductive Event where
  /-- A handler is called. -/
  | call (h : Hook)
  /-- The user's context manager is entered or left. -/
  | enter
  | leave
  /-- Messages sent to the server. -/
  | startupComplete
  | startupFailed
  | shutdownComplete
  | shutdownFailed
deriving DecidableEq

/-- The loops at `router.py` 210-228 and `_events.py` 36-50: handlers are called one by one; one
that raises ends the loop.  The events, and whether one raised. -/
def runHooks (raises : Hook → Bool) : List Hook → List Event × Bool
  | [] => ([], false)
  | h :: t =>
    if raises h then ([.call h], true)
    else ((.call h) :: (runHooks raises t).1, (runHooks raises t).2)

/-- Entering the context (`_events.py` 36-42, 60-61; a user's own).  Events, whether it raised, and
whether it gave a state. -/
def enter (raises : Hook → Bool) (r : Router) : List Event × Bool × Bool :=
  match r.context with
  | .manager st _ => ((runHooks raises st).1, (runHooks raises st).2, false)
  | .ofRouter => ((runHooks raises r.onStartup).1, (runHooks raises r.onStartup).2, false)
  | .custom c => ([.enter], decide (c.enter = .raises), decide (c.enter = .state))

/-- Leaving the context (`_events.py` 44-50, 63-64; a user's own).  Events and whether it raised. -/
def leave (raises : Hook → Bool) (r : Router) : List Event × Bool :=
  match r.context with
  | .manager _ sh => runHooks raises sh
  | .ofRouter => runHooks raises r.onShutdown
  | .custom c => ([.leave], c.exitRaises)

/-- The server's side: whether it supports `state`, and whether the second `receive()` raises
(for example because the task is cancelled). -/
structure Server where
  hasState : Bool
  receiveRaises : Bool

/-- `BaseRouter.lifespan` (`router.py` 289-341), as events in order.  When the body of the
`async with` raises the context is left all the same. -/
def lifespan (raises : Hook → Bool) (server : Server) (r : Router) : List Event :=
  let e := enter raises r
  if e.2.1 then e.1 ++ [.startupFailed]
  else if e.2.2 && !server.hasState then e.1 ++ (leave raises r).1 ++ [.startupFailed]
  else
    e.1 ++ [.startupComplete] ++ (leave raises r).1
      ++ [if server.receiveRaises || (leave raises r).2 then .shutdownFailed else .shutdownComplete]

/-- Whether `lifespan` raises to the server (`router.py` 331-338). -/
def lifespanRaises (raises : Hook → Bool) (server : Server) (r : Router) : Bool :=
  let e := enter raises r
  e.2.1 || (e.2.2 && !server.hasState) || server.receiveRaises || (leave raises r).2

end Verif.Lifespan
