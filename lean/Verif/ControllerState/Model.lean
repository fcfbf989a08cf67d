import Verif.Basic

/-!
# The state that a controller keeps while it serves a request

`Controller.handle_dispatch` (`/repo/lilya/controllers.py` lines 149-181) stores the signature of the
handler it chose on the controller instance, waits for the arguments, and then reads the signature
back from the instance.  Whether two requests that are served at the same time meet on one instance
depends on how the route was made.
-/

namespace Verif.ControllerState

/-- What matters of the signature of a handler (`inspect.signature(handler)`,
`/repo/lilya/controllers.py` line 159):

* `taken`: the parameters filled from the path, from the body and from dependencies
  (`_extract_params_from_request`, `/repo/lilya/_internal/_responses.py` lines 979-1075);
* `bound`: the parameters whose default is a `Query`, `Header` or `Cookie`
  (`extract_request_params_information`, lines 615-668);
* `request`: there is a parameter `request`.

Simplification: all parameters can be filled; only their names are kept. -/
structure Sig where
  taken : List Str
  bound : List Str
  request : Bool
  deriving DecidableEq, Repr

/-- A request and what its method leads to: the handler and its signature. -/
structure Req where
  handler : Nat
  sig : Sig
  deriving DecidableEq, Repr

/-- A route that leads to a controller.  `layers` counts its permissions and middlewares, those of the
controller class included; `init` says that the class came from `with_init`. -/
structure Route where
  layers : Nat
  init : Bool
  deriving DecidableEq, Repr

/-- The instance that a request is served by: `own` for one made for this request alone, `common`
for one made with the route.

Without layers `Path.handle_controller` makes an instance per request
(`/repo/lilya/routing/path.py` lines 357-364).  The innermost layer is given the class itself, and
its metaclass puts an instance in place of it once, when the route is made
(`/repo/lilya/_internal/_middleware.py` lines 109-111, `/repo/lilya/protocols/permissions.py` lines
10-18, `/repo/lilya/protocols/middleware.py` lines 10-18).  The class from `with_init` makes an
instance of the real controller in each call (`/repo/lilya/controllers.py` lines 114-126). -/
inductive Inst where
  | common
  | own (r : Nat)
  deriving DecidableEq, Repr

/-- The instance for the request numbered `r`; see `Inst`. -/
def instFor (route : Route) (r : Nat) : Inst :=
  if route.layers = 0 ∨ route.init = true then .own r else .common

/-- How far the dispatch of a request has come: not begun, waiting for its arguments
(`/repo/lilya/controllers.py` line 162), or done, with the handler called and the names of the
arguments it was called with. -/
inductive Phase where
  | idle
  | waiting
  | done (handler : Nat) (args : List Str)
  deriving DecidableEq, Repr

/-- The instances (their attribute `signature`) and the requests. -/
structure State where
  sigs : Inst → Option Sig
  phase : Nat → Phase

/-- Before the first request: the class attribute `signature` is `None`
(`/repo/lilya/controllers.py` line 60). -/
def start : State := ⟨fun _ => none, fun _ => .idle⟩

/-- The two stretches of `handle_dispatch` between which another request can run:

* `enter r` (`/repo/lilya/controllers.py` lines 150-162, up to the waiting);
* `leave r` (lines 167-179). -/
inductive Act where
  | enter (r : Nat)
  | leave (r : Nat)
  deriving DecidableEq, Repr

/-- The names of the arguments that are passed: what was extracted with the signature of the request
(`/repo/lilya/controllers.py` lines 162-164, the argument `signature=self.signature` is evaluated
before the waiting), and what the signature found on the instance afterwards adds (lines 167-179). -/
def argsWith (mine later : Sig) : List Str :=
  mine.taken ++ later.bound ++ if later.request then ["request".toList] else []

/-- The first stretch of a request (`/repo/lilya/controllers.py` lines 150-162); nothing happens if
it was entered before. -/
def enter (route : Route) (reqs : Nat → Req) (s : State) (r : Nat) : State :=
  match s.phase r with
  | .idle =>
    ⟨fun i => if i = instFor route r then some (reqs r).sig else s.sigs i,
     fun q => if q = r then .waiting else s.phase q⟩
  | _ => s

/-- The second stretch of a request (`/repo/lilya/controllers.py` lines 167-179); nothing happens if
it is not waiting. -/
def leave (route : Route) (reqs : Nat → Req) (s : State) (r : Nat) : State :=
  match s.phase r, s.sigs (instFor route r) with
  | .waiting, some later =>
    ⟨s.sigs, fun q => if q = r then .done (reqs r).handler (argsWith (reqs r).sig later)
      else s.phase q⟩
  | _, _ => s

/-- One stretch (`/repo/lilya/controllers.py` lines 149-181). -/
def step (route : Route) (reqs : Nat → Req) (s : State) : Act → State
  | .enter r => enter route reqs s r
  | .leave r => leave route reqs s r

/-- Any interleaving of stretches. -/
def run (route : Route) (reqs : Nat → Req) (acts : List Act) : State :=
  acts.foldl (step route reqs) start

end Verif.ControllerState
