import Verif.BodyArgs.Model

/-!
# What is remembered on the functions that serve as handlers

`BaseHandler.handle_response` writes the resolved signature of a handler and a plan made from it on the
function itself (`/repo/lilya/_internal/_responses.py` 59-60 and 316-324), and each request reads them back
(442, 256-271).  Several routes may use one function, and a handler decorated with `openapi` calls
`handle_response` anew in each request (`/repo/lilya/contrib/openapi/decorator.py` 257-261).  Here: a whole
history of routes being made and requests being served.  How arguments are found, once the signature is
known, is taken from `Verif.BodyArgs`.
-/

namespace Verif.HandlerPlan

open Verif.BodyArgs (Param Req Env Conf Arg)

/-- An annotation: none, a type, or a name given as text, to be looked up. -/
inductive Ann where
  | none
  | type (n : Nat)
  | name (s : Str)
  deriving DecidableEq, Repr

/-- The arguments of a handler as `inspect.signature` gives them. -/
abbrev Sig := List (Param Ann)

/-- A handler as it is given to a route.

* `target`: the function on which things are remembered, which is the innermost one: without its
  decorators (`__wrapped__`) and without the instance it is bound to
  (`/repo/lilya/_internal/_responses.py` 179-188);
* `sig`: its own signature, which a decorator may have set (`__signature__`) and which leaves out the first
  argument of a bound method.  Simplification: it accepts by name exactly these arguments;
* `owner`: the attributes of the class of a bound method (`vars(owner)`, line 172);
* `globals`: the names of its module (lines 167-168);
* `openapi`: whether it is the wrapper made by the decorator `openapi`. -/
structure Callable where
  target : Nat
  sig : Sig
  owner : List (Str × Nat)
  globals : List (Str × Nat)
  openapi : Bool

/-- A name as `get_type_hints` looks it up, with the names of the module written over those of the class
(`/repo/lilya/_internal/_responses.py` 170-173 and 238): they win. -/
def lookup (f : Callable) (s : Str) : Option Nat :=
  match aget f.globals s with
  | some t => some t
  | .none => aget f.owner s

/-- One annotation; `none` if the name is unknown (`NameError`). -/
def resolveAnn (f : Callable) : Ann → Option Ann
  | .none => some .none
  | .type n => some (.type n)
  | .name s => (lookup f s).map .type

/-- All arguments with their annotations resolved, `/repo/lilya/_internal/_responses.py` 244-249. -/
def resolveAll (f : Callable) : Sig → Option Sig
  | [] => some []
  | p :: ps =>
    match resolveAnn f p.ann, resolveAll f ps with
    | some a, some qs => some ({ p with ann := a } :: qs)
    | _, _ => .none

/-- The resolved signature if nothing is remembered, `/repo/lilya/_internal/_responses.py` 235-253: on any
failure the signature stays as it was.  Simplification: the annotation of the result is left out. -/
def resolve (f : Callable) : Sig :=
  match resolveAll f f.sig with
  | some s => s
  | .none => f.sig

/-- What is remembered on a function: the resolved signature, and the plan.  The contents of a plan follow
from the signature (`_build_handler_plan`, `/repo/lilya/_internal/_responses.py` 84-149), so only its identity
is kept. -/
structure Entry where
  sig : Sig
  plan : Nat

/-- A route: the handler, the signature it was resolved to and the plan that was made when the route was
made (`/repo/lilya/routing/path.py` 112-113, `/repo/lilya/_internal/_responses.py` 320-322). -/
structure Route where
  handler : Callable
  sig : Sig
  plan : Nat

/-- The routes made so far, what is remembered on functions, and the number of plans made. -/
structure State where
  routes : List Route
  memo : Nat → Option Entry
  plans : Nat

/-- Before anything happened. -/
def start : State := ⟨[], fun _ => .none, 0⟩

/-- `resolve_signature_annotations`, `/repo/lilya/_internal/_responses.py` 224-253: a remembered signature is
taken as it is. -/
def resolved (memo : Nat → Option Entry) (f : Callable) : Sig :=
  match memo f.target with
  | some e => e.sig
  | .none => resolve f

/-- The beginning of `handle_response`, `/repo/lilya/_internal/_responses.py` 320-324: the signature is
resolved or taken from memory, a new plan is made, and both are remembered. -/
def prepare (st : State) (f : Callable) : State × Route :=
  let sig := resolved st.memo f
  (⟨st.routes, fun t => if t = f.target then some ⟨sig, st.plans⟩ else st.memo t, st.plans + 1⟩,
    ⟨f, sig, st.plans⟩)

/-- Making a route, `/repo/lilya/routing/path.py` 112-113. -/
def addRoute (st : State) (f : Callable) : State :=
  let (st', r) := prepare st f
  { st' with routes := st.routes ++ [r] }

/-- A request with everything that answers to it: the functions outside, what surrounds the handler, the
request, and whether the body is a form. -/
structure Call (J V : Type) where
  env : Env Ann J V
  conf : Conf
  req : Req J V
  form : Bool

variable {J V : Type}

/-- The names of the dependencies that are called, up to the first that fails,
`/repo/lilya/_internal/_responses.py` 1062-1074. -/
def depCalls (E : Env Ann J V) (c : Conf) : Sig → List Str
  | [] => []
  | p :: ps =>
    if BodyArgs.isRequested c p then
      if p.default = .provides ∧ p.name ∉ c.merged then []
      else match E.dep p.name with
        | .none => [p.name]
        | some _ => p.name :: depCalls E c ps
    else depCalls E c ps

/-- Whether the full path reads the body, `/repo/lilya/_internal/_responses.py` 1045-1051. -/
def readsBody (x : Call J V) (sig : Sig) : Bool :=
  x.conf.infer && sig.any (BodyArgs.fromBody x.conf x.req)

/-- The arguments collected and the dependencies called. -/
structure Pass (V : Type) where
  args : Option (List (Str × V))
  deps : List Str

/-- The full path, `/repo/lilya/_internal/_responses.py` 525-543.  `gone` says that the body is a form that was
read before by another `Request` on the same channel: the text of a body is kept in the scope
(`/repo/lilya/requests.py` 219-225), a form is not (285-307), so that reading it again meets the end of the
channel (`ClientDisconnect`, lines 202-204; a server lets it wait for that). -/
def full (x : Call J V) (sig : Sig) (gone : Bool) : Pass V :=
  if gone && readsBody x sig then ⟨.none, []⟩
  else match BodyArgs.bodyArgs x.env x.conf sig x.req with
    | .none => ⟨.none, []⟩
    | some _ => ⟨BodyArgs.slowArgs x.env x.conf sig x.req, depCalls x.env x.conf sig⟩

/-- One pass of `app`, `/repo/lilya/_internal/_responses.py` 422-543.  `own` is the signature the route was
resolved to; `memo` is the signature in use, and `same` says whether the plan in use is the very plan of the
route.  Without any argument nothing is looked at (422-426); the quick path needs the very plan (451). -/
def pass (x : Call J V) (own memo : Sig) (same gone : Bool) : Pass V :=
  if own.isEmpty || (BodyArgs.fast own && same) then ⟨BodyArgs.fastArgs x.env own x.req, []⟩
  else full x memo gone

/-- Python's call with arguments by name: none may be unknown and those without default must be there. -/
def call (sig : Sig) (args : List (Str × V)) : Option (List (Str × Arg V)) :=
  if args.all fun a => a.1 ∈ sig.map Param.name then BodyArgs.bind args sig else .none

/-- The answer to a request: the arguments the handler was called with, or `none` if an exception was raised
instead; and the dependencies that were called, in order. -/
structure Answer (V : Type) where
  args : Option (List (Str × Arg V))
  deps : List Str

/-- A request to a route.  The signature in use is never the object the route was resolved from, because
`Path.signature` makes one of its own (`/repo/lilya/routing/path.py` 156-161), so that signature and plan are
those remembered on the function (`/repo/lilya/_internal/_responses.py` 431-442).

The wrapper of `openapi` accepts any arguments and drops them; it prepares the function again, and the
application that this gives goes through the same steps, now with its own plan (`other_signature` is the
static signature, 438-440). -/
def serve (st : State) (rt : Route) (x : Call J V) : State × Answer V :=
  let f := rt.handler
  let memo := (st.memo f.target).getD ⟨rt.sig, rt.plan⟩
  let outer := pass x rt.sig memo.sig (memo.plan = rt.plan) false
  match outer.args with
  | .none => (st, ⟨.none, outer.deps⟩)
  | some args =>
    if f.openapi then
      let (st', inner) := prepare st f
      let quick := rt.sig.isEmpty || (BodyArgs.fast rt.sig && decide (memo.plan = rt.plan))
      let second := pass x inner.sig inner.sig true (x.form && !quick && readsBody x memo.sig)
      (st', ⟨second.args.bind (call f.sig), outer.deps ++ second.deps⟩)
    else (st, ⟨call f.sig args, outer.deps⟩)

/-- What can happen: a route is made, or a request comes to the route made as number `n`. -/
inductive Op (J V : Type) where
  | route (f : Callable)
  | request (n : Nat) (x : Call J V)

/-- One thing happening. -/
def step (st : State) : Op J V → State
  | .route f => addRoute st f
  | .request n x =>
    match st.routes[n]? with
    | some rt => (serve st rt x).1
    | .none => st

/-- A history. -/
def run (ops : List (Op J V)) : State := ops.foldl step start

/-- The answer to a request to the route made as number `n`, after a history; `none` if there is no such
route. -/
def answer (ops : List (Op J V)) (n : Nat) (x : Call J V) : Option (Answer V) :=
  ((run ops).routes[n]?).map fun rt => (serve (run ops) rt x).2

end Verif.HandlerPlan
