import Verif.Basic

/-!
# Model of observables

Source: `observable` (/repo/lilya/decorators.py:24-92) and `EventDispatcher`
(/repo/lilya/_internal/_events.py:95-181).  Any number of calls of decorated functions, and of subscriptions, may
overlap.  Calls that are cancelled from outside are not modelled.
-/

namespace Verif.Observe

open Verif

variable {V : Type}

/-- What the code asks about a function: `is_async_callable` and `func_accepts_kwargs`
(/repo/lilya/_internal/_inspect.py:5-13). -/
structure Sig where
  isAsync : Bool
  kw : Bool

/-- A call of a decorated function: the function, the `send` of its decorator, and the arguments. -/
structure Call (V : Type) where
  fn : Nat
  send : List Str
  args : List V
  kwargs : List (Str × V)

/-- How a function ends. -/
inductive Outcome (V : Type) where
  | value (v : V)
  | raised

/-- `EventDispatcher._listeners`, /repo/lilya/_internal/_events.py:104. -/
abbrev Table := List (Str × List Nat)

/-- `EventDispatcher.subscribe`, /repo/lilya/_internal/_events.py:131-134; one step, because of the lock. -/
def subscribe (t : Table) (e : Str) (f : Nat) : Table := aset t e ((aget t e).getD [] ++ [f])

/-- What `observable(listen=…)` does with the function, /repo/lilya/decorators.py:45-53: the function itself is
subscribed, not the wrapper that sends events. -/
def decorate (t : Table) (listen : List Str) (f : Nat) : Table := listen.foldl (fun t e => subscribe t e f) t

/-- The keyword arguments with which a listener is called, /repo/lilya/_internal/_events.py:168-181.  The keyword
arguments for a synchronous listener that accepts any are given to `start_soon`, which knows only `name` and uses it for
the task; `none` is its `TypeError`. -/
def keywords (s : Sig) (kwargs : List (Str × V)) : Option (List (Str × V)) :=
  if s.isAsync then
    if s.kw then some kwargs else some []
  else if s.kw then
    if kwargs.all fun kv => kv.1 = "name".toList then some [] else none
  else some []

/-- The keyword arguments with which the function itself is called, /repo/lilya/decorators.py:71-74.  Those of a
synchronous function are given to `run_sync`, which knows `abandon_on_cancel`, `cancellable` and `limiter`; `none` is
its
`TypeError`.  What `run_sync` does with a `limiter` that is none is left out. -/
def own (s : Sig) (kwargs : List (Str × V)) : Option (List (Str × V)) :=
  if s.isAsync then some kwargs
  else if kwargs.all fun kv => kv.1 ∈ ["abandon_on_cancel".toList, "cancellable".toList, "limiter".toList] then some []
  else none

/-- The task of one listener: not begun, begun, returned, raised, or cancelled (after it had begun, or before). -/
inductive Task where
  | waiting
  | started
  | returned
  | failed
  | cut (began : Bool)
deriving DecidableEq

/-- The task that emits one event: not begun, cancelled before it began, or the task group with the listeners of that
moment; `broken` when `start_soon` raised for a listener, after the ones before were added. -/
inductive Emit where
  | waiting
  | dropped
  | group (ls : List (Nat × Task)) (broken : Bool)

/-- Where a call is; `emits` has one entry for each event of `send`. -/
inductive Phase (V : Type) where
  | idle
  | running
  | emitting (v : V) (emits : List Emit)
  | done (o : Outcome V) (emits : List Emit)

/-- A listener was called: by which call, for which event of `send`, at which place of the listeners of the event; and
how. -/
structure Delivery (V : Type) where
  call : Nat
  event : Nat
  place : Nat
  fn : Nat
  args : List V
  kwargs : List (Str × V)

/-- What can happen next. -/
inductive Act (V : Type) where
  | subscribe (e : Str) (f : Nat)
  | begin (i : Nat)
  | ends (i : Nat) (o : Outcome V)
  | emit (i n : Nat)
  | start (i n m : Nat)
  | stop (i n m : Nat) (ok : Bool)
  | cut (i n m : Nat)
  | drop (i n : Nat)
  | over (i : Nat)

/-- The dispatcher, the calls, which functions were called by whom, and which listeners were. -/
structure St (V : Type) where
  table : Table
  phase : Nat → Phase V
  ran : List (Nat × List V × List (Str × V))
  log : List (Delivery V)

/-- A call moves on. -/
def St.put (s : St V) (i : Nat) (p : Phase V) : St V :=
  { s with phase := fun j => if j = i then p else s.phase j }

/-- `for listener in listeners: … tg.start_soon(…)`, /repo/lilya/_internal/_events.py:168-181: the tasks that were added
until `start_soon` raised. -/
def group (sig : Nat → Sig) (kwargs : List (Str × V)) (fs : List Nat) : Emit :=
  .group ((fs.takeWhile fun f => (keywords (sig f) kwargs).isSome).map fun f => (f, .waiting))
    (!fs.all fun f => (keywords (sig f) kwargs).isSome)

/-- Something in this task has raised. -/
def Emit.hasFailed : Emit → Bool
  | .group ls broken => broken || ls.any fun l => l.2 = .failed
  | _ => false

/-- A task that is over. -/
def Task.settled : Task → Bool
  | .waiting => false
  | .started => false
  | _ => true

/-- A task group that can be left. -/
def Emit.settled : Emit → Bool
  | .waiting => false
  | .dropped => true
  | .group ls _ => ls.all fun l => l.2.settled

/-- The task of the listener at a place changes. -/
def setTask (emits : List Emit) (n : Nat) (ls : List (Nat × Task)) (broken : Bool) (m f : Nat) (t : Task) : List Emit :=
  emits.set n (.group (ls.set m (f, t)) broken)

/-- The task of the listener, if there is one. -/
def task? (emits : List Emit) (n m : Nat) : Option (List (Nat × Task) × Bool × Nat × Task) :=
  match emits[n]? with
  | some (.group ls broken) =>
    match ls[m]? with
    | some (f, t) => some (ls, broken, f, t)
    | none => none
  | _ => none

/-- One step; an action that is not possible changes nothing.  A failure anywhere cancels the other tasks of the call
(the task groups of /repo/lilya/decorators.py:78 and /repo/lilya/_internal/_events.py:167), each of them at some later
moment or not at all when it ends before. -/
def step (sig : Nat → Sig) (calls : Nat → Call V) (s : St V) : Act V → St V
  | .subscribe e f => { s with table := subscribe s.table e f }
  | .begin i =>
    match s.phase i with
    | .idle =>
      match own (sig (calls i).fn) (calls i).kwargs with
      | some kw => { s.put i .running with ran := s.ran ++ [(i, (calls i).args, kw)] }
      | none => s.put i (.done .raised [])
    | _ => s
  | .ends i o =>
    match s.phase i with
    | .running =>
      match o with
      | .raised => s.put i (.done .raised [])
      | .value v => s.put i (.emitting v ((calls i).send.map fun _ => .waiting))
    | _ => s
  | .emit i n =>
    match s.phase i with
    | .emitting v emits =>
      match emits[n]?, (calls i).send[n]? with
      | some .waiting, some e =>
        s.put i (.emitting v (emits.set n (group sig (calls i).kwargs ((aget s.table e).getD []))))
      | _, _ => s
    | _ => s
  | .start i n m =>
    match s.phase i with
    | .emitting v emits =>
      match task? emits n m with
      | some (ls, broken, f, .waiting) =>
        { s.put i (.emitting v (setTask emits n ls broken m f .started)) with
          log := s.log ++ [⟨i, n, m, f, (calls i).args, (keywords (sig f) (calls i).kwargs).getD []⟩] }
      | _ => s
    | _ => s
  | .stop i n m ok =>
    match s.phase i with
    | .emitting v emits =>
      match task? emits n m with
      | some (ls, broken, f, .started) =>
        s.put i (.emitting v (setTask emits n ls broken m f (if ok then .returned else .failed)))
      | _ => s
    | _ => s
  | .cut i n m =>
    match s.phase i with
    | .emitting v emits =>
      if emits.any Emit.hasFailed then
        match task? emits n m with
        | some (ls, broken, f, .waiting) => s.put i (.emitting v (setTask emits n ls broken m f (.cut false)))
        | some (ls, broken, f, .started) => s.put i (.emitting v (setTask emits n ls broken m f (.cut true)))
        | _ => s
      else s
    | _ => s
  | .drop i n =>
    match s.phase i with
    | .emitting v emits =>
      if emits.any Emit.hasFailed then
        match emits[n]? with
        | some .waiting => s.put i (.emitting v (emits.set n .dropped))
        | _ => s
      else s
    | _ => s
  | .over i =>
    match s.phase i with
    | .emitting v emits =>
      if emits.all Emit.settled then
        s.put i (.done (if emits.any Emit.hasFailed then .raised else .value v) emits)
      else s
    | _ => s

/-- Nothing has happened. -/
def start : St V := ⟨[], fun _ => .idle, [], []⟩

/-- What a history leads to. -/
def run (sig : Nat → Sig) (calls : Nat → Call V) (h : List (Act V)) : St V := h.foldl (step sig calls) start

end Verif.Observe
