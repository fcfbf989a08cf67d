import Verif.Basic

/-!
# Synchronous code beside the event loop, and asynchronous code from synchronous code

Model of `is_async_callable` and `run_sync` (/repo/lilya/compat.py 42-78), of `AsyncResourceHandler` (81-127), of
`/repo/lilya/concurrency.py`, and of the three ways in which the package calls a function that it was given.
`anyio.run` refuses to run when an event loop runs in the thread and otherwise runs its function in a new one;
`anyio.to_thread.run_sync` calls its function once in a worker thread with the context of the caller; a thread of
`ThreadPoolExecutor` starts with an empty context.  Simplifications: exceptions are told apart only by whether they
are a `RuntimeError` (with its subclasses, such as `NotImplementedError`) and by their text; the limit of worker
threads, waiting and cancellation are left out.
-/

namespace Verif.Bridge

/-- Where something runs: in the thread of the caller (for asynchronous callers: on their event loop) or in a worker
thread. -/
inductive Place where
  | caller
  | worker
  deriving DecidableEq

/-- Exceptions: a `RuntimeError` or one of its subclasses, another one, and a group made by a task group, which holds
one exception here. -/
inductive Exc where
  | runtime (text : Str)
  | other (text : Str)
  | group (e : Exc)
  deriving DecidableEq

/-- How a call ends. -/
inductive Out (α : Type) where
  | value (a : α)
  | raised (e : Exc)
  deriving DecidableEq

/-! ## Asynchronous code from synchronous code -/

/-- What `run_sync` is given (/repo/lilya/compat.py 65-72): a coroutine object, a coroutine function, or something
else. -/
inductive Kind where
  | coroutine
  | function
  | other
  deriving DecidableEq

/-- The message of `anyio.run` when a loop is running (simplified: without the name of the library). -/
def busy : Exc := .runtime "Already running asyncio in this thread".toList

/-- The message of Python when a coroutine object is awaited for the second time. -/
def reused : Exc := .runtime "cannot reuse already awaited coroutine".toList

/-- The refusal of `run_sync` (/repo/lilya/compat.py 70-72; the type is left out). -/
def refused : Exc := .other "run_sync() expects an async function or coroutine object".toList

/-- The body of the coroutine is executed in a place: `f n c` is how the execution number `n`, counted from none, ends
in the context `c`; the log has the places of the executions so far.  A coroutine object executes once
(/repo/lilya/compat.py 66, 68: the first lambda gives the same object each time, the second one makes a new one). -/
def execute (k : Kind) (f : Nat → κ → Out α) (p : Place) (c : κ) (log : List Place) : Out α × List Place :=
  if k = .coroutine ∧ log ≠ [] then (.raised reused, log) else (f log.length c, log ++ [p])

/-- `anyio.run(wrapper_fn)` in a thread in which a loop is running or not. -/
def anyioRun (running : Bool) (k : Kind) (f : Nat → κ → Out α) (p : Place) (c : κ) (log : List Place) :
    Out α × List Place :=
  if running then (.raised busy, log) else execute k f p c log

/-- What `except RuntimeError` catches (/repo/lilya/compat.py 75). -/
def Out.isRuntime : Out α → Bool
  | .raised (.runtime _) => true
  | _ => false

/-- `run_sync` (/repo/lilya/compat.py 65-78); `fresh` is the empty context of a new thread. -/
def runSync (running : Bool) (k : Kind) (f : Nat → κ → Out α) (c fresh : κ) : Out α × List Place :=
  if k = .other then (.raised refused, [])
  else
    let first := anyioRun running k f .caller c []
    if first.1.isRuntime then anyioRun false k f .worker fresh first.2 else first

/-! ## Which functions are asynchronous -/

/-- A function: `async def`, `def`, and a `def` that gives an awaitable back, such as a lambda that calls an
`async def`. -/
inductive Fn where
  | async
  | sync
  | lazy
  deriving DecidableEq

/-- Something that can be called: a function, an object whose class has a `__call__`, a class, whose objects may have a
`__call__`, and a `functools.bound`. -/
inductive Obj where
  | fn (f : Fn)
  | inst (call : Fn)
  | cls (call : Option Fn)
  | bound (o : Obj)

/-- `inspect.iscoroutinefunction` of a function. -/
def Fn.isCoroutine : Fn → Bool
  | .async => true
  | _ => false

/-- `is_async_callable` (/repo/lilya/compat.py 46-51).  `obj.__call__` of an object is the method of its class; of a
class it is the function that the class has under that name, if it has one. -/
def isAsync : Obj → Bool
  | .fn f => f.isCoroutine
  | .inst f => f.isCoroutine
  | .cls (some f) => f.isCoroutine
  | .cls none => false
  | .bound o => isAsync o

/-- What happens: synchronous code of the function runs in a place, its asynchronous code is awaited, or something
that is not awaitable is awaited, which is a `TypeError`. -/
inductive Ev where
  | ran (p : Place)
  | awaited
  | typeError
  deriving DecidableEq

/-- Whether a call gives an awaitable. -/
def givesAwaitable : Obj → Bool
  | .fn .sync => false
  | .fn _ => true
  | .inst .sync => false
  | .inst _ => true
  | .cls _ => false
  | .bound o => givesAwaitable o

/-- The synchronous part of a call in a place: a call of an `async def` runs nothing yet, a call of a class runs its
constructor. -/
def callIn (p : Place) : Obj → List Ev
  | .fn .async => []
  | .fn _ => [.ran p]
  | .inst .async => []
  | .inst _ => [.ran p]
  | .cls _ => [.ran p]
  | .bound o => callIn p o

/-- `await` of what a call gave. -/
def awaitIt (o : Obj) : List Ev := if givesAwaitable o then [.awaited] else [.typeError]

/-- The three ways to call a function.
* `offload`: `await` it if it is asynchronous, otherwise run it in a worker thread
  (/repo/lilya/_internal/_responses.py 1206-1209, /repo/lilya/concurrency.py 13-26).
* `branch`: `await` it if it is asynchronous, otherwise call it (/repo/lilya/_internal/_events.py 39-42).
* `probe`: call it, and `await` the result if it is awaitable (/repo/lilya/lifecycle.py 162-166). -/
inductive Way where
  | offload
  | branch
  | probe
  deriving DecidableEq

/-- The call of a function in one of the ways. -/
def perform : Way → Obj → List Ev
  | .offload, o => if isAsync o then callIn .caller o ++ awaitIt o else callIn .worker o
  | .branch, o => if isAsync o then callIn .caller o ++ awaitIt o else callIn .caller o
  | .probe, o => callIn .caller o ++ if givesAwaitable o then [.awaited] else []

/-- The places of the package that call functions of the application. -/
inductive Site where
  | handler
  | beforeAfterRequest
  | exceptionHandler
  | serverErrorHandler
  | backgroundTask
  | startupShutdown
  | dependency
  | contextProcessor
  | lifecycleHook
  | sessionInitializer
  | requestCleanup
  deriving DecidableEq

/-- How each of them calls: handlers (/repo/lilya/_internal/_responses.py 326-363), functions before and after requests
(/repo/lilya/routing/path.py 392-410), handlers of exceptions (/repo/lilya/_internal/_exception_handlers.py 151-154)
and of
server errors (/repo/lilya/middleware/server_error.py 120-123), background tasks (/repo/lilya/background.py 60-66),
functions at the start and the end (/repo/lilya/routing/router.py 214-228), dependencies (/repo/lilya/dependencies.py
207-214, 306-310), context processors (/repo/lilya/templating/controllers.py 201-204), hooks (/repo/lilya/lifecycle.py
161-166), initial sessions (/repo/lilya/middleware/sessions.py 76-82) and cleanups of a request
(/repo/lilya/requests.py 339-342). -/
def way : Site → Way
  | .handler => .offload
  | .beforeAfterRequest => .offload
  | .exceptionHandler => .offload
  | .serverErrorHandler => .offload
  | .backgroundTask => .offload
  | .startupShutdown => .branch
  | .dependency => .branch
  | .contextProcessor => .branch
  | .lifecycleHook => .probe
  | .sessionInitializer => .probe
  | .requestCleanup => .probe

/-! ## Arguments of a call in a worker thread -/

/-- `{**default_kwargs, **kwargs}` (/repo/lilya/concurrency.py 41). -/
def combined (defaults given : List (Str × Str)) : List (Str × Str) :=
  given.foldl (fun d kv => aset d kv.1 kv.2) defaults

/-! ## Iteration of a synchronous iterable -/

/-- What happens to the iterable: `next` is called in a place; items reach the consumer. -/
inductive Step (α : Type) where
  | next (p : Place)
  | item (a : α)
  deriving DecidableEq

/-- What leaves a task group whose body raised (anyio 4). -/
def grouped : Option Exc → Option Exc
  | none => none
  | some e => some (.group e)

/-- The loop in `worker`, consumed by the loop that follows it (/repo/lilya/concurrency.py 51-53, 58-59): each `next`
of the iterable is called when the consumer asks for an item, on the event loop, since the thread only makes the
asynchronous generator (56).  The last `next` raises or ends. -/
def pulls : List α → List (Step α)
  | [] => [.next .caller]
  | a :: t => .next .caller :: .item a :: pulls t

/-- `iterate_in_threadpool` (/repo/lilya/concurrency.py 50-61): the iterable gives items and then ends or raises;
the result has what happened and the exception that reaches the consumer. -/
def iterate (items : List α) (fails : Option Exc) : List (Step α) × Option Exc :=
  (pulls items, grouped fails)

/-! ## Resources that can be awaited or entered -/

/-- The state of an `AsyncResourceHandler`: whether its coroutine was used, whether the resource was stored, and how
often the resource was closed. -/
structure Handle where
  used : Bool := false
  entered : Bool := false
  closes : Nat := 0
  deriving DecidableEq

/-- What is done with it: `await`, `async with` whose body ends or raises (that is, `__aenter__`, the body,
`__aexit__`). -/
inductive Use where
  | wait
  | within (body : Option Exc)
  deriving DecidableEq

/-- The result of one use (/repo/lilya/compat.py 97-127): the exception that it raises, if any, and the state.  The
resource is acquired by awaiting a coroutine, which ends or raises (`acquire`); `__aexit__` closes and returns `None`,
so
the exception of the body goes on.  Simplification: closing does not raise. -/
def use (acquire : Option Exc) (h : Handle) : Use → Option Exc × Handle
  | .wait =>
    if h.used then (some reused, h) else (acquire, { h with used := true })
  | .within body =>
    if h.used then (some reused, h)
    else match acquire with
      | some e => (some e, { h with used := true })
      | none => (body, { used := true, entered := true, closes := h.closes + 1 })

/-- A history of uses. -/
def uses (acquire : Option Exc) (h : Handle) : List Use → List (Option Exc) × Handle
  | [] => ([], h)
  | u :: t =>
    let r := use acquire h u
    let r' := uses acquire r.2 t
    (r.1 :: r'.1, r'.2)

end Verif.Bridge
