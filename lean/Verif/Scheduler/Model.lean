import Verif.Basic

/-!
# The scheduler of an application

`AsynczConfig` makes a scheduler, gives it the tasks named in a dictionary, and offers `start` and `shutdown` for the
startup and the shutdown of an application (`/repo/lilya/contrib/schedulers/asyncz/config.py`).  Tasks are functions
under the decorator `scheduler` (`/repo/lilya/contrib/schedulers/asyncz/decorator.py`).  What asyncz does with a task is
not modelled: its `add_task` is a parameter, and its `start` and `shutdown` are recorded.
-/

namespace Verif.Scheduler

open Verif

/-! ### Tasks -/

/-- The options that are handed on to asyncz as they are (trigger, name, grace time and the like; `args` and `kwargs`):
/repo/lilya/contrib/schedulers/asyncz/config.py:144-161.  Simplification: only three, and the others go the same way. -/
structure Options where
  id : Option Str
  name : Option Str
  args : Option (List Nat)
  deriving DecidableEq, Repr

/-- A function of the program: what it returns for arguments, and whether it is a coroutine function. -/
structure Func where
  call : List Nat → Nat
  isAsync : Bool

/-- `Task` (/repo/lilya/contrib/schedulers/asyncz/config.py:138-195).  `original` is `fn.__wrapped__` if there is one
(217-222). -/
structure Task where
  fn : Func
  original : Func
  options : Options
  replace : Bool
  enabled : Bool

/-- `Task(fn, …)` made by hand: nothing is replaced unless `replace_existing` is given
(/repo/lilya/contrib/schedulers/asyncz/config.py:144-161). -/
def Task.make (f : Func) (options : Options) (replace : Option Bool) (enabled : Option Bool) : Task :=
  { fn := f, original := f, options, replace := replace.getD false, enabled := enabled.getD true }

/-- The decorator `scheduler` (/repo/lilya/contrib/schedulers/asyncz/decorator.py:15-30 and 61-92): the function is
wrapped in one of the same sort, and a task of the same id is replaced by default. -/
def decorate (f : Func) (options : Options) (replace : Option Bool) (enabled : Option Bool) : Task :=
  { fn := if f.isAsync then { call := fun a => f.call a, isAsync := true }
          else { call := fun a => f.call a, isAsync := false }
    original := f
    options
    replace := replace.getD true
    enabled := enabled.getD true }

/-! ### Registering -/

/-- A key or a value of the dictionary of tasks: text, or anything else. -/
inductive Item where
  | text (s : Str)
  | other
  deriving DecidableEq, Repr

/-- What a dotted name stands for: a task, or an object without `is_enabled`, such as a plain function. -/
inductive Obj where
  | task (t : Task)
  | plain

/-- What is raised: `ImproperlyConfigured`, the error of the import, or `AttributeError`. -/
inductive Err where
  | improper (why : Str)
  | importing (why : Str)
  | attribute
  deriving DecidableEq, Repr

/-- The world outside: how names are imported (`monkay.load`), and what `add_task` of the scheduler does. -/
structure Outside (S : Type) where
  load : Str → Except Str Obj
  add : S → Task → Except Str S

/-- The dotted name under which a task is looked for (/repo/lilya/contrib/schedulers/asyncz/config.py:71). -/
def fullName (task module : Str) : Str := module ++ '.' :: task

/-- `Task.add_task` (/repo/lilya/contrib/schedulers/asyncz/config.py:197-215): whatever is raised becomes
`ImproperlyConfigured`. -/
def addTask {S : Type} (o : Outside S) (s : S) (t : Task) : Except Err S :=
  match o.add s t with
  | .ok s' => .ok s'
  | .error why => .error (.improper why)

/-- `register_tasks` (/repo/lilya/contrib/schedulers/asyncz/config.py:63-80). -/
def register {S : Type} (o : Outside S) : List (Str × Str) → S → Except Err S
  | [], s => .ok s
  | (task, module) :: rest, s =>
    match o.load (fullName task module) with
    | .error why => .error (.importing why)
    | .ok .plain => .error .attribute
    | .ok (.task t) =>
      if t.enabled then
        match addTask o s t with
        | .ok s' => register o rest s'
        | .error e => .error e
      else register o rest s

/-- The check of the dictionary (/repo/lilya/contrib/schedulers/asyncz/config.py:49-51). -/
def checked : List (Item × Item) → Except Err (List (Str × Str))
  | [] => .ok []
  | (.text k, .text v) :: rest =>
    match checked rest with
    | .ok l => .ok ((k, v) :: l)
    | .error e => .error e
  | _ :: _ => .error (.improper "The dict of tasks must be dict[str, str].".toList)

/-- What the class of the scheduler is called with: its configurations, if any, and its time zone. -/
structure Arguments where
  timezone : Str
  configurations : Option (List (Str × Str))
  deriving DecidableEq, Repr

/-- `get_scheduler` (/repo/lilya/contrib/schedulers/asyncz/config.py:82-110): without a time zone that of the settings
is
used, and an empty dictionary of configurations is left out. -/
def arguments (timezone : Option Str) (configurations : Option (List (Str × Str))) (settingsZone : Str) : Arguments :=
  { timezone := match timezone with
      | none => settingsZone
      | some [] => settingsZone
      | some z => z
    configurations := match configurations with
      | none => none
      | some [] => none
      | some l => some l }

/-- `AsynczConfig(…)` (/repo/lilya/contrib/schedulers/asyncz/config.py:24-61).  `tasks` is `none` if none are given. -/
def make {S : Type} (o : Outside S) (construct : Arguments → S) (tasks : Option (List (Item × Item)))
    (timezone : Option Str) (configurations : Option (List (Str × Str))) (settingsZone : Str) : Except Err S :=
  match checked (tasks.getD []) with
  | .error e => .error e
  | .ok l => register o l (construct (arguments timezone configurations settingsZone))

/-! ### Starting and shutting down -/

/-- What is called on a scheduler (/repo/lilya/contrib/schedulers/asyncz/config.py:112-128). -/
inductive Call where
  | start
  | shutdown
  deriving DecidableEq, Repr

/-- Where a program gets its configuration from whenever it needs it: an object made before, a function under
`lru_cache` (/repo/docs_src/scheduler/example2.py:19-41), or a function or a property of the settings that makes
another one each time (/repo/docs_src/scheduler/example.py:8-28,
/repo/docs_src/scheduler/tasks/from_settings.py:11-21). -/
inductive Source where
  | object (i : Nat)
  | cached
  | fresh
  deriving DecidableEq, Repr

/-- How many schedulers were made, the one in the cache, and the calls so far. -/
structure World where
  made : Nat
  cache : Option Nat
  calls : List (Nat × Call)
  deriving DecidableEq, Repr

/-- The configuration that a program gets: the number of its scheduler. -/
def access (w : World) : Source → World × Nat
  | .object i => (w, i)
  | .cached =>
    match w.cache with
    | some i => (w, i)
    | none => ({ w with made := w.made + 1, cache := some w.made }, w.made)
  | .fresh => ({ w with made := w.made + 1 }, w.made)

/-- `start` or `shutdown` of a configuration (/repo/lilya/contrib/schedulers/asyncz/config.py:112-128). -/
def call (w : World) (i : Nat) (c : Call) : World := { w with calls := w.calls ++ [(i, c)] }

/-- An application with `on_startup` and `on_shutdown`, started and stopped `n` times: both lists are made once, with
the
application (/repo/docs_src/scheduler/example.py:32-35; /repo/lilya/routing/router.py:111-130 for the events). -/
def runEvents (src : Source) (n : Nat) (w : World) : World :=
  let (w, a) := access w src
  let (w, b) := access w src
  Nat.repeat (fun w => call (call w a .start) b .shutdown) n w

/-- One run of a `lifespan` that gets the configuration twice (/repo/docs_src/scheduler/example2.py:10-16). -/
def lifespanOnce (src : Source) (w : World) : World :=
  let (w, a) := access w src
  let w := call w a .start
  let (w, b) := access w src
  call w b .shutdown

/-- An application with such a `lifespan`, started and stopped `n` times. -/
def runLifespan (src : Source) (n : Nat) (w : World) : World := Nat.repeat (lifespanOnce src) n w

/-! ### Schedulers of one's own -/

/-- The methods that a class derived from `SchedulerConfig` has itself. -/
structure Own where
  start : Bool
  shutdown : Bool
  stop : Bool
  deriving DecidableEq, Repr

/-- What a call of a method comes to: it runs, nothing happens, or `NotImplementedError`. -/
inductive Effect where
  | runs
  | nothing
  | notImplemented
  deriving DecidableEq, Repr

/-- `start` and `shutdown` of such a class.  `SchedulerConfig` (/repo/lilya/contrib/schedulers/base.py:6-14) has `start`
and `stop`; its `shutdown` is that of the protocol, whose body is `...`
(/repo/lilya/contrib/schedulers/protocols.py:7-12). -/
def Own.effect (k : Own) : Call → Effect
  | .start => if k.start then .runs else .notImplemented
  | .shutdown => if k.shutdown then .runs else .nothing

end Verif.Scheduler
