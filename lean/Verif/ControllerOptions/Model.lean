import Verif.Basic

/-!
# Options declared on a controller class

A controller class can declare permissions, middlewares, exception handlers, dependencies and
callbacks for itself.  A `Path` or `WebSocketPath` that is made for the class adds them to its own
(`_apply_controller_options`, `/repo/lilya/routing/path.py` lines 181-210,
`/repo/lilya/routing/websocket.py` lines 130-154).
-/

namespace Verif.ControllerOptions

/-- The options of a class or of a route.  Permissions, middlewares and callbacks are kept as numbers;
exception handlers and dependencies as dictionaries from a key (an exception class or a name, as a
number) to what is declared. -/
structure Options where
  permissions : List Nat
  middleware : List Nat
  handlers : List (Nat × Nat)
  dependencies : List (Nat × Nat)
  before : List Nat
  after : List Nat
  deriving DecidableEq, Repr

/-- No options: those of `BaseController` (`/repo/lilya/controllers.py` lines 23-30). -/
def Options.none : Options := ⟨[], [], [], [], [], []⟩

/-- A class body: the options it sets, each if it sets it (`permissions = [...]` and so on). -/
structure Body where
  permissions : Option (List Nat)
  middleware : Option (List Nat)
  handlers : Option (List (Nat × Nat))
  dependencies : Option (List (Nat × Nat))
  before : Option (List Nat)
  after : Option (List Nat)
  deriving DecidableEq, Repr

/-- A class body that sets nothing. -/
def Body.empty : Body := ⟨.none, .none, .none, .none, .none, .none⟩

/-- A controller class: the class bodies in method resolution order down to, but without,
`Controller`. -/
abbrev Class := List Body

/-- `getattr` on a class: the first body that sets the attribute, else the default of
`BaseController` (`/repo/lilya/controllers.py` lines 23-30). -/
def attr {α : Type} (f : Body → Option α) (d : α) : Class → α
  | [] => d
  | b :: rest => match f b with
    | some v => v
    | .none => attr f d rest

/-- The options that can be read from a class. -/
def optionsOf (c : Class) : Options :=
  ⟨attr Body.permissions [] c, attr Body.middleware [] c, attr Body.handlers [] c,
   attr Body.dependencies [] c, attr Body.before [] c, attr Body.after [] c⟩

/-- The class made by `with_init` (`/repo/lilya/controllers.py` lines 84-132, for websockets lines
236-304): its base is `Controller`, not the class it was called on, and its body sets no options. -/
def withInit (_ : Class) : Class := [Body.empty]

/-- Lists that callers hand over are objects: a heap gives the content of each. -/
abbrev Heap := Nat → List Nat

/-- The arguments of a route.  The two lists of callbacks are objects (`none`: not given); of the
other arguments copies are made (`/repo/lilya/routing/path.py` lines 103-136). -/
structure Args where
  permissions : List Nat
  middleware : List Nat
  handlers : List (Nat × Nat)
  dependencies : List (Nat × Nat)
  before : Option Nat
  after : Option Nat
  deriving DecidableEq, Repr

/-- A list of callbacks of a route: the object it was given, or a list of its own. -/
inductive Cell where
  | given (a : Nat)
  | fresh (l : List Nat)
  deriving DecidableEq, Repr

/-- `before_request if before_request is not None else []` (`/repo/lilya/routing/path.py` lines
131-132). -/
def cellOf : Option Nat → Cell
  | some a => .given a
  | .none => .fresh []

/-- What is in a cell. -/
def content (h : Heap) : Cell → List Nat
  | .given a => h a
  | .fresh l => l

/-- `list.extend` on a cell: the object itself grows. -/
def extend (h : Heap) (c : Cell) (more : List Nat) : Heap × Cell :=
  match c with
  | .given a => (fun x => if x = a then h a ++ more else h x, .given a)
  | .fresh l => (h, .fresh (l ++ more))

/-- A route as made: its layers and dictionaries, and its lists of callbacks. -/
structure Made where
  permissions : List Nat
  middleware : List Nat
  handlers : List (Nat × Nat)
  dependencies : List (Nat × Nat)
  before : Cell
  after : Cell
  deriving DecidableEq, Repr

/-- What a route leads to: a function, a controller class `C`, or the class `C.with_init(…)`. -/
inductive Handler where
  | function
  | controller (c : Class)
  | initialised (c : Class)
  deriving DecidableEq, Repr

/-- The dependencies of a `Path` (`/repo/lilya/routing/path.py` lines 199-202) are updated by those
of the class; those of a `WebSocketPath` only if it has some itself
(`/repo/lilya/routing/websocket.py` lines 147-148). -/
def mergeDeps (websocket : Bool) (own more : List (Nat × Nat)) : List (Nat × Nat) :=
  if websocket ∧ own = [] then own else aupdate own more

/-- `hasattr(self.app, "__is_controller__")` (`/repo/lilya/routing/path.py` line 185): the class whose
options are read, if the handler is one. -/
def classOf : Handler → Option Class
  | .function => none
  | .controller c => some c
  | .initialised c => some (withInit c)

/-- `Path.__init__` and `WebSocketPath.__init__` with `_apply_controller_options`
(`/repo/lilya/routing/path.py` lines 77-210, `/repo/lilya/routing/websocket.py` lines 44-154).
Callables given as strings, wrappers and the pattern are left out. -/
def make (websocket : Bool) (h : Heap) (a : Args) (x : Handler) : Heap × Made :=
  match classOf x with
  | none =>
    (h, ⟨a.permissions, a.middleware, a.handlers, a.dependencies, cellOf a.before, cellOf a.after⟩)
  | some c =>
    let o := optionsOf c
    let b := extend h (cellOf a.before) o.before
    let e := extend b.1 (cellOf a.after) o.after
    (e.1, ⟨a.permissions ++ o.permissions, a.middleware ++ o.middleware,
      aupdate a.handlers o.handlers, mergeDeps websocket a.dependencies o.dependencies, b.2, e.2⟩)

/-- Routes are made one after the other, as in the list `routes=[Path(…), Path(…), …]`. -/
def makeAll (websocket : Bool) (h : Heap) : List (Args × Handler) → Heap × List Made
  | [] => (h, [])
  | (a, x) :: rest =>
    let m := make websocket h a x
    let r := makeAll websocket m.1 rest
    (r.1, m.2 :: r.2)

/-- The first permission or middleware around a controller class makes an instance of it without
arguments (`/repo/lilya/protocols/permissions.py` lines 11-16, `/repo/lilya/protocols/middleware.py`
lines 11-16, `/repo/lilya/_internal/_middleware.py` lines 93-113).  The constructor of a
`WebSocketController` needs three (`/repo/lilya/controllers.py` lines 202-208), which is a `TypeError`;
the class made by `with_init` takes any number (lines 253-268).  Layers are taken to be of these two
protocols, and controllers to keep the constructor of their base. -/
def refused (websocket : Bool) (a : Args) : Handler → Bool
  | .controller c => websocket && !((a.permissions ++ (optionsOf c).permissions) ++
      (a.middleware ++ (optionsOf c).middleware)).isEmpty
  | _ => false

/-- The routes of a program, `none` if making one of them raises. -/
def build (websocket : Bool) (h : Heap) (l : List (Args × Handler)) : Option (Heap × List Made) :=
  if l.any (fun p => refused websocket p.1 p.2) then none else some (makeAll websocket h l)

/-- The options in force on a route when a request comes (`/repo/lilya/routing/path.py` lines
386-438): the callback lists are read then. -/
def inForce (h : Heap) (m : Made) : Options :=
  ⟨m.permissions, m.middleware, m.handlers, m.dependencies, content h m.before, content h m.after⟩

end Verif.ControllerOptions
