import Verif.Basic

/-!
# Controllers with constructor arguments

`WebSocketController.with_init`, `/repo/lilya/controllers.py` 214-303 (the class made by `Controller.with_init`,
62-132, is the same without the stored connection).  A connection is the three values `scope`, `receive`
and `send`, which are always passed on together; it is modelled by a value of one type.  Constructing a
class and awaiting the result happen without a suspension in between when written in one expression, and the
coroutine that is awaited keeps its connection, so a step of the model is one such expression.
-/

namespace Verif.SocketFactory

/-- Classes.  `plain n` is a class written by a user; `factory i base a` is the class made by a call of
`base.with_init(*a)`; `sub i p` is a subclass of a class made so, that overrides nothing of the factory.
The number `i` is the identity of the class. -/
inductive Cls (A : Type) where
  | plain (n : Nat)
  | factory (i : Nat) (base : Cls A) (a : A)
  | sub (i : Nat) (p : Cls A)
deriving DecidableEq

/-- A controller that was constructed: its class, its connection, its constructor arguments. -/
structure Made (A C : Type) where
  cls : Nat
  conn : C
  args : A
deriving DecidableEq

/-- For each class with identity `i`: whether `_singleton` in its own dictionary is an object, and the
connection stored on that object (`/repo/lilya/controllers.py` 252, 254-270).  As a class makes at most one
object, the object is known by the class that made it. -/
structure St (C : Type) where
  made : Nat → Bool
  conn : Nat → Option C

/-- No class was used. -/
def St.start {C : Type} : St C := ⟨fun _ => false, fun _ => none⟩

/-- The object of class `i` is made (or there already), without a call of `__init__` with a connection. -/
def St.mark {C : Type} (s : St C) (i : Nat) : St C := { s with made := fun k => if k = i then true else s.made k }

/-- `__init__` stores the connection on the object of class `i`, `/repo/lilya/controllers.py` 262-270. -/
def St.store {C : Type} (s : St C) (i : Nat) (c : C) : St C :=
  { s.mark i with conn := fun k => if k = i then some c else s.conn k }

variable {A C : Type}

/-- The value of the attribute `_singleton` looked up on a class through its ancestors: the identity of the class
that made the object, or `none` for `None` (`/repo/lilya/controllers.py` 252, 258). -/
def found (s : St C) : Cls A → Option Nat
  | .plain _ => none
  | .factory i _ _ => if s.made i then some i else none
  | .sub i p => if s.made i then some i else found s p

mutual
/-- `await c(scope, receive, send, *a)`; `none` if an exception is raised.  For a class made by `with_init`:
`__new__`, 254-260; `__init__` if the object is an instance of the class, 262-270; `__await__`, 272-284. -/
def run (s : St C) (c : Cls A) (conn : C) (a : A) : St C × Option (Made A C) :=
  match c with
  | .plain n => (s, some ⟨n, conn, a⟩)
  | .factory i base b => run (s.store i conn) base conn b
  | .sub i p =>
    if s.made i then inner (s.store i conn) p conn
    else
      match found s p with
      | none => inner (s.store i conn) p conn
      | some k =>
        match s.conn k with
        | none => (s, none)
        | some old => inner s p old
/-- The rest of `__await__` and the body of `__call__` for an object of class `c`: a controller of the class given
to the factory is constructed and awaited, `/repo/lilya/controllers.py` 279-284, 292-297. -/
def inner (s : St C) (c : Cls A) (conn : C) : St C × Option (Made A C) :=
  match c with
  | .plain _ => (s, none)
  | .factory _ base b => run s base conn b
  | .sub _ p => inner s p conn
end

/-- `c()`: the object is looked up or made, and `__init__` stores nothing
(`/repo/lilya/controllers.py` 254-270). -/
def empty (s : St C) (c : Cls A) : St C :=
  match c with
  | .plain _ => s
  | .factory i _ _ => s.mark i
  | .sub i p => if (found s (.sub i p)).isSome then s else s.mark i

/-- What a program does with a class: `await c(scope, receive, send)` (a route without options);
`await c()(scope, receive, send)` (a route with permissions or middlewares,
`/repo/lilya/protocols/permissions.py` 10-18); `c(scope, receive, send)` alone; `await` on the object that
`c()` yields. -/
inductive Step (A C : Type) where
  | connect (c : Cls A) (conn : C)
  | call (c : Cls A) (conn : C)
  | make (c : Cls A) (conn : C)
  | wait (c : Cls A)

/-- `c(scope, receive, send)` without `await`, `/repo/lilya/controllers.py` 254-270. -/
def build (s : St C) (c : Cls A) (conn : C) : St C :=
  match c with
  | .plain _ => s
  | .factory i _ _ => s.store i conn
  | .sub i p => if s.made i ∨ found s p = none then s.store i conn else s

/-- `await` on the object that `c()` yields, `/repo/lilya/controllers.py` 272-284; `none` if an exception is
raised. -/
def wait (s : St C) (c : Cls A) : St C × Option (Made A C) :=
  match found (empty s c) c with
  | none => (s, none)
  | some k =>
    match s.conn k with
    | none => (empty s c, none)
    | some old => inner (empty s c) c old

/-- One step; a class of a user gets the arguments `a0` (none at all) when it is connected directly. -/
def step (a0 : A) (s : St C) : Step A C → St C × Option (Made A C)
  | .connect c conn => run s c conn a0
  | .call c conn => inner (empty s c) c conn
  | .make c conn => (build s c conn, none)
  | .wait c => wait s c

/-- The state after a history. -/
def after (a0 : A) (s : St C) : List (Step A C) → St C
  | [] => s
  | x :: xs => after a0 (step a0 s x).1 xs

/-- What a step serves after a history; `none` if it raises. -/
def serves (a0 : A) (h : List (Step A C)) (x : Step A C) : Option (Made A C) := (step a0 (after a0 .start h) x).2

end Verif.SocketFactory
