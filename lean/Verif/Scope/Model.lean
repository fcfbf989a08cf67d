import Verif.Basic

/-!
# Scope isolation

Model of `ScopeIsolationMiddleware`, `copy_scope_for_middleware` and `apply_asgi_stack`
(/repo/lilya/_internal/_middleware.py).  A scope is a Python dictionary whose values are either immutable or
references to mutable objects, so that sharing is visible.  Middleware and applications are
programs over their scope.
-/

namespace Verif.Scope

open Verif

/-- A value in a scope: immutable, or a reference to a mutable object. -/
inductive Val where
  | atom (s : Str)
  | ref (n : Nat)
deriving DecidableEq, Repr

/-- A connection scope. -/
abbrev Scope := List (Str × Val)

/-- A mutable object (a list of headers, a dictionary of state). -/
abbrev Obj := List (Str × Str)

/-- The mutable objects; a reference is an index. -/
abbrev Heap := List Obj

/-- What can be observed of a run: the scope of the running program at each message it sends, its scope
and the objects at the end, and the notes made on the way by it and everything it called. -/
structure Run where
  sends : List Scope
  final : Scope
  heap : Heap
  log : List (Str × Scope)
deriving DecidableEq, Repr

/-- An ASGI application, as far as scopes go. -/
abbrev App := Heap → Scope → Run

/-- The key of the headers. -/
def headersKey : Str := "headers".toList

/-- `ROUTE_SCOPE_KEYS` (/repo/lilya/_internal/_middleware.py 10). -/
def routeKeys : List Str := ["route".toList, "route_path_template".toList, "handler".toList]

/-- `copy_scope_for_middleware` (/repo/lilya/_internal/_middleware.py 31-48): a copy of the dictionary with
a fresh list of headers.  Simplification: the regrouping of a `Header` instance into a list is not
represented. -/
def copy (h : Heap) (s : Scope) : Heap × Scope :=
  match aget s headersKey with
  | some (.ref n) => (h ++ [h.getD n []], aset s headersKey (.ref h.length))
  | _ => (h, s)

/-- One key of `sync_route_metadata`. -/
def syncKey (source target : Scope) (k : Str) : Scope :=
  match aget source k with
  | some v => aset target k v
  | none => target

/-- `sync_route_metadata` (/repo/lilya/_internal/_middleware.py 64-74): the target afterwards. -/
def sync (source target : Scope) : Scope := routeKeys.foldl (syncKey source) target

/-- The effect on the scope of the caller of the messages a child sends
(/repo/lilya/_internal/_middleware.py 80-85): the metadata is reported at the first message, and then the
caller's own send function runs at each message. -/
def onSends (onSend : Scope → Scope) : Bool → Scope → List Scope → List Scope × Scope
  | _, s, [] => ([], s)
  | synced, s, x :: xs =>
    let s1 := onSend (if synced then s else sync x s)
    let rest := onSends onSend true s1 xs
    (s1 :: rest.1, rest.2)

/-- `ScopeIsolationMiddleware.__call__` (/repo/lilya/_internal/_middleware.py 76-90) as seen by the caller,
whose send function changes the caller's scope by `onSend`. -/
def callIsolated (onSend : Scope → Scope) (child : App) (h : Heap) (s : Scope) : Run :=
  let c := copy h s
  let r := child c.1 c.2
  let o := onSends onSend false s r.sends
  ⟨o.1, sync r.final o.2, r.heap, r.log⟩

/-- `ScopeIsolationMiddleware(app)` as an application. -/
def iso (app : App) : App := callIsolated id app

/-- What a middleware or an endpoint can do with its scope. -/
inductive Act where
  /-- `scope[k] = v` with an immutable value -/
  | set (k v : Str)
  /-- `scope[k] = [...]`: a new object -/
  | alloc (k : Str) (o : Obj)
  /-- `scope[k] = scope[k']` -/
  | alias (k k' : Str)
  /-- `scope.pop(k, None)` -/
  | del (k : Str)
  /-- change the object under `k` in place -/
  | mutate (k : Str) (f : Obj → Obj)
  /-- `await send(message)` -/
  | send
  /-- write a note of the present scope -/
  | note (name : Str)
  /-- `await self.app(scope, receive, send)`; nothing for an endpoint -/
  | call

/-- A program: the actions, and the keys its send function sets when something inside sends. -/
structure Prog where
  acts : List Act
  onSend : List (Str × Str)

/-- The send function of a program. -/
def Prog.sendFn (p : Prog) (s : Scope) : Scope :=
  p.onSend.foldl (fun s kv => aset s kv.1 (.atom kv.2)) s

/-- Change of an object in the heap. -/
def mutateAt (h : Heap) (s : Scope) (k : Str) (f : Obj → Obj) : Heap :=
  match aget s k with
  | some (.ref n) => h.modify n f
  | _ => h

/-- `scope[k] = scope[k']` (nothing when there is no such key). -/
def aliasKey (s : Scope) (k k' : Str) : Scope :=
  match aget s k' with
  | some v => aset s k v
  | none => s

/-- Running the actions of a program whose child is wrapped in the isolation middleware. -/
def exec (onSend : Scope → Scope) (child : Option App) : List Act → App
  | [], h, s => ⟨[], s, h, []⟩
  | .set k v :: as, h, s => exec onSend child as h (aset s k (.atom v))
  | .alloc k o :: as, h, s => exec onSend child as (h ++ [o]) (aset s k (.ref h.length))
  | .alias k k' :: as, h, s => exec onSend child as h (aliasKey s k k')
  | .del k :: as, h, s => exec onSend child as h (adel s k)
  | .mutate k f :: as, h, s => exec onSend child as (mutateAt h s k f) s
  | .send :: as, h, s =>
    let r := exec onSend child as h s
    { r with sends := s :: r.sends }
  | .note n :: as, h, s =>
    let r := exec onSend child as h s
    { r with log := (n, s) :: r.log }
  | .call :: as, h, s =>
    match child with
    | none => exec onSend child as h s
    | some app =>
      let c := callIsolated onSend app h s
      let r := exec onSend child as c.heap c.final
      ⟨c.sends ++ r.sends, r.final, r.heap, c.log ++ r.log⟩

/-- An endpoint. -/
def endpoint (p : Prog) : App := exec p.sendFn none p.acts

/-- A middleware instance `cls(ScopeIsolationMiddleware(child), ...)`. -/
def layer (p : Prog) (child : App) : App := exec p.sendFn (some child) p.acts

/-- `apply_asgi_stack` (/repo/lilya/_internal/_middleware.py 93-112) for an application that is not a
controller class. -/
def stack (app : App) (ms : List Prog) : App :=
  ms.reverse.foldl (fun app m => iso (layer m app)) app

end Verif.Scope
