import Verif.Guards.Model

/-!
# What the declarations promise

The promise is about the declarations alone: a handler stands in the tree below certain guards, and
it must not be called unless the request has passed every one of them, from the outside inwards.
-/

namespace Verif.Guards.Spec

/-- The guards declared on an application or router, outermost first. -/
def shellGuards (s : Shell) : List Guard := s.outer ++ s.before ++ s.middleware ++ s.declared

/-- `Under r gs h`: handler `h` stands in the tree `r`, and `gs` are the guards declared on the way
down to it, outermost first. -/
inductive Under : Route → List Guard → Nat → Prop where
  | path (p : PathDecl) : Under (.path p) (p.before ++ p.middleware ++ p.permissions) p.handler
  | incl {r : Route} {gs : List Guard} {h : Nat} (hit : Bool) (b m pr : List Guard) (s : Shell)
      (routes : List Route) : r ∈ routes → Under r gs h →
      Under (.incl hit b m pr s routes) (b ++ m ++ pr ++ shellGuards s ++ gs) h

/-- The same for a whole application. -/
def UnderApp (s : Shell) (routes : List Route) (gs : List Guard) (h : Nat) : Prop :=
  ∃ r ∈ routes, ∃ inner, Under r inner h ∧ gs = shellGuards s ++ inner

/-- The promise for one request: every handler that is called stands in the tree below exactly the
guards that the request has passed, in that order, and each of those let it pass. -/
def Guarded (w : World) (s : Shell) (routes : List Route) (calls : Calls) : Prop :=
  ∀ c ∈ calls, UnderApp s routes c.2 c.1 ∧ ∀ g ∈ c.2, w.lets g = true

/-- No guard is declared on the shell of an application. -/
def Bare (s : Shell) : Prop := shellGuards s = []

/-- The tree has been left as it was made, and an application in it that is served by its fast path
declares nothing itself. -/
inductive Harmless : Route → Prop where
  | path (p : PathDecl) : Harmless (.path p)
  | incl (hit : Bool) (b m pr : List Guard) (s : Shell) (routes : List Route) :
      s.declared = s.applied → (fastPath s routes = none ∨ Bare s) → (∀ r ∈ routes, Harmless r) →
      Harmless (.incl hit b m pr s routes)

/-- The paths of a tree. -/
inductive InTree : PathDecl → Route → Prop where
  | path (p : PathDecl) : InTree p (.path p)
  | incl {p : PathDecl} {r : Route} (hit : Bool) (b m pr : List Guard) (s : Shell)
      (routes : List Route) : r ∈ routes → InTree p r → InTree p (.incl hit b m pr s routes)

/-- The promise that is kept without exception: the guards declared on the path of the handler. -/
def PathGuarded (w : World) (routes : List Route) (calls : Calls) : Prop :=
  ∀ c ∈ calls, ∃ r ∈ routes, ∃ p, InTree p r ∧ p.handler = c.1 ∧
    (p.before ++ p.middleware ++ p.permissions) <:+ c.2 ∧ ∀ g ∈ c.2, w.lets g = true

/-- The request is not for this route: the pattern or the method is another, or it is an `Include` that was given routes
none of which the request is for, and whose guards let the request pass. -/
inductive Misses (w : World) : Route → Prop where
  | path (p : PathDecl) : p.hit = false ∨ p.method = false → Misses w (.path p)
  | incl (b m pr : List Guard) (s : Shell) (routes : List Route) : Misses w (.incl false b m pr s routes)
  | empty (b m pr : List Guard) (s : Shell) (routes : List Route) : s.lilya = false → s.sub = true →
      (∀ g ∈ b ++ (m ++ pr), w.lets g = true) → (∀ g ∈ s.row, w.lets g = true) → (∀ r ∈ routes, Misses w r) →
      Misses w (.incl true b m pr s routes)

mutual

/-- The tree without any guard, served by its routes alone. -/
def strip : Route → Route
  | .path p => .path { p with before := [], middleware := [], permissions := [] }
  | .incl hit _ _ _ s routes =>
    .incl hit [] [] [] (Shell.fresh false s.sub false [] [] [] []) (stripAll routes)

/-- The same for every tree of a list. -/
def stripAll : List Route → List Route
  | [] => []
  | r :: rs => strip r :: stripAll rs

end

/-- A `Lilya` is never the router that an `Include` makes. -/
inductive Sorted : Route → Prop where
  | path (p : PathDecl) : Sorted (.path p)
  | incl (hit : Bool) (b m pr : List Guard) (s : Shell) (routes : List Route) :
      (s.lilya = true → s.sub = false) → (∀ r ∈ routes, Sorted r) →
      Sorted (.incl hit b m pr s routes)

end Verif.Guards.Spec
