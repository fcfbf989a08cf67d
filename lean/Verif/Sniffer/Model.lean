import Verif.Basic

/-!
# Model of routes that pass a request on, and of what they have read of it

Source: /repo/lilya/datastructures.py:854-888 (`SendReceiveSniffer`),
/repo/lilya/routing/router.py:342-484 (`BaseRouter.app`), /repo/lilya/routing/types.py:20-62
(`PathHandler`, `PassPartialMatches`), /repo/lilya/routing/include.py:118-130 (the router of an
`Include` is a sub-router).

A router gives its routes a `receive` of its own (the sniffer), so that a message which was read
by a route that does not answer can be read again by the route tried next.
-/

namespace Verif.Sniffer

/-- The program of a handler, as the messages it receives and sends.  It returns, raises
`ContinueRouting` (`decline`, /repo/lilya/exceptions.py:93-97) or another exception, sends a
message, or receives one and goes on with it.  What is sent does not matter here. -/
inductive Prog (M : Type) where
  | ret
  | decline
  | raise
  | send (next : Prog M)
  | recv (next : M → Prog M)

/-- How a call of a handler ends.  `waits`: the handler receives where the server has no further
message, so that it does not end. -/
inductive End where
  | returned | declined | raised | waits
  deriving DecidableEq, Repr

/-- A `SendReceiveSniffer`, /repo/lilya/datastructures.py:868-874.  The flag `received` is left
out: nothing reads it. -/
structure Sn (M : Type) where
  message : Option M := none
  repeatIt : Bool := false
  sent : Bool := false
  deriving DecidableEq, Repr

/-- What can be observed: handler `h` received `m`; handler `h` sent a message. -/
inductive Ev (M : Type) where
  | got (h : Nat) (m : M)
  | sent (h : Nat)
  deriving DecidableEq, Repr

/-- The sniffers of the routers around the running handler, the innermost first; the messages the
server still has; what was observed. -/
structure St (M : Type) where
  sniffers : List (Sn M)
  src : List M
  log : List (Ev M)
  deriving DecidableEq, Repr

/-- `SendReceiveSniffer.receive` through all sniffers down to the server,
/repo/lilya/datastructures.py:876-881.  `none`: the server has no message. -/
def receive {M : Type} : List (Sn M) → List M → Option (M × List (Sn M) × List M)
  | [], [] => none
  | [], m :: src => some (m, [], src)
  | s :: ss, src =>
    match s.repeatIt, s.message with
    | true, some m => some (m, { s with repeatIt := false } :: ss, src)
    | _, _ =>
      match receive ss src with
      | none => none
      | some (m, ss', src') => some (m, { s with message := some m, repeatIt := false } :: ss', src')

/-- `SendReceiveSniffer.send` through all sniffers, /repo/lilya/datastructures.py:883-885. -/
def sendAll {M : Type} (ss : List (Sn M)) : List (Sn M) := ss.map fun s => { s with sent := true }

/-- A call of handler `h` with the `receive` and the `send` of the innermost sniffer. -/
def exec {M : Type} (h : Nat) : Prog M → St M → End × St M
  | .ret, s => (.returned, s)
  | .decline, s => (.declined, s)
  | .raise, s => (.raised, s)
  | .send next, s => exec h next ⟨sendAll s.sniffers, s.src, s.log ++ [.sent h]⟩
  | .recv next, s =>
    match receive s.sniffers s.src with
    | none => (.waits, s)
    | some (m, ss, src) => exec h (next m) ⟨ss, src, s.log ++ [.got h m]⟩

/-- A route which matches the request: a path matching path and method (`full`), a path matching
with another method (`part`), an `Include` with routes.  Routes that do not match are left out of
the list, as the loop goes on with the next one (router.py:427-429).  That an include has no
matching route at all and redirects slashes is left out here: see C05. -/
inductive Route where
  | full (h : Nat)
  | part (h : Nat)
  | sub (routes : List Route)

/-- What becomes of the request: it was answered, an exception left the router, the assertion
"Cannot continue routing when an answer was already sent." failed, or a handler waits for a
message that does not come. -/
inductive Out where
  | answered | raised | assertion | waits
  /-- the 405 answer of the path `h` -/
  | notAllowed (h : Nat)
  /-- the default handler was called and ended so -/
  | byDefault (e : End)
  /-- the call returned and nothing was sent -/
  | nothing
  deriving DecidableEq, Repr

/-- Result of the loop: stopped, or passed with partial matches. -/
inductive Res where
  | stop (o : Out)
  | passed (parts : List Nat)
  deriving DecidableEq, Repr

/-- `sniffer.sent` of the innermost router. -/
def headSent {M : Type} : List (Sn M) → Bool
  | [] => false
  | s :: _ => s.sent

/-- `sniffer.repeat_message = True` for the innermost router, router.py:438, 446. -/
def rearm {M : Type} (s : St M) : St M :=
  match s.sniffers with
  | [] => s
  | n :: ns => { s with sniffers := { n with repeatIt := true } :: ns }

mutual
/-- One turn of the loop, /repo/lilya/routing/router.py:430-446.  A sub-router which finds no
answer raises `PassPartialMatches` (465-467); its sniffer is forgotten then. -/
def tryRoute {M : Type} (prog : Nat → Prog M) : Route → St M → Res × St M
  | .full h, s =>
    match exec h (prog h) s with
    | (.returned, t) => if headSent t.sniffers then (.stop .answered, t) else (.passed [], rearm t)
    | (.declined, t) => if headSent t.sniffers then (.stop .assertion, t) else (.passed [], rearm t)
    | (.raised, t) => (.stop .raised, t)
    | (.waits, t) => (.stop .waits, t)
  | .part h, s => (.passed [h], s)
  | .sub rs, s =>
    match tryRoutes prog rs { s with sniffers := {} :: s.sniffers } [] with
    | (.stop .answered, t) =>
      let t' := { t with sniffers := t.sniffers.tail }
      if headSent t'.sniffers then (.stop .answered, t') else (.passed [], rearm t')
    | (r, t) => (r, { t with sniffers := t.sniffers.tail })

/-- The loop over the routes, /repo/lilya/routing/router.py:423-446. -/
def tryRoutes {M : Type} (prog : Nat → Prog M) : List Route → St M → List Nat → Res × St M
  | [], s, parts => (.passed parts, s)
  | r :: rs, s, parts =>
    if headSent s.sniffers then (.stop .answered, s)
    else
      match tryRoute prog r s with
      | (.stop o, t) => (.stop o, t)
      | (.passed more, t) => tryRoutes prog rs t (parts ++ more)
end

/-- `BaseRouter.app` of the main router, /repo/lilya/routing/router.py:418-484, for a request the
matching routes of which are `rs`.  The first partial match answers 405
(/repo/lilya/routing/path.py:378-385) and reads nothing.  The default handler `d` gets the
`receive` of the server, not that of the sniffer (484). -/
def app {M : Type} (prog : Nat → Prog M) (d : Nat) (rs : List Route) (src : List M) : Out × List (Ev M) :=
  match tryRoutes prog rs ⟨[{}], src, []⟩ [] with
  | (.stop o, t) => (o, t.log)
  | (.passed (h :: _), t) => (.notAllowed h, t.log)
  | (.passed [], t) =>
    match exec d (prog d) ⟨[], t.src, t.log⟩ with
    | (e, u) => (.byDefault e, u.log)

/-- Is there a `send` among the events? -/
def anySent {M : Type} (l : List (Ev M)) : Bool :=
  l.any fun e => match e with
    | .sent _ => true
    | .got _ _ => false

/-- The fast path for an HTTP request and a router with a single path, which matches,
/repo/lilya/routing/router.py:368-397: no sniffer. -/
def fast {M : Type} (prog : Nat → Prog M) (d h : Nat) (src : List M) : Out × List (Ev M) :=
  match exec h (prog h) ⟨[], src, []⟩ with
  | (.returned, t) => (if anySent t.log then .answered else .nothing, t.log)
  | (.declined, t) =>
    match exec d (prog d) ⟨[], t.src, t.log⟩ with
    | (e, u) => (.byDefault e, u.log)
  | (.raised, t) => (.raised, t.log)
  | (.waits, t) => (.waits, t.log)

end Verif.Sniffer
