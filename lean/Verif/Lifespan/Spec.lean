import Verif.Lifespan.Model

/-!
# What the life cycle should do, read from the list of events
-/

namespace Verif.Lifespan.Spec

open Verif.Lifespan

/-- The handler called by an event, if it is a call. -/
def called : Event → Option Hook
  | .call h => some h
  | _ => none

/-- Before the server is told that start-up is over. -/
def beforeStarted (es : List Event) : List Event :=
  es.takeWhile (fun e => e ≠ .startupComplete)

/-- After the server was told that start-up is complete. -/
def afterStarted (es : List Event) : List Event :=
  (es.dropWhile (fun e => e ≠ .startupComplete)).tail

/-- The handlers called at start-up, in order. -/
def startupCalls (es : List Event) : List Hook := (beforeStarted es).filterMap called

/-- The handlers called at shutdown, in order. -/
def shutdownCalls (es : List Event) : List Hook := (afterStarted es).filterMap called

/-- The handlers added for start-up after construction, in order. -/
def addedStartup (adds : List Add) : List Hook :=
  adds.filterMap (fun a => match a with | .startup h => some h | .shutdown _ => none)

/-- The handlers added for shutdown after construction, in order. -/
def addedShutdown (adds : List Add) : List Hook :=
  adds.filterMap (fun a => match a with | .startup _ => none | .shutdown h => some h)

/-- The property: start-up calls the global hooks and then the application's handlers; shutdown
calls the application's handlers and then the global hooks; each exactly once and in order. -/
def RunsAll (reg : Registry) (appStartup appShutdown : List Hook) (es : List Event) : Prop :=
  startupCalls es = reg.startup ++ appStartup ∧ shutdownCalls es = appShutdown ++ reg.shutdown

/-- A message to the server. -/
def isMessage : Event → Bool
  | .startupComplete | .startupFailed | .shutdownComplete | .shutdownFailed => true
  | _ => false

/-- The messages sent to the server, in order. -/
def messages (es : List Event) : List Event := es.filter isMessage

end Verif.Lifespan.Spec
