import Verif.Basic

/-!
# Background tasks

Model of /repo/lilya/background.py and of the places where responses run them
(/repo/lilya/responses.py 343-360, 555-579).
-/

namespace Verif.Background

open Verif

/-- What is attached to a response: a `Task` (background.py 14-66), named by a number, whose function returns or
raises, or `Tasks` (background.py 69-146), a container of such jobs with its `as_group` flag.  What the functions
compute is left out. -/
inductive Job where
  | leaf (id : Nat) (ok : Bool)
  | tasks (asGroup : Bool) (js : List Job)

/-- The observable points of a task: its function is entered, returns, or raises. -/
inductive Ev where
  | start (id : Nat)
  | finish (id : Nat)
  | fail (id : Nat)
  deriving DecidableEq

/-- The interleavings of two runs. -/
inductive Mix : List Ev → List Ev → List Ev → Prop where
  | nil : Mix [] [] []
  | left {a b c : List Ev} (e : Ev) : Mix a b c → Mix (e :: a) b (e :: c)
  | right {a b c : List Ev} (e : Ev) : Mix a b c → Mix a (e :: b) (e :: c)

mutual

/-- `Runs j t ok`: awaiting the job can leave the trace `t`; it returns when `ok` and raises otherwise.
`Task.__call__` (background.py 65-66), `Tasks.__call__` (142-146). -/
inductive Runs : Job → List Ev → Bool → Prop where
  | leafOk (id : Nat) : Runs (.leaf id true) [.start id, .finish id] true
  | leafFail (id : Nat) : Runs (.leaf id false) [.start id, .fail id] false
  | single {js : List Job} {t : List Ev} {ok : Bool} : RunsSingle js t ok → Runs (.tasks false js) t ok
  | groupOk {js : List Job} {t : List Ev} : RunsAll js t → Runs (.tasks true js) t true
  | groupFail {js : List Job} {t : List Ev} : RunsSome js t true → Runs (.tasks true js) t false

/-- `run_single` (background.py 133-135): one after the other; an exception leaves the loop. -/
inductive RunsSingle : List Job → List Ev → Bool → Prop where
  | nil : RunsSingle [] [] true
  | stop {j : Job} {js : List Job} {t : List Ev} : Runs j t false → RunsSingle (j :: js) t false
  | next {j : Job} {js : List Job} {t t' : List Ev} {ok : Bool} : Runs j t true → RunsSingle js t' ok →
      RunsSingle (j :: js) (t ++ t') ok

/-- `run_as_group` (background.py 137-140) with every task returning: the task group starts them all and waits for
all of them; they interleave. -/
inductive RunsAll : List Job → List Ev → Prop where
  | nil : RunsAll [] []
  | cons {j : Job} {js : List Job} {t t' u : List Ev} : Runs j t true → RunsAll js t' → Mix t t' u →
      RunsAll (j :: js) u

/-- `run_as_group` with a failing task (`b` says that there is one among the tasks): the others are cancelled at
any point.  This allows more runs than the task group does, as the cancellation may come before the failure. -/
inductive RunsSome : List Job → List Ev → Bool → Prop where
  | nil : RunsSome [] [] false
  | failed {j : Job} {js : List Job} {t t' u : List Ev} {b : Bool} : Runs j t false → RunsSome js t' b →
      Mix t t' u → RunsSome (j :: js) u true
  | cut {j : Job} {js : List Job} {t r t' u : List Ev} {ok b : Bool} : Runs j (t ++ r) ok → RunsSome js t' b →
      Mix t t' u → RunsSome (j :: js) u b

end

/-- What the server sees of a response and its background job. -/
inductive Out where
  | send (n : Nat)
  | cleanup
  | bg (e : Ev)
  deriving DecidableEq

/-- The kinds of response: `Response` sends start and body whatever the method (responses.py 343-360);
`StreamingResponse` sends only the start for HEAD and OPTIONS (responses.py 555-579). -/
inductive Kind where
  | plain
  | streaming
  deriving DecidableEq

/-- The messages to be sent; message 0 is the start. -/
def messages (k : Kind) (headerOnly : Bool) (n : Nat) : List Nat :=
  match k, headerOnly with
  | .streaming, true => [0]
  | _, _ => List.range (n + 1)

/-- What happens to the sending: every message is accepted; or the client disconnects after some of them, which ends
a streaming response early (responses.py 565-574); or sending raises. -/
inductive Fate where
  | sent
  | disconnect (after : Nat)
  | raises (after : Nat)
  deriving DecidableEq

/-- The messages that were sent. -/
def sentOf (k : Kind) (headerOnly : Bool) (n : Nat) : Fate → List Nat
  | .sent => messages k headerOnly n
  | .disconnect a => match k, headerOnly with
    | .streaming, false => (messages k headerOnly n).take (a + 1)
    | _, _ => messages k headerOnly n
  | .raises a => (messages k headerOnly n).take a

/-- Whether the response got past its `finally` block (responses.py 357-360, 575-579). -/
def Fate.passed : Fate → Bool
  | .raises _ => false
  | _ => true

/-- The cleanup handler runs whenever the `try` was entered: `StreamingResponse` sends its start before that
(responses.py 556-563). -/
def cleansUp (k : Kind) (fate : Fate) : Bool := !(k == .streaming && fate == .raises 0)

/-- `Response.__call__` (responses.py 343-360) and `StreamingResponse.__call__` (555-579), with `n` body messages:
the messages, the cleanup handler, then the background job unless the method is HEAD or OPTIONS or sending
raised. -/
inductive Responds (k : Kind) (headerOnly : Bool) (n : Nat) (job : Option Job) (fate : Fate) : List Out → Prop where
  | run {j : Job} {t : List Ev} {ok : Bool} : headerOnly = false → fate.passed = true → job = some j → Runs j t ok →
      Responds k headerOnly n job fate
        ((sentOf k headerOnly n fate).map .send ++ .cleanup :: t.map .bg)
  | skip : (headerOnly = true ∨ fate.passed = false ∨ job = none) →
      Responds k headerOnly n job fate
        ((sentOf k headerOnly n fate).map .send ++ (if cleansUp k fate then [.cleanup] else []))

end Verif.Background
