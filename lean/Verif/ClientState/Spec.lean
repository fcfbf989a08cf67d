import Verif.ClientState.Model

/-!
# What a test expects of its client

Cookies given with a request are for that request; cookies of responses are kept; requests that overlap do not
see the cookies of each other.
-/

namespace Verif.ClientState.Spec

open Verif

/-- The cookies of the client: those it had and those of responses. -/
def jarAfter (j : Jar) : List Act → Jar
  | [] => j
  | .receive _ cs :: as => jarAfter (cs.foldl store j) as
  | _ :: as => jarAfter j as

/-- What was given with request `i`, among the acts so far (latest first). -/
def givenOf (i : Nat) : List Act → Option Given
  | [] => none
  | .begin k g _ _ :: as => if k = i then g else givenOf i as
  | _ :: as => givenOf i as

/-- The cookies of the client with those given. -/
def withGiven (j : Jar) : Option Given → Jar
  | none => j
  | some g => update j g

/-- What should be sent: `past` are the acts before, latest first, from a jar. -/
def logOf (j : Jar) (past : List Act) : List Act → List (Nat × Option Given)
  | [] => []
  | .begin i g host path :: as =>
    (i, some (sends (withGiven (jarAfter j past.reverse) g) host path)) ::
      logOf j (.begin i g host path :: past) as
  | .redirect i host path :: as =>
    (i, some (sends (withGiven (jarAfter j past.reverse) (givenOf i past)) host path)) ::
      logOf j (.redirect i host path :: past) as
  | a :: as => logOf j (a :: past) as

/-- Cookies without domain, for the path `/`. -/
def Plain (j : Jar) : Prop := ∀ c ∈ j, c.domain = [] ∧ c.path = ['/']

/-- No two cookies have a name. -/
def Distinct (j : Jar) : Prop := (j.map Cookie.name).Nodup

/-- One request with redirects, one after the other. -/
structure Exchange where
  given : Option Given
  host : Str
  path : Str
  hops : List (Str × Str)

/-- Its acts. -/
def Exchange.acts (i : Nat) (x : Exchange) : List Act :=
  .begin i x.given x.host x.path :: (x.hops.map fun h => .redirect i h.1 h.2) ++ [.finish i]

/-- Requests one after the other, none of which is answered with cookies. -/
def sequence (i : Nat) : List Exchange → List Act
  | [] => []
  | x :: xs => x.acts i ++ sequence (i + 1) xs

/-- What they should send: each the cookies of the client with its own. -/
def sequenceLog (j : Jar) (i : Nat) : List Exchange → List (Nat × Option Given)
  | [] => []
  | x :: xs => ((x.host, x.path) :: x.hops).map (fun h => (i, some (sends (withGiven j x.given) h.1 h.2))) ++
      sequenceLog j (i + 1) xs

/-- The values of a header, by name in any case. -/
def valuesOf (h : Headers) (n : Str) : List Str := (h.filter fun p => lower p.1 = lower n).map (·.2)

/-- Whether redirects should be followed: as the argument says, or else the client. -/
def follow (default : Bool) (arg : Option Bool) : Bool := arg.getD default

end Verif.ClientState.Spec
