import Verif.Jwt.Model

/-!
# What C107 speaks about
-/

namespace Verif.Jwt.Spec

open Verif Verif.Jwt

/-- The second since 1970 in which a date lies, on a machine whose zone is `here` seconds east of UTC. -/
def secondOf (here : Int) (d : Date) : Int := (d.wall - d.zone.getD here * 1000000) / 1000000

/-- The second of a moment in microseconds. -/
def secondAt (now : Int) : Int := now / 1000000

/-- The date at a second, in UTC. -/
def utc (n : Int) : Date := ⟨n * 1000000, some 0⟩

/-- What was signed with a key is what is verified with it, if the algorithm is among those allowed. -/
def Lawful (c : Codec) : Prop :=
  ∀ key alg p s, c.sign key alg p = .ok s → ∀ algs, alg ∈ algs → c.verify key algs s = .ok p

/-- The claims have no name which is a field of a token or checked by PyJWT. -/
def Foreign (extra : Payload) : Prop := ∀ kv ∈ extra, ∃ s, kv.1 = .other s

/-- A date whose number of seconds does not depend on the machine. -/
def Placed (here : Int) (d : Date) : Prop := d.zone ≠ none ∨ here = 0

/-- The string of a subject; `none` if there is none. -/
inductive SubjectIs : Subject → Option Str → Prop
  | absent : SubjectIs .absent none
  | text (s : Str) : s ≠ [] → SubjectIs (.text s) (some s)
  | number (n : Int) : 1 ≤ n → SubjectIs (.number n) (some (toString n).toList)

end Verif.Jwt.Spec
