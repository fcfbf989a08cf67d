import Verif.Session.Model
import Verif.Cookies.Spec

/-!
# Specification for C15 and C16
-/

namespace Verif.Session.Spec

open Verif

/-- The signer does its work: what is signed at `t` is accepted at `t'` while `alive t t'`, and is text
without characters that have a meaning in cookies; what is rejected once stays rejected. -/
structure Good (g : Signer) (alive : Nat → Nat → Prop) : Prop where
  accepts : ∀ t t' s, alive t t' → g.unsign t' (g.sign t s) = some s
  clean : ∀ t s, ∀ ch ∈ g.sign t s, ch ≠ '"' ∧ ch ≠ '\\' ∧ ch ≠ ';' ∧ ch ≠ '%'
  stays : ∀ t t' v, alive t t' → g.unsign t v = none → g.unsign t' v = none

/-- Each cookie of a list is well formed and none has the given name. -/
def OthersOk (name : Str) (others : List (Str × Str)) : Prop :=
  ∀ kv ∈ others, kv.1 ≠ name ∧ Cookies.Spec.Trimmed kv.1 ∧ Cookies.Spec.Trimmed kv.2 ∧
    ';' ∉ kv.1 ∧ '=' ∉ kv.1 ∧ ';' ∉ kv.2

/-- Text a client can hold as the value of a cookie. -/
def JarOk (jar : Jar) : Prop := ∀ v, jar = some v → Cookies.Spec.Trimmed v ∧ ';' ∉ v

/-- A name for a cookie. -/
def NameOk (name : Str) : Prop := Cookies.Spec.Trimmed name ∧ ';' ∉ name ∧ '=' ∉ name

/-- An http request that leaves the session cookie to the middleware. -/
def Ordinary (c : Config) (r : Request) : Prop :=
  r.http = true ∧ r.already = none ∧ OthersOk c.name r.others

/-- Each request comes while what the one before signed is still accepted. -/
def Chain (alive : Nat → Nat → Prop) : List Request → Prop
  | r :: r' :: rs => alive r.time r'.time ∧ Chain alive (r' :: rs)
  | _ => True

/-- Each session seen is the session left before. -/
def Carried : List (Sess × Sess) → Prop
  | a :: b :: rest => b.1 = a.2 ∧ Carried (b :: rest)
  | _ => True

/-- No middleware between `SessionMiddleware` and the application. -/
def plain : Str → Sess → Sess := fun _ s => s

/-- The recorded address of a session. -/
def recorded (s : Sess) : Option (Option Str) := aget s "real-clientip".toList

/-- Each session seen is the one left before when the address is the same, and holds nothing but the
new address when it is another. -/
def Bound : List (Str × (Sess × Sess)) → Prop
  | (ip, a) :: (ip', b) :: rest =>
    (ip' = ip → b.1 = a.2) ∧ (ip' ≠ ip → b.1 = [("real-clientip".toList, some ip')]) ∧
      Bound ((ip', b) :: rest)
  | _ => True

end Verif.Session.Spec
