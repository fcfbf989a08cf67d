import Verif.Dependencies.Model

/-!
# What "depends only on the current request" means
-/

namespace Verif.Dependencies.Spec

open Verif.Dependencies

variable {V : Type}

/-- A service that keeps a state `σ` from request to request and answers each request. -/
structure Service (σ ρ α : Type) where
  handle : σ → ρ → σ × α

/-- The state after a list of requests. -/
def Service.after {σ ρ α : Type} (svc : Service σ ρ α) : σ → List ρ → σ
  | s, [] => s
  | s, r :: rest => svc.after (svc.handle s r).1 rest

/-- The answer to a request is the same after any acceptable history as with no history. -/
def Isolated {σ ρ α : Type} (svc : Service σ ρ α) (s : σ) (ok : ρ → Prop) : Prop :=
  ∀ (history : List ρ) (r : ρ), (∀ h ∈ history, ok h) →
    (svc.handle (svc.after s history) r).2 = (svc.handle s r).2

/-- Injecting dependency number `i`, as a service. -/
def injection (noneV : V) (defs : Nat → Dep V) (map : List (Str × Entry V)) (fuel i : Nat) :
    Service (Store V) (Request V) (Option V) :=
  ⟨fun s r => resolve noneV defs map r fuel s i⟩

/-- The body of the request has no field named like a parameter of a dependency that the
dependency map does not supply. -/
def Quiet (defs : Nat → Dep V) (map : List (Str × Entry V)) (r : Request V) : Prop :=
  ∀ fields, r.body = .mapping fields → ∀ k v, (k, v) ∈ fields →
    ∀ i, (∃ p ∈ (defs i).params, p.name = k) → ∃ e, aget map k = some e

end Verif.Dependencies.Spec
