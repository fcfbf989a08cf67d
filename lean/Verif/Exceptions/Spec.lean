import Verif.Exceptions.Model

/-!
# What "the handler registered for" an exception means

Only the list of registrations and the exception are mentioned here.
-/

namespace Verif.Exceptions.Spec

/-- `h` is what the last registration under the key `k` says. -/
def Registered (regs : List (Key × Handler)) (k : Key) (h : Handler) : Prop :=
  ∃ before after, regs = before ++ (k, h) :: after ∧ ∀ kv ∈ after, kv.1 ≠ k

/-- `k` is the key of some registration. -/
def Known (regs : List (Key × Handler)) (k : Key) : Prop := ∃ h, (k, h) ∈ regs

/-- The HTTP status an exception stands for, if any: its code, or 500 when it has none set. -/
def StatusOf (e : Exc) (s : Nat) : Prop := ∃ c, e.http = some c ∧ (c ≠ 0 ∧ s = c ∨ c = 0 ∧ s = 500)

/-- `h` is registered for the status of `e`. -/
def ByStatus (regs : List (Key × Handler)) (e : Exc) (h : Handler) : Prop :=
  ∃ s, StatusOf e s ∧ Registered regs (.status s) h

/-- `h` is registered for the first class of `e`'s method-resolution order that has a
registration. -/
def ByNearestClass (regs : List (Key × Handler)) (e : Exc) (h : Handler) : Prop :=
  ∃ nearer c farther, e.mro = nearer ++ c :: farther ∧ (∀ c' ∈ nearer, ¬ Known regs (.cls c')) ∧
    Registered regs (.cls c) h

/-- The handler chosen for `e`: by status first, then by nearest class. -/
def Chosen (regs : List (Key × Handler)) (e : Exc) (h : Handler) : Prop :=
  ByStatus regs e h ∨ ((∀ s, StatusOf e s → ¬ Known regs (.status s)) ∧ ByNearestClass regs e h)

/-- The registrations every middleware starts from. -/
def builtin : List (Key × Handler) := [(.cls clsHTTP, 0), (.cls clsWS, 1)]

/-- The handler that a route's own handlers give for `e`: the one for its status (500 when it is no
`HTTPException`), otherwise the one for exactly its class. -/
def RouteChosen (d : List (Key × Handler)) (e : Exc) (h : Handler) : Prop :=
  let s := match e.http with | some s => s | none => 500
  (.status s, h) ∈ d ∨ (¬ Known d (.status s) ∧ ∃ c bases, e.mro = c :: bases ∧ (.cls c, h) ∈ d)

/-- The handler for errors that nothing else handles: the one for status 500, otherwise the one for
`Exception`. -/
def LastResort (regs : List (Key × Handler)) (h : Handler) : Prop :=
  (.status 500, h) ∈ regs ∨ (¬ Known regs (.status 500) ∧ (.cls clsException, h) ∈ regs)

/-- A Python dictionary: every key occurs once. -/
def IsDict (d : List (Key × Handler)) : Prop := (d.map Prod.fst).Nodup

end Verif.Exceptions.Spec
