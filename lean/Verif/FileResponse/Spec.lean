import Verif.FileResponse.Model

/-!
# Specification for C20
-/

namespace Verif.FileResponse.Spec

open Verif Verif.Ranges

/-- The bytes of a file from the first to the last position of a range. -/
def slice (file : Str) (r : Rng) : Str := (file.drop r.start.toNat).take (r.stop - r.start + 1).toNat

/-- The bytes a message transmits. -/
def payload (file : Str) : Msg → Str
  | .start .. => []
  | .body d _ => d
  | .zerocopy d _ => d
  | .pathsend => file

/-- The message says that more follows. -/
def more : Msg → Bool
  | .start .. => true
  | .body _ m => m
  | .zerocopy _ m => m
  | .pathsend => false

/-- All bytes of some messages. -/
def bytes (file : Str) (ms : List Msg) : Str := (ms.map (payload file)).flatten

/-- Exactly the last message says that nothing more follows. -/
def Finished (ms : List Msg) : Prop :=
  ∃ init last, ms = init ++ [last] ∧ more last = false ∧ ∀ m ∈ init, more m = true

end Verif.FileResponse.Spec
