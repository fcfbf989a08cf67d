import Verif.Uploads.Model

/-!
# What uploads should be
-/

namespace Verif.Uploads.Spec

open Verif Verif.Uploads

/-- A part of a form that a client sends: a text or a file, with its data in the pieces in which they arrive. -/
inductive Sent where
  | text (name : Str) (pieces : List Str)
  | file (name filename : Str) (pieces : List Str)

/-- What the parser reports for a part. -/
def Sent.events : Sent → List Ev
  | .text n ps => .start :: .field n :: (ps.map .data ++ [.stop])
  | .file n fn ps => .start :: .file n fn :: (ps.map .data ++ [.stop])

/-- The files among the parts: file name and bytes. -/
def uploads : List Sent → List (Str × Str)
  | [] => []
  | .text _ _ :: ps => uploads ps
  | .file _ fn pieces :: ps => (fn, pieces.flatten) :: uploads ps

/-- The items of the form, when `n` files came before. -/
def items (n : Nat) : List Sent → List Item
  | [] => []
  | .text name pieces :: ps => .text name pieces.flatten :: items n ps
  | .file name _ _ :: ps => .upload name n :: items (n + 1) ps

/-- A file as it should be handed over: its name, its bytes from the start, its size, open. -/
def Holds (u : Upload) (filename bytes : Str) : Prop :=
  u.filename = filename ∧ u.file.file.content = bytes ∧ u.file.file.pos = 0 ∧ u.file.file.closed = false ∧
    u.size = some bytes.length

/-- The operations that are the same for every kind of file: no negative offset, no negative number of bytes other
than -1, and some bytes to write. -/
def Plain : Op → Prop
  | .read n => -1 ≤ n
  | .seek n => 0 ≤ n
  | .write d => d ≠ []
  | .close => True

/-- The operation does not move in the file and does not close it. -/
def Straight : Op → Prop
  | .read n => -1 ≤ n
  | .write _ => True
  | _ => False

/-- The operation writes nothing. -/
def Still : Op → Prop
  | .write _ => False
  | _ => True

/-- The bytes written by the operations. -/
def written : List Op → Str
  | [] => []
  | .write d :: os => d ++ written os
  | _ :: os => written os

/-- The bytes among what the operations gave. -/
def got : List Out → Str
  | [] => []
  | .bytes s :: os => s ++ got os
  | _ :: os => got os

/-- The operations of a history that concern upload `i`. -/
def opsOf (i : Nat) : List (Nat × Op) → List Op
  | [] => []
  | (j, o) :: h => if j = i then o :: opsOf i h else opsOf i h

/-- What those of upload `i` gave. -/
def outsOf (i : Nat) : List (Nat × Op) → List Out → List Out
  | (j, _) :: h, x :: xs => if j = i then x :: outsOf i h xs else outsOf i h xs
  | _, _ => []

/-- The clean-ups registered by the actions. -/
def registered : List Act → List Nat
  | [] => []
  | .cleanup c :: as => c :: registered as
  | _ :: as => registered as

/-- The action closes no file. -/
def Keeps : Act → Prop
  | .leave => False
  | .close => False
  | .use _ .close => False
  | _ => True

end Verif.Uploads.Spec
