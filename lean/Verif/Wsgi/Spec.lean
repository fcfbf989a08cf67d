import Verif.Wsgi.Model

/-!
# What C104 speaks about

A WSGI application answers with a status, headers and pieces of a body, which `a2wsgi` turns into messages.
-/

namespace Verif.Wsgi.Spec

open Verif Verif.Wsgi

/-- An answer of a WSGI application. -/
structure Answer where
  status : Nat
  headers : List (Str × Str)
  pieces : List Str

/-- The messages of an answer. -/
def Answer.messages (a : Answer) : List Msg :=
  .start a.status a.headers :: a.pieces.map (fun p => .body p true) ++ [.body [] false]

/-- An application that answers, without an exception. -/
def Answer.ran (a : Answer) : Ran := ⟨a.messages, false⟩

/-- The whole body. -/
def Answer.body (a : Answer) : Str := a.pieces.flatten

/-- An answer that says an error. -/
def Answer.IsError (a : Answer) : Prop := 400 ≤ a.status

end Verif.Wsgi.Spec
