import Verif.ConsoleMail.Model

/-!
# What a printed mail should show
-/

namespace Verif.ConsoleMail.Spec

open Verif

/-- An address as lists of addresses can hold it: some characters, no comma and no line break. -/
def Address (a : Str) : Prop := a ≠ [] ∧ ',' ∉ a ∧ '\n' ∉ a

/-- The addresses are such, and the sender and the subject have no line breaks; the sender is not the text `None`. -/
structure Plain (m : Message) : Prop where
  sender : ∀ s, m.sender = some s → '\n' ∉ s ∧ s ≠ "None".toList
  subject : '\n' ∉ m.subject
  to : ∀ a ∈ m.to, Address a
  cc : ∀ a ∈ m.cc, Address a
  bcc : ∀ a ∈ m.bcc, Address a
  replyTo : ∀ a ∈ m.replyTo, Address a

/-- The texts of a message that a developer looks for. -/
def Told (m : Message) (t : Str) : Prop :=
  m.sender = some t ∨ t = m.subject ∨ t ∈ m.to ∨ t ∈ m.cc ∨ t ∈ m.bcc ∨ t ∈ m.replyTo ∨ m.text = some t ∨
    m.html = some t ∨ ∃ x ∈ m.headers, t = x.1 ∨ t = x.2

end Verif.ConsoleMail.Spec
