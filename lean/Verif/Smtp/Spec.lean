import Verif.Smtp.Model

/-!
# How a client should talk to a mail server
-/

namespace Verif.Smtp.Spec

/-- What is said on one connection. -/
def on (n : Nat) (l : List Event) : List Event := l.filter fun e => e.conn = n

/-- The introduction of a conversation: connect and greet; then, if the connection is to be encrypted, start the
encryption and greet again; then log in, if there is a user name.  Everything is accepted. -/
inductive Introduced (n : Nat) : Config → List Event → Prop where
  | plain : Introduced n ⟨false, false⟩ [⟨n, .connect, true, []⟩, ⟨n, .ehlo, true, []⟩]
  | plainLogin : Introduced n ⟨false, true⟩
      [⟨n, .connect, true, []⟩, ⟨n, .ehlo, true, []⟩, ⟨n, .login, true, []⟩]
  | tls : Introduced n ⟨true, false⟩
      [⟨n, .connect, true, []⟩, ⟨n, .ehlo, true, []⟩, ⟨n, .starttls, true, []⟩, ⟨n, .ehlo, true, []⟩]
  | tlsLogin : Introduced n ⟨true, true⟩
      [⟨n, .connect, true, []⟩, ⟨n, .ehlo, true, []⟩, ⟨n, .starttls, true, []⟩, ⟨n, .ehlo, true, []⟩,
        ⟨n, .login, true, []⟩]

/-- A mail in a conversation. -/
def IsMail (e : Event) : Prop := ∃ m, e.cmd = .mail m

/-- An introduction that the server cut short: some of the commands were accepted, the next one was not. -/
def CutShort (n : Nat) (c : Config) (l : List Event) : Prop :=
  ∃ pre e post, Introduced n c (pre ++ e :: post) ∧ l = pre ++ [{ e with accepted := false }]

/-- A conversation: an introduction, mails, and at the end possibly `quit`; or an introduction cut short. -/
inductive Conversation (n : Nat) (c : Config) : List Event → Prop where
  | none : Conversation n c []
  | cut (l : List Event) (h : CutShort n c l) : Conversation n c l
  | open (intro mails : List Event) (h : Introduced n c intro) (hm : ∀ e ∈ mails, IsMail e) :
      Conversation n c (intro ++ mails)
  | closed (intro mails : List Event) (h : Introduced n c intro) (hm : ∀ e ∈ mails, IsMail e) :
      Conversation n c (intro ++ mails ++ [⟨n, .quit, true, []⟩])

/-- A mail is delivered in what was said: the server took it for all its addresses. -/
def Delivered (m : Mail) (l : List Event) : Prop :=
  ∃ e ∈ l, e.cmd = .mail m ∧ e.accepted = true ∧ ∀ a ∈ m.to, a ∈ e.reached

end Verif.Smtp.Spec
