import Verif.MailFiles.Model

/-!
# What is said of mails in files
-/

namespace Verif.MailFiles.Spec

open Verif.MailFiles

/-- A moment of the calendar. -/
structure Proper (t : Moment) : Prop where
  year : t.year < 10000
  month : t.month < 100
  day : t.day < 100
  hour : t.hour < 100
  minute : t.minute < 100
  second : t.second < 100
  micro : t.micro < 1000000

/-- One moment before another: by years, then months, and so on. -/
def Earlier (a b : Moment) : Prop :=
  a.year < b.year ∨ a.year = b.year ∧ (
  a.month < b.month ∨ a.month = b.month ∧ (
  a.day < b.day ∨ a.day = b.day ∧ (
  a.hour < b.hour ∨ a.hour = b.hour ∧ (
  a.minute < b.minute ∨ a.minute = b.minute ∧ (
  a.second < b.second ∨ a.second = b.second ∧ a.micro < b.micro)))))

/-- The order in which names are listed: at the first difference the smaller character first, and a name before its
continuations. -/
inductive Before : Str → Str → Prop
  | ends (c : Char) (s : Str) : Before [] (c :: s)
  | here (c d : Char) (s t : Str) (h : c.toNat < d.toNat) : Before (c :: s) (d :: t)
  | later (c : Char) (s t : Str) (h : Before s t) : Before (c :: s) (c :: t)

/-- A name of a file in the directory itself: not a path, and not one of the two names with a meaning. -/
structure Child (s : Str) : Prop where
  slash : '/' ∉ s
  zero : Char.ofNat 0 ∉ s
  here : s ≠ ".".toList
  up : s ≠ "..".toList

/-- What `str.isalnum` is known to be false of. -/
structure Sane (alnum : Char → Bool) : Prop where
  slash : alnum '/' = false
  zero : alnum (Char.ofNat 0) = false

/-- A mail that can be written, whose name is not too long: no letter of its subject is outside the basic plane. -/
structure Short (m : Mail) : Prop where
  text : ∃ s, m.content = some s
  letters : ∀ c ∈ m.subject, c.toNat < 65536

/-- Each mail later than the one before. -/
def Ordered : List (Moment × Mail) → Prop
  | a :: b :: rest => Earlier a.1 b.1 ∧ Ordered (b :: rest)
  | _ => True

end Verif.MailFiles.Spec
