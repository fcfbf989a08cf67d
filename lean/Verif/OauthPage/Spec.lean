import Verif.OauthPage.Model

/-!
# What an authorization server sends (RFC 6749, 4.1.2 and 4.2.2)
-/

namespace Verif.OauthPage.Spec

open Verif

/-- A hexadecimal digit of either case and its value. -/
def Digit (c : Char) (n : Nat) : Prop :=
  "0123456789abcdef".toList[n]? = some c ∨ "0123456789ABCDEF".toList[n]? = some c

/-- A percent-encoded text and what it stands for: any character may be encoded, and `&`, `%`, `?`, the backslash and
the quote must be. -/
inductive Encoded : Str → Str → Prop where
  | nil : Encoded [] []
  | plain (c : Char) (t v : Str) : c ∉ "&%?\\\"".toList → Encoded t v → Encoded (c :: t) (c :: v)
  | byte (a b : Char) (x y : Nat) (t v : Str) : Digit a x → Digit b y → Encoded t v →
      Encoded ('%' :: a :: b :: t) (Char.ofNat (16 * x + y) :: v)

/-- An escape of one letter in JSON (RFC 8259, 7) and the code of the character for which it stands. -/
def Letter (c : Char) (n : Nat) : Prop :=
  (c, n) ∈ [('"', 34), ('\\', 92), ('/', 47), ('b', 8), ('f', 12), ('n', 10), ('r', 13), ('t', 9)]

/-- The inside of a JSON string and what it stands for. -/
inductive Written : Str → Str → Prop where
  | nil : Written [] []
  | plain (c : Char) (t v : Str) : c ≠ '\\' → Written t v → Written (c :: t) (c :: v)
  | letter (c : Char) (n : Nat) (t v : Str) : Letter c n → Written t v → Written ('\\' :: c :: t) (Char.ofNat n :: v)
  | unit (a b c d : Char) (w x y z : Nat) (t v : Str) : Digit a w → Digit b x → Digit c y → Digit d z → Written t v →
      Written ('\\' :: 'u' :: a :: b :: c :: d :: t) (Char.ofNat (((w * 16 + x) * 16 + y) * 16 + z) :: v)

/-- A name of a parameter that needs no encoding. -/
def Name (n : Str) : Prop := n ≠ [] ∧ ∀ c ∈ n, c ∉ "=&%?\\\"".toList

/-- The text with parameters: each has a name, the encoded text of its value and the value. -/
def query (ts : List (Str × Str × Str)) : Str := joinWith ['&'] (ts.map fun t => t.1 ++ '=' :: t.2.1)

/-- The parameters are well formed. -/
def Good (ts : List (Str × Str × Str)) : Prop := ∀ t ∈ ts, Name t.1 ∧ Encoded t.2.1 t.2.2

/-- The value of a parameter; the last one counts. -/
def value (ts : List (Str × Str × Str)) (n : Str) : Option Str := ((ts.filter fun t => t.1 = n).getLast?).map (·.2.2)

/-- One of the words by which the page recognises an answer in the fragment. -/
def Word (h : Str) : Prop := "code".toList <:+: h ∨ "token".toList <:+: h ∨ "error".toList <:+: h

/-- The address carries parameters: in the query, if the fragment does not look like an answer, or in the fragment. -/
def Carries (l : Location) (text : Str) : Prop :=
  (¬ Word l.hash ∧ l.search = '?' :: text) ∨ (Word l.hash ∧ l.hash = '#' :: text)

/-- The opener waits for a code. -/
def Waits (o : Opener) : Prop :=
  (o.flow = "accessCode".toList ∨ o.flow = "authorizationCode".toList ∨ o.flow = "authorization_code".toList) ∧
    o.code = []

/-- The warning about the state. -/
def warned (o : Opener) (ts : List (Str × Str × Str)) : List Event :=
  if value ts "state".toList = o.state then [] else [.warning]

/-- The opener was told a code. -/
def IsCode : Event → Prop
  | .code _ => True
  | _ => False

instance (e : Event) : Decidable (IsCode e) := by
  cases e <;> unfold IsCode <;> infer_instance

end Verif.OauthPage.Spec
