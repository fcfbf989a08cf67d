import Verif.TestClient.Model

/-!
# What the test client should do
-/

namespace Verif.TestClient.Spec

open Verif

/-- Only ASCII characters. -/
def Ascii (s : Str) : Prop := ∀ c ∈ s, c.toNat < 0x80

/-- The path that a server gives to the application (ASGI, `path`): the escapes are decoded, once, and the bytes are
read
as UTF-8. -/
def servedPath (u : Url) : Str := ExtValue.utf8Decode (Url.unquote u.path)

/-- The header for the host: none when the request has it, and the port only when it is not the default. -/
def hostHeader (given : List (Str × Str)) (host : Str) (port default : Nat) : List (Str × Str) :=
  if ∃ kv ∈ given, lower kv.1 = "host".toList then []
  else [("host".toList, if port = default then host else host ++ ':' :: Path.natToDec port)]

/-- The messages of the response among the acts of an application. -/
def wire : Act → Option Msg
  | .send (.start st hs) => some (.start st hs)
  | .send (.body b d more) => some (.body b d more)
  | _ => none

/-- Headers as bytes. -/
def bytes (hs : List (Str × Str)) : List ((Bool × Str) × (Bool × Str)) := hs.map fun h => ((true, h.1), (true, h.2))

/-- The messages of a response that is not yet complete. -/
def begun (st : Nat) (hs : List ((Bool × Str) × (Bool × Str))) (chunks : List Str) : List Msg :=
  .start st hs :: chunks.map fun d => .body true d true

/-- The messages of a whole response. -/
def whole (st : Nat) (hs : List ((Bool × Str) × (Bool × Str))) (chunks : List Str) (last : Str) : List Msg :=
  begun st hs chunks ++ [.body true last false]

/-- The messages are the beginning of those of a response. -/
def Beginning (M : List Msg) : Prop :=
  M = [] ∨ ∃ st hs chunks, M = begun st hs chunks ∨ ∃ last, M = whole st hs chunks last

/-- No line end in a header. -/
def GoodHeaders (hs : List (Str × Str)) : Prop := ∀ h ∈ hs, '\n' ∉ h.1 ∧ '\n' ∉ h.2

/-- The last template that was sent for debugging. -/
def lastTemplate (acts : List Act) : Option Str :=
  (acts.filterMap fun a => match a with
    | .send (.debug t) => some t
    | _ => none).getLast?

/-- A subprotocol can be written in a list: no comma, and no white space around it. -/
def GoodProtocol (p : Str) : Prop := ',' ∉ p ∧ strip isSpace p = p

end Verif.TestClient.Spec
